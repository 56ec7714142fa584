import Verif.Spec.Projection
import Verif.Lemmas.Conformal
import Verif.Props.OblateSpheroid
import Verif.Model.Validate
import Mathlib.Analysis.Real.Pi.Bounds

/-!
# C12, C13, C14, C15, C16, C17: map projections
-/

namespace MaRC.Projection

open Real Set

/-! ## Offsets -/

theorem atOffset_some {samples : ℕ} {point : ℕ → ℕ → ℝ × ℝ} (o : ℕ) :
    atOffset samples (fun k i => some (point k i)) o =
      some (point (o / samples) (o % samples), o) := rfl

theorem linesLoop_all (samples lines : ℕ) (line : ℕ → Outcome (ℕ → Option (ℝ × ℝ)))
    (point : ℕ → ℕ → ℝ × ℝ)
    (h : ∀ k < lines, line k = .ok fun i => some (point k i)) :
    linesLoop samples line lines 0 0 =
      .ok ((List.range (samples * lines)).map fun o => (point (o / samples) (o % samples), o)) := by
  have := linesLoop_ok samples line (fun k i => some (point k i)) lines 0
    fun j _ hj => h j (by omega)
  rw [Nat.zero_mul] at this
  rw [this, Nat.mul_comm lines samples, ← List.range_eq_range']
  congr 1
  rw [List.filterMap_congr (g := fun o => some (point (o / samples) (o % samples), o))
    (fun o _ => atOffset_some o), List.filterMap_eq_map']

theorem map_snd (n : ℕ) (f : ℕ → ℝ × ℝ) :
    ((List.range n).map fun o => (f o, o)).map Prod.snd = List.range n := by
  rw [List.map_map]
  exact List.map_id _

theorem visitsAll_inOrder {samples lines : ℕ} {plots : List Plot}
    (h : VisitsAll samples lines plots) : VisitsInOrder samples lines plots := by
  rw [VisitsAll] at h
  refine ⟨by rw [h]; exact List.pairwise_lt_range, ?_⟩
  intro p hp
  have : p.2 ∈ plots.map Prod.snd := List.mem_map_of_mem hp
  rw [h] at this
  exact List.mem_range.1 this

theorem cylindrical_plots (c : Cylindrical) (samples lines : ℕ) :
    c.plotMap samples lines = .ok ((List.range (samples * lines)).map fun o =>
      ((c.latitude lines (o / samples),
        c.longitude (o % samples) ((c.hiLon - c.loLon) / samples)), o)) :=
  linesLoop_all samples lines _
    (fun k i => (c.latitude lines k, c.longitude i ((c.hiLon - c.loLon) / samples)))
    fun _ _ => rfl

/-- **C12** (simple cylindrical).  Every offset of the map is visited exactly
once, in row-major order. -/
theorem C12_cylindrical (c : Cylindrical) (samples lines : ℕ) :
    ∃ plots, c.plotMap samples lines = .ok plots ∧ VisitsAll samples lines plots :=
  ⟨_, cylindrical_plots c samples lines, map_snd _ _⟩

/-- What Mercator plots if it does not throw. -/
theorem mercator_plots {solve : Solver} {body : Spheroid} {prograde : Bool} {samples lines : ℕ}
    {plots : List Plot} (h : Mercator.plotMap solve body prograde samples lines = .ok plots) :
    ∃ latg : ℕ → ℝ, (∀ k < lines, solve (Mercator.ordinate samples lines k) (-(π / 2)) (π / 2)
        (mercatorX body) = .ok (latg k)) ∧
      plots = (List.range (samples * lines)).map fun o =>
        ((body.centricLatitude (latg (o / samples)),
          Mercator.longitude prograde (o % samples) samples), o) := by
  have h1 : ∀ k, ∃ l, k < lines → solve (Mercator.ordinate samples lines k) (-(π / 2)) (π / 2)
      (mercatorX body) = .ok l := by
    intro k
    by_cases hk : k < lines
    · obtain ⟨p, hp⟩ := linesLoop_lines _ _ _ _ _ _ h k (by omega) (by omega)
      cases hs : solve (Mercator.ordinate samples lines k) (-(π / 2)) (π / 2) (mercatorX body) with
      | ok l => exact ⟨l, fun _ => rfl⟩
      | throw e => rw [hs] at hp; exact absurd hp (by simp)
      | ub => rw [hs] at hp; exact absurd hp (by simp)
    · exact ⟨0, fun h => absurd h hk⟩
  choose latg hlatg using h1
  refine ⟨latg, hlatg, ?_⟩
  have := linesLoop_all samples lines
    (fun k => do
      let latg ← solve (Mercator.ordinate samples lines k) (-(π / 2)) (π / 2) (mercatorX body)
      .ok fun i => some (body.centricLatitude latg, Mercator.longitude prograde i samples))
    (fun k i => (body.centricLatitude (latg k), Mercator.longitude prograde i samples))
    fun k hk => by rw [hlatg k hk, Outcome.bind_ok]
  rw [Mercator.plotMap, this] at h
  injection h with h
  exact h.symm

/-- **C12** (Mercator).  For every root finder, plotting either visits every
offset exactly once, in row-major order, or some line's root finding does not
return. -/
theorem C12_mercator (solve : Solver) (body : Spheroid) (prograde : Bool) (samples lines : ℕ) :
    (∃ plots, Mercator.plotMap solve body prograde samples lines = .ok plots ∧
      VisitsAll samples lines plots) ∨
    ∃ k < lines, ∀ latg, solve (Mercator.ordinate samples lines k) (-(π / 2)) (π / 2)
      (mercatorX body) ≠ .ok latg := by
  by_cases h : ∃ plots, Mercator.plotMap solve body prograde samples lines = .ok plots
  · obtain ⟨plots, h⟩ := h
    obtain ⟨latg, -, hp⟩ := mercator_plots h
    exact Or.inl ⟨plots, h, by rw [VisitsAll, hp]; exact map_snd _ _⟩
  · push Not at h
    obtain ⟨k, -, hk, hl⟩ := linesLoop_throw _ _ _ _ _ h
    refine Or.inr ⟨k, by omega, fun latg hs => ?_⟩
    refine hl (fun i => some (body.centricLatitude latg, Mercator.longitude prograde i samples)) ?_
    rw [hs, Outcome.bind_ok]

namespace Stereographic

theorem sampleLoop_ok {p : Stereographic} {solve : Solver} {samples lines k : ℕ} :
    ∀ n i o r, p.sampleLoop solve samples lines k n i o = .ok r →
      ∃ c : ℕ → ℝ × ℝ, (∀ j, i ≤ j → j < i + n → p.pixel solve samples lines j k = .ok (c j)) ∧
        r = (List.range n).map fun j => (c (i + j), o + j) := by
  intro n
  induction n with
  | zero =>
    intro i o r h
    refine ⟨fun _ => (0, 0), fun j _ _ => by omega, ?_⟩
    simp only [sampleLoop, Outcome.ok.injEq] at h
    simp [h.symm]
  | succ n ih =>
    intro i o r h
    rw [sampleLoop] at h
    cases hp : p.pixel solve samples lines i k with
    | throw e => rw [hp] at h; exact absurd h (by simp)
    | ub => rw [hp] at h; exact absurd h (by simp)
    | ok a =>
      rw [hp, Outcome.bind_ok] at h
      cases hr : p.sampleLoop solve samples lines k n (i + 1) (o + 1) with
      | throw e => rw [hr] at h; exact absurd h (by simp)
      | ub => rw [hr] at h; exact absurd h (by simp)
      | ok rest =>
        rw [hr, Outcome.bind_ok] at h
        obtain ⟨c, hc, hrest⟩ := ih _ _ _ hr
        refine ⟨fun j => if j = i then a else c j, ?_, ?_⟩
        · intro j h1 h2
          beta_reduce
          by_cases hj : j = i
          · rw [if_pos hj, hj, hp]
          · rw [if_neg hj]
            exact hc j (by omega) (by omega)
        · injection h with h
          rw [← h, hrest, List.range_succ_eq_map, List.map_cons, List.map_map]
          simp only [Nat.add_zero, if_true]
          congr 1
          refine List.map_congr_left fun j _ => ?_
          have : i + 1 + j = i + (j + 1) := by omega
          have h3 : ¬ i + (j + 1) = i := by omega
          have h4 : o + 1 + j = o + (j + 1) := by omega
          simp only [Function.comp, this, h4, Nat.succ_eq_add_one, if_neg h3]

theorem sampleLoop_throw {p : Stereographic} {solve : Solver} {samples lines k : ℕ} :
    ∀ n i o, (∀ r, p.sampleLoop solve samples lines k n i o ≠ .ok r) →
      ∃ j, i ≤ j ∧ j < i + n ∧ ∀ c, p.pixel solve samples lines j k ≠ .ok c := by
  intro n
  induction n with
  | zero => intro i o h; exact absurd rfl (h _)
  | succ n ih =>
    intro i o h
    by_cases hl : ∃ c, p.pixel solve samples lines i k = .ok c
    · obtain ⟨c, hp⟩ := hl
      by_cases hr : ∃ r, p.sampleLoop solve samples lines k n (i + 1) (o + 1) = .ok r
      · obtain ⟨r, hr⟩ := hr
        exact absurd (by rw [sampleLoop, hp, Outcome.bind_ok, hr, Outcome.bind_ok]) (h _)
      · push Not at hr
        obtain ⟨j, h1, h2, h3⟩ := ih _ _ hr
        exact ⟨j, by omega, by omega, h3⟩
    · push Not at hl
      exact ⟨i, le_rfl, by omega, hl⟩

theorem lineLoop_ok {p : Stereographic} {solve : Solver} {samples lines : ℕ} :
    ∀ n k r, p.lineLoop solve samples lines n k (k * samples) = .ok r →
      ∃ c : ℕ → ℕ → ℝ × ℝ,
        (∀ l, k ≤ l → l < k + n → ∀ j < samples, p.pixel solve samples lines j l = .ok (c l j)) ∧
        r = (List.range' (k * samples) (n * samples)).map fun o =>
          (c (o / samples) (o % samples), o) := by
  intro n
  induction n with
  | zero =>
    intro k r h
    refine ⟨fun _ _ => (0, 0), fun l _ _ => by omega, ?_⟩
    simp only [lineLoop, Outcome.ok.injEq] at h
    simp [h.symm]
  | succ n ih =>
    intro k r h
    rw [lineLoop] at h
    cases hp : p.sampleLoop solve samples lines k samples 0 (k * samples) with
    | throw e => rw [hp] at h; exact absurd h (by simp)
    | ub => rw [hp] at h; exact absurd h (by simp)
    | ok a =>
      rw [hp, Outcome.bind_ok] at h
      have h2 : (k + 1) * samples = k * samples + samples := by ring
      cases hr : p.lineLoop solve samples lines n (k + 1) (k * samples + samples) with
      | throw e => rw [hr] at h; exact absurd h (by simp)
      | ub => rw [hr] at h; exact absurd h (by simp)
      | ok rest =>
        rw [hr, Outcome.bind_ok] at h
        rw [← h2] at hr
        obtain ⟨c, hc, hrest⟩ := ih _ _ hr
        obtain ⟨d, hd, ha⟩ := sampleLoop_ok _ _ _ _ hp
        refine ⟨fun l => if l = k then d else c l, ?_, ?_⟩
        · intro l h1 h3 j hj
          beta_reduce
          by_cases hl : l = k
          · rw [if_pos hl, hl]
            exact hd j (by omega) (by omega)
          · rw [if_neg hl]
            exact hc l (by omega) (by omega) j hj
        · injection h with h
          have h4 : (n + 1) * samples = samples + n * samples := by ring
          rw [← h, hrest, ha, h4, ← List.range'_append_1, List.map_append, h2]
          congr 1
          · rw [List.range'_eq_map_range, List.map_map]
            refine List.map_congr_left fun j hj => ?_
            have hj := List.mem_range.1 hj
            have hdiv : (k * samples + j) / samples = k := by
              rw [Nat.mul_comm, Nat.mul_add_div (by omega), Nat.div_eq_of_lt hj, Nat.add_zero]
            have hmod : (k * samples + j) % samples = j := by
              rw [Nat.mul_comm, Nat.mul_add_mod, Nat.mod_eq_of_lt hj]
            simp only [Function.comp, hdiv, hmod, if_true, Nat.zero_add]
          · refine List.map_congr_left fun o ho => ?_
            obtain ⟨h5, h6⟩ := List.mem_range'_1.1 ho
            have hs : 0 < samples := by
              rcases Nat.eq_zero_or_pos samples with rfl | h
              · simp at h6
              · exact h
            have : ¬ o / samples = k := by
              have := (Nat.le_div_iff_mul_le hs).2 (show (k + 1) * samples ≤ o by omega)
              omega
            simp only [if_neg this]

theorem lineLoop_throw {p : Stereographic} {solve : Solver} {samples lines : ℕ} :
    ∀ n k o, (∀ r, p.lineLoop solve samples lines n k o ≠ .ok r) →
      ∃ l, k ≤ l ∧ l < k + n ∧ ∃ j < samples, ∀ c, p.pixel solve samples lines j l ≠ .ok c := by
  intro n
  induction n with
  | zero => intro k o h; exact absurd rfl (h _)
  | succ n ih =>
    intro k o h
    by_cases hl : ∃ a, p.sampleLoop solve samples lines k samples 0 o = .ok a
    · obtain ⟨c, hp⟩ := hl
      by_cases hr : ∃ r, p.lineLoop solve samples lines n (k + 1) (o + samples) = .ok r
      · obtain ⟨r, hr⟩ := hr
        exact absurd (by rw [lineLoop, hp, Outcome.bind_ok, hr, Outcome.bind_ok]) (h _)
      · push Not at hr
        obtain ⟨j, h1, h2, h3⟩ := ih _ _ hr
        exact ⟨j, by omega, by omega, h3⟩
    · push Not at hl
      obtain ⟨j, -, h2, h3⟩ := sampleLoop_throw _ _ _ hl
      exact ⟨k, le_rfl, by omega, j, by omega, h3⟩

theorem plots_eq {p : Stereographic} {solve : Solver} {samples lines : ℕ} {plots : List Plot}
    (h : p.plotMap solve samples lines = .ok plots) :
    ∃ c : ℕ → ℕ → ℝ × ℝ,
      (∀ k < lines, ∀ i < samples, p.pixel solve samples lines i k = .ok (c k i)) ∧
      plots = (List.range (samples * lines)).map fun o => (c (o / samples) (o % samples), o) := by
  have h' : p.lineLoop solve samples lines lines 0 (0 * samples) = .ok plots := by
    rw [Nat.zero_mul]; exact h
  obtain ⟨c, h1, h2⟩ := lineLoop_ok _ _ _ h'
  refine ⟨c, fun k hk => h1 k (by omega) (by omega), ?_⟩
  rw [h2, Nat.zero_mul, Nat.mul_comm, List.range_eq_range']

end Stereographic

/-- **C12** (polar stereographic).  For every root finder, plotting either
visits every offset exactly once, in row-major order, or some pixel's root
finding does not return. -/
theorem C12_stereographic (p : Stereographic) (solve : Solver) (samples lines : ℕ) :
    (∃ plots, p.plotMap solve samples lines = .ok plots ∧ VisitsAll samples lines plots) ∨
    ∃ k < lines, ∃ i < samples, ∀ latg, solve (p.pixelRho samples lines i k) (-(π / 2)) (π / 2)
      (stereoRhoImpl p.body p.rhoCoeff) ≠ .ok latg := by
  by_cases h : ∃ plots, p.plotMap solve samples lines = .ok plots
  · obtain ⟨plots, h⟩ := h
    obtain ⟨c, -, hp⟩ := Stereographic.plots_eq h
    exact Or.inl ⟨plots, h, by rw [VisitsAll, hp]; exact map_snd _ _⟩
  · push Not at h
    obtain ⟨k, -, hk, i, hi, hl⟩ := Stereographic.lineLoop_throw _ _ _ h
    refine Or.inr ⟨k, by omega, i, hi, fun latg hs => ?_⟩
    simp only [Stereographic.pixel, hs, Outcome.bind_ok] at hl
    exact hl _ rfl

/-- **C12** (orthographic).  Offsets are visited in increasing order, at most
once, within the map; the offset `k * samples + i` is visited exactly if the
line of sight of the centre of sample `i` of line `k` meets the body (see C18
for what that means). -/
theorem C12_orthographic (o : Ortho) (samples lines : ℕ) :
    ∃ plots, o.plotMap samples lines = .ok plots ∧ VisitsInOrder samples lines plots ∧
      ∀ k < lines, ∀ i < samples, ∀ c, (c, k * samples + i) ∈ plots ↔
        o.locate (((i : ℝ) + 0.5 - (o.mapCenter samples lines).1) * o.mapKm samples lines)
          (((k : ℝ) + 0.5 - (o.mapCenter samples lines).2) * o.mapKm samples lines) = some c := by
  have := linesLoop_ok samples
    (fun k => .ok fun i =>
      o.locate (((i : ℝ) + 0.5 - (o.mapCenter samples lines).1) * o.mapKm samples lines)
        (((k : ℝ) + 0.5 - (o.mapCenter samples lines).2) * o.mapKm samples lines))
    (fun k i => o.locate (((i : ℝ) + 0.5 - (o.mapCenter samples lines).1) * o.mapKm samples lines)
        (((k : ℝ) + 0.5 - (o.mapCenter samples lines).2) * o.mapKm samples lines))
    lines 0 fun _ _ _ => rfl
  rw [Nat.zero_mul, ← List.range_eq_range', Nat.mul_comm lines samples] at this
  refine ⟨_, this, ⟨?_, ?_⟩, ?_⟩
  · rw [List.pairwise_map, List.pairwise_filterMap]
    refine List.pairwise_lt_range.imp ?_
    intro a b hab x hx y hy
    simp only [atOffset, Option.map_eq_some_iff] at hx hy
    obtain ⟨_, -, rfl⟩ := hx
    obtain ⟨_, -, rfl⟩ := hy
    exact hab
  · intro p hp
    obtain ⟨a, ha, hx⟩ := List.mem_filterMap.1 hp
    simp only [atOffset, Option.map_eq_some_iff] at hx
    obtain ⟨_, -, rfl⟩ := hx
    exact List.mem_range.1 ha
  · intro k hk i hi c
    have hdiv : (k * samples + i) / samples = k := by
      rw [Nat.mul_comm, Nat.mul_add_div (by omega), Nat.div_eq_of_lt hi, Nat.add_zero]
    have hmod : (k * samples + i) % samples = i := by
      rw [Nat.mul_comm, Nat.mul_add_mod, Nat.mod_eq_of_lt hi]
    constructor
    · intro hp
      obtain ⟨a, ha, hx⟩ := List.mem_filterMap.1 hp
      simp only [atOffset, Option.map_eq_some_iff, Prod.mk.injEq] at hx
      obtain ⟨d, hd, rfl, rfl⟩ := hx
      rwa [hdiv, hmod] at hd
    · intro hl
      refine List.mem_filterMap.2 ⟨k * samples + i, List.mem_range.2 ?_, ?_⟩
      · have : (k + 1) * samples ≤ lines * samples := Nat.mul_le_mul_right _ hk
        rw [Nat.mul_comm samples lines]
        have h3 : (k + 1) * samples = k * samples + samples := by ring
        omega
      · simp only [atOffset, hdiv, hmod, hl, Option.map_some]

example : ∃ plots, (Cylindrical.mk ⟨2, 1⟩ true (-1) 1 0 6 true).plotMap 3 2 = .ok plots ∧
    plots.map Prod.snd = [0, 1, 2, 3, 4, 5] :=
  ⟨_, cylindrical_plots _ 3 2, by rw [map_snd]; rfl⟩

/-! ## The constants -/

theorem degree_value : MaRC.cDegree = .fin degreeQ := by decide +kernel

theorem degree_pos : 0 < degree := by
  have : (0 : ℚ) < degreeQ := by norm_num [degreeQ]
  rw [degree]
  exact_mod_cast this

/-- 90 degrees are less than a right angle. -/
theorem ninety_lt : 90 * degree < π / 2 := by
  have := pi_gt_d20
  rw [degree, degreeQ]
  push_cast
  norm_num at this ⊢
  linarith

theorem validateLat_ok {d r : ℝ} : validateLat d = .ok r ↔ -90 ≤ d ∧ d ≤ 90 ∧ r = d * degree := by
  rw [validateLat]
  split_ifs with h
  · simp only [false_iff]
    rintro ⟨h1, h2, -⟩
    rcases h with h | h <;> linarith
  · push Not at h
    simp only [Outcome.ok.injEq]
    exact ⟨fun e => ⟨h.1, h.2, e.symm⟩, fun e => e.2.2.symm⟩

theorem validateLon_ok {d r : ℝ} :
    validateLon d = .ok r ↔ -360 ≤ d ∧ d ≤ 360 ∧ r = d * degree := by
  rw [validateLon]
  split_ifs with h
  · simp only [false_iff]
    rintro ⟨h1, h2, -⟩
    rcases h with h | h <;> linarith
  · push Not at h
    simp only [Outcome.ok.injEq]
    exact ⟨fun e => ⟨h.1, h.2, e.symm⟩, fun e => e.2.2.symm⟩

/-- A valid latitude is strictly between the poles in radians. -/
theorem lat_mem {d : ℝ} (h1 : -90 ≤ d) (h2 : d ≤ 90) :
    d * degree ∈ Ioo (-(π / 2)) (π / 2) := by
  have h3 := ninety_lt
  have h4 := degree_pos
  have h5 : d * degree ≤ 90 * degree := mul_le_mul_of_nonneg_right h2 h4.le
  have h6 : -90 * degree ≤ d * degree := mul_le_mul_of_nonneg_right h1 h4.le
  exact ⟨by linarith, by linarith⟩

/-- What a constructed simple cylindrical projection holds. -/
theorem cylindrical_new {body : Spheroid} {prograde : Bool} {loLat hiLat loLon hiLon : ℝ}
    {graphic : Bool} {c : Cylindrical}
    (h : Cylindrical.new body prograde loLat hiLat loLon hiLon graphic = .ok c) :
    -90 ≤ loLat ∧ loLat ≤ 90 ∧ -90 ≤ hiLat ∧ hiLat ≤ 90 ∧
    -360 ≤ loLon ∧ loLon ≤ 360 ∧ -360 ≤ hiLon ∧ hiLon ≤ 360 ∧
    c = ⟨body, prograde,
      if graphic then body.graphicLatitude (loLat * degree) else loLat * degree,
      if graphic then body.graphicLatitude (hiLat * degree) else hiLat * degree,
      (normalizeLon (loLon * degree) (hiLon * degree)).1,
      (normalizeLon (loLon * degree) (hiLon * degree)).2, graphic⟩ := by
  rw [Cylindrical.new] at h
  simp only [boundaryLatitude] at h
  cases h1 : validateLat loLat with
  | throw e => rw [h1] at h; exact absurd h (by simp)
  | ub => rw [h1] at h; exact absurd h (by simp)
  | ok a =>
    cases h2 : validateLat hiLat with
    | throw e => rw [h1, h2] at h; exact absurd h (by simp)
    | ub => rw [h1, h2] at h; exact absurd h (by simp)
    | ok b =>
      cases h3 : validateLon loLon with
      | throw e => rw [h1, h2, h3] at h; exact absurd h (by simp)
      | ub => rw [h1, h2, h3] at h; exact absurd h (by simp)
      | ok l =>
        cases h4 : validateLon hiLon with
        | throw e => rw [h1, h2, h3, h4] at h; exact absurd h (by simp)
        | ub => rw [h1, h2, h3, h4] at h; exact absurd h (by simp)
        | ok m =>
          rw [h1, h2, h3, h4] at h
          simp only [Outcome.bind_ok, Outcome.ok.injEq] at h
          rw [validateLat_ok] at h1 h2
          rw [validateLon_ok] at h3 h4
          obtain ⟨p1, p2, rfl⟩ := h1
          obtain ⟨q1, q2, rfl⟩ := h2
          obtain ⟨r1, r2, rfl⟩ := h3
          obtain ⟨s1, s2, rfl⟩ := h4
          exact ⟨p1, p2, q1, q2, r1, r2, s1, s2, h.symm⟩

/-- The constructor succeeds for all values in range. -/
theorem cylindrical_exists (body : Spheroid) (prograde : Bool) {loLat hiLat loLon hiLon : ℝ}
    (graphic : Bool) (h1 : -90 ≤ loLat ∧ loLat ≤ 90) (h2 : -90 ≤ hiLat ∧ hiLat ≤ 90)
    (h3 : -360 ≤ loLon ∧ loLon ≤ 360) (h4 : -360 ≤ hiLon ∧ hiLon ≤ 360) :
    ∃ c, Cylindrical.new body prograde loLat hiLat loLon hiLon graphic = .ok c := by
  rw [Cylindrical.new, boundaryLatitude, boundaryLatitude,
    validateLat_ok.2 ⟨h1.1, h1.2, rfl⟩, validateLat_ok.2 ⟨h2.1, h2.2, rfl⟩,
    validateLon_ok.2 ⟨h3.1, h3.2, rfl⟩, validateLon_ok.2 ⟨h4.1, h4.2, rfl⟩]
  exact ⟨_, rfl⟩

/-! ## C13 -/

/-- Centre of the `k`-th of `n` equal parts of an interval. -/
noncomputable def partCenter (lo hi : ℝ) (n k : ℕ) : ℝ := lo + ((k : ℝ) + 1 / 2) * ((hi - lo) / n)

theorem partCenter_mem {lo hi : ℝ} (h : lo < hi) {n k : ℕ} (hk : k < n) :
    lo < partCenter lo hi n k ∧ partCenter lo hi n k < hi := by
  have hn : (0 : ℝ) < n := by exact_mod_cast (show 0 < n by omega)
  have hk' : (k : ℝ) + 1 ≤ n := by exact_mod_cast hk
  have hd : 0 < hi - lo := by linarith
  have hw : 0 < (hi - lo) / n := by positivity
  constructor
  · have : 0 < ((k : ℝ) + 1 / 2) * ((hi - lo) / n) := by positivity
    rw [partCenter]; linarith
  · have h1 : ((k : ℝ) + 1 / 2) * ((hi - lo) / n) < n * ((hi - lo) / n) :=
      mul_lt_mul_of_pos_right (by linarith) hw
    rw [mul_div_cancel₀ _ hn.ne'] at h1
    rw [partCenter]; linarith

theorem partCenter_lt {lo hi : ℝ} (h : lo < hi) {n k l : ℕ} (hkl : k < l) (hl : l < n) :
    partCenter lo hi n k < partCenter lo hi n l := by
  have hn : (0 : ℝ) < n := by exact_mod_cast (show 0 < n by omega)
  have hk' : (k : ℝ) < l := by exact_mod_cast hkl
  have hw : 0 < (hi - lo) / n := div_pos (by linarith) hn
  have := mul_lt_mul_of_pos_right (show (k : ℝ) + 1 / 2 < l + 1 / 2 by linarith) hw
  rw [partCenter, partCenter]; linarith

theorem rawLatitude_eq (c : Cylindrical) (lines k : ℕ) :
    c.rawLatitude lines k = partCenter c.loLat c.hiLat lines k := by
  rw [Cylindrical.rawLatitude, partCenter]; norm_num; ring

theorem div_lt_lines {samples lines o : ℕ} (h : o < samples * lines) : o / samples < lines := by
  rw [Nat.div_lt_iff_lt_mul]
  · rwa [Nat.mul_comm]
  · rcases Nat.eq_zero_or_pos samples with rfl | h'
    · simp at h
    · exact h'

theorem mod_lt_samples {samples lines o : ℕ} (h : o < samples * lines) : o % samples < samples := by
  refine Nat.mod_lt _ ?_
  rcases Nat.eq_zero_or_pos samples with rfl | h'
  · simp at h
  · exact h'

/-- **C13** (planetocentric maps).  The latitude plotted on line `k` is the
centre of the `k`-th of `lines` equal parts of the requested range, strictly
inside it, and increases with the line. -/
theorem C13_centric {body : Spheroid} {prograde : Bool} {loLat hiLat loLon hiLon : ℝ}
    {c : Cylindrical} (h : Cylindrical.new body prograde loLat hiLat loLon hiLon false = .ok c)
    (hlat : loLat < hiLat) {samples lines : ℕ} {plots : List Plot}
    (hp : c.plotMap samples lines = .ok plots) :
    (∀ lat lon o, ((lat, lon), o) ∈ plots →
      lat = partCenter (loLat * degree) (hiLat * degree) lines (o / samples) ∧
      loLat * degree < lat ∧ lat < hiLat * degree) ∧
    (∀ lat lon o lat' lon' o', ((lat, lon), o) ∈ plots → ((lat', lon'), o') ∈ plots →
      o / samples < o' / samples → lat < lat') := by
  obtain ⟨-, -, -, -, -, -, -, -, rfl⟩ := cylindrical_new h
  rw [cylindrical_plots] at hp
  injection hp with hp
  have hr : loLat * degree < hiLat * degree := mul_lt_mul_of_pos_right hlat degree_pos
  have key : ∀ lat lon o, ((lat, lon), o) ∈ plots →
      lat = partCenter (loLat * degree) (hiLat * degree) lines (o / samples) ∧
        o / samples < lines := by
    intro lat lon o ho
    rw [← hp, List.mem_map] at ho
    obtain ⟨a, ha, he⟩ := ho
    simp only [Prod.mk.injEq] at he
    obtain ⟨⟨h1, -⟩, rfl⟩ := he
    refine ⟨?_, div_lt_lines (List.mem_range.1 ha)⟩
    rw [← h1, Cylindrical.latitude, if_neg (by simp), rawLatitude_eq]
    rfl
  refine ⟨fun lat lon o ho => ?_, fun lat lon o lat' lon' o' ho ho' hlt => ?_⟩
  · obtain ⟨h1, h2⟩ := key _ _ _ ho
    have := partCenter_mem hr h2
    rw [← h1] at this
    exact ⟨h1, this⟩
  · obtain ⟨h1, -⟩ := key _ _ _ ho
    obtain ⟨h2, h3⟩ := key _ _ _ ho'
    rw [h1, h2]
    exact partCenter_lt hr hlt h3

/-- **C13** (planetographic maps).  The same holds of the planetographic
latitude of the plotted point; the plotted latitude is planetocentric, inside
the requested range, and increases with the line. -/
theorem C13_graphic {body : Spheroid} (hb : body.Valid) {prograde : Bool}
    {loLat hiLat loLon hiLon : ℝ} {c : Cylindrical}
    (h : Cylindrical.new body prograde loLat hiLat loLon hiLon true = .ok c)
    (hlat : loLat < hiLat) {samples lines : ℕ} {plots : List Plot}
    (hp : c.plotMap samples lines = .ok plots) :
    (∀ lat lon o, ((lat, lon), o) ∈ plots →
      body.graphicLatitude lat = partCenter (body.graphicLatitude (loLat * degree))
        (body.graphicLatitude (hiLat * degree)) lines (o / samples) ∧
      loLat * degree < lat ∧ lat < hiLat * degree) ∧
    (∀ lat lon o lat' lon' o', ((lat, lon), o) ∈ plots → ((lat', lon'), o') ∈ plots →
      o / samples < o' / samples → lat < lat') := by
  obtain ⟨q1, q2, q3, q4, -, -, -, -, rfl⟩ := cylindrical_new h
  rw [cylindrical_plots] at hp
  injection hp with hp
  have m1 := lat_mem q1 q2
  have m2 := lat_mem q3 q4
  have hlr : loLat * degree < hiLat * degree := mul_lt_mul_of_pos_right hlat degree_pos
  have hr := (Spheroid.C33_increasing hb).2 m1 m2 hlr
  set g := partCenter (body.graphicLatitude (loLat * degree))
    (body.graphicLatitude (hiLat * degree)) lines with hg
  have key : ∀ lat lon o, ((lat, lon), o) ∈ plots →
      lat = body.centricLatitude (g (o / samples)) ∧ o / samples < lines := by
    intro lat lon o ho
    rw [← hp, List.mem_map] at ho
    obtain ⟨a, ha, he⟩ := ho
    simp only [Prod.mk.injEq] at he
    obtain ⟨⟨h1, -⟩, rfl⟩ := he
    refine ⟨?_, div_lt_lines (List.mem_range.1 ha)⟩
    rw [← h1, Cylindrical.latitude, if_pos rfl, rawLatitude_eq]
    rfl
  have gm : ∀ k, k < lines → g k ∈ Ioo (-(π / 2)) (π / 2) := by
    intro k hk
    have := partCenter_mem hr hk
    have r1 := (Spheroid.C33_range body (loLat * degree)).2.1
    have r2 := (Spheroid.C33_range body (hiLat * degree)).2.2
    exact ⟨by linarith [this.1], by linarith [this.2]⟩
  refine ⟨fun lat lon o ho => ?_, fun lat lon o lat' lon' o' ho ho' hlt => ?_⟩
  · obtain ⟨h1, h2⟩ := key _ _ _ ho
    have hm := partCenter_mem hr h2
    refine ⟨by rw [h1, (Spheroid.C33_inverse hb _ (gm _ h2)).1], ?_, ?_⟩
    · have := (Spheroid.C33_increasing hb).1 (Spheroid.C33_range body (loLat * degree)).2
        (gm _ h2) hm.1
      rwa [(Spheroid.C33_inverse hb _ m1).2, ← h1] at this
    · have := (Spheroid.C33_increasing hb).1 (gm _ h2)
        (Spheroid.C33_range body (hiLat * degree)).2 hm.2
      rwa [(Spheroid.C33_inverse hb _ m2).2, ← h1] at this
  · obtain ⟨h1, h0⟩ := key _ _ _ ho
    obtain ⟨h2, h3⟩ := key _ _ _ ho'
    rw [h1, h2]
    exact (Spheroid.C33_increasing hb).1 (gm _ h0) (gm _ h3) (partCenter_lt hr hlt h3)

/-- A full planetographic map of an oblate body meets the hypotheses. -/
example : ∃ c plots, Cylindrical.new ⟨71492, 66854⟩ true (-90) 90 0 0 true = .ok c ∧
    c.plotMap 360 180 = .ok plots := by
  obtain ⟨c, hc⟩ := cylindrical_exists ⟨71492, 66854⟩ true (loLat := -90) (hiLat := 90)
    (loLon := 0) (hiLon := 0) true (by norm_num) (by norm_num) (by norm_num) (by norm_num)
  exact ⟨c, _, hc, cylindrical_plots c 360 180⟩

/-! ## C14 -/

theorem circle_le : 360 * degree < 2 * π := by linarith [ninety_lt]

/-- **C14** (range).  For bounds in order modulo one turn, the range of
longitudes mapped is positive: the lower bound is reduced by a turn if it is
greater than the upper one, and equal bounds give a full turn. -/
theorem C14_range_partial {body : Spheroid} {prograde : Bool} {loLat hiLat loLon hiLon : ℝ}
    {graphic : Bool} {c : Cylindrical}
    (h : Cylindrical.new body prograde loLat hiLat loLon hiLon graphic = .ok c)
    (hlon : loLon - hiLon ≤ 360) :
    c.loLon < c.hiLon ∧
    (loLon > hiLon → c.loLon = loLon * degree - 2 * π ∧ c.hiLon = hiLon * degree) ∧
    (loLon = hiLon → c.loLon = loLon * degree ∧ c.hiLon = c.loLon + 2 * π) ∧
    (loLon < hiLon → c.loLon = loLon * degree ∧
      (c.hiLon = hiLon * degree ∨ c.hiLon = hiLon * degree + 2 * π)) := by
  obtain ⟨-, -, -, -, -, -, -, -, rfl⟩ := cylindrical_new h
  have hd := degree_pos
  have hc := circle_le
  have hpi := pi_pos
  simp only
  rw [normalizeLon]
  have h1 : loLon * degree - hiLon * degree ≤ 360 * degree := by
    rw [← sub_mul]; exact mul_le_mul_of_nonneg_right hlon hd.le
  rcases lt_trichotomy loLon hiLon with hlt | heq | hgt
  · have h2 : loLon * degree < hiLon * degree := mul_lt_mul_of_pos_right hlt hd
    rw [if_neg (by linarith)]
    split_ifs
    · exact ⟨by simp only; linarith, fun h => by linarith, fun h => by linarith,
        fun _ => ⟨rfl, Or.inr rfl⟩⟩
    · exact ⟨by simp only; linarith, fun h => by linarith, fun h => by linarith,
        fun _ => ⟨rfl, Or.inl rfl⟩⟩
  · subst heq
    have h3 : AlmostEqual (loLon * degree) (loLon * degree) 2 := by
      right
      rw [sub_self, abs_zero]
      have : (0 : ℚ) < dblMin := by norm_num [dblMin]
      exact_mod_cast this
    rw [if_neg (by linarith), if_pos (Or.inl h3)]
    exact ⟨by simp only; linarith, fun h => by linarith, fun _ => ⟨rfl, rfl⟩,
      fun h => by linarith⟩
  · have h2 : hiLon * degree < loLon * degree := mul_lt_mul_of_pos_right hgt hd
    rw [if_pos h2]
    exact ⟨by simp only; linarith, fun _ => ⟨rfl, rfl⟩, fun h => by linarith,
      fun h => by linarith⟩

theorem longitude_eq (c : Cylindrical) {samples i : ℕ} (hi : i < samples) :
    c.longitude i ((c.hiLon - c.loLon) / samples) =
      partCenter c.loLon c.hiLon samples (if c.prograde then samples - 1 - i else i) := by
  have hn : (samples : ℝ) ≠ 0 := by
    have : 0 < samples := by omega
    exact_mod_cast this.ne'
  rw [Cylindrical.longitude, partCenter]
  split_ifs
  · rw [Nat.cast_sub (by omega), Nat.cast_sub (by omega)]
    field_simp
    norm_num
    ring
  · norm_num
    ring

/-- **C14** (pixels).  The longitude plotted at sample `i` is the centre of the
`i`-th of `samples` equal parts of the mapped range, counted from the lower end
for retrograde bodies and from the upper end for prograde ones; it is strictly
inside the range. -/
theorem C14_pixels (c : Cylindrical) {samples lines : ℕ} {plots : List Plot}
    (hp : c.plotMap samples lines = .ok plots) (lat lon : ℝ) (o : ℕ)
    (ho : ((lat, lon), o) ∈ plots) :
    lon = partCenter c.loLon c.hiLon samples
      (if c.prograde then samples - 1 - o % samples else o % samples) ∧
    (c.loLon < c.hiLon → c.loLon < lon ∧ lon < c.hiLon) := by
  rw [cylindrical_plots] at hp
  injection hp with hp
  rw [← hp, List.mem_map] at ho
  obtain ⟨a, ha, he⟩ := ho
  simp only [Prod.mk.injEq] at he
  obtain ⟨⟨-, h1⟩, rfl⟩ := he
  have hi := mod_lt_samples (List.mem_range.1 ha)
  rw [longitude_eq c hi] at h1
  refine ⟨h1.symm, fun hw => ?_⟩
  rw [← h1]
  refine partCenter_mem hw ?_
  split_ifs <;> omega

/-- **C14** (direction).  Longitudes increase to the right in maps of retrograde
bodies and decrease to the right in maps of prograde ones. -/
theorem C14_direction (c : Cylindrical) (hw : c.loLon < c.hiLon) {samples lines : ℕ}
    {plots : List Plot} (hp : c.plotMap samples lines = .ok plots) (lat lon lat' lon' : ℝ)
    (o o' : ℕ) (ho : ((lat, lon), o) ∈ plots) (ho' : ((lat', lon'), o') ∈ plots)
    (hlt : o % samples < o' % samples) :
    (c.prograde = false → lon < lon') ∧ (c.prograde = true → lon' < lon) := by
  obtain ⟨h1, -⟩ := C14_pixels c hp _ _ _ ho
  obtain ⟨h2, -⟩ := C14_pixels c hp _ _ _ ho'
  have hs : o' % samples < samples := by
    rw [cylindrical_plots] at hp
    injection hp with hp
    rw [← hp, List.mem_map] at ho'
    obtain ⟨a, ha, he⟩ := ho'
    simp only [Prod.mk.injEq] at he
    obtain ⟨-, rfl⟩ := he
    exact mod_lt_samples (List.mem_range.1 ha)
  constructor
  · intro hpro
    simp only [hpro, if_neg Bool.false_ne_true] at h1 h2
    rw [h1, h2]
    exact partCenter_lt hw hlt hs
  · intro hpro
    simp only [hpro, if_true] at h1 h2
    rw [h1, h2]
    exact partCenter_lt hw (by omega) (by omega)

/-- **C14** (mirror images).  The map of a body is the mirror image of the map
of the same body rotating the other way: sample `i` of one and sample
`samples - 1 - i` of the other have the same coordinates. -/
theorem C14_mirror (c : Cylindrical) (samples lines i k : ℕ) (hi : i < samples) (hk : k < lines)
    (plots mirrored : List Plot) (hp : c.plotMap samples lines = .ok plots)
    (hm : ({ c with prograde := !c.prograde } : Cylindrical).plotMap samples lines = .ok mirrored)
    (p : ℝ × ℝ) :
    (p, k * samples + i) ∈ plots ↔ (p, k * samples + (samples - 1 - i)) ∈ mirrored := by
  rw [cylindrical_plots] at hp hm
  injection hp with hp
  injection hm with hm
  have hin : ∀ j < samples, k * samples + j < samples * lines ∧
      (k * samples + j) / samples = k ∧ (k * samples + j) % samples = j := by
    intro j hj
    refine ⟨?_, ?_, ?_⟩
    · have : (k + 1) * samples ≤ lines * samples := Nat.mul_le_mul_right _ hk
      rw [Nat.mul_comm samples lines]
      have h3 : (k + 1) * samples = k * samples + samples := by ring
      omega
    · rw [Nat.mul_comm, Nat.mul_add_div (by omega), Nat.div_eq_of_lt hj, Nat.add_zero]
    · rw [Nat.mul_comm, Nat.mul_add_mod, Nat.mod_eq_of_lt hj]
  obtain ⟨a1, a2, a3⟩ := hin i hi
  obtain ⟨b1, b2, b3⟩ := hin (samples - 1 - i) (by omega)
  have hl := longitude_eq c hi
  have hr := longitude_eq { c with prograde := !c.prograde }
    (show samples - 1 - i < samples by omega)
  have hlon : c.longitude i ((c.hiLon - c.loLon) / samples) =
      ({ c with prograde := !c.prograde } : Cylindrical).longitude (samples - 1 - i)
        ((c.hiLon - c.loLon) / samples) := by
    rw [hl, hr]
    have : samples - 1 - (samples - 1 - i) = i := by omega
    cases c.prograde <;> simp [this]
  rw [← hp, ← hm]
  simp only [List.mem_map, List.mem_range, Prod.mk.injEq]
  constructor
  · rintro ⟨o, ho, he, rfl⟩
    refine ⟨_, b1, ?_, rfl⟩
    rw [← he, b2, b3, a2, a3, hlon]
    rfl
  · rintro ⟨o, ho, he, rfl⟩
    refine ⟨_, a1, ?_, rfl⟩
    rw [← he, b2, b3, a2, a3, hlon]
    rfl

/-- **C14** fails for accepted bounds further than a turn apart: with lower
bound 350 and upper bound -20 degrees the range has negative width, and
longitudes in the map of a retrograde body decrease to the right. -/
theorem C14_violated : ∃ c plots lat lon lat' lon',
    Cylindrical.new ⟨1, 1⟩ false (-90) 90 350 (-20) false = .ok c ∧
    c.plotMap 2 1 = .ok plots ∧
    ((lat, lon), 0) ∈ plots ∧ ((lat', lon'), 1) ∈ plots ∧ lon' < lon := by
  obtain ⟨c, hc⟩ := cylindrical_exists ⟨1, 1⟩ false (loLat := -90) (hiLat := 90)
    (loLon := 350) (hiLon := -20) false (by norm_num) (by norm_num) (by norm_num) (by norm_num)
  have hd : 370 * degree > 2 * π := by
    have := pi_lt_d4
    rw [degree, degreeQ]
    push_cast
    norm_num at this ⊢
    linarith
  refine ⟨c, _, c.latitude 1 0, c.longitude 0 ((c.hiLon - c.loLon) / (2 : ℕ)), c.latitude 1 0,
    c.longitude 1 ((c.hiLon - c.loLon) / (2 : ℕ)), hc, cylindrical_plots c 2 1, ?_, ?_, ?_⟩
  · exact List.mem_map.2 ⟨0, by simp, rfl⟩
  · exact List.mem_map.2 ⟨1, by simp, rfl⟩
  · obtain ⟨-, -, -, -, -, -, -, -, rfl⟩ := cylindrical_new hc
    have hlt : (-20) * degree < 350 * degree := by
      have := degree_pos
      nlinarith
    rw [longitude_eq _ (show 1 < 2 by norm_num), longitude_eq _ (show 0 < 2 by norm_num)]
    simp only [partCenter, normalizeLon, if_pos (show 350 * degree > (-20) * degree from hlt)]
    norm_num
    linarith

example : (350 : ℝ) - (-5) ≤ 360 := by norm_num

end MaRC.Projection
