import Verif.Spec.Grid
import Mathlib.Algebra.Order.Floor.Ring
import Mathlib.Algebra.Order.Archimedean.Basic

/-!
# What the drawing primitives write
-/

namespace MaRC.Projection

/-- Applied to a grid of `N` cells, `f` succeeds, and makes exactly the cells in `S`
white. -/
def Writes (N : ℕ) (f : Grid → Outcome Grid) (S : Set ℕ) : Prop :=
  ∀ g : Grid, g.length = N → ∃ g', f g = .ok g' ∧ g'.length = N ∧
    ∀ j < N, (j ∈ S → g'[j]? = some white) ∧ (j ∉ S → g'[j]? = g[j]?)

variable {N : ℕ}

theorem Writes.congr {f : Grid → Outcome Grid} {S T : Set ℕ} (h : Writes N f S)
    (hST : ∀ j < N, j ∈ S ↔ j ∈ T) : Writes N f T := by
  intro g hg
  obtain ⟨g', h1, h2, h3⟩ := h g hg
  exact ⟨g', h1, h2, fun j hj => ⟨fun hT => (h3 j hj).1 ((hST j hj).2 hT),
    fun hT => (h3 j hj).2 fun hS => hT ((hST j hj).1 hS)⟩⟩

theorem writes_ok : Writes N .ok ∅ := fun g hg => ⟨g, rfl, hg, fun _ _ => ⟨nofun, fun _ => rfl⟩⟩

theorem writes_bind {f f' : Grid → Outcome Grid} {S T : Set ℕ} (h : Writes N f S)
    (h' : Writes N f' T) : Writes N (fun g => f g >>= f') (S ∪ T) := by
  intro g hg
  obtain ⟨g1, a1, a2, a3⟩ := h g hg
  obtain ⟨g2, b1, b2, b3⟩ := h' g1 a2
  refine ⟨g2, by simp only [a1, Outcome.bind_ok, b1], b2, fun j hj => ⟨fun hj' => ?_, fun hj' => ?_⟩⟩
  · by_cases hT : j ∈ T
    · exact (b3 j hj).1 hT
    · rw [(b3 j hj).2 hT]
      exact (a3 j hj).1 (hj'.resolve_right hT)
  · rw [(b3 j hj).2 fun hT => hj' (.inr hT), (a3 j hj).2 fun hS => hj' (.inl hS)]

theorem writes_setCell {offset : ℕ} (h : offset < N) : Writes N (setCell offset) {offset} := by
  intro g hg
  refine ⟨g.set offset white, by simp only [setCell, hg, h, if_true], by simp [hg],
    fun j hj => ⟨fun hS => ?_, fun hS => ?_⟩⟩
  · rw [Set.mem_singleton_iff.1 hS, List.getElem?_set_self (by omega)]
  · exact List.getElem?_set_ne fun e => hS e.symm

theorem writes_fillCells (n : ℕ) : ∀ {offset : ℕ}, offset + n ≤ N →
    Writes N (fillCells n offset) {j | offset ≤ j ∧ j < offset + n} := by
  induction n with
  | zero =>
    intro offset _
    exact writes_ok.congr fun j _ => ⟨fun h => h.elim, fun ⟨h1, h2⟩ => by omega⟩
  | succ n ih =>
    intro offset h
    refine (writes_bind (writes_setCell (offset := offset) (by omega))
      (ih (offset := offset + 1) (by omega))).congr fun j _ => ?_
    simp only [Set.mem_union, Set.mem_singleton_iff, Set.mem_ofPred_eq]
    omega

theorem writes_fillColumn {samples i : ℕ} (hi : i < samples) (n : ℕ) : ∀ {k : ℕ},
    (k + n) * samples ≤ N →
    Writes N (fillColumn samples i n k) {j | ∃ l, k ≤ l ∧ l < k + n ∧ j = l * samples + i} := by
  induction n with
  | zero =>
    intro k _
    exact writes_ok.congr fun j _ => ⟨fun h => h.elim, fun ⟨l, h1, h2, _⟩ => by omega⟩
  | succ n ih =>
    intro k h
    have hk : k * samples + i < N := by
      have : (k + 1) * samples ≤ (k + (n + 1)) * samples := Nat.mul_le_mul_right _ (by omega)
      have e : (k + 1) * samples = k * samples + samples := by ring
      omega
    refine (writes_bind (writes_setCell hk)
      (ih (k := k + 1) (by rwa [show k + 1 + n = k + (n + 1) by ring]))).congr fun j _ => ?_
    simp only [Set.mem_union, Set.mem_singleton_iff, Set.mem_ofPred_eq]
    constructor
    · rintro (rfl | ⟨l, h1, h2, rfl⟩)
      · exact ⟨k, le_refl _, by omega, rfl⟩
      · exact ⟨l, by omega, by omega, rfl⟩
    · rintro ⟨l, h1, h2, rfl⟩
      by_cases e : l = k
      · exact .inl (by rw [e])
      · exact .inr ⟨l, by omega, by omega, rfl⟩

theorem writes_drawAll {α : Type} {draw : α → Grid → Outcome Grid} {S : α → Set ℕ} :
    ∀ {l : List α}, (∀ x ∈ l, Writes N (draw x) (S x)) →
      Writes N (drawAll draw l) {j | ∃ x ∈ l, j ∈ S x} := by
  intro l
  induction l with
  | nil => exact fun _ => writes_ok.congr fun j _ => ⟨fun h => h.elim, fun ⟨x, hx, _⟩ => by simp at hx⟩
  | cons x xs ih =>
    intro h
    refine (writes_bind (h x (by simp)) (ih fun y hy => h y (by simp [hy]))).congr fun j _ => ?_
    simp

theorem writes_drawGrid {latI lonI : ℝ} {lats lons : ℝ → List ℝ}
    {drawLat drawLon : ℝ → Grid → Outcome Grid} {S T : ℝ → Set ℕ} (h1 : 0 < latI) (h2 : 0 < lonI)
    (hS : ∀ x ∈ lats latI, Writes N (drawLat x) (S x))
    (hT : ∀ x ∈ lons lonI, Writes N (drawLon x) (T x)) :
    Writes N (drawGrid latI lonI lats lons drawLat drawLon)
      {j | (∃ x ∈ lats latI, j ∈ S x) ∨ ∃ x ∈ lons lonI, j ∈ T x} := by
  have e : drawGrid latI lonI lats lons drawLat drawLon =
      fun g => drawAll drawLat (lats latI) g >>= drawAll drawLon (lons lonI) := by
    funext g
    simp only [drawGrid, if_neg (not_le.2 h1), if_neg (not_le.2 h2)]
  rw [e]
  exact writes_bind (writes_drawAll hS) (writes_drawAll hT)

theorem makeGrid_shows {samples lines : ℕ} (hsize : samples * lines < 2 ^ 64)
    {f : Grid → Outcome Grid} {S : Set ℕ} (h : Writes (samples * lines) f S)
    {W : ℕ → ℕ → Prop}
    (hW : ∀ k < lines, ∀ i < samples, k * samples + i ∈ S ↔ W k i) :
    ∃ g, makeGrid f samples lines = .ok g ∧ g.Shows samples lines W := by
  have e : szMul samples lines = samples * lines := Nat.mod_eq_of_lt hsize
  obtain ⟨g, h1, h2, h3⟩ := h (List.replicate (samples * lines) 0) (by simp)
  refine ⟨g, by simpa only [makeGrid, e] using h1, h2, fun k hk i hi => ?_⟩
  have hj : k * samples + i < samples * lines := by
    have : (k + 1) * samples ≤ lines * samples := Nat.mul_le_mul_right _ hk
    have e : (k + 1) * samples = k * samples + samples := by ring
    have e' : lines * samples = samples * lines := by ring
    omega
  refine ⟨fun hw => (h3 _ hj).1 ((hW k hk i hi).2 hw), fun hw => ?_⟩
  rw [(h3 _ hj).2 fun hS => hw ((hW k hk i hi).1 hS)]
  simp [hj]

theorem cell_unique {samples k k' i i' : ℕ} (hi : i < samples) (hi' : i' < samples)
    (h : k * samples + i = k' * samples + i') : k = k' ∧ i = i' := by
  have h0 : 0 < samples := by omega
  have e : ∀ a b : ℕ, b < samples → (a * samples + b) / samples = a := fun a b hb => by
    rw [mul_comm, Nat.mul_add_div h0, Nat.div_eq_of_lt hb, add_zero]
  have e1 := e k i hi
  rw [h, e k' i' hi'] at e1
  exact ⟨e1.symm, by subst e1; omega⟩

theorem roundsTo_cround (x : ℝ) : RoundsTo x (cround x) := by
  simp only [cround, RoundsTo]
  split_ifs with h
  · have h1 := Int.floor_le (x + 1 / 2)
    have h2 := Int.lt_floor_add_one (x + 1 / 2)
    have h3 : (0 : ℝ) ≤ (⌊x + 1 / 2⌋ : ℤ) := by
      exact_mod_cast Int.floor_nonneg.2 (by linarith)
    refine ⟨abs_le.2 ⟨by linarith, by linarith⟩, fun e => ?_⟩
    rw [abs_of_nonneg h, abs_of_nonneg h3]
    rcases abs_cases (x - (⌊x + 1 / 2⌋ : ℤ)) with ⟨e', _⟩ | ⟨e', _⟩ <;> linarith
  · have h1 := Int.floor_le (-x + 1 / 2)
    have h2 := Int.lt_floor_add_one (-x + 1 / 2)
    have h3 : (0 : ℝ) ≤ (⌊-x + 1 / 2⌋ : ℤ) := by
      exact_mod_cast Int.floor_nonneg.2 (by linarith)
    push_cast
    refine ⟨abs_le.2 ⟨by linarith, by linarith⟩, fun e => ?_⟩
    rw [abs_of_neg (not_le.1 h), abs_neg, abs_of_nonneg h3]
    rcases abs_cases (x - -((⌊-x + 1 / 2⌋ : ℤ) : ℝ)) with ⟨e', _⟩ | ⟨e', _⟩ <;> linarith

theorem RoundsTo.unique {x : ℝ} {a b : ℤ} (ha : RoundsTo x a) (hb : RoundsTo x b) : a = b := by
  obtain ⟨a1, a2⟩ := ha
  obtain ⟨b1, b2⟩ := hb
  have key : ∀ {a b : ℤ}, |x - a| ≤ 1 / 2 → (|x - a| = 1 / 2 → |x| ≤ |(a : ℝ)|) →
      |x - b| ≤ 1 / 2 → (|x - b| = 1 / 2 → |x| ≤ |(b : ℝ)|) → ¬ a < b := by
    intro a b a1 a2 b1 b2 hlt
    have h1 := abs_le.1 a1
    have h2 := abs_le.1 b1
    have hc : (a : ℝ) + 1 ≤ b := by exact_mod_cast hlt
    have ea : x - a = 1 / 2 := by linarith [h1.2, h2.1]
    have eb : x - b = -(1 / 2) := by linarith [h1.2, h2.1]
    have fa := a2 (by rw [ea, abs_of_nonneg (by norm_num)])
    have fb := b2 (by rw [eb, abs_neg, abs_of_nonneg (by norm_num)])
    have xa : x = a + 1 / 2 := by linarith
    have hb' : (b : ℝ) = a + 1 := by linarith
    rcases lt_or_ge a 0 with ha | ha
    · have : (a : ℝ) + 1 ≤ 0 := by exact_mod_cast ha
      rw [hb', abs_of_nonpos this] at fb
      have hx : x < 0 := by linarith
      rw [abs_of_neg hx] at fb
      linarith
    · have h0 : (0 : ℝ) ≤ a := by exact_mod_cast ha
      rw [abs_of_nonneg h0, abs_of_nonneg (by linarith : 0 ≤ x)] at fa
      linarith
  have h1 := key a1 a2 b1 b2
  have h2 := key b1 b2 a1 a2
  omega

theorem cround_eq_iff {x : ℝ} {z : ℤ} : cround x = z ↔ RoundsTo x z :=
  ⟨fun h => h ▸ roundsTo_cround x, fun h => (roundsTo_cround x).unique h⟩

theorem cround_nonneg {x : ℝ} (h : 0 ≤ x) : 0 ≤ cround x := by
  simp only [cround, if_pos h]
  exact Int.floor_nonneg.2 (by linarith)

theorem cround_nonneg_iff {x : ℝ} : 0 ≤ cround x ↔ -(1 / 2) < x := by
  by_cases h : 0 ≤ x
  · exact ⟨fun _ => by linarith, fun _ => cround_nonneg h⟩
  · simp only [cround, if_neg h]
    rw [Left.nonneg_neg_iff, ← Int.lt_add_one_iff, zero_add, Int.floor_lt]
    push_cast
    constructor <;> intro _ <;> linarith

theorem cround_le {x : ℝ} {z : ℤ} (h : x ≤ z) : cround x ≤ z := by
  have h1 := (abs_le.1 (roundsTo_cround x).1).1
  by_contra hn
  have : (z : ℝ) + 1 ≤ cround x := by exact_mod_cast not_le.1 hn
  linarith

theorem mem_latValues {interval n : ℝ} (h : 0 < interval) :
    n ∈ latValues interval ↔ GridLatitude interval n := by
  simp only [latValues, List.mem_map, List.mem_range, GridLatitude, stepsBelow]
  constructor
  · rintro ⟨j, hj, rfl⟩
    refine ⟨j + 1, by omega, by push_cast; ring, ?_⟩
    have := Nat.lt_ceil.1 hj
    rw [lt_div_iff₀ h] at this
    linarith
  · rintro ⟨j, hj, rfl, hn⟩
    refine ⟨j - 1, Nat.lt_ceil.2 ?_, ?_⟩
    · rw [lt_div_iff₀ h, Nat.cast_sub hj]
      push_cast
      linarith
    · rw [Nat.cast_sub hj]
      push_cast
      ring

theorem mem_lonValues {interval m : ℝ} (h : 0 < interval) :
    m ∈ lonValues interval ↔ GridLongitude interval m := by
  simp only [lonValues, List.mem_map, List.mem_range, GridLongitude, stepsBelow]
  constructor
  · rintro ⟨j, hj, rfl⟩
    refine ⟨j, rfl, ?_⟩
    have := Nat.lt_ceil.1 hj
    rw [lt_div_iff₀ h] at this
    linarith
  · rintro ⟨j, rfl, hn⟩
    refine ⟨j, Nat.lt_ceil.2 ?_, rfl⟩
    rw [lt_div_iff₀ h]
    linarith

theorem GridLongitude.le {interval m : ℝ} (h : 0 < interval) (hm : GridLongitude interval m) :
    0 < m ∧ m ≤ 360 := by
  obtain ⟨j, rfl, h0⟩ := hm
  have : (0 : ℝ) ≤ j * interval := by positivity
  exact ⟨h0, by linarith⟩

theorem writes_drawRow {samples lines : ℕ} (k : Option ℤ) :
    Writes (samples * lines) (drawRow samples lines k)
      {j | ∃ l < lines, k = some (l : ℤ) ∧ ∃ i < samples, j = l * samples + i} := by
  cases k with
  | none => exact writes_ok.congr fun j _ => ⟨fun h => h.elim, fun ⟨l, _, h, _⟩ => by simp at h⟩
  | some k =>
    by_cases hk : 0 ≤ k ∧ k < lines
    · have hl : k.toNat < lines := by omega
      have hle : k.toNat * samples + samples ≤ samples * lines := by
        have : (k.toNat + 1) * samples ≤ lines * samples := Nat.mul_le_mul_right _ hl
        have e : (k.toNat + 1) * samples = k.toNat * samples + samples := by ring
        have e' : lines * samples = samples * lines := by ring
        omega
      have e : drawRow samples lines (some k) = fillCells samples (k.toNat * samples) := by
        funext g
        simp only [drawRow, if_pos hk]
      rw [e]
      refine (writes_fillCells samples hle).congr fun j _ => ⟨fun ⟨h1, h2⟩ => ?_, ?_⟩
      · exact ⟨k.toNat, hl, by rw [Int.toNat_of_nonneg hk.1], j - k.toNat * samples, by omega,
          by omega⟩
      · rintro ⟨l, hl', hkl, i, hi, rfl⟩
        have : k.toNat = l := by
          have := Option.some.inj hkl
          omega
        rw [this]
        exact ⟨by omega, by omega⟩
    · have e : drawRow samples lines (some k) = .ok := by
        funext g
        simp only [drawRow, if_neg hk]
      rw [e]
      refine writes_ok.congr fun j _ => ⟨fun h => h.elim, fun ⟨l, hl, h, _⟩ => hk ?_⟩
      have := Option.some.inj h
      omega

theorem szSub_of_le {a b : ℕ} (h : b ≤ a) (ha : a < 2 ^ 64) : szSub a b = a - b := by
  simp only [szSub, szMod]
  omega

theorem szSub_of_lt {a b : ℕ} (h : a < b) (hb : b < 2 ^ 64) : a ≤ szSub a b := by
  simp only [szSub, szMod]
  omega

/-- Column drawn for a rounded position `z`. -/
def columnOf (prograde : Bool) (samples : ℕ) (z : ℤ) (i : ℕ) : Prop :=
  if prograde then z = (samples : ℤ) - i else z = i

theorem writes_drawColumn {samples lines : ℕ} (hs : samples < 2 ^ 64) (prograde : Bool) {z : ℤ}
    (h0 : 0 ≤ z) (h1 : z < 2 ^ 64) :
    Writes (samples * lines) (drawColumn prograde samples lines (some z))
      {j | ∃ i < samples, columnOf prograde samples z i ∧ ∃ l < lines, j = l * samples + i} := by
  obtain ⟨n, rfl⟩ := Int.eq_ofNat_of_zero_le h0
  have hn : n < 2 ^ 64 := by exact_mod_cast h1
  set c := if prograde then szSub samples n else n with hc
  have e : drawColumn prograde samples lines (some (n : ℤ)) =
      if c < samples then fillColumn samples c lines 0 else .ok := by
    funext g
    simp only [drawColumn, sizeOf, if_pos (⟨h0, h1⟩ : (0 : ℤ) ≤ n ∧ (n : ℤ) < 2 ^ 64),
      Outcome.bind_ok, Int.toNat_natCast]
    rw [← hc]
    split_ifs <;> rfl
  have key : ∀ i < samples, columnOf prograde samples n i ↔ c = i := by
    intro i hi
    cases prograde
    · simp [columnOf, hc]
    · simp only [columnOf, if_true, hc]
      rcases le_or_gt n samples with h | h
      · rw [szSub_of_le h hs]
        omega
      · have := szSub_of_lt h hn
        omega
  rw [e]
  by_cases hcs : c < samples
  · rw [if_pos hcs]
    refine (writes_fillColumn hcs lines (k := 0) (by rw [zero_add, mul_comm])).congr fun j _ =>
      ⟨fun ⟨l, _, hl, ej⟩ => ⟨c, hcs, (key c hcs).2 rfl, l, by omega, ej⟩, ?_⟩
    rintro ⟨i, hi, hci, l, hl, rfl⟩
    rw [(key i hi).1 hci]
    exact ⟨l, by omega, by omega, rfl⟩
  · rw [if_neg hcs]
    refine writes_ok.congr fun j _ => ⟨fun h => h.elim, fun ⟨i, hi, hci, _⟩ => hcs ?_⟩
    rw [(key i hi).1 hci]
    exact hi

end MaRC.Projection
