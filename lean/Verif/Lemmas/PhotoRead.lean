import Verif.Props.Bilinear
import Verif.Props.SourceValues

/-! # What reading a photo gives, whichever way it ends -/

namespace MaRC.Photo

variable {C : Type}

/-- A point is seen at some position in a pixel that is used. -/
def SeenAt (g : Geometry C) (q : Params) (samples lines : ℕ) (pt : C) (a b : ℚ) (i k : ℕ) : Prop :=
  (g.latlon2pix pt = (true, .fin a, .fin b) ∧
    (i : ℚ) ≤ a ∧ a < i + 1 ∧ (k : ℚ) ≤ b ∧ b < k + 1) ∧
  q.nibbleLeft ≤ i ∧ i + q.nibbleRight < samples ∧
  q.nibbleTop ≤ k ∧ k + q.nibbleBottom < lines ∧ (q.removeSky = true → g.onBody i k = true)

/-- A point that is seen: the read depends on the interpolation alone. -/
theorem read_seen {image : List Dbl} {samples lines : ℕ} {c : Params}
    {g : Geometry C} {p : Img C} (h : Built image samples lines c g p)
    (hc : c.correct = nullCorrect)
    {loc : C} {data weight : Dbl} {scan : Bool} (hdata : data ≠ .nan) {a b : ℚ} {i k : ℕ}
    (hs : SeenAt g c samples lines loc a b i k) {v : Dbl} (hv : image[k * samples + i]? = some v) :
    readWeighted p loc data weight scan = (c.interpolate image (.fin a) (.fin b) v).bind fun r =>
      if !r.1 || r.2.isNaN then .ok (false, r.2, weight)
      else if scan then (dataWeight p i k).bind fun w => .ok (true, r.2, .fin w)
      else .ok (true, r.2, weight) := by
  obtain ⟨⟨hg, ha, ha', hb, hb'⟩, h1, h2, h3, h4, h5⟩ := hs
  have hr' := h.nibbleRight
  have hb'' := h.nibbleBottom
  have hmem := h.memory
  obtain ⟨hp, hs2, hl2, hlen, hs, hl⟩ := h.facts
  have fa : ⌊a⌋.toNat = i := by
    have : ⌊a⌋ = (i : ℤ) := by rw [Int.floor_eq_iff]; push_cast; exact ⟨ha, ha'⟩
    rw [this]; rfl
  have fb : ⌊b⌋.toNat = k := by
    have : ⌊b⌋ = (k : ℤ) := by rw [Int.floor_eq_iff]; push_cast; exact ⟨hb, hb'⟩
    rw [this]; rfl
  have ha0 : 0 ≤ a := le_trans (by positivity) ha
  have hb0 : 0 ≤ b := le_trans (by positivity) hb
  have hi' : i < samples := by omega
  have hk' : k < lines := by omega
  have hidx := index_lt hi' hk'
  have ha2 : a < 2 ^ 64 := by
    refine ha'.trans_le ?_
    exact_mod_cast (by omega : i + 1 ≤ 2 ^ 64)
  have hb2 : b < 2 ^ 64 := by
    refine hb'.trans_le ?_
    exact_mod_cast (by omega : k + 1 ≤ 2 ^ 64)
  have hd : data.isNaN = false := by cases data <;> simp_all [Dbl.isNaN]
  have hsky : (if (if c.removeSky then g.bodyMask samples lines else []).isEmpty
        then Outcome.ok false else do
        let m ← arrayAt (if c.removeSky then g.bodyMask samples lines else [])
          (k * samples + i)
        .ok (!m)) = .ok false := by
    cases hcs : c.removeSky with
    | false => rfl
    | true =>
      simp only [if_true]
      have hget := bodyMask_get g hi' hk'
      split
      · rfl
      · unfold arrayAt
        rw [hget, h5 hcs]; rfl
  have hx : Dbl.lt (.fin a) (.fin 0) = false := by simp [Dbl.lt, ha0]
  have hz : Dbl.lt (.fin b) (.fin 0) = false := by simp [Dbl.lt, hb0]
  have hat : arrayAt image (k * samples + i) = .ok v := by unfold arrayAt; rw [hv]
  unfold readWeighted
  subst hp
  simp only [hg, hx, hz, castSize_floor ha0 ha2, castSize_floor hb0 hb2, Outcome.bind_ok, fa, fb]
  simp only [Bool.not_true, Bool.or_false, Bool.false_eq_true, if_false]
  rw [if_neg (by omega), szMul_eq (by omega), szAdd_eq (by omega), hsky, hat, hc]
  simp only [Outcome.bind_ok, Bool.false_or, hd, Bool.false_eq_true, if_false]
  cases c.interpolate image (.fin a) (.fin b) v with
  | throw e => rfl
  | ub => rfl
  | ok r =>
    obtain ⟨ok1, d1⟩ := r
    cases ok1 with
    | false => rfl
    | true => rfl

/-- A point that is not seen is not read. -/
theorem read_unseen {image : List Dbl} {samples lines : ℕ} {c : Params}
    {g : Geometry C} {p : Img C} (h : Built image samples lines c g p)
    {loc : C} {data weight : Dbl} {scan : Bool} (hdata : data ≠ .nan)
    (hs : ∀ a b i k, ¬ SeenAt g c samples lines loc a b i k) {r : Bool × Dbl × Dbl}
    (hr : readWeighted p loc data weight scan = .ok r) : r = (false, data, weight) := by
  have hr' := h.nibbleRight
  have hb' := h.nibbleBottom
  have hmem := h.memory
  obtain ⟨hp, hs2, hl2, hlen, hs', hl⟩ := h.facts
  have hd : data.isNaN = false := by cases data <;> simp_all [Dbl.isNaN]
  have hps : p.samples = samples := by rw [hp]
  have hpr : p.right = samples - c.nibbleRight := by rw [hp]
  have hpb : p.bottom = lines - c.nibbleBottom := by rw [hp]
  have hpt : p.top = c.nibbleTop := by rw [hp]
  have hpl : p.left = c.nibbleLeft := by rw [hp]
  have hpg : p.geometry = g := by rw [hp]
  have hpm : p.mask = if c.removeSky then g.bodyMask samples lines else [] := by rw [hp]
  unfold readWeighted at hr
  rw [hpg] at hr
  rcases hxz : g.latlon2pix loc with ⟨ok, x, z⟩
  rw [hxz] at hr
  simp only at hr
  split at hr
  · cases hr; rfl
  rename_i hcond
  simp only [Bool.or_eq_true, Bool.not_eq_true', not_or, Bool.not_eq_true, Bool.not_eq_false]
    at hcond
  obtain ⟨⟨hok, hx⟩, hz⟩ := hcond
  subst hok
  cases hci : castSize x.floor with
  | throw e => rw [hci] at hr; cases hr
  | ub => rw [hci] at hr; cases hr
  | ok i =>
  cases hck : castSize z.floor with
  | throw e => rw [hci, hck] at hr; cases hr
  | ub => rw [hci, hck] at hr; cases hr
  | ok k =>
  rw [hci, hck] at hr
  simp only [Outcome.bind_ok] at hr
  have hxi : ∀ {x : Dbl} {i : ℕ}, x.lt (.fin 0) = false → castSize x.floor = .ok i →
      ∃ a : ℚ, x = .fin a ∧ (i : ℚ) ≤ a ∧ a < i + 1 := by
    intro x i hx hci
    obtain ⟨q, hq, hq1, hq2, -⟩ := castSize_ok hci
    cases x with
    | fin a =>
      have ha0 : 0 ≤ a := by simpa [Dbl.lt] using hx
      simp only [Dbl.floor, Dbl.fin.injEq] at hq
      subst hq
      have : (0:ℚ) ≤ (⌊a⌋ : ℚ) := by exact_mod_cast Int.floor_nonneg.mpr ha0
      simp only [truncQ, this, if_true, Int.floor_intCast] at hq2
      have e1 : ((i : ℕ) : ℚ) = (⌊a⌋ : ℚ) := by
        have : (i : ℤ) = ⌊a⌋ := by have := Int.floor_nonneg.mpr ha0; omega
        exact_mod_cast this
      exact ⟨a, rfl, by rw [e1]; exact Int.floor_le a, by rw [e1]; exact Int.lt_floor_add_one a⟩
    | _ => simp [Dbl.floor] at hq
  obtain ⟨a, rfl, ha, ha'⟩ := hxi hx hci
  obtain ⟨b, rfl, hb1, hb2⟩ := hxi hz hck
  split at hr
  · cases hr; rfl
  rename_i hin
  have hi : i < samples := by omega
  have hk : k < lines := by omega
  have hidx := index_lt hi hk
  rw [hps, szMul_eq (by omega), szAdd_eq (by omega)] at hr
  have hsky : (if p.mask.isEmpty then Outcome.ok false else do
        let m ← arrayAt p.mask (k * samples + i)
        .ok (!m)) = .ok (c.removeSky && !g.onBody i k) := by
    rw [hpm]
    cases hcs : c.removeSky with
    | false => rfl
    | true =>
      simp only [if_true]
      have hl := bodyMask_length g samples lines
      have hne : (g.bodyMask samples lines).isEmpty = false := by
        cases hm : g.bodyMask samples lines with
        | nil => rw [hm] at hl; simp at hl; omega
        | cons _ _ => rfl
      have hget := bodyMask_get g hi hk
      rw [hne]
      unfold arrayAt
      rw [hget]
      rfl
  rw [hsky] at hr
  simp only [Outcome.bind_ok, hd, Bool.or_false] at hr
  split at hr
  · cases hr; rfl
  rename_i hns
  exfalso
  refine hs a b i k ⟨⟨hxz, ha, ha', hb1, hb2⟩, by omega, by omega, by omega, by omega, ?_⟩
  intro hcs
  simpa [hcs] using hns

/-- The weight of a pixel. -/
def weightOf (q : Params) (samples lines i k : ℕ) : ℕ :=
  if q.removeSky then 0 else min i (min (samples - i) (min k (lines - k)))

theorem seen_unique {g : Geometry C} {q : Params} {samples lines : ℕ} {pt : C} {a b a' b' : ℚ}
    {i k i' k' : ℕ} (h : SeenAt g q samples lines pt a b i k)
    (h' : SeenAt g q samples lines pt a' b' i' k') : a = a' ∧ b = b' ∧ i = i' ∧ k = k' := by
  obtain ⟨⟨hg, ha, ha', hb, hb'⟩, -⟩ := h
  obtain ⟨⟨hg2, q1, q2, q3, q4⟩, -⟩ := h'
  rw [hg] at hg2
  simp only [Prod.mk.injEq, Dbl.fin.injEq, true_and] at hg2
  obtain ⟨rfl, rfl⟩ := hg2
  refine ⟨rfl, rfl, ?_, ?_⟩
  · have h3 : (i : ℚ) < i' + 1 := lt_of_le_of_lt ha q2
    have h4 : (i' : ℚ) < i + 1 := lt_of_le_of_lt q1 ha'
    have h3 : i < i' + 1 := by exact_mod_cast h3
    have h4 : i' < i + 1 := by exact_mod_cast h4
    omega
  · have h3 : (k : ℚ) < k' + 1 := lt_of_le_of_lt hb q4
    have h4 : (k' : ℚ) < k + 1 := lt_of_le_of_lt q3 hb'
    have h3 : k < k' + 1 := by exact_mod_cast h3
    have h4 : k' < k + 1 := by exact_mod_cast h4
    omega

/-- The weight that a successful read gives. -/
theorem read_weight {image : List Dbl} {samples lines : ℕ} {c : Params}
    {g : Geometry C} {p : Img C} (h : Built image samples lines c g p)
    {loc : C} {data weight d w : Dbl} {a b : ℚ} {i k : ℕ}
    (hs : SeenAt g c samples lines loc a b i k)
    (hr : readWeighted p loc data weight true = .ok (true, d, w)) :
    w = .fin (weightOf c samples lines i k) := by
  unfold weightOf
  cases hsky : c.removeSky with
  | true => rw [C27_sky_violated h hsky hr]; simp
  | false =>
    obtain ⟨a', b', i', k', hg, h1, h2, h3, h4, rfl⟩ := C27_no_sky_partial h hsky hr
    have hi : i' = i ∧ k' = k := by
      obtain ⟨⟨hg3, p1, p2, p3, p4⟩, -⟩ := hs
      rw [hg] at hg3
      simp only [Prod.mk.injEq, Dbl.fin.injEq, true_and] at hg3
      obtain ⟨rfl, rfl⟩ := hg3
      constructor
      · have e1 : (i : ℚ) < i' + 1 := lt_of_le_of_lt p1 h2
        have e2 : (i' : ℚ) < i + 1 := lt_of_le_of_lt h1 p2
        have e1 : i < i' + 1 := by exact_mod_cast e1
        have e2 : i' < i + 1 := by exact_mod_cast e2
        omega
      · have e1 : (k : ℚ) < k' + 1 := lt_of_le_of_lt p3 h4
        have e2 : (k' : ℚ) < k + 1 := lt_of_le_of_lt h3 p4
        have e1 : k < k' + 1 := by exact_mod_cast e1
        have e2 : k' < k + 1 := by exact_mod_cast e2
        omega
    obtain ⟨rfl, rfl⟩ := hi
    simp

end MaRC.Photo
