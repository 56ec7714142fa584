import Verif.Model.Compositing
import Verif.Lemmas.DblOrder
import Mathlib.Algebra.BigOperators.Group.List.Basic
import Mathlib.Algebra.Order.BigOperators.Group.List
import Mathlib.Tactic.FieldSimp
import Mathlib.Tactic.Ring

/-!
# C21, C22, C23: compositing
-/

namespace MaRC.Compositing

/-! ## C21 -/

/-- Specification: all images of the list fail to read, the shared variable
going from `x` to `y`. -/
inductive AllFail : List Image → Dbl → Dbl → Prop
  | nil (x) : AllFail [] x x
  | cons {i is x y z} : i x = .ok (false, y) → AllFail is y z → AllFail (i :: is) x z

/-- C21: first-read succeeds exactly with the datum of the earliest image whose
read succeeds, and reports no datum exactly when every read fails. -/
theorem C21_first_read (images : List Image) (x d : Dbl) :
    (mosaicRead (firstRead images) x = .ok (true, d) ↔
      ∃ pre i post y, images = pre ++ i :: post ∧ AllFail pre x y ∧ i y = .ok (true, d)) ∧
    (mosaicRead (firstRead images) x = .ok (false, d) ↔ AllFail images x d) := by
  induction images generalizing x with
  | nil =>
    constructor
    · constructor
      · intro h; simp [mosaicRead, firstRead] at h
      · rintro ⟨pre, i, post, y, h, -⟩; simp at h
    · constructor
      · intro h
        simp [mosaicRead, firstRead] at h
        subst h; exact .nil _
      · intro h; cases h; rfl
  | cons i is ih =>
    cases hi : i x with
    | throw e =>
      have h0 : mosaicRead (firstRead (i :: is)) x = .throw e := by
        simp [mosaicRead, firstRead, hi]
      rw [h0]
      refine ⟨⟨fun h => by simp at h, ?_⟩, ⟨fun h => by simp at h, ?_⟩⟩
      · rintro ⟨pre, j, post, y, h, hf, hj⟩
        cases hf with
        | nil => simp at h; rw [← h.1, hi] at hj; cases hj
        | cons h1 _ => simp at h; rw [← h.1, hi] at h1; cases h1
      · intro h; cases h with | cons h1 _ => rw [hi] at h1; cases h1
    | ub =>
      have h0 : mosaicRead (firstRead (i :: is)) x = .ub := by
        simp [mosaicRead, firstRead, hi]
      rw [h0]
      refine ⟨⟨fun h => by simp at h, ?_⟩, ⟨fun h => by simp at h, ?_⟩⟩
      · rintro ⟨pre, j, post, y, h, hf, hj⟩
        cases hf with
        | nil => simp at h; rw [← h.1, hi] at hj; cases hj
        | cons h1 _ => simp at h; rw [← h.1, hi] at h1; cases h1
      · intro h; cases h with | cons h1 _ => rw [hi] at h1; cases h1
    | ok r =>
      obtain ⟨found, y⟩ := r
      cases found with
      | true =>
        have h0 : mosaicRead (firstRead (i :: is)) x = .ok (true, y) := by
          simp [mosaicRead, firstRead, hi]
        rw [h0]
        refine ⟨⟨fun h => ?_, ?_⟩, ⟨fun h => by simp at h, ?_⟩⟩
        · simp at h; subst h
          exact ⟨[], i, is, x, rfl, .nil _, hi⟩
        · rintro ⟨pre, j, post, y', h, hf, hj⟩
          cases hf with
          | nil => simp at h; rw [← h.1, hi] at hj; exact hj
          | cons h1 _ => simp at h; rw [← h.1, hi] at h1; cases h1
        · intro h; cases h with | cons h1 _ => rw [hi] at h1; cases h1
      | false =>
        have h0 : mosaicRead (firstRead (i :: is)) x = mosaicRead (firstRead is) y := by
          simp [mosaicRead, firstRead, hi]
        rw [h0, (ih y).1, (ih y).2]
        constructor
        · constructor
          · rintro ⟨pre, j, post, z, rfl, hf, hj⟩
            exact ⟨i :: pre, j, post, z, rfl, .cons hi hf, hj⟩
          · rintro ⟨pre, j, post, z, h, hf, hj⟩
            cases hf with
            | nil => simp at h; rw [← h.1, hi] at hj; cases hj
            | @cons i' is' _ y' _ h1 hf' =>
              simp at h
              rw [← h.1, hi] at h1
              cases h1
              exact ⟨is', j, post, z, h.2, hf', hj⟩
        · constructor
          · intro h; exact .cons hi h
          · intro h
            cases h with
            | cons h1 hf' => rw [hi] at h1; cases h1; exact hf'

/-- C21: images after the first successful one are not consulted; they may even
throw. -/
theorem C21_later_not_consulted (pre : List Image) (i : Image) (post post' : List Image)
    (x y d : Dbl) (hf : AllFail pre x y) (hi : i y = .ok (true, d)) :
    mosaicRead (firstRead (pre ++ i :: post)) x = mosaicRead (firstRead (pre ++ i :: post')) x := by
  rw [(C21_first_read _ x d).1.mpr ⟨pre, i, post, y, rfl, hf, hi⟩,
    (C21_first_read _ x d).1.mpr ⟨pre, i, post', y, rfl, hf, hi⟩]

example : mosaicRead (firstRead [fun x => .ok (false, x), fun _ => .ok (true, .fin 5),
    fun _ => .throw .runtimeError]) .nan = .ok (true, .fin 5) := by decide

/-! ## C22 -/

/-- What reading an image yields at the location, whatever the shared variable
held: a datum, or a failure (which may leave anything in the variable). -/
def Yields (i : Image) : Option Dbl → Prop
  | some d => ∀ x, i x = .ok (true, d)
  | none => ∀ x, ∃ y, i x = .ok (false, y)

/-- A failing read leaves the caller's variable alone. -/
def Polite (i : Image) : Prop := ∀ x y, i x = .ok (false, y) → y = x

/-- `List.Forall₂ Yields images rs`: the `k`-th image yields the `k`-th result.
The successful data, in order: -/
def good (rs : List (Option Dbl)) : List Dbl := rs.filterMap id

theorem sumLoop_eq (L : Fp) : ∀ (images : List Image) (rs : List (Option Dbl)),
    List.Forall₂ Yields images rs → ∀ sum n x, ∃ y,
      sumLoop L images (sum, n, x) =
        .ok ((good rs).foldl L.add sum, n + (good rs).length, y) ∧
      ((∀ i ∈ images, Polite i) → y = ((good rs).getLast?).getD x) := by
  intro images rs h
  induction h with
  | nil => intro sum n x; exact ⟨x, rfl, fun _ => rfl⟩
  | @cons i r is rs hy _ ih =>
    intro sum n x
    cases r with
    | some d =>
      have hi : i x = .ok (true, d) := hy x
      obtain ⟨y, h1, h2⟩ := ih (L.add sum d) (n + 1) d
      refine ⟨y, ?_, ?_⟩
      · simp only [sumLoop, hi, Outcome.bind_ok, if_true, h1]
        simp [good]; omega
      · intro hp
        rw [h2 (fun i hi => hp i (by simp [hi]))]
        simp [good, List.getLast?_cons]
    | none =>
      obtain ⟨z, hi⟩ := hy x
      obtain ⟨y, h1, h2⟩ := ih sum n z
      refine ⟨y, ?_, ?_⟩
      · simp only [sumLoop, hi, Outcome.bind_ok, Bool.false_eq_true, if_false, h1]
        simp [good]
      · intro hp
        rw [h2 (fun i hi => hp i (by simp [hi]))]
        have : z = x := hp i (by simp) x z hi
        subst this
        simp [good]

/-- C22: for any arithmetic, with two or more successful reads the composited
datum is their sum divided by their number; failing images have no influence. -/
theorem C22_mean (L F : Fp) (images : List Image) (rs : List (Option Dbl))
    (h : List.Forall₂ Yields images rs) (h2 : 2 ≤ (good rs).length) (x : Dbl) :
    mosaicRead (unweighted L F images) x =
      .ok (true, narrow F (L.div ((good rs).foldl L.add (.fin 0)) (.fin (good rs).length))) := by
  obtain ⟨y, h1, -⟩ := sumLoop_eq L images rs h (.fin 0) 0 x
  unfold mosaicRead unweighted
  rw [h1]
  simp only [Outcome.bind_ok, Nat.zero_add]
  rw [if_pos (by omega)]
  simp only [Outcome.bind_ok, Outcome.ok.injEq, Prod.mk.injEq, decide_eq_true_eq, and_true]
  omega

theorem foldl_add_exact (l : List ℚ) : ∀ s : ℚ,
    (l.map Dbl.fin).foldl Fp.exact.add (.fin s) = .fin (s + l.sum) := by
  induction l with
  | nil => intro s; simp
  | cons a t ih =>
    intro s
    rw [List.map_cons, List.foldl_cons]
    show (t.map Dbl.fin).foldl Fp.exact.add (.fin (s + a)) = _
    rw [ih, List.sum_cons]; ring_nf

theorem sum_bounds (l : List ℚ) (lo hi : ℚ) (h : ∀ q ∈ l, lo ≤ q ∧ q ≤ hi) :
    lo * l.length ≤ l.sum ∧ l.sum ≤ hi * l.length := by
  induction l with
  | nil => simp
  | cons a t ih =>
    have := ih (fun q hq => h q (by simp [hq]))
    have ha := h a (by simp)
    simp only [List.sum_cons, List.length_cons]
    push_cast
    constructor <;> nlinarith [this.1, this.2, ha.1, ha.2]

/-- C22 in exact arithmetic: the datum is the arithmetic mean of the finite
data read, and lies between any bounds of the data. -/
theorem C22_mean_exact (images : List Image) (rs : List (Option Dbl))
    (h : List.Forall₂ Yields images rs) (qs : List ℚ) (hq : good rs = qs.map Dbl.fin)
    (h2 : 2 ≤ qs.length) (x : Dbl) :
    mosaicRead (unweighted Fp.exact Fp.exact images) x = .ok (true, .fin (qs.sum / qs.length)) ∧
    ∀ lo hi, (∀ q ∈ qs, lo ≤ q ∧ q ≤ hi) →
      lo ≤ qs.sum / qs.length ∧ qs.sum / qs.length ≤ hi := by
  have hpos : (0 : ℚ) < qs.length := by exact_mod_cast (by omega : 0 < qs.length)
  constructor
  · rw [C22_mean _ _ images rs h (by rw [hq]; simpa using h2) x, hq, foldl_add_exact,
      List.length_map]
    simp only [Fp.div, if_neg hpos.ne', zero_add]
    rfl
  · intro lo hi hb
    obtain ⟨h1, h3⟩ := sum_bounds qs lo hi hb
    exact ⟨by rw [le_div_iff₀ hpos]; exact h1, by rw [div_le_iff₀ hpos]; exact h3⟩

/-- C22: the read succeeds exactly when at least one image's read does. -/
theorem C22_success (L F : Fp) (images : List Image) (rs : List (Option Dbl))
    (h : List.Forall₂ Yields images rs) (x : Dbl) :
    ∃ found d, mosaicRead (unweighted L F images) x = .ok (found, d) ∧
      (found = true ↔ ∃ d, some d ∈ rs) := by
  obtain ⟨y, h1, -⟩ := sumLoop_eq L images rs h (.fin 0) 0 x
  have hg : (0 < (good rs).length) ↔ ∃ d, some d ∈ rs := by
    rw [List.length_pos_iff_exists_mem]
    simp [good, List.mem_filterMap]
  unfold mosaicRead unweighted
  rw [h1]
  simp only [Outcome.bind_ok, Nat.zero_add]
  by_cases hc : (good rs).length > 1
  · rw [if_pos hc]
    exact ⟨_, _, rfl, by simpa using hg⟩
  · rw [if_neg hc]
    exact ⟨_, _, rfl, by simpa using hg⟩

/-- C22, exactly one successful read: the datum is that read's, provided failing
reads leave the variable alone.  Missing: without that proviso the property is
false (`C22_single_violated`). -/
theorem C22_single_partial (L F : Fp) (images : List Image) (rs : List (Option Dbl))
    (h : List.Forall₂ Yields images rs) (hp : ∀ i ∈ images, Polite i) (d : Dbl)
    (h1 : good rs = [d]) (x : Dbl) :
    mosaicRead (unweighted L F images) x = .ok (true, d) := by
  obtain ⟨y, he, hy⟩ := sumLoop_eq L images rs h (.fin 0) 0 x
  unfold mosaicRead unweighted
  rw [he, h1]
  simp [hy hp, h1]

/-- With one successful read, a later failing read that writes to the output
variable replaces the datum, and the read is still reported successful. -/
theorem C22_single_violated (L F : Fp) (good bad : Dbl) (x : Dbl) :
    mosaicRead (unweighted L F
      [fun _ => .ok (true, good), fun _ => .ok (false, bad)]) x = .ok (true, bad) := rfl

example : mosaicRead (unweighted Fp.exact Fp.exact
    [fun _ => .ok (true, .fin 1), fun x => .ok (false, x), fun _ => .ok (true, .fin 4)]) .nan =
    .ok (true, .fin (5 / 2)) := by decide +kernel

/-! ## C23 -/

/-- What reading a weighted image yields, whatever the variables held: a datum
and a weight, or a failure. -/
def WYields (i : WImage) : Option (Dbl × Dbl) → Prop
  | some (d, w) => ∀ x w0, i x w0 = .ok (true, d, w)
  | none => ∀ x w0, ∃ y w', i x w0 = .ok (false, y, w')

/-- The successful data and weights, in order. -/
def wgood (rs : List (Option (Dbl × Dbl))) : List (Dbl × Dbl) := rs.filterMap id

def WPolite (i : WImage) : Prop := ∀ x w0 y w', i x w0 = .ok (false, y, w') → y = x

theorem wsumLoop_eq (L F : Fp) : ∀ (images : List WImage) (rs : List (Option (Dbl × Dbl))),
    List.Forall₂ WYields images rs → ∀ a b n x, ∃ y,
      wsumLoop L F images (a, b, n, x) =
        .ok ((wgood rs).foldl (fun s p => L.add s (F.mul p.2 p.1)) a,
          (wgood rs).foldl (fun s p => L.add s p.2) b, n + (wgood rs).length, y) ∧
      ((∀ i ∈ images, WPolite i) → y = (((wgood rs).map Prod.fst).getLast?).getD x) := by
  intro images rs h
  induction h with
  | nil => intro a b n x; exact ⟨x, rfl, fun _ => rfl⟩
  | @cons i r is rs hy _ ih =>
    intro a b n x
    cases r with
    | some p =>
      obtain ⟨d, w⟩ := p
      have hi : i x (.fin 1) = .ok (true, d, w) := hy x _
      obtain ⟨y, h1, h2⟩ := ih (L.add a (F.mul w d)) (L.add b w) (n + 1) d
      refine ⟨y, ?_, ?_⟩
      · simp only [wsumLoop, hi, Outcome.bind_ok, if_true, h1]
        simp [wgood]; omega
      · intro hp
        rw [h2 (fun i hi => hp i (by simp [hi]))]
        simp [wgood, List.getLast?_cons]
    | none =>
      obtain ⟨z, w', hi⟩ := hy x (.fin 1)
      obtain ⟨y, h1, h2⟩ := ih a b n z
      refine ⟨y, ?_, ?_⟩
      · simp only [wsumLoop, hi, Outcome.bind_ok, Bool.false_eq_true, if_false, h1]
        simp [wgood]
      · intro hp
        rw [h2 (fun i hi => hp i (by simp [hi]))]
        have : z = x := hp i (by simp) x _ z w' hi
        subst this
        simp [wgood]

/-- C23: for any arithmetic, with two or more successful reads and a positive
sum of weights, the composited datum is the weighted sum over the sum of
weights; failing images have no influence. -/
theorem C23_weighted_mean (L F : Fp) (images : List WImage) (rs : List (Option (Dbl × Dbl)))
    (h : List.Forall₂ WYields images rs) (h2 : 2 ≤ (wgood rs).length)
    (hw : (Dbl.fin 0).lt ((wgood rs).foldl (fun s p => L.add s p.2) (.fin 0)) = true) (x : Dbl) :
    mosaicRead (weighted L F images) x =
      .ok (true, narrow F (L.div ((wgood rs).foldl (fun s p => L.add s (F.mul p.2 p.1)) (.fin 0))
        ((wgood rs).foldl (fun s p => L.add s p.2) (.fin 0)))) := by
  obtain ⟨y, h1, -⟩ := wsumLoop_eq L F images rs h (.fin 0) (.fin 0) 0 x
  unfold mosaicRead weighted
  rw [h1]
  simp only [Outcome.bind_ok, Nat.zero_add]
  rw [if_pos (by simp [Dbl.gt, hw]; omega)]
  simp only [Outcome.bind_ok, Outcome.ok.injEq, Prod.mk.injEq, decide_eq_true_eq, and_true]
  omega

/-- Weighted sum and sum of weights of exact data. -/
def wdSum (ps : List (ℚ × ℚ)) : ℚ := (ps.map fun p => p.2 * p.1).sum
def wSum (ps : List (ℚ × ℚ)) : ℚ := (ps.map Prod.snd).sum

/-- Data and weights as `double`s. -/
def toDbl (ps : List (ℚ × ℚ)) : List (Dbl × Dbl) := ps.map fun p => (.fin p.1, .fin p.2)

theorem wfold_exact (ps : List (ℚ × ℚ)) : ∀ a b : ℚ,
    (toDbl ps).foldl (fun s p => Fp.exact.add s (Fp.exact.mul p.2 p.1)) (.fin a) =
      .fin (a + wdSum ps) ∧
    (toDbl ps).foldl (fun s p => Fp.exact.add s p.2) (.fin b) = .fin (b + wSum ps) := by
  induction ps with
  | nil => intro a b; simp [toDbl, wdSum, wSum]
  | cons p t ih =>
    intro a b
    have := ih (a + p.2 * p.1) (b + p.2)
    constructor
    · show (toDbl t).foldl (fun s p => Fp.exact.add s (Fp.exact.mul p.2 p.1))
        (.fin (a + p.2 * p.1)) = _
      rw [this.1]; simp [wdSum, List.sum_cons]; ring
    · show (toDbl t).foldl (fun s p => Fp.exact.add s p.2) (.fin (b + p.2)) = _
      rw [this.2]; simp [wSum, List.sum_cons]; ring

theorem wsum_bounds (ps : List (ℚ × ℚ)) (lo hi : ℚ)
    (h : ∀ p ∈ ps, 0 ≤ p.2 ∧ (p.2 ≠ 0 → lo ≤ p.1 ∧ p.1 ≤ hi)) :
    lo * wSum ps ≤ wdSum ps ∧ wdSum ps ≤ hi * wSum ps := by
  induction ps with
  | nil => simp [wSum, wdSum]
  | cons a t ih =>
    have := ih (fun q hq => h q (by simp [hq]))
    obtain ⟨h0, hb⟩ := h a (by simp)
    simp only [wSum, wdSum, List.map_cons, List.sum_cons] at this ⊢
    by_cases hz : a.2 = 0
    · rw [hz]; simp only [zero_mul, zero_add]; exact this
    · obtain ⟨b1, b2⟩ := hb hz
      constructor <;> nlinarith [this.1, this.2, mul_le_mul_of_nonneg_left b1 h0,
        mul_le_mul_of_nonneg_left b2 h0]

/-- C23 in exact arithmetic: weighted mean, bounded by the data that have
positive weight. -/
theorem C23_weighted_mean_exact (images : List WImage) (rs : List (Option (Dbl × Dbl)))
    (h : List.Forall₂ WYields images rs) (ps : List (ℚ × ℚ)) (hq : wgood rs = toDbl ps)
    (h2 : 2 ≤ ps.length) (hw : 0 < wSum ps) (x : Dbl) :
    mosaicRead (weighted Fp.exact Fp.exact images) x =
      .ok (true, .fin (wdSum ps / wSum ps)) ∧
    ∀ lo hi, (∀ p ∈ ps, 0 ≤ p.2 ∧ (p.2 ≠ 0 → lo ≤ p.1 ∧ p.1 ≤ hi)) →
      lo ≤ wdSum ps / wSum ps ∧ wdSum ps / wSum ps ≤ hi := by
  have e := wfold_exact ps 0 0
  simp only [zero_add] at e
  constructor
  · rw [C23_weighted_mean _ _ images rs h (by rw [hq]; simpa [toDbl] using h2)
      (by rw [hq, e.2]; simpa using hw) x, hq, e.1, e.2]
    simp only [Fp.div, if_neg hw.ne']
    rfl
  · intro lo hi hb
    obtain ⟨h1, h3⟩ := wsum_bounds ps lo hi hb
    exact ⟨by rw [le_div_iff₀ hw]; exact h1, by rw [div_le_iff₀ hw]; exact h3⟩

/-- C23: equal positive weights give the unweighted mean. -/
theorem C23_equal_weights (qs : List ℚ) (w : ℚ) (hw : 0 < w) :
    wdSum (qs.map fun q => (q, w)) / wSum (qs.map fun q => (q, w)) = qs.sum / qs.length := by
  have h1 : wdSum (qs.map fun q => (q, w)) = w * qs.sum := by
    induction qs with
    | nil => simp [wdSum]
    | cons a t ih =>
      simp only [wdSum, List.map_cons, List.sum_cons] at ih ⊢
      rw [ih]; ring
  have h2 : wSum (qs.map fun q => (q, w)) = w * qs.length := by
    clear h1
    induction qs with
    | nil => simp [wSum]
    | cons a t ih =>
      simp only [wSum, List.map_cons, List.sum_cons, List.length_cons] at ih ⊢
      rw [ih]; push_cast; ring
  rw [h1, h2, mul_div_mul_left _ _ hw.ne']

/-- C23: an image of zero weight has no influence. -/
theorem C23_zero_weight_ignored (pre post : List (ℚ × ℚ)) (d : ℚ) :
    wdSum (pre ++ (d, 0) :: post) = wdSum (pre ++ post) ∧
    wSum (pre ++ (d, 0) :: post) = wSum (pre ++ post) := by
  simp [wdSum, wSum]

/-- C23, when every weight is zero: no averaging takes place; the datum is that
of the last successful read (if failing reads leave the variable alone). -/
theorem C23_zero_weights_last (L F : Fp) (images : List WImage)
    (rs : List (Option (Dbl × Dbl))) (h : List.Forall₂ WYields images rs)
    (hp : ∀ i ∈ images, WPolite i)
    (hw : (Dbl.fin 0).lt ((wgood rs).foldl (fun s p => L.add s p.2) (.fin 0)) = false)
    (d w : Dbl) (hl : (wgood rs).getLast? = some (d, w)) (x : Dbl) :
    mosaicRead (weighted L F images) x = .ok (true, d) := by
  obtain ⟨y, h1, hy⟩ := wsumLoop_eq L F images rs h (.fin 0) (.fin 0) 0 x
  have hne : wgood rs ≠ [] := by rintro h0; rw [h0] at hl; simp at hl
  have hpos := List.length_pos_of_ne_nil hne
  unfold mosaicRead weighted
  rw [h1]
  simp only [Outcome.bind_ok, Nat.zero_add]
  rw [if_neg (by simp [Dbl.gt, hw])]
  rw [hy hp, List.getLast?_map, hl]
  simp only [Outcome.bind_ok, Option.map_some, Option.getD_some, Outcome.ok.injEq, Prod.mk.injEq,
    decide_eq_true_eq, and_true]
  omega

example : mosaicRead (weighted Fp.exact Fp.exact
    [fun _ _ => .ok (true, .fin 1, .fin 3), fun x w => .ok (false, x, w),
     fun _ _ => .ok (true, .fin 5, .fin 1)]) .nan = .ok (true, .fin 2) := by decide +kernel

end MaRC.Compositing
