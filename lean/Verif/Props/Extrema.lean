import Verif.Lemmas.Extrema
import Verif.Lemmas.MapType

/-!
# C03, C04, C05: extrema
-/

namespace MaRC.Extrema

open MaRC Dbl

/-- C03: after any non-empty sequence of non-NaN data, the tracked minimum and
maximum are the least and the greatest of the data, and the object reports
itself valid. -/
theorem C03_history (l : List Dbl) (hne : l ≠ []) (hnan : ∀ d ∈ l, d.isNaN = false) :
    ∃ m M, l.foldl update empty = ⟨some m, some M⟩ ∧ IsMinOf m l ∧ IsMaxOf M l ∧
      (l.foldl update empty).isValid = true := by
  have h := tracks_foldl l [] empty (by simp) hnan (Or.inl ⟨rfl, rfl⟩)
  rcases h with ⟨h, -⟩ | ⟨m, M, he, hm, hM⟩
  · exact absurd (by simpa using h) hne
  · refine ⟨m, M, he, by simpa using hm, by simpa using hM, ?_⟩
    rw [he]
    exact hM.2 m hm.1

/-- C03: with no data seen, nothing is reported and the object is invalid. -/
theorem C03_no_data :
    (([] : List Dbl).foldl update empty) = ⟨none, none⟩ ∧
    (([] : List Dbl).foldl update empty).isValid = false := ⟨rfl, rfl⟩

/-- C03: the order in which the data arrive does not matter. -/
theorem C03_order_irrelevant (l l' : List Dbl) (hp : l.Perm l')
    (hnan : ∀ d ∈ l, d.isNaN = false) :
    l.foldl update empty = l'.foldl update empty := by
  have h := tracks_foldl l [] empty (by simp) hnan (Or.inl ⟨rfl, rfl⟩)
  have h' := tracks_foldl l' [] empty (by simp)
    (fun d hd => hnan d (hp.mem_iff.mpr hd)) (Or.inl ⟨rfl, rfl⟩)
  rw [List.nil_append] at h h'
  refine tracks_unique (l := l) h ?_
  rcases h' with ⟨h1, h2⟩ | ⟨m, M, he, hm, hM⟩
  · left; exact ⟨by rw [h1] at hp; exact List.perm_nil.mp hp, h2⟩
  · right
    exact ⟨m, M, he, ⟨hp.mem_iff.mpr hm.1, fun d hd => hm.2 d (hp.mem_iff.mp hd)⟩,
      ⟨hp.mem_iff.mpr hM.1, fun d hd => hM.2 d (hp.mem_iff.mp hd)⟩⟩

example : ∃ m M, [Dbl.fin 3, .fin (-1), .ninf, .fin 7].foldl update empty =
    ⟨some m, some M⟩ ∧ m = .ninf ∧ M = .fin 7 := ⟨_, _, by decide, rfl, rfl⟩

/-- The NaN hypothesis of C03 is needed: a NaN that arrives first is kept as
both extrema whatever follows. -/
theorem C03_nan_first_sticks (l : List Dbl) :
    (Dbl.nan :: l).foldl update empty = ⟨some .nan, some .nan⟩ := by
  rw [List.foldl_cons, update_none]
  induction l with
  | nil => rfl
  | cons d t ih =>
    rw [List.foldl_cons, update_some]
    have h1 : d.lt .nan = false := by cases d <;> rfl
    have h2 : d.gt .nan = false := rfl
    rw [h1, h2]
    exact ih

/-! ## C04 -/

/-- Specification of C04: the smaller of two optional values, absent values
not counting. -/
def optMin : Option Dbl → Option Dbl → Option Dbl
  | none, b => b
  | a, none => a
  | some a, some b => some (if b.lt a then b else a)

/-- The larger of two optional values, absent values not counting. -/
def optMax : Option Dbl → Option Dbl → Option Dbl
  | none, b => b
  | a, none => a
  | some a, some b => some (if b.gt a then b else a)

/-- The full C04: merging yields the smaller minimum and the larger maximum. -/
def MergeIsUnion (this e : Extrema) : Prop :=
  (merge this e).min = optMin this.min e.min ∧ (merge this e).max = optMax this.max e.max

/-- C04, the part that holds: the maximum is always right, and the minimum is
right whenever the destination already has one (or the source has none).
Missing: the destination minimum unset while the source has one, where the
property is false (`C04_violated`). -/
theorem C04_merge_partial (this e : Extrema) :
    (merge this e).max = optMax this.max e.max ∧
    (this.min ≠ none ∨ e.min = none → (merge this e).min = optMin this.min e.min) := by
  obtain ⟨a, b⟩ := this
  obtain ⟨c, d⟩ := e
  rcases a with _ | a <;> rcases b with _ | b <;> rcases c with _ | c <;> rcases d with _ | d <;>
    simp only [merge, ltOpt, gtOpt, optMin, optMax]
  all_goals
    first
    | (by_cases h1 : c.lt a = true <;> by_cases h2 : d.gt b = true <;> simp [h1, h2])
    | (by_cases h1 : c.lt a = true <;> simp [h1])
    | (by_cases h2 : d.gt b = true <;> simp [h2])
    | simp

/-- C04 is violated exactly when the destination minimum is unset and the
source minimum is set: the minimum is then dropped, while the maximum is
taken. -/
theorem C04_violated (this e : Extrema) (m : Dbl) (h : this.min = none) (he : e.min = some m) :
    (merge this e).min = none ∧ ¬ MergeIsUnion this e := by
  have hmin : (merge this e).min = none := by
    unfold merge
    rw [he]
    simp only [h, ltOpt]
    cases e.max with
    | none => simpa using h
    | some d =>
      by_cases hg : gtOpt d this.max = true <;> simp [hg, h]
  refine ⟨hmin, fun ⟨h1, _⟩ => ?_⟩
  rw [hmin, h, he] at h1
  simp [optMin] at h1

/-- Concrete witness: merging `[1, 2]` into a fresh object loses the minimum
and keeps the maximum, so the merged object is not valid. -/
example : merge empty ⟨some (.fin 1), some (.fin 2)⟩ = ⟨none, some (.fin 2)⟩ ∧
    (merge empty ⟨some (.fin 1), some (.fin 2)⟩).isValid = false := by decide

/-- And a case inside the partial theorem. -/
example : merge ⟨some (.fin 0), some (.fin 1)⟩ ⟨some (.fin (-3)), some (.fin 5)⟩ =
    ⟨some (.fin (-3)), some (.fin 5)⟩ := by decide

/-! ## C05 -/

/-- C05: `in_range` on an object with both endpoints set accepts exactly the
numbers between them (as `double`s); NaN is never accepted. -/
theorem C05_in_range (T : MapType) (a b v : Dbl) :
    inRange T ⟨some a, some b⟩ v = true ↔
      (T.toDouble a).le v = true ∧ v.le (T.toDouble b) = true := by
  simp [inRange, geOpt, leOpt, Dbl.ge]

/-- C05: NaN is never in range, whether endpoints are set or not. -/
theorem C05_in_range_nan (T : MapType) (e : Extrema) : inRange T e .nan = false := by
  obtain ⟨a, b⟩ := e
  rcases a with _ | a <;> rcases b with _ | b <;>
    simp [inRange, geOpt, leOpt, Dbl.ge, Dbl.le]

/-- C05: construction of `double` extrema throws exactly when an argument is
NaN or the minimum exceeds the maximum; otherwise the arguments are stored. -/
theorem C05_make_double (m M : Dbl) :
    make .f64 m M =
      if m.isNaN ∨ M.isNaN ∨ M.lt m then .throw .invalidArgument
      else .ok ⟨some m, some M⟩ := by
  unfold make validateMinimum validateMaximum
  by_cases h1 : m.isNaN = true
  · simp [h1]
  · by_cases h2 : M.isNaN = true
    · simp [h1, h2, MapType.minimum]
    · have h1' : m.isNaN = false := by simpa using h1
      have h2' : M.isNaN = false := by simpa using h2
      by_cases h3 : M.lt m = true
      · have : m.le M = false := by
          by_contra hc
          have := (not_lt h2' h1').mpr (by simpa using hc)
          rw [h3] at this; exact absurd this (by simp)
        simp [h1', h2', h3, MapType.minimum, MapType.maximum, isValid, this]
      · have : m.le M = true := (not_lt h2' h1').mp (by simpa using h3)
        simp [h1', h2', h3, MapType.minimum, MapType.maximum, isValid, this]

/-- C05: for every type a NaN minimum is refused. -/
theorem C05_make_nan_min (T : MapType) (M : Dbl) :
    make T .nan M = .throw .invalidArgument := rfl

/-- Specification: a minimum clipped from below to `lo`, then truncated toward
zero. -/
def clipLow (lo : ℚ) : Dbl → Dbl
  | .fin q => .fin (truncQ (if q < lo then lo else q))
  | .ninf => .fin (truncQ lo)
  | d => d

/-- Specification: a maximum clipped from above to `hi`, then truncated toward
zero. -/
def clipHigh (hi : ℚ) : Dbl → Dbl
  | .fin q => .fin (truncQ (if hi < q then hi else q))
  | .pinf => .fin (truncQ hi)
  | d => d

/-- C05: the stored minimum of an integral typed object: clipped from below to
the type's range and truncated; a number not below the type's maximum + 1 is
undefined behaviour. -/
theorem C05_minimum_integral (T : MapType) (hT : T.isIntegral = true) (m : Dbl)
    (hm : m.isNaN = false) :
    validateMinimum T m =
      if m.lt (.fin (T.highest + 1)) then .ok (clipLow T.lowest m) else .ub := by
  have hlh : T.lowest < T.highest + 1 := by
    have := T.lowest_le_zero hT; have := T.highest_pos hT; linarith
  have h : T.minimum m = T.cast (if m.lt (.fin T.lowest) then .fin T.lowest else m) := by
    have : T.toDouble (.fin T.lowest) = .fin T.lowest := T.toDouble_lowest
    rw [← this]
    cases T <;> first | rfl | simp [MapType.isIntegral] at hT
  unfold validateMinimum
  rw [hm, h]
  cases m with
  | nan => simp [isNaN] at hm
  | ninf => simp [lt, T.cast_integral hT, clipLow, hlh]
  | pinf => simp [lt, (T.cast_integral_inf hT).1]
  | fin q =>
    by_cases hq : q < T.lowest
    · simp [lt, hq, T.cast_integral hT, clipLow, hlh, hq.trans hlh]
    · have : T.lowest - 1 < q := by linarith
      simp [lt, hq, T.cast_integral hT, clipLow, this]

/-- C05: the stored maximum for the integral types of at most 32 bits: clipped
from above to the type's range and truncated; a number not above the type's
minimum - 1 is undefined behaviour. -/
theorem C05_maximum_integral (T : MapType) (hT : T.isIntegral = true) (h64 : T ≠ .i64)
    (m : Dbl) (hm : m.isNaN = false) :
    validateMaximum T m =
      if (Dbl.fin (T.lowest - 1)).lt m then .ok (clipHigh T.highest m) else .ub := by
  have hlh : T.lowest - 1 < T.highest := by
    have := T.lowest_le_zero hT; have := T.highest_pos hT; linarith
  have h : T.maximum m = T.cast (if (Dbl.fin T.highest).lt m then .fin T.highest else m) := by
    have : T.toDouble (.fin T.highest) = .fin T.highest := T.toDouble_highest h64
    rw [← this]
    cases T <;> first | rfl | simp [MapType.isIntegral] at hT
  unfold validateMaximum
  rw [hm, h]
  cases m with
  | nan => simp [isNaN] at hm
  | ninf => simp [lt, (T.cast_integral_inf hT).2.1]
  | pinf => simp [lt, T.cast_integral hT, clipHigh, hlh]
  | fin q =>
    by_cases hq : T.highest < q
    · simp [lt, hq, T.cast_integral hT, clipHigh, hlh, hlh.trans hq]
    · have : q < T.highest + 1 := by linarith
      simp [lt, hq, T.cast_integral hT, clipHigh, this]

/-- C05 for the 64-bit integer type: `2^63 - 1` is not a `double`, so every
maximum of `2^63` or more, which should be clipped to the type's range, is
undefined behaviour. -/
theorem C05_maximum_i64_violated (m : Dbl) (hm : (Dbl.fin (2 ^ 63)).le m = true) :
    validateMaximum .i64 m = .ub := by
  have hlt : ∀ q : ℚ, 2 ^ 63 ≤ q → MapType.cast .i64 (.fin q) = .ub := by
    intro q hq
    rw [MapType.cast_integral _ rfl, if_neg]
    rintro ⟨-, h⟩
    simp only [MapType.highest] at h
    linarith
  unfold validateMaximum
  rw [notNaN_of_le_right hm]
  unfold MapType.maximum
  simp only [MapType.toDouble_highest_i64]
  cases m with
  | nan => simp [le] at hm
  | ninf => simp [le] at hm
  | pinf => exact hlt _ le_rfl
  | fin q =>
    have hq : (2 : ℚ) ^ 63 ≤ q := by simpa using hm
    simp only [lt]
    by_cases h : (2 : ℚ) ^ 63 < q
    · simp only [h, decide_true, if_true]; exact hlt _ le_rfl
    · simp only [h, decide_false]; exact hlt _ hq

/-- C05 for 64-bit integers below `2^63`: the maximum is truncated. -/
theorem C05_maximum_i64_partial (q : ℚ) (h1 : -2 ^ 63 - 1 < q) (h2 : q < 2 ^ 63) :
    validateMaximum .i64 (.fin q) = .ok (.fin (truncQ q)) := by
  unfold validateMaximum MapType.maximum
  simp only [MapType.toDouble_highest_i64, isNaN, lt, not_lt.mpr h2.le, decide_false]
  rw [if_neg (by simp), if_neg (by simp), MapType.cast_integral _ rfl, if_pos]
  exact ⟨h1, by simp only [MapType.highest]; linarith⟩

/-- C05: whenever construction succeeds, for any type, both endpoints are set
and in order. -/
theorem C05_make_ordered (T : MapType) (m M : Dbl) (e : Extrema) (h : make T m M = .ok e) :
    ∃ a b, e = ⟨some a, some b⟩ ∧ a.le b = true ∧ e.isValid = true := by
  unfold make at h
  cases ha : validateMinimum T m <;> simp [ha] at h
  rename_i a
  cases hb : validateMaximum T M <;> simp [hb] at h
  rename_i b
  split at h
  · rename_i hv
    cases h
    exact ⟨a, b, rfl, by simpa [isValid] using hv, hv⟩
  · cases h

/-- C05: construction for the integral types of at most 32 bits.  It throws
`invalid_argument` exactly when an argument is NaN or the clipped and truncated
endpoints are out of order. -/
theorem C05_make_integral (T : MapType) (hT : T.isIntegral = true) (h64 : T ≠ .i64)
    (m M : Dbl) (hm : m.isNaN = false) (hM : M.isNaN = false)
    (hm' : m.lt (.fin (T.highest + 1)) = true) (hM' : (Dbl.fin (T.lowest - 1)).lt M = true) :
    make T m M =
      if (clipLow T.lowest m).le (clipHigh T.highest M) then
        .ok ⟨some (clipLow T.lowest m), some (clipHigh T.highest M)⟩
      else .throw .invalidArgument := by
  unfold make
  rw [C05_minimum_integral T hT m hm, C05_maximum_integral T hT h64 M hM, if_pos hm', if_pos hM']
  rfl

/-- C05: the clipped and truncated endpoints lie in the type's range. -/
theorem C05_clip_in_type (T : MapType) (hT : T.isIntegral = true) (m M : Dbl)
    (hm : m.isNaN = false) (hM : M.isNaN = false)
    (hm' : m.lt (.fin (T.highest + 1)) = true) (hM' : (Dbl.fin (T.lowest - 1)).lt M = true) :
    (∃ n : ℤ, clipLow T.lowest m = .fin n ∧ T.intRange.1 ≤ n ∧ n ≤ T.intRange.2) ∧
    (∃ n : ℤ, clipHigh T.highest M = .fin n ∧ T.intRange.1 ≤ n ∧ n ≤ T.intRange.2) := by
  obtain ⟨h1, h2⟩ := T.intRange_cast hT
  have hlo0 := T.lowest_le_zero hT
  have hhi0 := T.highest_pos hT
  have hlo : T.intRange.1 ≤ 0 := by rw [← h1] at hlo0; exact_mod_cast hlo0
  have hhi : 0 ≤ T.intRange.2 := by
    have := hhi0.le; rw [← h2] at this; exact_mod_cast this
  constructor
  · cases m with
    | nan => simp [isNaN] at hm
    | pinf => simp [lt] at hm'
    | ninf =>
      refine ⟨_, rfl, ?_, ?_⟩
      · rw [truncQ_ge hlo, h1]; linarith
      · rw [truncQ_le hhi, h2]; linarith
    | fin q =>
      have hq : q < T.highest + 1 := by simpa using hm'
      refine ⟨_, rfl, ?_, ?_⟩
      · rw [truncQ_ge hlo, h1]; split <;> linarith
      · rw [truncQ_le hhi, h2]; split <;> linarith
  · cases M with
    | nan => simp [isNaN] at hM
    | ninf => simp [lt] at hM'
    | pinf =>
      refine ⟨_, rfl, ?_, ?_⟩
      · rw [truncQ_ge hlo, h1]; linarith
      · rw [truncQ_le hhi, h2]; linarith
    | fin q =>
      have hq : T.lowest - 1 < q := by simpa using hM'
      refine ⟨_, rfl, ?_, ?_⟩
      · rw [truncQ_ge hlo, h1]; split <;> linarith
      · rw [truncQ_le hhi, h2]; split <;> linarith

/-- The bounds `-3.7` and `300` for an 8-bit map become `0` and `255`. -/
example : make .u8 (.fin (-37 / 10)) (.fin 300) = .ok ⟨some (.fin 0), some (.fin 255)⟩ := by
  have hz : truncQ 0 = 0 := by simpa using truncQ_int 0
  have h2 : truncQ 255 = 255 := by simpa using truncQ_int 255
  rw [C05_make_integral .u8 rfl (by decide) _ _ rfl rfl
    (by simp [lt, MapType.highest]; norm_num) (by simp [lt, MapType.lowest]; norm_num)]
  norm_num [clipLow, clipHigh, MapType.lowest, MapType.highest, le, hz, h2]

/-- A user minimum above an 8-bit map's range is undefined behaviour. -/
example : make .u8 (.fin 256) (.fin 300) = .ub := by
  unfold make
  rw [C05_minimum_integral .u8 rfl _ rfl]
  norm_num [lt, MapType.highest]

end MaRC.Extrema
