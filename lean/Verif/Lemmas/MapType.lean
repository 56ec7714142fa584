import Verif.Model.Extrema
import Verif.Lemmas.DblOrder
import Verif.Lemmas.Num

namespace MaRC

open Fp

theorem log_i64max : Int.log 2 |(2 ^ 63 - 1 : ℚ)| = 62 := by
  rw [abs_of_pos (by norm_num)]
  apply _root_.le_antisymm
  · have := (Int.lt_zpow_iff_log_lt (b := 2) (R := ℚ) (by norm_num) (r := (2 ^ 63 - 1 : ℚ))
      (by norm_num) (x := 63)).mp (by norm_num)
    omega
  · exact (Int.zpow_le_iff_le_log (b := 2) (R := ℚ) (by norm_num) (r := (2 ^ 63 - 1 : ℚ))
      (by norm_num) (x := 62)).mp (by norm_num)

theorem rnd53_i64max : rnd53 (2 ^ 63 - 1) = 2 ^ 63 := by
  have hu : ulpExp 53 (-1074) (2 ^ 63 - 1) = 10 := by
    unfold ulpExp; rw [log_i64max]; norm_num
  unfold rnd53 rndP
  rw [hu]
  have : roundHalfEven ((2 ^ 63 - 1) / (2 : ℚ) ^ (10 : ℤ)) = 2 ^ 53 := by
    unfold roundHalfEven
    have hf : ⌊((2 ^ 63 - 1) / (2 : ℚ) ^ (10 : ℤ) : ℚ)⌋ = 2 ^ 53 - 1 := by
      rw [Int.floor_eq_iff]; norm_num
    simp only [hf]
    norm_num
  rw [this]; norm_num

theorem rnd53_int {n : ℤ} (h : |n| ≤ 2 ^ 53) : rnd53 (n : ℚ) = n :=
  rndP_of_rep (by norm_num) (rep_int (by norm_num) (by norm_num) h)

theorem rnd53_two_pow63 : rnd53 (2 ^ 63) = 2 ^ 63 := by
  have := rndP_of_rep (by norm_num) (rep_two_zpow (p := 53) (emin := -1074) (by norm_num) (e := 63) (by norm_num))
  norm_num at this ⊢
  exact this

theorem rnd53_neg (q : ℚ) : rnd53 (-q) = -rnd53 q := rndP_neg q

theorem ieee_rnd_of_le {q : ℚ} (h : |rnd53 q| ≤ dblMax) : ieee.rnd q = .fin (rnd53 q) := by
  obtain ⟨h1, h2⟩ := abs_le.mp h
  simp [ieee, not_lt.mpr h1, not_lt.mpr h2]

theorem two63_le_dblMax : (2 ^ 63 : ℚ) ≤ dblMax := by
  unfold dblMax
  have : (2 : ℚ) ^ 63 ≤ 2 ^ 971 := pow_le_pow_right₀ (by norm_num) (by norm_num)
  have h0 : (0 : ℚ) < 2 ^ 971 := pow_pos (by norm_num) _
  have h1 : (1 : ℚ) * 2 ^ 971 ≤ (2 ^ 53 - 1) * 2 ^ 971 :=
    mul_le_mul_of_nonneg_right (by norm_num) h0.le
  rw [one_mul] at h1
  exact this.trans h1

namespace MapType

theorem toDouble_lowest (T : MapType) : T.toDouble (.fin T.lowest) = .fin T.lowest := by
  cases T <;> try rfl
  have h : rnd53 (-2 ^ 63) = -2 ^ 63 := by rw [rnd53_neg, rnd53_two_pow63]
  have := two63_le_dblMax
  show ieee.rnd (-2 ^ 63) = .fin (-2 ^ 63)
  rw [ieee_rnd_of_le, h]
  rw [h, abs_neg, abs_of_pos (by norm_num)]
  exact this

theorem toDouble_highest (T : MapType) (h : T ≠ .i64) :
    T.toDouble (.fin T.highest) = .fin T.highest := by
  cases T <;> first | rfl | exact absurd rfl h

/-- The largest 64-bit integer is not a `double`: converted, it becomes
`2^63`. -/
theorem toDouble_highest_i64 : i64.toDouble (.fin i64.highest) = .fin (2 ^ 63) := by
  show ieee.rnd (2 ^ 63 - 1) = .fin (2 ^ 63)
  rw [ieee_rnd_of_le, rnd53_i64max]
  rw [rnd53_i64max, abs_of_pos (by norm_num)]
  exact two63_le_dblMax

theorem intRange_cast (T : MapType) (h : T.isIntegral = true) :
    (T.intRange.1 : ℚ) = T.lowest ∧ (T.intRange.2 : ℚ) = T.highest := by
  cases T <;> simp_all [isIntegral, intRange, lowest, highest] <;> norm_num

theorem lowest_le_zero (T : MapType) (h : T.isIntegral = true) : T.lowest ≤ 0 := by
  cases T <;> simp_all [isIntegral, lowest]

theorem highest_pos (T : MapType) (h : T.isIntegral = true) : 0 < T.highest := by
  cases T <;> simp_all [isIntegral, highest] <;> norm_num

end MapType

theorem truncQ_ge {q : ℚ} {n : ℤ} (hn : n ≤ 0) : n ≤ truncQ q ↔ (n : ℚ) - 1 < q := by
  unfold truncQ
  split
  · rename_i h
    have h1 : (n : ℚ) ≤ 0 := by exact_mod_cast hn
    constructor
    · intro _; linarith
    · intro _
      exact hn.trans (Int.floor_nonneg.mpr h)
  · rw [Int.le_ceil_iff]

theorem truncQ_le {q : ℚ} {n : ℤ} (hn : 0 ≤ n) : truncQ q ≤ n ↔ q < n + 1 := by
  unfold truncQ
  split
  · rw [← Int.lt_add_one_iff, Int.floor_lt]; push_cast; rfl
  · rename_i h
    have h1 : (0 : ℚ) ≤ n := by exact_mod_cast hn
    push Not at h
    constructor
    · intro _; linarith
    · intro _
      exact (Int.ceil_le.mpr (by linarith))

theorem truncQ_mono {a b : ℚ} (h : a ≤ b) : truncQ a ≤ truncQ b := by
  unfold truncQ
  split <;> split
  · exact Int.floor_mono h
  · linarith
  · rename_i h1 h2
    push Not at h1
    have : ⌈a⌉ ≤ 0 := Int.ceil_le.mpr (by push_cast; exact h1.le)
    exact this.trans (Int.floor_nonneg.mpr h2)
  · exact Int.ceil_mono h

theorem truncQ_int (n : ℤ) : truncQ (n : ℚ) = n := by
  unfold truncQ; split <;> simp

namespace MapType

theorem cast_integral (T : MapType) (hT : T.isIntegral = true) (q : ℚ) :
    T.cast (.fin q) =
      if T.lowest - 1 < q ∧ q < T.highest + 1 then .ok (.fin (truncQ q)) else .ub := by
  obtain ⟨h1, h2⟩ := intRange_cast T hT
  have hlo : T.intRange.1 ≤ 0 := by
    have := lowest_le_zero T hT; rw [← h1] at this; exact_mod_cast this
  have hhi : 0 ≤ T.intRange.2 := by
    have := (highest_pos T hT).le; rw [← h2] at this; exact_mod_cast this
  have key : (T.intRange.1 ≤ truncQ q ∧ truncQ q ≤ T.intRange.2) ↔
      (T.lowest - 1 < q ∧ q < T.highest + 1) := by
    rw [truncQ_ge hlo, truncQ_le hhi, h1, h2]
  have : T.cast (.fin q) = match castInt T.intRange.1 T.intRange.2 (.fin q) with
    | .ok n => .ok (.fin n)
    | .throw e => .throw e
    | .ub => .ub := by
    cases T <;> first | rfl | simp [isIntegral] at hT
  rw [this]
  unfold castInt
  simp only [key]
  by_cases hk : T.lowest - 1 < q ∧ q < T.highest + 1
  · rw [if_pos hk, if_pos hk]
  · rw [if_neg hk, if_neg hk]

theorem cast_integral_inf (T : MapType) (hT : T.isIntegral = true) :
    T.cast .pinf = .ub ∧ T.cast .ninf = .ub ∧ T.cast .nan = .ub := by
  cases T <;> first | exact ⟨rfl, rfl, rfl⟩ | simp [isIntegral] at hT

end MapType

end MaRC
