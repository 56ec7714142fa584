import Verif.Lemmas.Num
import Verif.Lemmas.DblOrder

/-! Facts about `Fp.ieee`: error of one rounding, symmetry, monotonicity. -/

namespace MaRC.Fp

/-- Error of one rounding: half a unit in the last place. -/
theorem rndP_err (p : ℕ) (emin : ℤ) (q : ℚ) :
    |rndP p emin q - q| ≤ |q| / 2 ^ p + (2 : ℚ) ^ emin / 2 := by
  have hu := two_zpow_pos (ulpExp p emin q)
  have h1 : |rndP p emin q - q| ≤ (2 : ℚ) ^ ulpExp p emin q / 2 := by
    have e : rndP p emin q - q = ((roundHalfEven (q / (2 : ℚ) ^ ulpExp p emin q) : ℚ) -
        q / (2 : ℚ) ^ ulpExp p emin q) * (2 : ℚ) ^ ulpExp p emin q := by
      unfold rndP; field_simp
    rw [e, abs_mul, abs_of_pos hu]
    have := abs_roundHalfEven_sub_le (q / (2 : ℚ) ^ ulpExp p emin q)
    nlinarith
  have hm := two_zpow_pos emin
  have hq : 0 ≤ |q| / 2 ^ p := by positivity
  rcases eq_or_ne q 0 with rfl | hq0
  · rw [rndP_zero]; simp; linarith
  have h2 : (2 : ℚ) ^ ulpExp p emin q / 2 ≤ |q| / 2 ^ p + (2 : ℚ) ^ emin / 2 := by
    unfold ulpExp
    rcases le_total (Int.log 2 |q| - ((p : ℤ) - 1)) emin with h | h
    · rw [max_eq_right h]; linarith
    · rw [max_eq_left h]
      have hl : (2 : ℚ) ^ Int.log 2 |q| ≤ |q| := by
        exact_mod_cast Int.zpow_log_le_self (b := 2) (R := ℚ) (by norm_num) (abs_pos.mpr hq0)
      have e : (2 : ℚ) ^ (Int.log 2 |q| - ((p : ℤ) - 1)) / 2 = (2 : ℚ) ^ Int.log 2 |q| / 2 ^ p := by
        rw [show Int.log 2 |q| - ((p : ℤ) - 1) = Int.log 2 |q| - p + 1 by ring,
          zpow_add₀ (by norm_num), zpow_sub₀ (by norm_num)]
        simp
      rw [e]
      have : (2 : ℚ) ^ Int.log 2 |q| / 2 ^ p ≤ |q| / 2 ^ p := by gcongr
      linarith
  exact h1.trans h2

/-- Error of one binary64 rounding. -/
theorem rnd53_err (q : ℚ) : |rnd53 q - q| ≤ |q| / 2 ^ 53 + (2 : ℚ) ^ (-1074 : ℤ) / 2 :=
  rndP_err 53 _ q

theorem rnd53_neg (q : ℚ) : rnd53 (-q) = -rnd53 q := rndP_neg q

theorem rnd53_zero : rnd53 0 = 0 := rndP_zero

theorem rnd53_mono {x y : ℚ} (h : x ≤ y) : rnd53 x ≤ rnd53 y := rndP_mono (by norm_num) h

theorem dblMax_pos : 0 < dblMax := by unfold dblMax; positivity

theorem dblMax_ge : (2 : ℚ) ^ 100 ≤ dblMax := by
  unfold dblMax
  have h : (1 : ℚ) ≤ 2 ^ 53 - 1 := by norm_num
  have h2 : (2 : ℚ) ^ 100 ≤ 2 ^ 971 := pow_le_pow_right₀ (by norm_num) (by norm_num)
  exact h2.trans (le_mul_of_one_le_left (by positivity) h)

theorem ieee_rnd (q : ℚ) : ieee.rnd q =
    if dblMax < rnd53 q then .pinf else if rnd53 q < -dblMax then .ninf else .fin (rnd53 q) := rfl

theorem ieee_rnd_neg (q : ℚ) : ieee.rnd (-q) = (ieee.rnd q).neg := by
  have := dblMax_pos
  rw [ieee_rnd, ieee_rnd, rnd53_neg]
  split_ifs <;> first | rfl | (exfalso; linarith)

theorem ieee_rnd_zero : ieee.rnd 0 = .fin 0 := by
  have := dblMax_pos
  rw [ieee_rnd, rnd53_zero, if_neg (by linarith), if_neg (by linarith)]

theorem ieee_rnd_mono {x y : ℚ} (h : x ≤ y) : (ieee.rnd x).le (ieee.rnd y) = true := by
  have := dblMax_pos
  have hm := rnd53_mono h
  rw [ieee_rnd, ieee_rnd]
  split_ifs <;> first | rfl | (exfalso; linarith) | simpa using hm

theorem ieee_rnd_notNaN (x : ℚ) : (ieee.rnd x).isNaN = false := by
  rw [ieee_rnd]; split_ifs <;> rfl

theorem ieee_rnd_fin {x r : ℚ} (h : ieee.rnd x = .fin r) : r = rnd53 x := by
  rw [ieee_rnd] at h
  split_ifs at h
  simpa using h.symm

theorem ieee_rnd_nonneg {x : ℚ} (h : 0 ≤ x) :
    (∃ r, 0 ≤ r ∧ ieee.rnd x = .fin r) ∨ ieee.rnd x = .pinf := by
  have := dblMax_pos
  have h0 := rnd53_mono h
  rw [rnd53_zero] at h0
  rw [ieee_rnd]
  split_ifs
  · exact .inr rfl
  · exfalso; linarith
  · exact .inl ⟨_, h0, rfl⟩

end MaRC.Fp
