import Verif.Model.Mathematics
import Verif.Lemmas.Rounding

/-!
# C59: approximate comparison and sign
-/

namespace MaRC

open Fp

theorem abs_neg' (d : Dbl) : d.neg.abs = d.abs := by
  cases d <;> simp [Dbl.neg, Dbl.abs]

theorem add_comm' (F : Fp) (x y : Dbl) : F.add x y = F.add y x := by
  cases x <;> cases y <;> simp [Fp.add, _root_.add_comm]

theorem ieee_sub_swap (x y : Dbl) : (ieee.sub x y).abs = (ieee.sub y x).abs := by
  cases x <;> cases y <;> try rfl
  rename_i a b
  simp only [Fp.sub, Fp.add, Dbl.neg]
  rw [show a + -b = -(b + -a) by ring, ieee_rnd_neg, abs_neg']

/-- C59: `almost_equal` does not depend on the order of its operands, for all
doubles (including NaN and the infinities). -/
theorem C59_symmetric (x y : Dbl) (ulp : ℤ) :
    almostEqual .ieee x y ulp = almostEqual .ieee y x ulp := by
  unfold almostEqual
  rw [ieee_sub_swap, add_comm' ieee x y]

/-- C59: every finite value is almost equal to itself. -/
theorem C59_reflexive (q : ℚ) (ulp : ℤ) : almostEqual .ieee (.fin q) (.fin q) ulp = true := by
  have h : ieee.sub (.fin q) (.fin q) = .fin 0 := by
    simp only [Fp.sub, Fp.add, Dbl.neg]
    rw [show q + -q = 0 by ring, ieee_rnd_zero]
  unfold almostEqual
  rw [h]
  have : ((Dbl.fin 0).abs.lt (.fin dblMin)) = true := by
    simp [Dbl.abs, Dbl.lt, dblMin]
  rw [this, Bool.or_true]

/-- C59: NaN is almost equal to nothing, and neither is an infinity to itself. -/
theorem C59_nan (y : Dbl) (ulp : ℤ) :
    almostEqual .ieee .nan y ulp = false ∧ almostEqual .ieee y .nan ulp = false ∧
    almostEqual .ieee .pinf .pinf ulp = false ∧ almostEqual .ieee .ninf .ninf ulp = false ∧
    almostZero .ieee .nan ulp = false := by
  refine ⟨?_, ?_, ?_, ?_, ?_⟩ <;> cases y <;> rfl

theorem eps_mul_cases (d : Dbl) (hd : d.isNaN = false) :
    (∃ r, 0 ≤ r ∧ ieee.mul (.fin dblEpsilon) d.abs = .fin r) ∨
      ieee.mul (.fin dblEpsilon) d.abs = .pinf := by
  have he : 0 < dblEpsilon := by norm_num [dblEpsilon]
  cases d with
  | nan => simp [Dbl.isNaN] at hd
  | ninf => right; simp [Dbl.abs, Fp.mul, Fp.signedInf, he]
  | pinf => right; simp [Dbl.abs, Fp.mul, Fp.signedInf, he]
  | fin q =>
    simp only [Dbl.abs, Fp.mul]
    exact ieee_rnd_nonneg (by positivity)

theorem mul_ulp_mono {t d : Dbl} (ht : (∃ r, 0 ≤ r ∧ t = .fin r) ∨ t = .pinf) {m n : ℤ}
    (h : m ≤ n) (hl : d.lt (ieee.mul t (.fin m)) = true) :
    d.lt (ieee.mul t (.fin n)) = true := by
  have hq : (m : ℚ) ≤ n := by exact_mod_cast h
  rcases ht with ⟨r, hr, rfl⟩ | rfl
  · simp only [Fp.mul] at hl ⊢
    exact Dbl.lt_of_lt_of_le hl (ieee_rnd_mono (mul_le_mul_of_nonneg_left hq hr))
  · simp only [Fp.mul, Fp.signedInf] at hl ⊢
    split_ifs at hl with h1 h2
    · rwa [if_pos (by linarith)]
    · cases d <;> simp [Dbl.lt] at hl
    · cases d <;> simp [Dbl.lt] at hl

/-- C59: a larger tolerance accepts everything a smaller one accepts. -/
theorem C59_monotone (x y : Dbl) {m n : ℤ} (h : m ≤ n)
    (hx : almostEqual .ieee x y m = true) : almostEqual .ieee x y n = true := by
  unfold almostEqual at hx ⊢
  rw [Bool.or_eq_true] at hx ⊢
  rcases hx with hx | hx
  · left
    rcases hn : (ieee.add x y).isNaN with _ | _
    · exact mul_ulp_mono (eps_mul_cases _ hn) h hx
    · exfalso
      have : ieee.add x y = .nan := by cases he : ieee.add x y <;> simp_all [Dbl.isNaN]
      rw [this] at hx
      simp only [Dbl.abs, Fp.mul] at hx
      cases h2 : (ieee.sub x y) <;> simp [h2, Dbl.lt] at hx
  · exact .inr hx

/-- C59, closeness in exact arithmetic: the definition of the relation. -/
theorem C59_close_exact (x y : ℚ) (ulp : ℤ) :
    almostEqual .exact (.fin x) (.fin y) ulp = true ↔
      |x - y| < 2⁻¹ ^ 52 * |x + y| * ulp ∨ |x - y| < 2⁻¹ ^ 1022 := by
  unfold almostEqual
  rw [Bool.or_eq_true]
  simp only [Fp.exact, Fp.sub, Fp.add, Fp.mul, Dbl.abs, Dbl.neg, Dbl.lt_fin, dblEpsilon, dblMin,
    ← sub_eq_add_neg, one_div, inv_pow]

/-- C59, closeness for doubles: two finite values that `almost_equal` accepts,
and whose sum does not overflow, differ by at most `ulp` times twice the
machine epsilon relative to the magnitude of their sum (twice to allow for the
roundings in the comparison itself), or by less than the smallest normal number
(plus as much). -/
theorem C59_close_partial (x y : ℚ) (ulp : ℤ) (h0 : 0 ≤ ulp) (h31 : ulp < 2 ^ 31)
    (hs : (ieee.add (.fin x) (.fin y)).isFinite = true)
    (h : almostEqual .ieee (.fin x) (.fin y) ulp = true) :
    |x - y| ≤ 2 * (2⁻¹ ^ 52 * |x + y| * ulp) + 2 * 2⁻¹ ^ 1022 := by
  have hq0 : (0 : ℚ) ≤ ulp := by exact_mod_cast h0
  have hq31 : (ulp : ℚ) ≤ 2 ^ 31 := by exact_mod_cast h31.le
  obtain ⟨s, hs⟩ : ∃ s, ieee.add (.fin x) (.fin y) = .fin s := by
    cases he : ieee.add (.fin x) (.fin y) <;> simp_all [Dbl.isFinite]
  have es := ieee_rnd_fin (by simpa only [Fp.add] using hs)
  -- the smallest positive double, and bounds in terms of it
  obtain ⟨η, hη⟩ : ∃ η : ℚ, η = (2 : ℚ) ^ (-1074 : ℤ) := ⟨_, rfl⟩
  have hηpos : 0 < η := by rw [hη]; exact two_zpow_pos _
  have hmin : dblMin = 2 ^ 52 * η := by
    rw [hη, dblMin]
    rw [show (-1074 : ℤ) = -(1022 : ℕ) - (52 : ℕ) by norm_num, zpow_sub₀ (by norm_num), zpow_neg,
      zpow_natCast, zpow_natCast]
    field_simp
  have hmin' : (2⁻¹ : ℚ) ^ 1022 = 2 ^ 52 * η := by rw [← hmin, dblMin, one_div, inv_pow]
  have hdiff : ∀ t : ℚ, (ieee.sub (.fin x) (.fin y)).abs.lt (.fin t) = true →
      |x - y| * (1 - 1 / 2 ^ 53) ≤ t + η / 2 := by
    intro t ht
    simp only [Fp.sub, Fp.add, Dbl.neg] at ht
    obtain ⟨d, hd⟩ : ∃ d, ieee.rnd (x + -y) = .fin d := by
      cases he : ieee.rnd (x + -y) <;> simp_all [Dbl.abs, Dbl.lt]
    have ed := ieee_rnd_fin hd
    rw [hd] at ht
    simp only [Dbl.abs, Dbl.lt_fin] at ht
    have er := rnd53_err (x + -y)
    rw [← ed, ← hη] at er
    rw [← sub_eq_add_neg] at er
    have : |x - y| ≤ |d| + |d - (x - y)| := by
      have := abs_sub_abs_le_abs_sub (x - y) d
      rw [abs_sub_comm (x - y) d] at this; linarith
    have : |x - y| / 2 ^ 53 = |x - y| * (1 / 2 ^ 53) := by ring
    linarith
  have habs : ∀ a, (Dbl.fin a).abs = .fin |a| := fun _ => rfl
  have hmul : ∀ a b, ieee.mul (.fin a) (.fin b) = ieee.rnd (a * b) := fun _ _ => rfl
  rw [hmin']
  have hS := abs_nonneg (x + y)
  have hD := abs_nonneg (x - y)
  unfold almostEqual at h
  rw [Bool.or_eq_true] at h
  rcases h with h | h
  · rw [hs, habs, hmul] at h
    -- the scaled tolerance is finite
    have hse : |s| ≤ |x + y| * (1 + 1 / 2 ^ 53) + η / 2 := by
      have er := rnd53_err (x + y)
      rw [← es, ← hη] at er
      have := abs_sub_abs_le_abs_sub s (x + y)
      have : |x + y| / 2 ^ 53 = |x + y| * (1 / 2 ^ 53) := by ring
      linarith
    have hepos : (0 : ℚ) ≤ dblEpsilon * |s| :=
      mul_nonneg (by norm_num [dblEpsilon]) (abs_nonneg s)
    have hb := rnd53_err (dblEpsilon * |s|)
    rw [abs_of_nonneg hepos, ← hη] at hb
    have hb2 := (abs_le.mp hb).2
    obtain ⟨b, hbr⟩ : ∃ b, ieee.rnd (dblEpsilon * |s|) = .fin b := by
      rcases ieee_rnd_nonneg hepos with ⟨b, -, hb⟩ | hb
      · exact ⟨b, hb⟩
      · exfalso
        have hsm : |s| ≤ dblMax := by
          have h2 := hs
          simp only [Fp.add] at h2
          rw [ieee_rnd] at h2
          split_ifs at h2 with h3 h4
          simp only [Dbl.fin.injEq] at h2
          rw [← h2, abs_le]
          constructor <;> linarith
        rw [ieee_rnd] at hb
        split_ifs at hb with h3
        have he : dblEpsilon = 1 / 2 ^ 52 := rfl
        have hηM : η ≤ dblMax := by
          have : η ≤ 1 := by
            rw [hη]; exact zpow_le_one_of_nonpos₀ (by norm_num) (by norm_num)
          have := dblMax_ge
          linarith
        rw [he] at hb2 h3
        have hMp := dblMax_pos
        nlinarith
    have eb := ieee_rnd_fin hbr
    rw [← eb] at hb2
    rw [hbr, hmul] at h
    have hb0 : 0 ≤ b := by
      rw [eb, ← rnd53_zero]; exact rnd53_mono hepos
    have hc := rnd53_err (b * ulp)
    rw [abs_of_nonneg (mul_nonneg hb0 hq0), ← hη] at hc
    have hc2 := (abs_le.mp hc).2
    have he : dblEpsilon = 1 / 2 ^ 52 := rfl
    rw [he] at hb2
    obtain ⟨c, hcr⟩ : ∃ c, ieee.rnd (b * ulp) = .fin c := by
      rcases ieee_rnd_nonneg (x := b * ulp) (mul_nonneg hb0 hq0) with ⟨c, -, hc⟩ | hc
      · exact ⟨c, hc⟩
      · exfalso
        have hsm : |s| ≤ dblMax := by
          have h2 := hs
          simp only [Fp.add] at h2
          rw [ieee_rnd] at h2
          split_ifs at h2 with h3 h4
          simp only [Dbl.fin.injEq] at h2
          rw [← h2, abs_le]
          constructor <;> linarith
        rw [ieee_rnd] at hc
        split_ifs at hc with h3
        have hη1 : η ≤ 1 / 2 ^ 60 * dblMax := by
          have : η ≤ 1 := by
            rw [hη]; exact zpow_le_one_of_nonpos₀ (by norm_num) (by norm_num)
          have := dblMax_ge
          linarith
        have hMp := dblMax_pos
        have hb3 : b ≤ 1 / 2 ^ 40 * dblMax := by nlinarith
        have : b * ulp ≤ 1 / 2 ^ 40 * dblMax * 2 ^ 31 :=
          mul_le_mul hb3 hq31 hq0 (by positivity)
        linarith
    have ec := ieee_rnd_fin hcr
    rw [← ec] at hc2
    rw [hcr] at h
    have hfin := hdiff c h
    -- collect
    have hb4 : b ≤ |x + y| * (1 / 2 ^ 52 * (1 + 1 / 2 ^ 51)) + η := by nlinarith
    have hbu : b * ulp ≤ (|x + y| * (1 / 2 ^ 52 * (1 + 1 / 2 ^ 51)) + η) * ulp :=
      mul_le_mul_of_nonneg_right hb4 hq0
    have hηu : η * ulp ≤ η * 2 ^ 31 := mul_le_mul_of_nonneg_left hq31 hηpos.le
    have hSu : 0 ≤ |x + y| * ulp := by positivity
    rw [show (2⁻¹ : ℚ) ^ 52 = 1 / 2 ^ 52 by norm_num]
    nlinarith
  · have := hdiff _ h
    rw [hmin] at this
    have h3 : 0 ≤ |x + y| * ulp := by positivity
    rw [show (2⁻¹ : ℚ) ^ 52 = 1 / 2 ^ 52 by norm_num]
    nlinarith

example : almostEqual .ieee (.fin 1) (.fin (1 + 1 / 2 ^ 52)) 2 = true ∧
    (ieee.add (.fin 1) (.fin (1 + 1 / 2 ^ 52))).isFinite = true ∧
    almostEqual .ieee (.fin 1) (.fin (1 + 1 / 2 ^ 49)) 2 = false := by decide +kernel

/-- C59, closeness, is false of the code when the sum of the values overflows:
the largest double and half of it are "almost equal". -/
theorem C59_close_violated :
    almostEqual .ieee (.fin dblMax) (.fin (dblMax / 2)) 1 = true := by decide +kernel

/-- C59: `almost_zero` does not depend on the sign. -/
theorem C59_zero_symmetric (x : Dbl) (n : ℤ) :
    almostZero .ieee x.neg n = almostZero .ieee x n := by
  unfold almostZero; rw [abs_neg']

/-- C59: `almost_zero` means what it says: smaller in magnitude than `n` times
epsilon (any multiplicity an `int` can hold). -/
theorem C59_zero (x : ℚ) (n : ℤ) (h0 : 0 ≤ n) (hn : n ≤ 2 ^ 53) :
    almostZero .ieee (.fin x) n = true ↔ |x| < 2⁻¹ ^ 52 * n := by
  have hr : rnd53 (dblEpsilon * n) = dblEpsilon * n := by
    apply rndP_of_rep (by norm_num)
    have e : dblEpsilon * (n : ℚ) = n * (2 : ℚ) ^ (-52 : ℤ) := by
      rw [dblEpsilon, zpow_neg, mul_comm]; norm_num
    rw [e]
    exact rep_mul (by norm_num) n (by norm_num) (by rw [abs_of_nonneg h0]; exact_mod_cast hn)
  have hq : (n : ℚ) ≤ 2 ^ 53 := by exact_mod_cast hn
  have hq0 : (0 : ℚ) ≤ n := by exact_mod_cast h0
  have he : ieee.rnd (dblEpsilon * n) = .fin (dblEpsilon * n) := by
    rw [ieee_rnd, hr, if_neg, if_neg]
    · have := dblMax_pos
      have : (0 : ℚ) ≤ dblEpsilon * n := by unfold dblEpsilon; positivity
      linarith
    · have h2 := dblMax_ge
      have : dblEpsilon * (n : ℚ) ≤ 2 := by
        rw [dblEpsilon]
        calc 1 / 2 ^ 52 * (n : ℚ) ≤ 1 / 2 ^ 52 * 2 ^ 53 := by gcongr
          _ = 2 := by norm_num
      linarith
  unfold almostZero
  simp only [Dbl.abs, Fp.mul, he, Dbl.lt_fin]
  simp only [dblEpsilon, one_div, inv_pow]

example : almostZero .ieee (.fin (1 / 2 ^ 52)) 2 = true ∧
    almostZero .ieee (.fin (-1 / 2 ^ 51)) 2 = false := by decide +kernel

/-- C59: the two sign functions, for all doubles. -/
theorem C59_sign (x : Dbl) :
    (signum x = if x.gt (.fin 0) then 1 else if x.lt (.fin 0) then -1 else 0) ∧
    (x.isNaN = false → sgn x = if x.lt (.fin 0) then -1 else 1) ∧
    (signum x.neg = -signum x) := by
  refine ⟨?_, ?_, ?_⟩
  · cases x <;> simp [signum, Dbl.gt, Dbl.lt]
    split_ifs <;> first | rfl | (exfalso; linarith)
  · intro h
    cases x <;> simp_all [sgn, Dbl.ge, Dbl.le, Dbl.lt, Dbl.isNaN]
    split_ifs <;> first | rfl | (exfalso; linarith)
  · cases x <;> simp [signum, Dbl.gt, Dbl.lt, Dbl.neg]

end MaRC
