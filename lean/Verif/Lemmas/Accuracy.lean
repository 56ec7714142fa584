import Verif.Lemmas.Libm
import Verif.Model.OblateSpheroid
import Verif.Props.VirtualImage
import Mathlib.Analysis.Real.Pi.Bounds
import Mathlib.Analysis.SpecialFunctions.Trigonometric.ArctanDeriv
import Mathlib.Analysis.Calculus.MeanValue

/-! # Error of computed planetographic latitudes and degrees -/

namespace MaRC

open Fp

theorem two201_le_dblMax : (2 : ℚ) ^ 201 ≤ dblMax := by
  unfold dblMax
  have h : (1 : ℚ) ≤ 2 ^ 53 - 1 := by norm_num
  have h2 : (2 : ℚ) ^ 201 ≤ 2 ^ 971 := pow_le_pow_right₀ (by norm_num) (by norm_num)
  exact h2.trans (le_mul_of_one_le_left (by positivity) h)

theorem rnd53_err200 (q : ℚ) : |rnd53 q - q| ≤ |q| / 2 ^ 53 + 1 / 2 ^ 200 := by
  refine (rnd53_err q).trans ?_
  have h3 : (2 : ℚ) ^ (-1074 : ℤ) ≤ 2 ^ (-200 : ℤ) :=
    zpow_le_zpow_right₀ (by norm_num) (by norm_num)
  have h4 : (2 : ℚ) ^ (-200 : ℤ) = 1 / 2 ^ 200 := by
    rw [zpow_neg, one_div]; norm_cast
  rw [h4] at h3
  have : (0 : ℚ) < 1 / 2 ^ 200 := by positivity
  have h0 : (0 : ℚ) < (2 : ℚ) ^ (-1074 : ℤ) := by positivity
  linarith

theorem rnd53_err200R (q : ℚ) : |(rnd53 q : ℝ) - q| ≤ |(q : ℝ)| / 2 ^ 53 + 1 / 2 ^ 200 := by
  have := (Rat.cast_le (K := ℝ)).mpr (rnd53_err200 q)
  push_cast at this
  exact this

theorem ieee_rnd_fin {q : ℚ} (h : |q| ≤ 2 ^ 200) : ieee.rnd q = .fin (rnd53 q) := by
  have h1 := rnd53_err200 q
  have h2 := two201_le_dblMax
  have h3 : |q| / 2 ^ 53 ≤ 2 ^ 200 / 2 ^ 53 := by gcongr
  rw [abs_le] at h h1
  norm_num at h h1 h2 h3
  rw [ieee_rnd, if_neg (by linarith), if_neg (by linarith)]

/-- Error of a correctly rounded value. -/
theorem CorrectlyRounded.err {f : Dbl → Dbl} {g : ℝ → ℝ} (h : CorrectlyRounded f g) (x : ℚ)
    (hg : |g x| ≤ 2 ^ 100) : ∃ d : ℚ, f (.fin x) = .fin d ∧
      |(d : ℝ) - g x| ≤ |g x| / 2 ^ 53 + 1 / 2 ^ 199 := by
  have hlo := (h x (-(2 ^ 100))).1 (by push_cast; exact (abs_le.mp hg).1)
  have hhi := (h x (2 ^ 100)).2 (by push_cast; exact (abs_le.mp hg).2)
  rw [ieee_rnd_fin (by norm_num)] at hlo hhi
  obtain ⟨d, hd⟩ : ∃ d, f (.fin x) = .fin d := by
    cases hf : f (.fin x) <;> rw [hf] at hlo hhi <;> simp [Dbl.le] at hlo hhi ⊢
  refine ⟨d, hd, ?_⟩
  have he : (0 : ℝ) < 1 / 2 ^ 202 := by positivity
  obtain ⟨q1, ha1, hb1⟩ := exists_rat_btwn (sub_lt_self (g x) he)
  obtain ⟨q2, ha2, hb2⟩ := exists_rat_btwn (lt_add_of_pos_right (g x) he)
  have near : ∀ q : ℚ, |(q : ℝ) - g x| ≤ 1 / 2 ^ 202 → |(q : ℝ)| ≤ |g x| + 1 / 2 ^ 202 := by
    intro q hq
    have := abs_add_le ((q : ℝ) - g x) (g x)
    rw [sub_add_cancel] at this
    linarith
  have hq1 := near q1 (by rw [abs_le]; constructor <;> linarith)
  have hq2 := near q2 (by rw [abs_le]; constructor <;> linarith)
  have hfin : ∀ q : ℚ, |(q : ℝ)| ≤ |g x| + 1 / 2 ^ 202 → ieee.rnd q = .fin (rnd53 q) := by
    intro q hq
    refine ieee_rnd_fin ?_
    have : |(q : ℝ)| ≤ 2 ^ 200 := by
      refine hq.trans ((add_le_add_left hg _).trans ?_)
      norm_num
    exact_mod_cast this
  have h1' := (h x q1).1 hb1.le
  have h2' := (h x q2).2 ha2.le
  rw [hd, hfin _ hq1] at h1'
  rw [hd, hfin _ hq2] at h2'
  simp only [Dbl.le, decide_eq_true_eq] at h1' h2'
  have h1r : (rnd53 q1 : ℝ) ≤ d := by exact_mod_cast h1'
  have h2r : (d : ℝ) ≤ rnd53 q2 := by exact_mod_cast h2'
  have k1 := abs_le.mp (rnd53_err200R q1)
  have k2 := abs_le.mp (rnd53_err200R q2)
  have e1 : |(q1 : ℝ)| / 2 ^ 53 ≤ (|g x| + 1 / 2 ^ 202) / 2 ^ 53 := by gcongr
  have e2 : |(q2 : ℝ)| / 2 ^ 53 ≤ (|g x| + 1 / 2 ^ 202) / 2 ^ 53 := by gcongr
  clear h1' h2' hlo hhi hfin hq1 hq2 near
  generalize |g x| = m at *
  rw [abs_le]
  norm_num at ha1 hb2 k1 k2 e1 e2 ⊢
  constructor <;> linarith

/-- Arcus tangent of a value known to a relative error. -/
theorem arctan_rel {m M δ τ : ℝ} (hδ : 0 ≤ δ) (hδ' : δ ≤ 1 / 2) (hτ : 0 ≤ τ)
    (h : |m - M| ≤ δ * |M| + τ) : |Real.arctan m - Real.arctan M| ≤ δ * (1 + 2 * τ) + τ := by
  wlog hne : m < M generalizing m M with H
  · rcases (not_lt.1 hne).eq_or_lt with rfl | hlt
    · simp only [sub_self, abs_zero]; positivity
    · have h1 := H (m := -m) (M := -M) (by rw [abs_neg, ← abs_neg]; convert h using 2; ring)
        (by linarith)
      rw [Real.arctan_neg, Real.arctan_neg, ← abs_neg] at h1
      convert h1 using 2
      ring
  obtain ⟨ξ, ⟨h1, h2⟩, h3⟩ := exists_hasDerivAt_eq_slope Real.arctan (fun x => 1 / (1 + x ^ 2)) hne
    Real.continuous_arctan.continuousOn fun x _ => Real.hasDerivAt_arctan x
  have hMm : 0 < M - m := by linarith
  rw [abs_sub_comm, abs_of_pos hMm] at h
  rw [eq_div_iff hMm.ne'] at h3
  rw [abs_sub_comm, ← h3]
  have hp : 0 < 1 + ξ ^ 2 := by positivity
  rw [abs_of_nonneg (by positivity)]
  have hξ : |M| ≤ 2 * (|ξ| + τ) := by
    have : |M| ≤ |ξ| + |M - ξ| := by
      have := abs_add_le ξ (M - ξ)
      rwa [add_sub_cancel] at this
    rw [abs_of_pos (by linarith : 0 < M - ξ)] at this
    nlinarith [abs_nonneg M]
  have h5 : M - m ≤ 2 * δ * |ξ| + (2 * δ + 1) * τ := by nlinarith [abs_nonneg ξ]
  rw [one_div, inv_mul_le_iff₀ hp]
  have h6 : 2 * |ξ| ≤ 1 + ξ ^ 2 := by
    rw [← sq_abs]; nlinarith [sq_nonneg (|ξ| - 1)]
  have h7 : 0 ≤ ξ ^ 2 * ((2 * δ + 1) * τ) := by positivity
  nlinarith [mul_le_mul_of_nonneg_left h6 hδ]

theorem pi2Q_lt : (pi2Q : ℝ) + 1 / 2 ^ 54 < Real.pi / 2 := by
  have := Real.pi_gt_d20
  norm_num [pi2Q] at this ⊢
  linarith

/-- The tangent of a latitude in floating point is not too large. -/
theorem abs_tan_le {q : ℚ} (hq : |q| ≤ pi2Q) : |Real.tan q| ≤ 2 ^ 54 := by
  wlog h0 : 0 ≤ q generalizing q with H
  · have := H (q := -q) (by rwa [abs_neg]) (by linarith)
    push_cast at this
    rwa [Real.tan_neg, abs_neg] at this
  have hq : (q : ℝ) ≤ pi2Q := by
    have := (le_abs_self q).trans hq
    exact_mod_cast this
  have h0 : (0 : ℝ) ≤ q := by exact_mod_cast h0
  have hpi := pi2Q_lt
  have hy : 1 / 2 ^ 54 < Real.pi / 2 - q := by linarith
  have hpos : (0 : ℝ) < 1 / 2 ^ 54 := by positivity
  have e : Real.tan q = (Real.tan (Real.pi / 2 - q))⁻¹ := by
    rw [Real.tan_pi_div_two_sub, inv_inv]
  rw [abs_of_nonneg (Real.tan_nonneg_of_nonneg_of_le_pi_div_two h0 (by linarith)), e]
  rcases h0.eq_or_lt with h0 | h0
  · rw [← h0, sub_zero, Real.tan_pi_div_two]; norm_num
  · have h1 := Real.lt_tan (by linarith : 0 < Real.pi / 2 - q) (by linarith)
    have h2 : (1 : ℝ) / 2 ^ 54 ≤ Real.tan (Real.pi / 2 - q) := by linarith
    have := inv_anti₀ hpos h2
    rwa [one_div, inv_inv] at this

/-- Computed conversions between planetographic and planetocentric latitudes, for either
order of the radii: finite, at most as far from the equator as the poles, and accurate. -/
theorem convertLatitudeF_near {L : Libm} (hL : L.Correct) {eqRad polRad : ℚ} (hp : 0 < polRad)
    (hratio' : polRad ≤ 2 ^ 20 * eqRad) (hratio : eqRad ≤ 2 ^ 20 * polRad) {q : ℚ}
    (hq : |q| ≤ pi2Q) :
    ∃ r : ℚ, graphicLatitudeF .ieee L (.fin eqRad) (.fin polRad) (.fin q) = .fin r ∧ |r| ≤ pi2Q ∧
      |(r : ℝ) - Spheroid.graphicLatitude ⟨eqRad, polRad⟩ q| ≤ 1 / 2 ^ 47 := by
  obtain ⟨R, hR⟩ : ∃ R, R = eqRad / polRad := ⟨_, rfl⟩
  have hR1 : 1 / 2 ^ 20 ≤ R := by
    rw [hR, le_div_iff₀ hp]
    norm_num at hratio' ⊢
    linarith
  have hR0 : 0 < R := lt_of_lt_of_le (by positivity) hR1
  have hR2 : R ≤ 2 ^ 20 := by rw [hR, div_le_iff₀ hp]; linarith
  have hRR1 : 1 / 2 ^ 40 ≤ R * R := by
    have := mul_le_mul hR1 hR1 (by positivity) hR0.le
    norm_num at this ⊢
    linarith
  have hRR2 : R * R ≤ 2 ^ 40 := by nlinarith
  -- the quotient of the radii
  have e1 := rnd53_err200 R
  rw [abs_of_pos hR0, abs_le] at e1
  have e1' : |rnd53 R - R| ≤ R / 2 ^ 52 := by
    rw [abs_le]
    norm_num at e1 ⊢
    constructor <;> linarith
  obtain ⟨r, hr⟩ : ∃ r, r = rnd53 R := ⟨_, rfl⟩
  rw [← hr] at e1'
  have hrr : |r * r - R * R| ≤ R * R / 2 ^ 50 := by
    have : r * r - R * R = (r - R) * (r - R) + 2 * R * (r - R) := by ring
    rw [this]
    refine (abs_add_le _ _).trans ?_
    rw [abs_mul, abs_mul, abs_of_pos (by positivity : 0 < 2 * R)]
    have h1 : |r - R| * |r - R| ≤ R / 2 ^ 52 * (R / 2 ^ 52) :=
      mul_le_mul e1' e1' (abs_nonneg _) (by positivity)
    have h2 : 2 * R * |r - R| ≤ 2 * R * (R / 2 ^ 52) :=
      mul_le_mul_of_nonneg_left e1' (by positivity)
    norm_num at h1 h2 ⊢
    linarith
  have hrr' : |r * r| ≤ 2 ^ 41 := by
    have := abs_add_le (r * r - R * R) (R * R)
    rw [sub_add_cancel, abs_of_pos (by positivity : 0 < R * R)] at this
    norm_num at hrr this ⊢
    linarith
  have e2 := rnd53_err200 (r * r)
  obtain ⟨s, hs⟩ : ∃ s, s = rnd53 (r * r) := ⟨_, rfl⟩
  have hs1 : |s - R * R| ≤ R * R / 2 ^ 49 := by
    rw [← hs] at e2
    have h1 : |s - R * R| ≤ |s - r * r| + |r * r - R * R| := abs_sub_le _ _ _
    have h2 : |r * r| ≤ R * R + R * R / 2 ^ 50 := by
      have := abs_add_le (r * r - R * R) (R * R)
      rw [sub_add_cancel, abs_of_pos (by positivity : 0 < R * R)] at this
      linarith
    norm_num at e2 hrr h2 ⊢
    linarith
  -- the tangent
  have ht := abs_tan_le hq
  obtain ⟨t, htl, hte⟩ := hL.tan.err q (ht.trans (by norm_num))
  obtain ⟨Tq, hT⟩ : ∃ Tq, Tq = Real.tan (q : ℝ) := ⟨_, rfl⟩
  rw [← hT] at ht hte
  have hs1R : |(s : ℝ) - R * R| ≤ R * R / 2 ^ 49 := by
    have := (Rat.cast_le (K := ℝ)).mpr hs1
    push_cast at this
    exact this
  have hRR2R : (R : ℝ) * R ≤ 2 ^ 40 := by exact_mod_cast hRR2
  have hRR1R : (1 : ℝ) / 2 ^ 40 ≤ R * R := by
    have := (Rat.cast_le (K := ℝ)).mpr hRR1
    push_cast at this
    exact this
  have hRR0R : (0 : ℝ) < R * R := lt_of_lt_of_le (by positivity) hRR1R
  have htabs : |(t : ℝ)| ≤ 2 ^ 55 := by
    have := abs_add_le ((t : ℝ) - Tq) Tq
    rw [sub_add_cancel] at this
    norm_num at hte ht this ⊢
    linarith
  have hsabs : |(s : ℝ)| ≤ 2 ^ 41 := by
    have := abs_add_le ((s : ℝ) - R * R) (R * R)
    rw [sub_add_cancel, abs_of_pos hRR0R] at this
    norm_num at hs1R hRR2R this ⊢
    linarith
  have hst : |(s : ℝ) * t - R * R * Tq| ≤ R * R * |Tq| / 2 ^ 48 + 1 / 2 ^ 150 := by
    have e : (s : ℝ) * t - R * R * Tq = (s - R * R) * Tq + s * (t - Tq) := by ring
    rw [e]
    refine (abs_add_le _ _).trans ?_
    rw [abs_mul, abs_mul]
    have h1 : |(s : ℝ) - R * R| * |Tq| ≤ R * R / 2 ^ 49 * |Tq| :=
      mul_le_mul_of_nonneg_right hs1R (abs_nonneg _)
    have h2 : |(s : ℝ)| * |(t : ℝ) - Tq| ≤ |(s : ℝ)| * (|Tq| / 2 ^ 53 + 1 / 2 ^ 199) :=
      mul_le_mul_of_nonneg_left hte (abs_nonneg _)
    have h3 : |(s : ℝ)| ≤ R * R + R * R / 2 ^ 49 := by
      have := abs_add_le ((s : ℝ) - R * R) (R * R)
      rw [sub_add_cancel, abs_of_pos hRR0R] at this
      linarith
    have h4 : |(s : ℝ)| * (|Tq| / 2 ^ 53) ≤ (R * R + R * R / 2 ^ 49) * (|Tq| / 2 ^ 53) :=
      mul_le_mul_of_nonneg_right h3 (by positivity)
    have h5 : |(s : ℝ)| * (1 / 2 ^ 199) ≤ 2 ^ 41 * (1 / 2 ^ 199) :=
      mul_le_mul_of_nonneg_right hsabs (by positivity)
    have h6 : 0 ≤ (R : ℝ) * R * |Tq| := by positivity
    norm_num at h1 h2 h4 h5 ⊢
    nlinarith
  have hstq : |s * t| ≤ 2 ^ 96 := by
    have : |(s : ℝ) * t| ≤ 2 ^ 96 := by
      rw [abs_mul]
      exact (mul_le_mul hsabs htabs (abs_nonneg _) (by positivity)).trans (by norm_num)
    exact_mod_cast this
  have e3 := rnd53_err200R (s * t)
  obtain ⟨m, hm⟩ : ∃ m, m = rnd53 (s * t) := ⟨_, rfl⟩
  rw [← hm] at e3
  push_cast at e3
  have hm1 : |(m : ℝ) - R * R * Tq| ≤ 1 / 2 ^ 48 * 1.1 * |(R : ℝ) * R * Tq| + 1 / 2 ^ 149 := by
    have h1 : |(m : ℝ) - R * R * Tq| ≤ |(m : ℝ) - s * t| + |(s : ℝ) * t - R * R * Tq| :=
      abs_sub_le _ _ _
    have h2 : |(s : ℝ) * t| ≤ R * R * |Tq| + (R * R * |Tq| / 2 ^ 48 + 1 / 2 ^ 150) := by
      have := abs_add_le ((s : ℝ) * t - R * R * Tq) (R * R * Tq)
      rw [sub_add_cancel, abs_mul (R * R : ℝ), abs_of_pos hRR0R] at this
      linarith
    rw [abs_mul (R * R : ℝ), abs_of_pos hRR0R]
    have h6 : 0 ≤ (R : ℝ) * R * |Tq| := by positivity
    generalize (R : ℝ) * R * |Tq| = w at *
    norm_num at e3 hst h2 ⊢
    linarith
  have hat := arctan_rel (by norm_num) (by norm_num) (by norm_num) hm1
  -- the arcus tangent
  have hab : |Real.arctan m| < Real.pi / 2 :=
    abs_lt.2 ⟨Real.neg_pi_div_two_lt_arctan m, Real.arctan_lt_pi_div_two m⟩
  have hpi := Real.pi_lt_d20
  have hpi' := Real.pi_gt_d20
  obtain ⟨d, hd, hde⟩ := hL.atan.err m (by norm_num at hab ⊢; linarith)
  have hcomp : graphicLatitudeF .ieee L (.fin eqRad) (.fin polRad) (.fin q) = .fin d := by
    unfold graphicLatitudeF
    have h1 : ieee.div (.fin eqRad) (.fin polRad) = .fin r := by
      simp only [Fp.div, hp.ne', if_false]
      rw [← hR, ieee_rnd_fin (by rw [abs_of_pos hR0]; linarith [show (2 : ℚ) ^ 20 ≤ 2 ^ 200 by norm_num]), hr]
    have h2 : ieee.mul (.fin r) (.fin r) = .fin s := by
      simp only [Fp.mul]
      rw [ieee_rnd_fin (hrr'.trans (by norm_num)), hs]
    rw [h1, h2, htl]
    have h3 : ieee.mul (.fin s) (.fin t) = .fin m := by
      simp only [Fp.mul]
      rw [ieee_rnd_fin (hstq.trans (by norm_num)), hm]
    rw [h3, hd]
  refine ⟨d, hcomp, ?_, ?_⟩
  · have hhi : ieee.rnd (15707963267948966193 / 10 ^ 19) = .fin pi2Q := by decide +kernel
    have hlo : ieee.rnd (-15707963267948966193 / 10 ^ 19) = .fin (-pi2Q) := by decide +kernel
    have b1 := (hL.atan m (15707963267948966193 / 10 ^ 19)).2 (by
      rw [abs_lt] at hab; push_cast; norm_num at hpi ⊢; linarith)
    have b2 := (hL.atan m (-15707963267948966193 / 10 ^ 19)).1 (by
      rw [abs_lt] at hab; push_cast; norm_num at hpi ⊢; linarith)
    rw [hd, hhi, Dbl.le_fin] at b1
    rw [hd, hlo, Dbl.le_fin] at b2
    exact abs_le.2 ⟨b2, b1⟩
  · have hg : Spheroid.graphicLatitude ⟨eqRad, polRad⟩ q = Real.arctan (R * R * Tq) := by
      rw [Spheroid.graphicLatitude, hR, hT]
      push_cast
      congr 1
      ring
    rw [hg]
    have h1 : |(d : ℝ) - Real.arctan (R * R * Tq)| ≤ |(d : ℝ) - Real.arctan m| +
        |Real.arctan m - Real.arctan (R * R * Tq)| := abs_sub_le _ _ _
    norm_num at hat hde hab h1 ⊢
    linarith

/-- The computed planetographic latitude. -/
theorem graphicLatitudeF_near {L : Libm} (hL : L.Correct) {eqRad polRad : ℚ} (hp : 0 < polRad)
    (hle : polRad ≤ eqRad) (hratio : eqRad ≤ 2 ^ 20 * polRad) {q : ℚ} (hq : |q| ≤ pi2Q) :
    ∃ r : ℚ, graphicLatitudeF .ieee L (.fin eqRad) (.fin polRad) (.fin q) = .fin r ∧ |r| ≤ pi2Q ∧
      |(r : ℝ) - Spheroid.graphicLatitude ⟨eqRad, polRad⟩ q| ≤ 1 / 2 ^ 47 :=
  convertLatitudeF_near hL hp (by norm_num; linarith) hratio hq

end MaRC
