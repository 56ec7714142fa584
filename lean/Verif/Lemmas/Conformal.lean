import Verif.Lemmas.Projection
import Verif.Spec.Spheroid
import Mathlib.Analysis.SpecialFunctions.Artanh
import Mathlib.Analysis.SpecialFunctions.Log.Deriv
import Mathlib.Analysis.SpecialFunctions.Trigonometric.Inverse
import Mathlib.Analysis.Calculus.Deriv.MeanValue
import Mathlib.Tactic.FieldSimp
import Mathlib.Tactic.Positivity

/-!
# Lemmas: the Mercator equation
-/

namespace MaRC.Projection

open Real Set

/-- The Mercator ordinate as a function of the sine of the latitude. -/
noncomputable def isometric (e s : ℝ) : ℝ :=
  (log (1 + s) - log (1 - s)) / 2 - e * ((log (1 + e * s) - log (1 - e * s)) / 2)

theorem es_bounds {e s : ℝ} (he0 : 0 ≤ e) (he : e < 1) (hs : s ∈ Ioo (-1) (1 : ℝ)) :
    0 < 1 + s ∧ 0 < 1 - s ∧ 0 < 1 + e * s ∧ 0 < 1 - e * s := by
  obtain ⟨h1, h2⟩ := hs
  have h3 : |e * s| < 1 := by
    rw [abs_mul, abs_of_nonneg he0]
    have : |s| < 1 := abs_lt.2 ⟨h1, h2⟩
    calc e * |s| ≤ 1 * |s| := mul_le_mul_of_nonneg_right he.le (abs_nonneg _)
      _ < 1 := by linarith
  rw [abs_lt] at h3
  exact ⟨by linarith, by linarith, by linarith, by linarith⟩

theorem isometric_deriv {e s : ℝ} (he0 : 0 ≤ e) (he : e < 1) (hs : s ∈ Ioo (-1) (1 : ℝ)) :
    HasDerivAt (isometric e) ((1 - e ^ 2) / ((1 - s ^ 2) * (1 - e ^ 2 * s ^ 2))) s := by
  obtain ⟨h1, h2, h3, h4⟩ := es_bounds he0 he hs
  have hid := hasDerivAt_id s
  have d1 : HasDerivAt (fun x : ℝ => log (1 + x)) (1 / (1 + s)) s :=
    HasDerivAt.log ((hid).const_add 1) h1.ne'
  have d2 : HasDerivAt (fun x : ℝ => log (1 - x)) (-1 / (1 - s)) s :=
    HasDerivAt.log ((hid).const_sub 1) h2.ne'
  have d3 : HasDerivAt (fun x : ℝ => log (1 + e * x)) (e * 1 / (1 + e * s)) s :=
    HasDerivAt.log ((hid.const_mul e).const_add 1) h3.ne'
  have d4 : HasDerivAt (fun x : ℝ => log (1 - e * x)) (-(e * 1) / (1 - e * s)) s :=
    HasDerivAt.log ((hid.const_mul e).const_sub 1) h4.ne'
  have := ((d1.sub d2).div_const 2).sub (((d3.sub d4).div_const 2).const_mul e)
  refine (this.congr_deriv ?_)
  have e1 : 1 - s ^ 2 = (1 + s) * (1 - s) := by ring
  have e2 : 1 - e ^ 2 * s ^ 2 = (1 + e * s) * (1 - e * s) := by ring
  rw [e1, e2]
  have n1 := h1.ne'
  have n2 := h2.ne'
  generalize hu : e * s = u at *
  have n3 := h3.ne'
  have n4 := h4.ne'
  have hu2 : u ^ 2 = e ^ 2 * s ^ 2 := by rw [← hu]; ring
  field_simp
  linear_combination -2 * hu2

theorem isometric_continuousOn {e : ℝ} (he0 : 0 ≤ e) (he : e < 1) :
    ContinuousOn (isometric e) (Ioo (-1) 1) := fun _ hs =>
  (isometric_deriv he0 he hs).continuousAt.continuousWithinAt

theorem isometric_slope_pos {e s : ℝ} (he0 : 0 ≤ e) (he : e < 1) (hs : s ∈ Ioo (-1) (1 : ℝ)) :
    0 < (1 - e ^ 2) / ((1 - s ^ 2) * (1 - e ^ 2 * s ^ 2)) := by
  obtain ⟨h1, h2, h3, h4⟩ := es_bounds he0 he hs
  have e1 : 1 - s ^ 2 = (1 + s) * (1 - s) := by ring
  have e2 : 1 - e ^ 2 * s ^ 2 = (1 + e * s) * (1 - e * s) := by ring
  have e3 : 1 - e ^ 2 = (1 + e) * (1 - e) := by ring
  have : 0 < 1 - e := by linarith
  rw [e1, e2, e3]
  positivity

theorem isometric_strictMono {e : ℝ} (he0 : 0 ≤ e) (he : e < 1) :
    StrictMonoOn (isometric e) (Ioo (-1) 1) := by
  refine strictMonoOn_of_deriv_pos (convex_Ioo _ _) (isometric_continuousOn he0 he) ?_
  intro s hs
  rw [interior_Ioo] at hs
  rw [(isometric_deriv he0 he hs).deriv]
  exact isometric_slope_pos he0 he hs

theorem isometric_odd (e s : ℝ) : isometric e (-s) = -isometric e s := by
  simp only [isometric, mul_neg, sub_neg_eq_add, ← sub_eq_add_neg]
  ring

theorem isometric_surj {e : ℝ} (he0 : 0 ≤ e) (he : e < 1) (y : ℝ) :
    ∃ s ∈ Ioo (-1) (1 : ℝ), isometric e s = y := by
  have key : ∀ z : ℝ, 0 ≤ z → ∃ b ∈ Ioo (-1) (1 : ℝ), z ≤ isometric e b := by
    intro z hz
    have h1e : 0 < 1 - e := by linarith
    obtain ⟨b, hb, hab⟩ := artanh_surjOn (mem_univ (z / (1 - e)))
    have hb' : b ∈ Icc (-1) (1 : ℝ) := ⟨hb.1.le, hb.2.le⟩
    obtain ⟨h1, h2, h3, h4⟩ := es_bounds he0 he hb
    have hb0 : 0 ≤ b := by
      by_contra hneg
      have := artanh_neg ⟨hb.1, lt_of_not_ge hneg⟩
      rw [hab] at this
      have : 0 ≤ z / (1 - e) := div_nonneg hz h1e.le
      linarith
    refine ⟨b, hb, ?_⟩
    rw [artanh_eq_half_log hb', log_div h1.ne' h2.ne'] at hab
    have h5 : log (1 + e * b) ≤ log (1 + b) := log_le_log h3 (by nlinarith)
    have h6 : log (1 - b) ≤ log (1 - e * b) := log_le_log h2 (by nlinarith)
    have h7 : (log (1 + b) - log (1 - b)) / 2 = z / (1 - e) := by linarith
    have h8 : e * ((log (1 + e * b) - log (1 - e * b)) / 2) ≤ e * (z / (1 - e)) :=
      mul_le_mul_of_nonneg_left (by linarith) he0
    rw [isometric, h7]
    have h9 : z / (1 - e) - e * (z / (1 - e)) = z := by field_simp
    linarith
  obtain ⟨b, hb, hyb⟩ := key |y| (abs_nonneg _)
  have hnb : -b ∈ Ioo (-1) (1 : ℝ) := ⟨by linarith [hb.2], by linarith [hb.1]⟩
  have := isPreconnected_Ioo.intermediate_value hnb hb (isometric_continuousOn he0 he)
  rw [isometric_odd] at this
  exact this ⟨by linarith [neg_abs_le y], by linarith [le_abs_self y]⟩

/-- Half-angle form of the tangent. -/
theorem tan_half {x : ℝ} (hx : x ∈ Ioo (-(π / 2)) (π / 2)) :
    0 < tan (π / 4 + x / 2) ∧
    log (tan (π / 4 + x / 2)) = (log (1 + sin x) - log (1 - sin x)) / 2 := by
  have hpos : 0 < tan (π / 4 + x / 2) :=
    tan_pos_of_pos_of_lt_pi_div_two (by linarith [hx.1]) (by linarith [hx.2])
  refine ⟨hpos, ?_⟩
  have hc : 0 < cos (π / 4 + x / 2) :=
    cos_pos_of_mem_Ioo ⟨by linarith [hx.1, pi_pos], by linarith [hx.2]⟩
  have hs : 0 < sin (π / 4 + x / 2) :=
    sin_pos_of_pos_of_lt_pi (by linarith [hx.1]) (by linarith [hx.2, pi_pos])
  have h2 : cos (2 * (π / 4 + x / 2)) = -sin x := by
    rw [show 2 * (π / 4 + x / 2) = x + π / 2 by ring, cos_add_pi_div_two]
  have e1 : 1 + sin x = 2 * sin (π / 4 + x / 2) ^ 2 := by
    have := cos_two_mul (π / 4 + x / 2)
    have := sin_sq_add_cos_sq (π / 4 + x / 2)
    nlinarith
  have e2 : 1 - sin x = 2 * cos (π / 4 + x / 2) ^ 2 := by
    have := cos_two_mul (π / 4 + x / 2)
    linarith
  rw [e1, e2, tan_eq_sin_div_cos, log_div hs.ne' hc.ne', log_mul (by norm_num) (by positivity),
    log_mul (by norm_num) (by positivity), log_pow, log_pow]
  push_cast
  ring

theorem sin_mem {x : ℝ} (hx : x ∈ Ioo (-(π / 2)) (π / 2)) : sin x ∈ Ioo (-1) (1 : ℝ) := by
  have h1 := strictMonoOn_sin (a := -(π / 2)) (b := x)
    ⟨le_rfl, by linarith [pi_pos]⟩ ⟨hx.1.le, hx.2.le⟩ hx.1
  have h2 := strictMonoOn_sin (a := x) (b := π / 2)
    ⟨hx.1.le, hx.2.le⟩ ⟨by linarith [pi_pos], le_rfl⟩ hx.2
  rw [sin_neg, sin_pi_div_two] at h1
  rw [sin_pi_div_two] at h2
  exact ⟨h1, h2⟩

theorem eccentricity_bounds {s : Spheroid} (h : s.Valid) :
    0 ≤ s.firstEccentricity ∧ s.firstEccentricity < 1 := by
  refine ⟨sqrt_nonneg _, ?_⟩
  have := h.pol_pos
  have : 0 < s.eqRad := lt_of_lt_of_le h.pol_pos h.le
  have h1 : 0 < (s.polRad / s.eqRad) ^ 2 := by positivity
  rw [Spheroid.firstEccentricity, sqrt_lt' one_pos]
  linarith

theorem mercatorX_eq {s : Spheroid} (h : s.Valid) {x : ℝ} (hx : x ∈ Ioo (-(π / 2)) (π / 2)) :
    mercatorX s x = isometric s.firstEccentricity (sin x) := by
  obtain ⟨he0, he⟩ := eccentricity_bounds h
  obtain ⟨-, -, h3, h4⟩ := es_bounds he0 he (sin_mem hx)
  obtain ⟨ht, hl⟩ := tan_half hx
  rw [mercatorX, log_mul ht.ne' (by positivity), log_rpow (by positivity), hl,
    log_div h4.ne' h3.ne', isometric]
  ring

end MaRC.Projection
