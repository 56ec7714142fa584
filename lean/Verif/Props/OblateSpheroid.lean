import Verif.Spec.Spheroid
import Mathlib.Analysis.Real.Pi.Bounds
import Mathlib.Tactic.Linarith
import Mathlib.Tactic.Positivity
import Mathlib.Tactic.FieldSimp
import Mathlib.Tactic.LinearCombination

/-!
# Properties of the spheroid: C33, C34
-/

namespace MaRC

open Real Geo

/-! ## C34: construction -/

/-- The constructor accepts a pair of radii exactly when both are positive
numbers (or infinite) and the polar radius does not exceed the equatorial one;
otherwise it throws `invalid_argument`. -/
theorem C34_construct (e p : Dbl) :
    (makeSpheroid e p = .ok (e, p) ↔
      Dbl.lt (.fin 0) p = true ∧ Dbl.le p e = true) ∧
    (makeSpheroid e p = .ok (e, p) ∨ makeSpheroid e p = .throw .invalidArgument) := by
  cases e <;> cases p <;>
    simp [makeSpheroid, validateRadius, Dbl.isNaN, Dbl.le, Dbl.lt]
  case fin.fin a b =>
    by_cases h1 : a ≤ 0 <;> by_cases h2 : b ≤ 0 <;> by_cases h3 : a < b <;>
      simp [h1, h2, h3] <;> grind
  all_goals split_ifs with h <;> simp <;> grind

example : makeSpheroid (.fin 71492) (.fin 66854) = .ok (.fin 71492, .fin 66854) := by
  decide +kernel
example : makeSpheroid (.fin 66854) (.fin 71492) = .throw .invalidArgument := by
  decide +kernel
example : makeSpheroid .nan (.fin 1) = .throw .invalidArgument := by decide +kernel

namespace Spheroid

variable {s : Spheroid}

theorem Valid.eq_pos (h : s.Valid) : 0 < s.eqRad := lt_of_lt_of_le h.pol_pos h.le

example : Valid ⟨71492, 66854⟩ := ⟨by norm_num, by norm_num⟩

/-! ## C33 -/

/-- Both conversions stay strictly between the poles. -/
theorem C33_range (s : Spheroid) (x : ℝ) :
    s.centricLatitude x ∈ Set.Ioo (-(π / 2)) (π / 2) ∧
    s.graphicLatitude x ∈ Set.Ioo (-(π / 2)) (π / 2) :=
  ⟨⟨neg_pi_div_two_lt_arctan _, arctan_lt_pi_div_two _⟩,
   ⟨neg_pi_div_two_lt_arctan _, arctan_lt_pi_div_two _⟩⟩

/-- The conversions are mutually inverse. -/
theorem C33_inverse (h : s.Valid) (x : ℝ) (hx : x ∈ Set.Ioo (-(π / 2)) (π / 2)) :
    s.graphicLatitude (s.centricLatitude x) = x ∧
    s.centricLatitude (s.graphicLatitude x) = x := by
  have := h.pol_pos
  have := h.eq_pos
  constructor
  · rw [graphicLatitude, centricLatitude, tan_arctan, ← mul_assoc, ← mul_pow,
      div_mul_div_cancel₀ (by positivity), div_self (by positivity), one_pow, one_mul,
      arctan_tan hx.1 hx.2]
  · rw [graphicLatitude, centricLatitude, tan_arctan, ← mul_assoc, ← mul_pow,
      div_mul_div_cancel₀ (by positivity), div_self (by positivity), one_pow, one_mul,
      arctan_tan hx.1 hx.2]

/-- Both are strictly increasing between the poles. -/
theorem C33_increasing (h : s.Valid) :
    StrictMonoOn s.centricLatitude (Set.Ioo (-(π / 2)) (π / 2)) ∧
    StrictMonoOn s.graphicLatitude (Set.Ioo (-(π / 2)) (π / 2)) := by
  have := h.pol_pos
  have := h.eq_pos
  constructor <;> intro x hx y hy hxy <;>
    refine arctan_strictMono (mul_lt_mul_of_pos_left ?_ (by positivity)) <;>
    exact tan_lt_tan_of_lt_of_lt_pi_div_two hx.1 hy.2 hxy

/-- Both are odd and fix the equator. -/
theorem C33_odd (s : Spheroid) (x : ℝ) :
    s.centricLatitude (-x) = -s.centricLatitude x ∧
    s.graphicLatitude (-x) = -s.graphicLatitude x ∧
    s.centricLatitude 0 = 0 ∧ s.graphicLatitude 0 = 0 := by
  simp [centricLatitude, graphicLatitude, tan_neg, arctan_neg]

/-- The planetographic latitude is on the same side of the equator as the
planetocentric one and at least as far from it; strictly farther off the
equator when the body is flattened. -/
theorem C33_farther (h : s.Valid) (x : ℝ) (hx : x ∈ Set.Ioo (-(π / 2)) (π / 2)) :
    (0 ≤ x → x ≤ s.graphicLatitude x) ∧ (x ≤ 0 → s.graphicLatitude x ≤ x) ∧
    |x| ≤ |s.graphicLatitude x| ∧
    (s.polRad < s.eqRad → x ≠ 0 → |x| < |s.graphicLatitude x|) := by
  have hp := h.pol_pos
  have hk : 1 ≤ (s.eqRad / s.polRad) ^ 2 := one_le_pow₀ ((one_le_div hp).2 h.le)
  have h1 : ∀ y, 0 ≤ y → y < π / 2 → y ≤ s.graphicLatitude y := by
    intro y h0 h1
    have ht := tan_nonneg_of_nonneg_of_le_pi_div_two h0 h1.le
    calc y = arctan (tan y) := (arctan_tan (by linarith [pi_pos]) h1).symm
      _ ≤ _ := arctan_strictMono.monotone (le_mul_of_one_le_left ht hk)
  have h2 : s.polRad < s.eqRad → ∀ y, 0 < y → y < π / 2 → y < s.graphicLatitude y := by
    intro hlt y h0 h1
    have ht := tan_pos_of_pos_of_lt_pi_div_two h0 h1
    have hk : 1 < (s.eqRad / s.polRad) ^ 2 :=
      one_lt_pow₀ ((one_lt_div hp).2 hlt) (by norm_num)
    calc y = arctan (tan y) := (arctan_tan (by linarith [pi_pos]) h1).symm
      _ < _ := arctan_strictMono (lt_mul_of_one_lt_left ht hk)
  have hodd := (C33_odd s x).2.1
  have h3 : 0 ≤ x → x ≤ s.graphicLatitude x := fun h => h1 x h hx.2
  have h4 : x ≤ 0 → s.graphicLatitude x ≤ x := by
    intro h
    have := h1 (-x) (by linarith) (by linarith [hx.1])
    rw [hodd] at this
    linarith
  refine ⟨h3, h4, ?_, ?_⟩
  · rcases le_total 0 x with h | h
    · rw [abs_of_nonneg h, abs_of_nonneg (h.trans (h3 h))]
      exact h3 h
    · rw [abs_of_nonpos h, abs_of_nonpos ((h4 h).trans h)]
      linarith [h4 h]
  · intro hlt h0
    rcases lt_or_gt_of_ne h0 with h | h
    · rw [abs_of_neg h, abs_of_nonpos ((h4 h.le).trans h.le)]
      have := h2 hlt (-x) (by linarith) (by linarith [hx.1])
      rw [hodd] at this
      linarith
    · rw [abs_of_pos h, abs_of_nonneg (h.le.trans (h3 h.le))]
      exact h2 hlt x h hx.2

/-- On a sphere both are the identity. -/
theorem C33_sphere (h : s.Valid) (hs : s.eqRad = s.polRad) (x : ℝ)
    (hx : x ∈ Set.Ioo (-(π / 2)) (π / 2)) :
    s.centricLatitude x = x ∧ s.graphicLatitude x = x := by
  have := h.pol_pos.ne'
  simp [centricLatitude, graphicLatitude, hs, this, arctan_tan hx.1 hx.2]

/-- The nearest `double` to a right angle is below it, so that every `double`
latitude between the poles is in the interval the theorems above are about. -/
theorem C33_double_pole : (884279719003555 / 562949953421312 : ℝ) < π / 2 := by
  have := pi_gt_d20
  norm_num at this ⊢
  linarith

example : (0.5 : ℝ) ∈ Set.Ioo (-(π / 2)) (π / 2) := by
  have := pi_gt_three
  constructor <;> norm_num <;> linarith

/-! ## C34 -/

theorem hypot_pos (h : s.Valid) (lat : ℝ) :
    0 < (cos lat / s.eqRad) ^ 2 + (sin lat / s.polRad) ^ 2 := by
  have := h.pol_pos
  have := h.eq_pos
  by_cases hc : cos lat = 0
  · have : sin lat ≠ 0 := by
      intro h0
      have := sin_sq_add_cos_sq lat
      simp [hc, h0] at this
    positivity
  · positivity

theorem centricRadius_pos (h : s.Valid) (lat : ℝ) : 0 < s.centricRadius lat := by
  have := hypot_pos h lat
  rw [centricRadius, hypot]
  positivity

theorem centricRadius_sq (h : s.Valid) (lat : ℝ) :
    s.centricRadius lat ^ 2 * ((cos lat / s.eqRad) ^ 2 + (sin lat / s.polRad) ^ 2) = 1 := by
  have := hypot_pos h lat
  rw [centricRadius, hypot, div_pow, Real.sq_sqrt this.le, one_pow, one_div,
    inv_mul_cancel₀ this.ne']

/-- The point at a latitude, any longitude and the centric radius is on the
spheroid, and the radius is the only non-negative one of which this holds. -/
theorem C34_surface (h : s.Valid) (lat lon : ℝ) :
    OnSpheroid s.eqRad s.polRad (s.centricRadius lat • direction lat lon) ∧
    ∀ r, 0 ≤ r → OnSpheroid s.eqRad s.polRad (r • direction lat lon) →
      r = s.centricRadius lat := by
  have key : ∀ r, level s.eqRad s.polRad (r • direction lat lon) =
      r ^ 2 * ((cos lat / s.eqRad) ^ 2 + (sin lat / s.polRad) ^ 2) := by
    intro r
    simp only [level, direction, Pi.smul_apply, smul_eq_mul, Matrix.cons_val]
    have := cos_sq_add_sin_sq lon
    linear_combination (r * cos lat / s.eqRad) ^ 2 * this
  refine ⟨by rw [OnSpheroid, key, centricRadius_sq h], fun r hr ho => ?_⟩
  rw [OnSpheroid, key, ← centricRadius_sq h lat] at ho
  have := mul_right_cancel₀ (hypot_pos h lat).ne' ho
  exact (sq_eq_sq₀ hr (centricRadius_pos h lat).le).1 this

/-- The radius lies between the polar and the equatorial one. -/
theorem C34_bounds (h : s.Valid) (lat : ℝ) :
    s.polRad ≤ s.centricRadius lat ∧ s.centricRadius lat ≤ s.eqRad := by
  have hp := h.pol_pos
  have he := h.eq_pos
  have hr := centricRadius_pos h lat
  have key := centricRadius_sq h lat
  have h1 := sin_sq_add_cos_sq lat
  have h2 : (cos lat / s.eqRad) ^ 2 ≤ (cos lat / s.polRad) ^ 2 := by
    rw [div_pow, div_pow]
    have := h.le
    gcongr
  have h3 : (sin lat / s.eqRad) ^ 2 ≤ (sin lat / s.polRad) ^ 2 := by
    rw [div_pow, div_pow]
    have := h.le
    gcongr
  have h4 : (cos lat / s.polRad) ^ 2 + (sin lat / s.polRad) ^ 2 = 1 / s.polRad ^ 2 := by
    rw [div_pow, div_pow, ← add_div, add_comm, h1]
  have h5 : (cos lat / s.eqRad) ^ 2 + (sin lat / s.eqRad) ^ 2 = 1 / s.eqRad ^ 2 := by
    rw [div_pow, div_pow, ← add_div, add_comm, h1]
  constructor
  · rw [← sq_le_sq₀ hp.le hr.le]
    have : s.centricRadius lat ^ 2 * (1 / s.polRad ^ 2) ≥ 1 := by
      rw [← h4, ← key]; gcongr
    rw [mul_one_div, ge_iff_le, le_div_iff₀ (by positivity), one_mul] at this
    exact this
  · rw [← sq_le_sq₀ hr.le he.le]
    have : s.centricRadius lat ^ 2 * (1 / s.eqRad ^ 2) ≤ 1 := by
      rw [← h5, ← key]; gcongr
    rw [mul_one_div, div_le_iff₀ (by positivity), one_mul] at this
    exact this

/-- It is the equatorial radius on the equator and the polar one at the poles,
and the same in both hemispheres. -/
theorem C34_ends (h : s.Valid) (lat : ℝ) :
    s.centricRadius 0 = s.eqRad ∧ s.centricRadius (π / 2) = s.polRad ∧
    s.centricRadius (-(π / 2)) = s.polRad ∧
    s.centricRadius (-lat) = s.centricRadius lat := by
  have hp := h.pol_pos
  have he := h.eq_pos
  refine ⟨?_, ?_, ?_, ?_⟩ <;>
    simp [centricRadius, hypot, neg_div, Real.sqrt_sq, hp.le, he.le]

/-- It decreases from the equator to the pole; strictly if the body is
flattened. -/
theorem C34_decreasing (h : s.Valid) :
    AntitoneOn s.centricRadius (Set.Icc 0 (π / 2)) ∧
    (s.polRad < s.eqRad → StrictAntiOn s.centricRadius (Set.Icc 0 (π / 2))) := by
  have hp := h.pol_pos
  have he := h.eq_pos
  have form : ∀ t, (cos t / s.eqRad) ^ 2 + (sin t / s.polRad) ^ 2 =
      1 / s.eqRad ^ 2 + (1 / s.polRad ^ 2 - 1 / s.eqRad ^ 2) * sin t ^ 2 := by
    intro t
    rw [div_pow, div_pow, cos_sq']
    ring
  have hs : ∀ x ∈ Set.Icc 0 (π / 2), ∀ y ∈ Set.Icc 0 (π / 2), x < y → sin x ^ 2 < sin y ^ 2 := by
    intro x hx y hy hxy
    have h0 := sin_nonneg_of_nonneg_of_le_pi hx.1 (by linarith [hx.2, pi_pos])
    have h1 := strictMonoOn_sin ⟨by linarith [hx.1, pi_pos], hx.2⟩
      ⟨by linarith [hy.1, pi_pos], hy.2⟩ hxy
    exact pow_lt_pow_left₀ h1 h0 (by norm_num)
  have anti : s.polRad < s.eqRad → StrictAntiOn s.centricRadius (Set.Icc 0 (π / 2)) := by
    intro hlt x hx y hy hxy
    have hd : 0 < 1 / s.polRad ^ 2 - 1 / s.eqRad ^ 2 := by
      have : s.polRad ^ 2 < s.eqRad ^ 2 := pow_lt_pow_left₀ hlt hp.le (by norm_num)
      have := one_div_lt_one_div_of_lt (by positivity) this
      linarith
    have := hs x hx y hy hxy
    have h0 := hypot_pos h x
    rw [centricRadius, centricRadius, hypot, hypot]
    refine one_div_lt_one_div_of_lt (Real.sqrt_pos.2 h0) (Real.sqrt_lt_sqrt h0.le ?_)
    rw [form, form]
    have := mul_lt_mul_of_pos_left this hd
    linarith
  refine ⟨?_, anti⟩
  rcases h.le.lt_or_eq with hlt | heq
  · exact (anti hlt).antitoneOn
  · intro x _ y _ _
    have e : ∀ t, s.centricRadius t = s.eqRad := by
      intro t
      have := C34_bounds h t
      exact le_antisymm this.2 (heq ▸ this.1)
    rw [e, e]

/-- On a sphere it is the radius. -/
theorem C34_sphere (h : s.Valid) (hs : s.eqRad = s.polRad) (lat : ℝ) :
    s.centricRadius lat = s.eqRad := by
  have := C34_bounds h lat
  exact le_antisymm this.2 (hs ▸ this.1)

end Spheroid
end MaRC
