import Verif.Props.OblateSpheroid

/-!
# Properties of illumination cosines and curvature: C35, C36
-/

namespace MaRC.Spheroid

open Real Geo Matrix

variable {s : Spheroid}

/-! ## Helper facts -/

theorem dot3 (u v : Point) : u ⬝ᵥ v = u 0 * v 0 + u 1 * v 1 + u 2 * v 2 := by
  simp [dotProduct, Fin.sum_univ_three]

theorem dot_self_nonneg (u : Point) : 0 ≤ u ⬝ᵥ u := by
  rw [dot3]; nlinarith [sq_nonneg (u 0), sq_nonneg (u 1), sq_nonneg (u 2)]

theorem cauchy (u v : Point) : (u ⬝ᵥ v) ^ 2 ≤ (u ⬝ᵥ u) * (v ⬝ᵥ v) := by
  rw [dot3, dot3, dot3]
  nlinarith [sq_nonneg (u 0 * v 1 - u 1 * v 0), sq_nonneg (u 0 * v 2 - u 2 * v 0),
    sq_nonneg (u 1 * v 2 - u 2 * v 1)]

theorem cosAngle_bounds (u v : Point) : -1 ≤ cosAngle u v ∧ cosAngle u v ≤ 1 := by
  rw [← abs_le, cosAngle, length, length, ← Real.sqrt_mul (dot_self_nonneg u), abs_div,
    abs_of_nonneg (Real.sqrt_nonneg _)]
  refine div_le_one_of_le₀ ?_ (Real.sqrt_nonneg _)
  exact Real.abs_le_sqrt (cauchy u v)

theorem length_direction (lat lon : ℝ) : length (direction lat lon) = 1 := by
  rw [length, Real.sqrt_eq_one, dot3]
  simp only [direction, Matrix.cons_val]
  have h1 := cos_sq_add_sin_sq lon
  have h2 := cos_sq_add_sin_sq lat
  linear_combination cos lat ^ 2 * h1 + h2

/-- The normal points along the planetographic latitude. -/
theorem normal_eq (h : s.Valid) (lat lon : ℝ) (hlat : lat ∈ Set.Ioo (-(π / 2)) (π / 2)) :
    ∃ k > (0 : ℝ), normal s.eqRad s.polRad (s.centricRadius lat • direction lat lon) =
      k • direction (s.graphicLatitude lat) lon := by
  have hp := h.pol_pos
  have he := h.eq_pos
  have hc := cos_pos_of_mem_Ioo hlat
  have hg := cos_pos_of_mem_Ioo (C33_range s lat).2
  have hr := centricRadius_pos h lat
  have ht : tan (s.graphicLatitude lat) = (s.eqRad / s.polRad) ^ 2 * tan lat := tan_arctan _
  rw [tan_eq_sin_div_cos, tan_eq_sin_div_cos] at ht
  refine ⟨s.centricRadius lat * cos lat / (s.eqRad ^ 2 * cos (s.graphicLatitude lat)),
    by positivity, ?_⟩
  ext i
  fin_cases i
  · simp [normal, direction]; field_simp
  · simp [normal, direction]; field_simp
  · simp [normal, direction]
    field_simp at ht ⊢
    linear_combination -ht

theorem length_smul (k : ℝ) (hk : 0 < k) (u : Point) : length (k • u) = k * length u := by
  rw [length, length, smul_dotProduct, dotProduct_smul, smul_eq_mul, smul_eq_mul, ← mul_assoc,
    Real.sqrt_mul (by positivity), Real.sqrt_mul_self hk.le]

theorem cosAngle_smul (k : ℝ) (hk : 0 < k) (u v : Point) : cosAngle (k • u) v = cosAngle u v := by
  rw [cosAngle, cosAngle, length_smul k hk, smul_dotProduct, smul_eq_mul, mul_assoc,
    mul_div_mul_left _ _ hk.ne']

/-- The observer of a sub-observer point and a distance from the centre. -/
noncomputable def observer (subLat subLon range : ℝ) : Point := range • direction subLat subLon

/-- The surface point at a latitude and longitude. -/
noncomputable def surface (s : Spheroid) (lat lon : ℝ) : Point :=
  s.centricRadius lat • direction lat lon

theorem distance_eq (subLat subLon lat lon range : ℝ) :
    s.observerDistance subLat subLon lat lon range =
      length (observer subLat subLon range - s.surface lat lon) := by
  rw [observerDistance, length, dot3]
  congr 1
  simp only [observer, surface, direction, Pi.sub_apply, Pi.smul_apply, smul_eq_mul,
    Matrix.cons_val, cos_sub]
  have h1 := cos_sq_add_sin_sq lon
  have h2 := cos_sq_add_sin_sq lat
  have h3 := cos_sq_add_sin_sq subLon
  have h4 := cos_sq_add_sin_sq subLat
  linear_combination -(s.centricRadius lat ^ 2 * cos lat ^ 2) * h1 - s.centricRadius lat ^ 2 * h2
    - range ^ 2 * cos subLat ^ 2 * h3 - range ^ 2 * h4

/-! ## C35 -/

/-- The emission cosine is the cosine of the angle between the outward normal
of the spheroid at the surface point and the vector from there to the
observer. -/
theorem C35_mu (h : s.Valid) (subLat subLon lat lon range : ℝ)
    (hlat : lat ∈ Set.Ioo (-(π / 2)) (π / 2)) :
    s.mu subLat subLon lat lon range =
      cosAngle (normal s.eqRad s.polRad (s.surface lat lon))
        (observer subLat subLon range - s.surface lat lon) := by
  obtain ⟨k, hk, hn⟩ := normal_eq h lat lon hlat
  rw [surface, hn, cosAngle_smul k hk, cosAngle, length_direction, one_mul, ← surface,
    ← distance_eq, mu]
  congr 1
  rw [dot3]
  simp only [observer, surface, direction, Pi.sub_apply, Pi.smul_apply, smul_eq_mul,
    Matrix.cons_val, cos_sub]
  have h1 := cos_sq_add_sin_sq lon
  linear_combination (s.centricRadius lat * cos lat * cos (s.graphicLatitude lat)) * h1

/-- The incidence cosine is the cosine of the angle between the outward normal
and the direction of the sun. -/
theorem C35_mu0 (h : s.Valid) (subLat subLon lat lon : ℝ)
    (hlat : lat ∈ Set.Ioo (-(π / 2)) (π / 2)) :
    s.mu0 subLat subLon lat lon =
      cosAngle (normal s.eqRad s.polRad (s.surface lat lon)) (direction subLat subLon) := by
  obtain ⟨k, hk, hn⟩ := normal_eq h lat lon hlat
  rw [surface, hn, cosAngle_smul k hk, cosAngle, length_direction, length_direction, one_mul,
    div_one, mu0, dot3]
  simp only [direction, Matrix.cons_val, cos_sub]
  ring

/-- The phase cosine is the cosine of the angle between the direction of the
sun and the vector from the surface point to the observer. -/
theorem C35_cos_phase (s : Spheroid) (obsLat obsLon sunLat sunLon lat lon range : ℝ) :
    s.cosPhase obsLat obsLon sunLat sunLon lat lon range =
      cosAngle (direction sunLat sunLon)
        (observer obsLat obsLon range - s.surface lat lon) := by
  rw [cosAngle, length_direction, one_mul, ← distance_eq, cosPhase]
  congr 1
  rw [dot3]
  simp only [observer, surface, direction, Pi.sub_apply, Pi.smul_apply, smul_eq_mul,
    Matrix.cons_val, cos_sub]
  ring

/-- All three lie between -1 and 1. -/
theorem C35_bounds (h : s.Valid) (obsLat obsLon sunLat sunLon lat lon range : ℝ)
    (hlat : lat ∈ Set.Ioo (-(π / 2)) (π / 2)) :
    |s.mu obsLat obsLon lat lon range| ≤ 1 ∧ |s.mu0 sunLat sunLon lat lon| ≤ 1 ∧
    |s.cosPhase obsLat obsLon sunLat sunLon lat lon range| ≤ 1 := by
  rw [C35_mu h _ _ _ _ _ hlat, C35_mu0 h _ _ _ _ hlat, C35_cos_phase, abs_le, abs_le, abs_le]
  exact ⟨cosAngle_bounds _ _, cosAngle_bounds _ _, cosAngle_bounds _ _⟩

/-- The divisor is positive for an observer farther from the centre than the
equatorial radius: no division by zero. -/
theorem C35_divisor (h : s.Valid) (subLat subLon lat lon range : ℝ) (hr : s.eqRad < range) :
    0 < s.observerDistance subLat subLon lat lon range := by
  have hb := (C34_bounds h lat).2
  have hp := centricRadius_pos h lat
  rw [observerDistance]
  apply Real.sqrt_pos.2
  have hc := cauchy (direction subLat subLon) (direction lat lon)
  have l1 : direction subLat subLon ⬝ᵥ direction subLat subLon = 1 := by
    have := length_direction subLat subLon
    rwa [length, Real.sqrt_eq_one] at this
  have l2 : direction lat lon ⬝ᵥ direction lat lon = 1 := by
    have := length_direction lat lon
    rwa [length, Real.sqrt_eq_one] at this
  rw [l1, l2] at hc
  have e : direction subLat subLon ⬝ᵥ direction lat lon =
      sin subLat * sin lat + cos subLat * cos lat * cos (subLon - lon) := by
    rw [dot3]
    simp only [direction, Matrix.cons_val, cos_sub]
    ring
  rw [e] at hc
  have hc1 : sin subLat * sin lat + cos subLat * cos lat * cos (subLon - lon) ≤ 1 := by
    nlinarith
  have hpos : 0 < 2 * range * s.centricRadius lat := by nlinarith
  have := mul_le_mul_of_nonneg_left hc1 hpos.le
  nlinarith [sq_pos_of_pos (sub_pos.2 (lt_of_le_of_lt hb hr))]

/-- At the sub-observer point of a sphere the emission cosine is 1. -/
theorem C35_center (h : s.Valid) (hs : s.eqRad = s.polRad) (lat lon range : ℝ)
    (hlat : lat ∈ Set.Ioo (-(π / 2)) (π / 2)) (hr : s.eqRad < range) :
    s.mu lat lon lat lon range = 1 := by
  have hd := C35_divisor h lat lon lat lon range hr
  rw [mu, div_eq_one_iff_eq hd.ne', observerDistance, (C33_sphere h hs lat hlat).2,
    C34_sphere h hs, sub_self, sub_self, cos_zero]
  have e : sin lat * sin lat + cos lat * cos lat * 1 = 1 := by
    linear_combination sin_sq_add_cos_sq lat
  rw [e]
  have : range * range + s.eqRad * s.eqRad - 2 * range * s.eqRad * 1 =
      (range - s.eqRad) ^ 2 := by ring
  rw [this, Real.sqrt_sq (by linarith)]
  linear_combination range * e

example : Valid ⟨1, 1⟩ ∧ (1 : ℝ) < 2 ∧ (1 / 2 : ℝ) ∈ Set.Ioo (-(π / 2)) (π / 2) := by
  refine ⟨⟨by norm_num, by norm_num⟩, by norm_num, ?_⟩
  have := pi_gt_three
  constructor <;> linarith

/-- On a body that is not a sphere the emission cosine at the sub-observer
point is below 1 off the equator: the surface is not perpendicular to the line
of sight there. -/
theorem C35_center_flattened (h : s.Valid) (hs : s.polRad < s.eqRad) (lat lon range : ℝ)
    (hlat : lat ∈ Set.Ioo (-(π / 2)) (π / 2)) (h0 : lat ≠ 0) (hr : s.eqRad < range) :
    s.mu lat lon lat lon range = cos (s.graphicLatitude lat - lat) ∧
    s.mu lat lon lat lon range < 1 := by
  have hd := C35_divisor h lat lon lat lon range hr
  have hb := (C34_bounds h lat).2
  have e : sin lat * sin lat + cos lat * cos lat * 1 = 1 := by
    linear_combination sin_sq_add_cos_sq lat
  have hdist : s.observerDistance lat lon lat lon range = range - s.centricRadius lat := by
    rw [observerDistance, sub_self, cos_zero, e]
    have : range * range + s.centricRadius lat * s.centricRadius lat -
        2 * range * s.centricRadius lat * 1 = (range - s.centricRadius lat) ^ 2 := by ring
    rw [this, Real.sqrt_sq (by linarith)]
  have h1 : s.mu lat lon lat lon range = cos (s.graphicLatitude lat - lat) := by
    rw [mu, div_eq_iff hd.ne', hdist, sub_self, cos_zero, cos_sub, cos_sub]
    ring
  refine ⟨h1, ?_⟩
  rw [h1]
  have hf := (C33_farther h lat hlat).2.2.2 hs h0
  have hg := (C33_range s lat).2
  refine lt_of_le_of_ne (cos_le_one _) fun hc => ?_
  have := (cos_eq_one_iff_of_lt_of_lt (x := s.graphicLatitude lat - lat)
    (by linarith [hg.1, hlat.2, pi_pos]) (by linarith [hg.2, hlat.1, pi_pos])).1 hc
  rw [sub_eq_zero.1 this] at hf
  exact lt_irrefl _ hf

/-! ## C36 -/

/-- `1 - e² sin²` of the curvature formulas. -/
private noncomputable def W (s : Spheroid) (lat : ℝ) : ℝ :=
  1 - s.firstEccentricity ^ 2 * sin (s.graphicLatitude lat) ^ 2

theorem ecc_sq (h : s.Valid) : s.firstEccentricity ^ 2 = 1 - (s.polRad / s.eqRad) ^ 2 := by
  have hp := h.pol_pos
  have he := h.eq_pos
  have : (s.polRad / s.eqRad) ^ 2 ≤ 1 :=
    pow_le_one₀ (by positivity) ((div_le_one he).2 h.le)
  rw [firstEccentricity, Real.sq_sqrt (by linarith)]

private theorem W_bounds (h : s.Valid) (lat : ℝ) :
    (s.polRad / s.eqRad) ^ 2 ≤ W s lat ∧ W s lat ≤ 1 := by
  have hp := h.pol_pos
  have he := h.eq_pos
  have h1 : (s.polRad / s.eqRad) ^ 2 ≤ 1 :=
    pow_le_one₀ (by positivity) ((div_le_one he).2 h.le)
  have h2 := sin_sq_le_one (s.graphicLatitude lat)
  have h3 := sq_nonneg (sin (s.graphicLatitude lat))
  rw [W, ecc_sq h]
  constructor
  · nlinarith
  · nlinarith

private theorem N_eq (lat : ℝ) : s.N lat = s.eqRad / Real.sqrt (W s lat) := rfl

private theorem M_eq (h : s.Valid) (lat : ℝ) :
    s.M lat = s.N lat * ((s.polRad / s.eqRad) ^ 2 / W s lat) := by
  have hp := h.pol_pos
  have he := h.eq_pos
  have hW : 0 < W s lat := lt_of_lt_of_le (by positivity) (W_bounds h lat).1
  rw [N_eq, M, ← W, ecc_sq h, show (3 / 2 : ℝ) = 1 + 1 / 2 by norm_num, Real.rpow_add hW,
    Real.rpow_one, ← Real.sqrt_eq_rpow, div_mul_div_comm]
  congr 1
  · ring
  · ring

/-- The two radii of curvature are positive, that of the meridian being the
smaller one, and lie between the extreme values. -/
theorem C36_order (h : s.Valid) (lat : ℝ) :
    0 < s.M lat ∧ s.M lat ≤ s.N lat ∧
    s.polRad ^ 2 / s.eqRad ≤ s.M lat ∧ s.eqRad ≤ s.N lat ∧ s.N lat ≤ s.eqRad ^ 2 / s.polRad := by
  have hp := h.pol_pos
  have he := h.eq_pos
  obtain ⟨h1, h2⟩ := W_bounds h lat
  have hk : 0 < (s.polRad / s.eqRad) ^ 2 := by positivity
  have hW : 0 < W s lat := lt_of_lt_of_le hk h1
  have hN : 0 < s.N lat := by rw [N_eq]; positivity
  have hN1 : s.eqRad ≤ s.N lat := by
    rw [N_eq, le_div_iff₀ (by positivity)]
    exact mul_le_of_le_one_right he.le (Real.sqrt_le_one.2 h2)
  refine ⟨?_, ?_, ?_, hN1, ?_⟩
  · rw [M_eq h]; positivity
  · rw [M_eq h]
    exact mul_le_of_le_one_right hN.le ((div_le_one hW).2 h1)
  · rw [M_eq h]
    calc s.polRad ^ 2 / s.eqRad = s.eqRad * ((s.polRad / s.eqRad) ^ 2 / 1) := by field_simp
      _ ≤ _ := by gcongr
  · rw [N_eq]
    calc s.eqRad / Real.sqrt (W s lat) ≤ s.eqRad / (s.polRad / s.eqRad) := by
          gcongr
          rw [← Real.sqrt_sq (show 0 ≤ s.polRad / s.eqRad by positivity)]
          exact Real.sqrt_le_sqrt h1
      _ = _ := by field_simp

/-- On a sphere both are the radius. -/
theorem C36_sphere (h : s.Valid) (hs : s.eqRad = s.polRad) (lat : ℝ) :
    s.M lat = s.eqRad ∧ s.N lat = s.eqRad := by
  have := h.pol_pos.ne'
  simp [M, N, firstEccentricity, hs, this]

/-- On the equator they are the semi-latus rectum and the equatorial
radius. -/
theorem C36_equator (h : s.Valid) :
    s.M 0 = s.polRad ^ 2 / s.eqRad ∧ s.N 0 = s.eqRad := by
  have he := h.eq_pos
  have : s.graphicLatitude 0 = 0 := (C33_odd s 0).2.2.2
  constructor
  · rw [M, ecc_sq h, this]
    simp
    field_simp
  · simp [N, this]

/-- Toward a pole both tend to the square of the equatorial radius over the
polar one. -/
theorem C36_pole (h : s.Valid) :
    Filter.Tendsto s.M (nhdsWithin (π / 2) (Set.Iio (π / 2))) (nhds (s.eqRad ^ 2 / s.polRad)) ∧
    Filter.Tendsto s.N (nhdsWithin (π / 2) (Set.Iio (π / 2))) (nhds (s.eqRad ^ 2 / s.polRad)) ∧
    (∀ lat, s.M (-lat) = s.M lat) ∧ ∀ lat, s.N (-lat) = s.N lat := by
  have hp := h.pol_pos
  have he := h.eq_pos
  have hg : Filter.Tendsto s.graphicLatitude (nhdsWithin (π / 2) (Set.Iio (π / 2)))
      (nhds (π / 2)) := by
    have h1 := tendsto_tan_pi_div_two
    have h2 : Filter.Tendsto (fun x => (s.eqRad / s.polRad) ^ 2 * tan x)
        (nhdsWithin (π / 2) (Set.Iio (π / 2))) Filter.atTop :=
      Filter.Tendsto.const_mul_atTop (by positivity) h1
    exact (tendsto_arctan_atTop.comp h2).mono_right nhdsWithin_le_nhds
  have hW : Filter.Tendsto (W s) (nhdsWithin (π / 2) (Set.Iio (π / 2)))
      (nhds ((s.polRad / s.eqRad) ^ 2)) := by
    have h1 := (continuous_sin.tendsto (π / 2)).comp hg
    have h2 := ((h1.pow 2).const_mul (s.firstEccentricity ^ 2)).const_sub 1
    rw [sin_pi_div_two, one_pow, mul_one, ecc_sq h, sub_sub_cancel] at h2
    rw [← ecc_sq h] at h2
    exact h2
  have hk : (0 : ℝ) < s.polRad / s.eqRad := by positivity
  have hN : Filter.Tendsto s.N (nhdsWithin (π / 2) (Set.Iio (π / 2)))
      (nhds (s.eqRad ^ 2 / s.polRad)) := by
    have h1 := ((Real.continuous_sqrt.tendsto _).comp hW)
    rw [Real.sqrt_sq hk.le] at h1
    have h2 := (tendsto_const_nhds (x := s.eqRad)).div h1 hk.ne'
    have e : s.eqRad / (s.polRad / s.eqRad) = s.eqRad ^ 2 / s.polRad := by field_simp
    rw [e] at h2
    exact h2
  refine ⟨?_, hN, ?_, ?_⟩
  · have h1 := (tendsto_const_nhds (x := (s.polRad / s.eqRad) ^ 2)).div hW (by positivity)
    have h2 := hN.mul h1
    rw [div_self (by positivity), mul_one] at h2
    exact h2.congr fun x => (M_eq h x).symm
  · intro lat
    simp [M, (C33_odd s lat).2.1]
  · intro lat
    simp [N, (C33_odd s lat).2.1]

end MaRC.Spheroid
