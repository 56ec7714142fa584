import Verif.Props.OpticalAxis
import Verif.Model.ViewSettings
import Mathlib.Analysis.SpecialFunctions.Complex.Arg

/-!
# Visibility and conversion between pixels and coordinates: C39, C40
-/

namespace MaRC

open Real Geo Geometry Matrix

namespace Camera

open Spheroid

/-! ## C39 -/

/-- The angle between two vectors. -/
noncomputable def angleBetween (u v : Point) : ℝ := arccos (cosAngle u v)

/-- The emission angle: between the outward normal and the direction of the
observer. -/
noncomputable def emissionAngle (c : Camera) (lat lon : ℝ) : ℝ :=
  angleBetween (normal c.body.eqRad c.body.polRad (c.body.surface lat lon))
    (observer c.subLat c.subLon c.range - c.body.surface lat lon)

/-- The incidence angle: between the outward normal and the direction of the
sun. -/
noncomputable def incidenceAngle (c : Camera) (lat lon : ℝ) : ℝ :=
  angleBetween (normal c.body.eqRad c.body.polRad (c.body.surface lat lon))
    (direction c.sunLat c.sunLon)

theorem lt_cosAngle_iff (u v : Point) (limit : ℝ) (h0 : 0 ≤ limit) (h1 : limit ≤ π) :
    cos limit < cosAngle u v ↔ angleBetween u v < limit := by
  have hb := cosAngle_bounds u v
  rw [angleBetween, ← not_le, ← not_le, not_iff_not]
  constructor
  · intro h
    have := arccos_le_arccos h
    rwa [arccos_cos h0 h1] at this
  · intro h
    have := cos_le_cos_of_nonneg_of_le_pi h0 (arccos_le_pi _) h
    rwa [cos_arccos hb.1 hb.2] at this

/-- A point is visible exactly if its emission angle is below the limit and,
when the terminator is used, its incidence angle is below a right angle. -/
theorem C39_visible (c : Camera) (hs : c.body.Valid) (limit lat lon : ℝ)
    (hlat : lat ∈ Set.Ioo (-(π / 2)) (π / 2))
    (h0 : 0 ≤ limit) (h1 : limit ≤ π / 2) (hl : c.muLimit = cos limit) :
    c.isVisible lat lon = true ↔
      c.emissionAngle lat lon < limit ∧
      (c.useTerminator = true → c.incidenceAngle lat lon < π / 2) := by
  have hpi := pi_pos
  rw [isVisible, Bool.and_eq_true, decide_eq_true_eq, hl, C35_mu hs _ _ _ _ _ hlat, gt_iff_lt,
    lt_cosAngle_iff _ _ _ h0 (by linarith), Bool.or_eq_true, Bool.not_eq_true', decide_eq_true_eq,
    C35_mu0 hs _ _ _ _ hlat, gt_iff_lt, ← cos_pi_div_two,
    lt_cosAngle_iff _ _ _ (by linarith) (by linarith)]
  refine and_congr Iff.rfl ?_
  cases c.useTerminator <;> simp [incidenceAngle]

/-- Lowering the limit or enabling the terminator never makes a point
visible. -/
theorem C39_monotone (c : Camera) (muLimit' : ℝ) (terminator' : Bool) (lat lon : ℝ)
    (hl : c.muLimit ≤ muLimit') (ht : c.useTerminator = true → terminator' = true)
    (h : ({ c with muLimit := muLimit', useTerminator := terminator' } : Camera).isVisible
      lat lon = true) :
    c.isVisible lat lon = true := by
  simp only [isVisible, Bool.and_eq_true, decide_eq_true_eq, Bool.or_eq_true,
    Bool.not_eq_true'] at h ⊢
  refine ⟨lt_of_le_of_lt hl h.1, ?_⟩
  rcases h.2 with h2 | h2
  · left
    cases hc : c.useTerminator
    · rfl
    · rw [ht hc] at h2
      exact absurd h2 (by simp)
  · exact .inr h2

/-- A smaller limit is a larger cosine. -/
theorem C39_limits (a b : ℝ) (h0 : 0 ≤ a) (hab : a ≤ b) (hb : b ≤ π / 2) : cos b ≤ cos a :=
  cos_le_cos_of_nonneg_of_le_pi h0 (by linarith [pi_pos]) hab

/-- The setter rejects limits beyond 90°, positive or negative, without any
effect, and accepts the others. -/
theorem C39_limit_checked (cos' : Dbl → Dbl) (s : ViewSettings) (q : ℚ) :
    (90 < |q| → s.setEmiAngLimit cos' (.fin q) = (s, some .domainError)) ∧
    (|q| ≤ 90 → ∃ s', s.setEmiAngLimit cos' (.fin q) = (s', none)) := by
  constructor <;> intro h
  · have : Dbl.gt (Dbl.abs (.fin q)) (.fin 90) = true := by simpa [Dbl.abs, Dbl.gt, Dbl.lt] using h
    rw [ViewSettings.setEmiAngLimit, if_pos this]
  · have : ¬ Dbl.gt (Dbl.abs (.fin q)) (.fin 90) = true := by
      simpa [Dbl.abs, Dbl.gt, Dbl.lt] using h
    rw [ViewSettings.setEmiAngLimit, if_neg this]
    exact ⟨_, rfl⟩

/-- A limit that is not a number is accepted; thereafter no emission cosine
passes the comparison. -/
theorem C39_nan_violated (cos' : Dbl → Dbl) (hcos : cos' .nan = .nan) (s : ViewSettings) :
    ∃ s', s.setEmiAngLimit cos' .nan = (s', none) ∧ ∀ mu : Dbl, mu.gt s'.muLimit = false := by
  have hm : Fp.ieee.mul .nan cDegree = .nan := rfl
  refine ⟨_, rfl, fun mu => ?_⟩
  simp only [hm, hcos]
  cases mu <;> rfl

/-- The level of the spheroid on a line through a point of it. -/
theorem level_through (a b : ℝ) (p d : Point) (hp : OnSpheroid a b p) (x : ℝ) :
    level a b (p + x • d) = 1 + 2 * x * (normal a b p ⬝ᵥ d) + x ^ 2 * level a b d := by
  have hp' : level a b p = 1 := hp
  rw [← hp', dot3]
  simp only [level, normal, Pi.add_apply, Pi.smul_apply, smul_eq_mul, Matrix.cons_val]
  ring

theorem cosAngle_pos_iff (u v : Point) : 0 < cosAngle u v ↔ 0 < u ⬝ᵥ v := by
  rw [cosAngle]
  constructor
  · intro h
    by_contra hn
    have h1 : 0 ≤ length u * length v := mul_nonneg (Real.sqrt_nonneg _) (Real.sqrt_nonneg _)
    exact absurd h (not_lt.2 (div_nonpos_of_nonpos_of_nonneg (not_lt.1 hn) h1))
  · intro h
    have hu : 0 < u ⬝ᵥ u := by
      refine lt_of_le_of_ne (dot_self_nonneg u) fun h0 => ?_
      have := cauchy u v
      rw [← h0, zero_mul] at this
      nlinarith
    have hv : 0 < v ⬝ᵥ v := by
      refine lt_of_le_of_ne (dot_self_nonneg v) fun h0 => ?_
      have := cauchy u v
      rw [← h0, mul_zero] at this
      nlinarith
    exact div_pos h (mul_pos (Real.sqrt_pos.2 hu) (Real.sqrt_pos.2 hv))

/-- What visibility means with a limit of 90° and no terminator: the line of
sight from the surface point to the observer runs outside the body; for points
with an emission angle beyond 90° it runs through the body. -/
theorem C39_occlusion (c : Camera) (hs : c.body.Valid) (lat lon : ℝ)
    (hlat : lat ∈ Set.Ioo (-(π / 2)) (π / 2))
    (hl : c.muLimit = 0) (ht : c.useTerminator = false)
    (hout : 1 < level c.body.eqRad c.body.polRad (observer c.subLat c.subLon c.range)) :
    let p := c.body.surface lat lon
    let o := observer c.subLat c.subLon c.range
    (c.isVisible lat lon = true →
      ∀ x : ℝ, 0 < x → 1 < level c.body.eqRad c.body.polRad (p + x • (o - p))) ∧
    (c.isVisible lat lon = false → normal c.body.eqRad c.body.polRad p ⬝ᵥ (o - p) ≠ 0 →
      ∃ x : ℝ, 0 < x ∧ x < 1 ∧ level c.body.eqRad c.body.polRad (p + x • (o - p)) < 1) := by
  intro p o
  have hon : OnSpheroid c.body.eqRad c.body.polRad p := (C34_surface hs lat lon).1
  have hvis : c.isVisible lat lon = true ↔
      0 < normal c.body.eqRad c.body.polRad p ⬝ᵥ (o - p) := by
    rw [isVisible, ht, hl, C35_mu hs _ _ _ _ _ hlat, Bool.not_false, Bool.true_or, Bool.and_true,
      decide_eq_true_eq, gt_iff_lt, cosAngle_pos_iff]
  have ha : 0 ≤ level c.body.eqRad c.body.polRad (o - p) := by rw [level]; positivity
  constructor
  · intro hv x hx
    rw [level_through _ _ _ _ hon]
    have := mul_pos hx (hvis.1 hv)
    have := mul_nonneg (sq_nonneg x) ha
    linarith
  · intro hv hne
    have hneg : normal c.body.eqRad c.body.polRad p ⬝ᵥ (o - p) < 0 := by
      refine lt_of_le_of_ne (not_lt.1 fun h => ?_) hne
      rw [hvis.2 h] at hv
      exact absurd hv (by simp)
    set n := normal c.body.eqRad c.body.polRad p ⬝ᵥ (o - p) with hn
    set a := level c.body.eqRad c.body.polRad (o - p) with hadef
    have h1 := level_through c.body.eqRad c.body.polRad p (o - p) hon 1
    have e : p + (1 : ℝ) • (o - p) = o := by rw [one_smul]; abel
    rw [e, ← hn, ← hadef] at h1
    have ha2 : -2 * n < a := by
      have : 1 < level c.body.eqRad c.body.polRad o := hout
      linarith
    have hapos : 0 < a := by linarith
    refine ⟨-n / a, div_pos (by linarith) hapos, by rw [div_lt_one hapos]; linarith, ?_⟩
    rw [level_through _ _ _ _ hon, ← hn, ← hadef]
    have : 1 + 2 * (-n / a) * n + (-n / a) ^ 2 * a = 1 - n ^ 2 / a := by field_simp; ring
    rw [this]
    have : 0 < n ^ 2 / a := div_pos (by positivity) hapos
    linarith

/-- Instances of the hypotheses: a flattened body and an observer above its
pole. -/
example : Valid ⟨3, 2⟩ ∧ (1 : ℝ) < level 3 2 (observer (π / 2) 0 5) ∧
    (1 : ℝ) ∈ Set.Ioo (-(π / 2)) (π / 2) ∧ (0 : ℝ) ≤ π / 3 ∧ π / 3 ≤ π / 2 := by
  have := pi_gt_three
  refine ⟨⟨by norm_num, by norm_num⟩, ?_, ⟨by linarith, by linarith⟩, by linarith, by linarith⟩
  simp only [level, observer, direction, Pi.smul_apply, smul_eq_mul, Matrix.cons_val,
    cos_pi_div_two, sin_pi_div_two]
  norm_num

/-! ## C40 -/

theorem coord_eq (c : Camera) (lat lon : ℝ) :
    c.coord lat lon = c.body.centricRadius lat • reportedDirection lat (c.relativeLon lon) := by
  funext i
  fin_cases i <;> simp [coord, vec3, reportedDirection, mul_assoc]

theorem coord_on (c : Camera) (hs : c.body.Valid) (lat lon : ℝ) :
    OnSpheroid c.body.eqRad c.body.polRad (c.coord lat lon) := by
  have h := (C34_surface hs lat (c.relativeLon lon)).1
  rw [OnSpheroid, level] at h ⊢
  rw [← h, coord_eq]
  simp only [direction, reportedDirection, Pi.smul_apply, smul_eq_mul, Matrix.cons_val]
  ring

/-- The emission cosine in the coordinates of the camera's body frame. -/
theorem mu_pos (c : Camera) (hs : c.body.Valid) (lat lon : ℝ)
    (hlat : lat ∈ Set.Ioo (-(π / 2)) (π / 2)) :
    0 < c.body.mu c.subLat c.subLon lat lon c.range ↔
      0 < normal c.body.eqRad c.body.polRad (c.coord lat lon) ⬝ᵥ
        (c.toViewInput.rangeB - c.coord lat lon) := by
  rw [C35_mu hs _ _ _ _ _ hlat, cosAngle_pos_iff]
  have hc : cos (c.relativeLon lon) = cos (c.subLon - lon) := by
    rw [relativeLon]
    split_ifs
    · rfl
    · rw [← cos_neg]; ring_nf
  have h1 := sin_sq_add_cos_sq (c.relativeLon lon)
  have h2 := sin_sq_add_cos_sq lon
  have e : normal c.body.eqRad c.body.polRad (c.coord lat lon) ⬝ᵥ
        (c.toViewInput.rangeB - c.coord lat lon) =
      normal c.body.eqRad c.body.polRad (c.body.surface lat lon) ⬝ᵥ
        (observer c.subLat c.subLon c.range - c.body.surface lat lon) := by
    rw [dot3, dot3, coord_eq]
    simp only [normal, surface, observer, direction, reportedDirection, ViewInput.rangeB, vec3,
      Pi.sub_apply, Pi.smul_apply, smul_eq_mul, Matrix.cons_val]
    rw [cos_sub] at hc
    linear_combination
      (c.body.centricRadius lat * cos lat / c.body.eqRad ^ 2 * c.range * cos c.subLat) * hc -
      (c.body.centricRadius lat ^ 2 * cos lat ^ 2 / c.body.eqRad ^ 2) * (h1 - h2)
  rw [e]

/-- Pixels are computed exactly for visible points. -/
theorem C40_success (c : Camera) (lat lon : ℝ) :
    (c.latlon2pix lat lon).isSome = c.isVisible lat lon := by
  rw [latlon2pix]
  cases c.isVisible lat lon <;> simp

theorem matVec_scale (m : Mat ℝ 3 3) (v : Vec ℝ 3) (a : ℝ) : matVec m (a • v) = a • matVec m v := by
  funext i
  simp only [matVec, sumLoop_three, Pi.smul_apply, smul_eq_mul]
  ring

theorem matVec_sub (m : Mat ℝ 3 3) (v w : Vec ℝ 3) :
    matVec m (v - w) = matVec m v - matVec m w := by
  funext i
  simp only [matVec, sumLoop_three, Pi.sub_apply]
  ring

theorem vecSub_eq (v w : Vec ℝ 3) : vecSub v w = v - w := rfl

/-- A position in the image plane, in body coordinates relative to the
observer. -/
noncomputable def ray (c : Camera) (sample line : ℝ) : Point :=
  matVec c.observ2body (vec3 (sample - c.oaS) c.focalPixels (c.oaL - line))

/-- Without lens correction the pixel is the one whose ray from the observer
passes through the surface point, and no other pixel's does. -/
theorem C40_perspective (c : Camera) (hrot : IsRotation c.observ2body)
    (hinv : c.body2observ = transpose c.observ2body) (hid : c.objectToImage = id)
    (lat lon sample line : ℝ) (hfront : 0 < c.seen lat lon 1) (hF : 0 < c.focalPixels)
    (h : c.latlon2pix lat lon = some (sample, line)) :
    (∃ k : ℝ, 0 < k ∧ c.coord lat lon = c.rangeB + k • c.ray sample line) ∧
    ∀ sample' line' k : ℝ, c.coord lat lon = c.rangeB + k • c.ray sample' line' →
      sample' = sample ∧ line' = line := by
  rw [latlon2pix] at h
  split_ifs at h
  simp only [hid, id, Option.some.injEq, Prod.mk.injEq] at h
  obtain ⟨hs, hl⟩ := h
  have hseen : matVec c.observ2body (c.seen lat lon) = c.coord lat lon - c.rangeB := by
    rw [seen, hinv]
    exact (hrot.apply_transpose _).1
  constructor
  · refine ⟨c.seen lat lon 1 / c.focalPixels, div_pos hfront hF, ?_⟩
    rw [ray, ← matVec_scale, ← sub_eq_iff_eq_add', ← hseen]
    congr 1
    funext i
    have h0 := hfront.ne'
    rw [← hs, ← hl]
    fin_cases i
    · simp [vec3]; field_simp
    · simp [vec3]; field_simp
    · simp [vec3]; field_simp
  · intro s' l' k hk
    have h1 : c.seen lat lon = k • vec3 (s' - c.oaS) c.focalPixels (c.oaL - l') := by
      have e : vecSub (c.coord lat lon) c.rangeB =
          matVec c.observ2body (k • vec3 (s' - c.oaS) c.focalPixels (c.oaL - l')) := by
        rw [vecSub_eq, hk, matVec_scale, ← ray]; abel
      rw [seen, e, hinv]
      exact (hrot.apply_transpose _).2
    have k1 : c.seen lat lon 1 = k * c.focalPixels := by rw [h1]; simp [vec3]
    have k0 : c.seen lat lon 0 = k * (s' - c.oaS) := by rw [h1]; simp [vec3]
    have k2 : c.seen lat lon 2 = k * (c.oaL - l') := by rw [h1]; simp [vec3]
    have hkne : k ≠ 0 := by
      rintro rfl
      rw [zero_mul] at k1
      exact hfront.ne' k1
    have hF' := hF.ne'
    rw [k0, k1] at hs
    rw [k2, k1] at hl
    constructor
    · rw [← hs]; field_simp; ring
    · rw [← hl]; field_simp; ring

/-- No point of the body is farther from its centre than the equatorial radius
along any of the camera's axes. -/
theorem extent (c : Camera) (center : ℝ × ℝ) (hc : ViewInput.Consistent c center)
    (hs : c.body.Valid) (lat lon : ℝ) (i : Fin 3) :
    |matVec c.body2observ (c.coord lat lon) i| ≤ c.body.eqRad := by
  have hlen : c.coord lat lon ⬝ᵥ c.coord lat lon = c.body.centricRadius lat ^ 2 := by
    have e1 := sin_sq_add_cos_sq lat
    have e2 := sin_sq_add_cos_sq (c.relativeLon lon)
    rw [coord_eq, dot3]
    simp only [reportedDirection, Pi.smul_apply, smul_eq_mul, Matrix.cons_val]
    linear_combination c.body.centricRadius lat ^ 2 * (e1 + cos lat ^ 2 * e2)
  have hrow : matVec c.body2observ (c.coord lat lon) i =
      (fun j => c.body2observ i j) ⬝ᵥ c.coord lat lon := by
    rw [dot3]; simp only [matVec, sumLoop_three]
  have hunit : (fun j => c.body2observ i j) ⬝ᵥ (fun j => c.body2observ i j) = 1 := by
    have := congrFun (congrFun hc.rotation.left i) i
    rw [hc.inverse, dot3]
    simp only [matMul, transpose, sumLoop_three, identity, if_true] at this
    simpa [transpose] using this
  have hcs := cauchy (fun j => c.body2observ i j) (c.coord lat lon)
  rw [← hrow, hunit, hlen, one_mul] at hcs
  exact (abs_le_of_sq_le_sq hcs (centricRadius_pos hs lat).le).trans (C34_bounds hs lat).2

/-- Points of the body as the camera sees them. -/
theorem seen_eq (c : Camera) (center : ℝ × ℝ) (hc : ViewInput.Consistent c center)
    (lat lon : ℝ) (i : Fin 3) :
    c.seen lat lon i = matVec c.body2observ (c.coord lat lon) i -
      vec3 ((c.oaS - center.1) * c.km) (-c.normalRange) ((center.2 - c.oaL) * c.km) i := by
  have h1 : matVec c.body2observ c.rangeB =
      vec3 ((c.oaS - center.1) * c.km) (-c.normalRange) ((center.2 - c.oaL) * c.km) := by
    rw [← hc.aligned, hc.inverse, (hc.rotation.apply_transpose _).2]
  rw [seen, vecSub_eq, matVec_sub, Pi.sub_apply, h1]

/-- How far points of the body are ahead of the camera at least. -/
theorem depth (c : Camera) (center : ℝ × ℝ) (hc : ViewInput.Consistent c center)
    (hs : c.body.Valid) (lat lon : ℝ) :
    c.normalRange - c.body.eqRad ≤ c.seen lat lon 1 := by
  have h1 := abs_le.1 (extent c center hc hs lat lon 1)
  have h2 := seen_eq c center hc lat lon 1
  simp only [vec3, Matrix.cons_val] at h2
  linarith

/-- Points of the body are in front of the camera if the plane through the
body centre perpendicular to the optical axis is farther away than the
equatorial radius. -/
theorem front (c : Camera) (center : ℝ × ℝ) (hc : ViewInput.Consistent c center)
    (hs : c.body.Valid) (hn : c.body.eqRad < c.normalRange) (lat lon : ℝ) :
    0 < c.seen lat lon 1 := by
  linarith [depth c center hc hs lat lon]

theorem atan2_turns (r x : ℝ) (hr : 0 < r) :
    ∃ k : ℤ, atan2 (r * sin x) (r * cos x) = x + 2 * π * k := by
  have h := Complex.arg_mul_cos_add_sin_mul_I_coe_angle hr (x : Real.Angle)
  have e : ((r : ℂ) * ((Real.Angle.cos x : ℝ) + (Real.Angle.sin x : ℝ) * Complex.I)) =
      ⟨r * cos x, r * sin x⟩ := by
    rw [Real.Angle.cos_coe, Real.Angle.sin_coe]
    apply Complex.ext <;> simp [-Complex.ofReal_cos, -Complex.ofReal_sin]
  rw [e, Real.Angle.angle_eq_iff_two_pi_dvd_sub] at h
  obtain ⟨k, hk⟩ := h
  exact ⟨k, by rw [atan2]; linarith⟩

/-- The pixel computed for a visible point leads back to the latitude and the
longitude relative to the central meridian. -/
theorem back (c : Camera) (center : ℝ × ℝ)
    (hc : ViewInput.Consistent c center) (hs : c.body.Valid)
    (hn : c.body.eqRad < c.normalRange)
    (hid : c.objectToImage = id) (hid' : c.imageToObject = id) (hmu : 0 ≤ c.muLimit)
    (lat lon : ℝ) (hlat : lat ∈ Set.Ioo (-(π / 2)) (π / 2)) (hv : c.isVisible lat lon = true) :
    ∃ sample line, c.latlon2pix lat lon = some (sample, line) ∧
      ∃ k : ℤ, c.pix2latlon center sample line = .ok (some (lat,
        if c.prograde then c.subLon - (c.relativeLon lon + 2 * π * k)
        else c.relativeLon lon + 2 * π * k - c.subLon)) := by
  have hfront := front c center hc hs hn lat lon
  set y := c.seen lat lon 1 with hy
  have hmupos : 0 < c.body.mu c.subLat c.subLon lat lon c.range := by
    simp only [isVisible, Bool.and_eq_true, decide_eq_true_eq] at hv
    exact lt_of_le_of_lt hmu hv.1
  rw [mu_pos c hs lat lon hlat, ← hc.range_eq] at hmupos
  have hkm := hc.km_pos
  have hnr := hc.normal_pos
  have hF : c.focalPixels = c.normalRange / c.km := by rw [← hc.focal]; field_simp
  refine ⟨c.seen lat lon 0 / y * c.focalPixels + c.oaS,
    c.oaL - c.seen lat lon 2 / y * c.focalPixels, ?_, ?_⟩
  · rw [latlon2pix, if_pos hv]
    simp only [hid, id, hy]
  set P := c.coord lat lon with hP
  -- the direction of the pixel
  have hseen : matVec c.observ2body (c.seen lat lon) = P - c.rangeB := by
    rw [seen, hc.inverse]
    exact (hc.rotation.apply_transpose _).1
  set d := (c.normalRange / y) • (P - c.rangeB) with hd
  have hdvec : vecSub (vecScale (matVec c.observ2body (vec3
      (c.seen lat lon 0 / y * c.focalPixels + c.oaS - center.1) 0
      (center.2 - (c.oaL - c.seen lat lon 2 / y * c.focalPixels)))) c.km) c.rangeB = d := by
    have e1 : ∀ v : Vec ℝ 3, vecScale v c.km = c.km • v := by
      intro v; funext i; simp [vecScale, mul_comm]
    rw [e1, ← matVec_scale, vecSub_eq, ← hc.aligned, ← matVec_sub, hd, ← hseen, ← matVec_scale]
    congr 1
    funext i
    have := hfront.ne'
    fin_cases i
    · simp [vec3, hF]; field_simp; ring
    · simp [vec3, hF]; field_simp; rw [hy]
    · simp [vec3, hF]; field_simp; ring
  -- the surface point on that line
  have hPd : c.rangeB + (y / c.normalRange) • d = P := by
    rw [hd, smul_smul]
    have : y / c.normalRange * (c.normalRange / y) = 1 := by
      have := hfront.ne'
      field_simp
    rw [this, one_smul]
    abel
  have hon : OnSpheroid c.body.eqRad c.body.polRad P := coord_on c hs lat lon
  have hnd : normal c.body.eqRad c.body.polRad P ⬝ᵥ d < 0 := by
    have e : normal c.body.eqRad c.body.polRad P ⬝ᵥ d =
        -(c.normalRange / y * (normal c.body.eqRad c.body.polRad P ⬝ᵥ (c.rangeB - P))) := by
      rw [hd, dot3, dot3]
      simp only [Pi.smul_apply, Pi.sub_apply, smul_eq_mul]
      ring
    rw [e]
    have := mul_pos (div_pos hnr hfront) hmupos
    linarith
  have hd0 : d ≠ 0 := by
    intro h0
    rw [h0, dot3] at hnd
    simp at hnd
  obtain ⟨k₁, k₂, hle, hk, hfac⟩ := exists_roots hs c.rangeB d hd0 (y / c.normalRange)
    (by rw [hPd]; exact hon)
  set t := y / c.normalRange with ht
  have htpos : 0 < t := div_pos hfront hnr
  have hslope : level c.body.eqRad c.body.polRad d * (t + 1 - k₁) * (t + 1 - k₂) =
      2 * (normal c.body.eqRad c.body.polRad P ⬝ᵥ d) + level c.body.eqRad c.body.polRad d := by
    rw [← hfac, add_smul, one_smul, ← add_assoc, hPd]
    have := level_through c.body.eqRad c.body.polRad P d hon 1
    rw [one_smul] at this
    rw [this]
    ring
  have hapos := level_pos hs d hd0
  have htk : t = k₁ ∧ k₁ < k₂ := by
    rcases hk with h | h
    · refine ⟨h, ?_⟩
      rw [h] at hslope
      by_contra hge
      have h2 : k₂ = k₁ := le_antisymm (not_lt.1 hge) hle
      rw [h2] at hslope
      nlinarith
    · rw [h] at hslope
      have : level c.body.eqRad c.body.polRad d * (k₂ - k₁) =
          2 * (normal c.body.eqRad c.body.polRad P ⬝ᵥ d) := by linear_combination hslope
      have := mul_nonneg hapos.le (sub_nonneg.2 hle)
      linarith
  have hinter := eval_roots hs c.rangeB d hd0 k₁ k₂ hle hfac
  rw [if_pos ⟨htk.2, by linarith [htk.1, htk.2]⟩] at hinter
  -- its latitude and longitude
  have hR := centricRadius_pos hs lat
  have hcos := cos_pos_of_mem_Ioo hlat
  obtain ⟨k, hk⟩ := atan2_turns (c.body.centricRadius lat * cos lat) (c.relativeLon lon)
    (mul_pos hR hcos)
  have p0 : c.rangeB 0 + k₁ * d 0 = c.body.centricRadius lat * cos lat * sin (c.relativeLon lon) := by
    have := congrFun hPd 0
    rw [htk.1] at this
    exact this
  have p1 : c.rangeB 1 + k₁ * d 1 =
      -c.body.centricRadius lat * cos lat * cos (c.relativeLon lon) := by
    have := congrFun hPd 1
    rw [htk.1] at this
    exact this
  have p2 : c.rangeB 2 + k₁ * d 2 = c.body.centricRadius lat * sin lat := by
    have := congrFun hPd 2
    rw [htk.1] at this
    exact this
  have hloc : locate c.rangeB d k₁ = .found lat (c.relativeLon lon + 2 * π * k) := by
    rw [locate, p0, p1, p2]
    congr 1
    · have hh : hypot (c.body.centricRadius lat * cos lat * sin (c.relativeLon lon))
          (-c.body.centricRadius lat * cos lat * cos (c.relativeLon lon)) =
          c.body.centricRadius lat * cos lat := by
        rw [hypot]
        have := sin_sq_add_cos_sq (c.relativeLon lon)
        rw [show (c.body.centricRadius lat * cos lat * sin (c.relativeLon lon)) ^ 2 +
          (-c.body.centricRadius lat * cos lat * cos (c.relativeLon lon)) ^ 2 =
          (c.body.centricRadius lat * cos lat) ^ 2 by
            linear_combination (c.body.centricRadius lat * cos lat) ^ 2 * this]
        exact Real.sqrt_sq (mul_pos hR hcos).le
      rw [pointLatitude, hh, if_neg (mul_pos hR hcos).ne', mul_div_mul_left _ _ hR.ne',
        ← tan_eq_sin_div_cos, arctan_tan hlat.1 hlat.2]
    · rw [← hk]
      congr 1
      ring
  refine ⟨k, ?_⟩
  rw [pix2latlon]
  simp only [hid', id]
  rw [hdvec, hinter, hloc]

/-- Converting a visible point to a pixel and back finds the point again, for
bodies with prograde rotation: the latitude, and the longitude up to whole
turns. -/
theorem C40_round_trip_partial (c : Camera) (center : ℝ × ℝ)
    (hc : ViewInput.Consistent c center) (hs : c.body.Valid)
    (hn : c.body.eqRad < c.normalRange) (hpro : c.prograde = true)
    (hid : c.objectToImage = id) (hid' : c.imageToObject = id) (hmu : 0 ≤ c.muLimit)
    (lat lon : ℝ) (hlat : lat ∈ Set.Ioo (-(π / 2)) (π / 2)) (hv : c.isVisible lat lon = true) :
    ∃ sample line, c.latlon2pix lat lon = some (sample, line) ∧
      ∃ k : ℤ, c.pix2latlon center sample line = .ok (some (lat, lon + 2 * π * k)) := by
  obtain ⟨x, z, h1, k, h2⟩ := back c center hc hs hn hid hid' hmu lat lon hlat hv
  refine ⟨x, z, h1, -k, ?_⟩
  rw [h2, hpro, if_pos rfl, relativeLon, hpro, if_pos rfl]
  congr 3
  push_cast
  ring

/-- For retrograde bodies the longitude comes back reduced by twice that of the
observer: it is wrong, even up to whole turns, unless the sub-observer
longitude is a multiple of 180°. -/
theorem C40_retrograde_violated (c : Camera) (center : ℝ × ℝ)
    (hc : ViewInput.Consistent c center) (hs : c.body.Valid)
    (hn : c.body.eqRad < c.normalRange) (hpro : c.prograde = false)
    (hid : c.objectToImage = id) (hid' : c.imageToObject = id) (hmu : 0 ≤ c.muLimit)
    (lat lon : ℝ) (hlat : lat ∈ Set.Ioo (-(π / 2)) (π / 2)) (hv : c.isVisible lat lon = true) :
    ∃ sample line lon', c.latlon2pix lat lon = some (sample, line) ∧
      c.pix2latlon center sample line = .ok (some (lat, lon')) ∧
      ((∃ k : ℤ, lon' = lon + 2 * π * k) ↔ ∃ k : ℤ, c.subLon = π * k) := by
  obtain ⟨x, z, h1, k, h2⟩ := back c center hc hs hn hid hid' hmu lat lon hlat hv
  refine ⟨x, z, _, h1, h2, ?_⟩
  rw [hpro, if_neg (by simp), relativeLon, hpro, if_neg (by simp)]
  constructor
  · rintro ⟨j, hj⟩
    exact ⟨k - j, by push_cast; linarith⟩
  · rintro ⟨j, hj⟩
    exact ⟨k - j, by push_cast; linarith⟩

/-- Cameras meeting all these hypotheses exist, with rotation of the body
either way and a sub-observer longitude of 90°: a sphere of radius 1 seen from
13 km, its centre off the optical axis, and the sub-observer point. -/
theorem C40_instance (pro : Bool) : ∃ c : Camera, ViewInput.Consistent c (15 / 2, 9 / 2) ∧
    c.body.Valid ∧ c.body.eqRad < c.normalRange ∧ c.prograde = pro ∧ c.objectToImage = id ∧
    c.imageToObject = id ∧ c.muLimit = 0 ∧ c.isVisible 0 (π / 2) = true ∧
    (¬ ∃ k : ℤ, c.subLon = π * k) ∧ c.subLat = 0 ∧ c.subLon = π / 2 ∧ c.useTerminator = false ∧
    c.body = ⟨1, 1⟩ ∧ c.range = 13 ∧ c.oaS = 21 / 2 ∧ c.oaL = 17 / 2 ∧ c.km = 1 ∧
    c.normalRange = 12 := by
  let g : ViewInput :=
    { body := ⟨1, 1⟩, prograde := pro, subLat := 0, subLon := π / 2, sunLat := 0, sunLon := 0,
      range := 13, positionAngle := 0, kmPerPixel := some 1, focalLength := none, scale := none,
      oaSample := none, oaLine := none, center := some (15 / 2, 9 / 2), latLonCenter := none,
      muLimit := 0, useTerminator := false, objectToImage := id, imageToObject := id }
  have hcos : cos g.subLat = 1 := cos_zero
  have hv : g.body.Valid := ⟨one_pos, le_refl _⟩
  obtain ⟨c, -, hg, hkm, hoa, hcons⟩ := ViewInput.C68_setup_km g (15 / 2, 9 / 2) 21 17
    (21 / 2, 17 / 2) 1 ⟨by simp [g], by simp [g], by norm_num, by norm_num⟩ rfl one_pos
    (by norm_num [g]) (by rw [hcos]; norm_num) (by rw [hcos]; norm_num [g])
  have hs : c.oaS = 21 / 2 ∧ c.oaL = 17 / 2 := by simpa using hoa
  have hnr : c.normalRange ^ 2 = 144 := by
    have h1 := congrArg (fun v => matVec c.body2observ v) hcons.aligned
    simp only at h1
    rw [hcons.inverse, (hcons.rotation.apply_transpose _).2, ← hcons.inverse] at h1
    have h2 : c.rangeB = vec3 0 (-13) 0 := by
      rw [hcons.range_eq, hg]
      simp [ViewInput.rangeB, g]
    have hunit : ∀ j, c.body2observ 0 j ^ 2 + c.body2observ 1 j ^ 2 + c.body2observ 2 j ^ 2 = 1 := by
      intro j
      have := congrFun (congrFun hcons.rotation.right j) j
      rw [hcons.inverse]
      simp only [matMul, transpose, sumLoop_three, identity, if_true] at this ⊢
      linarith
    rw [h2, hkm, hs.1, hs.2] at h1
    have e : ∀ i, matVec c.body2observ (vec3 0 (-13) 0) i = -13 * c.body2observ i 1 := by
      intro i
      simp [matVec, sumLoop_three, vec3]
      ring
    have e0 := congrFun h1 0
    have e1 := congrFun h1 1
    have e2 := congrFun h1 2
    rw [e] at e0 e1 e2
    have hu := hunit 1
    simp only [vec3, Matrix.cons_val] at e0 e1 e2
    have : c.normalRange = 13 * c.body2observ 1 1 := by linarith
    have t0 : c.body2observ 0 1 = -3 / 13 := by linarith
    have t2 : c.body2observ 2 1 = 4 / 13 := by linarith
    rw [this, mul_pow]
    rw [t0, t2] at hu
    linear_combination 169 * hu
  have hnr' : 1 < c.normalRange := by nlinarith [hcons.normal_pos]
  refine ⟨c, hcons, by rw [hg]; exact hv, by rw [hg]; exact hnr', by rw [hg], by rw [hg],
    by rw [hg], by rw [hg], ?_, ?_, by rw [hg], by rw [hg], by rw [hg], by rw [hg], by rw [hg],
    hs.1, hs.2, hkm, by nlinarith [hcons.normal_pos]⟩
  · rw [isVisible, hg]
    have hmu := C35_center hv rfl 0 (π / 2) 13 ⟨by linarith [pi_pos], by linarith [pi_pos]⟩
      (by norm_num [g])
    have : g.body.mu g.subLat g.subLon 0 (π / 2) g.range = 1 := hmu
    rw [this]
    simp [g]
  · rw [hg]
    rintro ⟨k, hk⟩
    have h1 : π * (1 / 2) = π * k := by rw [← hk]; simp [g]; ring
    have h2 := mul_left_cancel₀ pi_pos.ne' h1
    have h3 : (2 * k : ℤ) = 1 := by
      have : (2 * k : ℝ) = 1 := by linarith
      exact_mod_cast this
    omega

/-! ## C69 -/

/-- With the lens correction of the Galileo spacecraft, a visible point seen
exactly along the optical axis is not reported on the optical axis: the
correction, which is about line and sample 400, is given coordinates relative
to the optical axis.  The displacement is the same for full frame images and
half as much in summation mode. -/
theorem C69_axis_violated (c : Camera) (summation : Bool)
    (hcorr : c.objectToImage = GLL.objectToImage summation)
    (lat lon d : ℝ) (hv : c.isVisible lat lon = true) (hd : c.seen lat lon = vec3 0 d 0) :
    ∃ e > (0.4 : ℝ), c.latlon2pix lat lon = some (c.oaS - e, c.oaL + e) := by
  rw [latlon2pix, if_pos hv, hcorr, hd]
  cases summation
  · refine ⟨400 * (GLL.distortion * (400 ^ 2 + 400 ^ 2)), by norm_num [GLL.distortion], ?_⟩
    simp [GLL.objectToImage, GLL.toAxis, GLL.fromAxis, vec3]
    constructor <;> ring
  · refine ⟨200 * (GLL.distortion * (400 ^ 2 + 400 ^ 2)), by norm_num [GLL.distortion], ?_⟩
    simp [GLL.objectToImage, GLL.toAxis, GLL.fromAxis, vec3]
    constructor <;> ring

/-- An instance, in either mode: the optical axis through the sub-observer
point, which is visible. -/
example (summation : Bool) : ∃ (c : Camera) (d : ℝ),
    c.objectToImage = GLL.objectToImage summation ∧ c.isVisible 0 0 = true ∧
    c.seen 0 0 = vec3 0 d 0 := by
  let g : ViewInput :=
    { body := ⟨1, 1⟩, prograde := true, subLat := 0, subLon := 0, sunLat := 0, sunLon := 0,
      range := 13, positionAngle := 0, kmPerPixel := some 1, focalLength := none, scale := none,
      oaSample := none, oaLine := none, center := none, latLonCenter := some (0, 0),
      muLimit := 0, useTerminator := false, objectToImage := GLL.objectToImage summation,
      imageToObject := id }
  have hv : g.body.Valid := ⟨one_pos, le_refl _⟩
  have hR : g.body.centricRadius 0 = 1 := C34_sphere hv rfl 0
  obtain ⟨d, -, hd⟩ := (ViewInput.C68_axis_iff g 0 0 1 20 16 (by rw [hR]; norm_num)
    (by rw [hR]; norm_num [g])).2 (by simp [g])
  refine ⟨g.finalizeAxis (0, 0) 1 20 16, d, rfl, ?_, hd⟩
  have hmu : g.body.mu 0 0 0 0 13 = 1 :=
    C35_center hv rfl 0 0 13 ⟨by linarith [pi_pos], by linarith [pi_pos]⟩ (by norm_num [g])
  have e : (g.finalizeAxis (0, 0) 1 20 16).isVisible 0 0 =
      (decide (g.body.mu 0 0 0 0 13 > 0) && true) := rfl
  rw [e, hmu]
  simp

/-- What is true: had the coordinates been those of a frame with its optical
axis at line and sample 400, or 200 in summation mode, the optical axis would
stay. -/
theorem C69_partial (summation : Bool) :
    GLL.objectToImage summation (if summation then (200, 200) else (400, 400)) =
      (if summation then (200, 200) else (400, 400)) ∧
    GLL.imageToObject summation (if summation then (200, 200) else (400, 400)) =
      (if summation then (200, 200) else (400, 400)) := by
  cases summation <;>
    norm_num [GLL.objectToImage, GLL.imageToObject, GLL.toAxis, GLL.fromAxis]

end Camera

end MaRC
