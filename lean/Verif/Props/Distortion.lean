import Verif.Props.Conformal
import Verif.Props.Surface
import Mathlib.Analysis.SpecialFunctions.Sqrt
import Mathlib.Analysis.SpecialFunctions.Trigonometric.Deriv
import Mathlib.Analysis.SpecialFunctions.Pow.Continuity

/-!
# C81: reported scale distortion of conformal maps

On the body, a point at planetographic latitude `x` lies at the distance
`axisDistance` from the spin axis and at `height` above the equatorial plane.
A small step of `dx` to the north has the length `√(X'² + Z'²) dx`, where `X'`
and `Z'` are the derivatives of the two; a step of `dl` to the east has the
length `axisDistance · dl`.
-/

namespace MaRC.Projection

open Real Set

variable {s : Spheroid}

/-! ## Specification -/

/-- Distance from the spin axis of the surface point at a planetographic
latitude. -/
noncomputable def axisDistance (s : Spheroid) (latg : ℝ) : ℝ :=
  s.centricRadius (s.centricLatitude latg) * cos (s.centricLatitude latg)

/-- Its height above the equatorial plane. -/
noncomputable def height (s : Spheroid) (latg : ℝ) : ℝ :=
  s.centricRadius (s.centricLatitude latg) * sin (s.centricLatitude latg)

/-- `v` is the ground length of a step to the north at `x`, per radian of
planetographic latitude. -/
def GroundSpeed (s : Spheroid) (x v : ℝ) : Prop :=
  ∃ X' Z', HasDerivAt (axisDistance s) X' x ∧ HasDerivAt (height s) Z' x ∧ v = √(X' ^ 2 + Z' ^ 2)

/-! ## Lemmas -/

private theorem W_pos (h : s.Valid) (x : ℝ) : 0 < 1 - s.firstEccentricity ^ 2 * sin x ^ 2 := by
  obtain ⟨h0, h1⟩ := eccentricity_bounds h
  have h2 : s.firstEccentricity ^ 2 < 1 := by nlinarith
  have h3 := sin_sq_le_one x
  nlinarith [sq_nonneg s.firstEccentricity, sq_nonneg (sin x)]

private theorem ground_eq (h : s.Valid) {x : ℝ} (hx : x ∈ Ioo (-(π / 2)) (π / 2)) :
    axisDistance s x = s.eqRad * cos x / √(1 - s.firstEccentricity ^ 2 * sin x ^ 2) ∧
    height s x = s.eqRad * (1 - s.firstEccentricity ^ 2) * sin x /
      √(1 - s.firstEccentricity ^ 2 * sin x ^ 2) := by
  have hp := h.pol_pos
  have he := h.eq_pos
  have hc : 0 < cos x := cos_pos_of_mem_Ioo hx
  set t := (s.polRad / s.eqRad) ^ 2 * tan x with ht
  have hq : 0 < √(1 + t ^ 2) := by positivity
  have hW := W_pos h x
  have hr : s.centricRadius (arctan t) = √(1 + t ^ 2) * (s.eqRad * cos x) /
      √(1 - s.firstEccentricity ^ 2 * sin x ^ 2) := by
    rw [Spheroid.centricRadius, hypot, cos_arctan, sin_arctan]
    have : (1 / √(1 + t ^ 2) / s.eqRad) ^ 2 + (t / √(1 + t ^ 2) / s.polRad) ^ 2 =
        (√(1 - s.firstEccentricity ^ 2 * sin x ^ 2) / (√(1 + t ^ 2) * (s.eqRad * cos x))) ^ 2 := by
      rw [div_pow √_, sq_sqrt hW.le, Spheroid.ecc_sq h, ht, tan_eq_sin_div_cos]
      have := sin_sq_add_cos_sq x
      have e : sin x ^ 2 = 1 - cos x ^ 2 := by linarith
      field_simp
      rw [e]
      ring
    rw [this, sqrt_sq (by positivity), one_div_div]
  rw [axisDistance, height, Spheroid.centricLatitude, ← ht, hr, cos_arctan, sin_arctan]
  constructor
  · field_simp
  · rw [Spheroid.ecc_sq h, ht, tan_eq_sin_div_cos]
    field_simp
    ring

private theorem groundSpeed (h : s.Valid) {x : ℝ} (hx : x ∈ Ioo (-(π / 2)) (π / 2)) :
    GroundSpeed s x (s.eqRad * (1 - s.firstEccentricity ^ 2) /
      (√(1 - s.firstEccentricity ^ 2 * sin x ^ 2)) ^ 3) := by
  have he := h.eq_pos
  have hW := W_pos h x
  obtain ⟨h0, h1⟩ := eccentricity_bounds h
  have hk : 0 < 1 - s.firstEccentricity ^ 2 := by nlinarith
  set e := s.firstEccentricity
  set w := √(1 - e ^ 2 * sin x ^ 2) with hw
  have hwp : 0 < w := by positivity
  have hw2 : w ^ 2 = 1 - e ^ 2 * sin x ^ 2 := sq_sqrt hW.le
  have hev : Ioo (-(π / 2)) (π / 2) ∈ nhds x := Ioo_mem_nhds hx.1 hx.2
  have dw : HasDerivAt (fun y => √(1 - e ^ 2 * sin y ^ 2)) (-(e ^ 2 * (2 * sin x * cos x)) / (2 * w)) x := by
    have := (((hasDerivAt_sin x).pow 2).const_mul (e ^ 2)).const_sub 1
    refine (this.sqrt hW.ne').congr_deriv ?_
    simp [hw]
  have hsc := sin_sq_add_cos_sq x
  have dX := ((hasDerivAt_cos x).const_mul s.eqRad).div dw hwp.ne'
  have dZ := ((hasDerivAt_sin x).const_mul (s.eqRad * (1 - e ^ 2))).div dw hwp.ne'
  refine ⟨-(s.eqRad * (1 - e ^ 2) * sin x / w ^ 3), s.eqRad * (1 - e ^ 2) * cos x / w ^ 3,
    ?_, ?_, ?_⟩
  · have : axisDistance s =ᶠ[nhds x] fun y => s.eqRad * cos y / √(1 - e ^ 2 * sin y ^ 2) :=
      Filter.eventually_of_mem hev fun y hy => (ground_eq h hy).1
    refine HasDerivAt.congr_of_eventuallyEq ?_ this
    refine dX.congr_deriv ?_
    rw [← hw]
    field_simp
    rw [hw2]
    have : cos x ^ 2 = 1 - sin x ^ 2 := by linarith
    ring_nf
    rw [this]
    ring
  · have : height s =ᶠ[nhds x] fun y => s.eqRad * (1 - e ^ 2) * sin y / √(1 - e ^ 2 * sin y ^ 2) :=
      Filter.eventually_of_mem hev fun y hy => (ground_eq h hy).2
    refine HasDerivAt.congr_of_eventuallyEq ?_ this
    refine dZ.congr_deriv ?_
    rw [← hw]
    field_simp
    rw [hw2]
    ring
  · have : (-(s.eqRad * (1 - e ^ 2) * sin x / w ^ 3)) ^ 2 +
        (s.eqRad * (1 - e ^ 2) * cos x / w ^ 3) ^ 2 = (s.eqRad * (1 - e ^ 2) / w ^ 3) ^ 2 := by
      have : cos x ^ 2 = 1 - sin x ^ 2 := by linarith
      field_simp
      rw [this]
      ring
    rw [this, sqrt_sq (by positivity)]

private theorem mercator_hasDerivAt (h : s.Valid) {x : ℝ} (hx : x ∈ Ioo (-(π / 2)) (π / 2)) :
    HasDerivAt (mercatorX s) ((1 - s.firstEccentricity ^ 2) /
      (cos x * (√(1 - s.firstEccentricity ^ 2 * sin x ^ 2)) ^ 2)) x := by
  have hc : 0 < cos x := cos_pos_of_mem_Ioo hx
  obtain ⟨h0, h1⟩ := eccentricity_bounds h
  have hev : Ioo (-(π / 2)) (π / 2) ∈ nhds x := Ioo_mem_nhds hx.1 hx.2
  have : mercatorX s =ᶠ[nhds x] fun y => isometric s.firstEccentricity (sin y) :=
    Filter.eventually_of_mem hev fun y hy => mercatorX_eq h hy
  refine HasDerivAt.congr_of_eventuallyEq ?_ this
  have d := (isometric_deriv h0 h1 (sin_mem hx)).comp x (hasDerivAt_sin x)
  refine d.congr_deriv ?_
  rw [sq_sqrt (W_pos h x).le, ← cos_sq']
  have := W_pos h x
  field_simp

private theorem mercator_distortion_eq (h : s.Valid) {x : ℝ} (hx : x ∈ Ioo (-(π / 2)) (π / 2)) :
    Mercator.distortion s x = √(1 - s.firstEccentricity ^ 2 * sin x ^ 2) / cos x := by
  have he := h.eq_pos
  rw [Mercator.distortion, Spheroid.N, (Spheroid.C33_inverse h x hx).1]
  field_simp

/-! ## Theorems -/

/-- **C81** (Mercator).  Draw the map so that the equator has its own length:
longitude and `mercatorX` multiplied by the equatorial radius.  Then, at every
latitude between the poles, the reported distortion is the map length of a small
step over its ground length, both for steps to the north and to the east.  It is
one on the equator and larger elsewhere. -/
theorem C81_mercator (h : s.Valid) {x : ℝ} (hx : x ∈ Ioo (-(π / 2)) (π / 2)) :
    (∃ v m', GroundSpeed s x v ∧ 0 < v ∧ HasDerivAt (fun y => s.eqRad * mercatorX s y) m' x ∧
      Mercator.distortion s x = m' / v) ∧
    0 < axisDistance s x ∧ Mercator.distortion s x = s.eqRad / axisDistance s x ∧
    (x = 0 → Mercator.distortion s x = 1) ∧ (x ≠ 0 → 1 < Mercator.distortion s x) := by
  have he := h.eq_pos
  have hc : 0 < cos x := cos_pos_of_mem_Ioo hx
  obtain ⟨h0, h1⟩ := eccentricity_bounds h
  have hk : 0 < 1 - s.firstEccentricity ^ 2 := by nlinarith
  have hW := W_pos h x
  have hw : 0 < √(1 - s.firstEccentricity ^ 2 * sin x ^ 2) := sqrt_pos.2 hW
  rw [mercator_distortion_eq h hx, (ground_eq h hx).1]
  refine ⟨⟨_, _, groundSpeed h hx, by positivity, (mercator_hasDerivAt h hx).const_mul _, ?_⟩,
    by positivity, ?_, ?_, ?_⟩
  · field_simp
  · field_simp
  · rintro rfl; simp
  · intro hx0
    rw [one_lt_div hc]
    refine lt_sqrt_of_sq_lt ?_
    have hs : 0 < sin x ^ 2 := by
      have : sin x ≠ 0 := fun h => hx0 (by
        have := (sin_eq_zero_iff_of_lt_of_lt (by linarith [hx.1, pi_pos]) (by linarith [hx.2, pi_pos])).1 h
        exact this)
      positivity
    rw [cos_sq']
    nlinarith

example : ∃ s : Spheroid, s.Valid ∧ s.polRad < s.eqRad ∧ (1 / 2 : ℝ) ∈ Ioo (-(π / 2)) (π / 2) :=
  ⟨⟨71492, 66854⟩, ⟨by norm_num, by norm_num⟩, by norm_num,
    by constructor <;> linarith [pi_gt_three]⟩

/-- Scale of a polar stereographic map along a parallel: radius of the circle
drawn on the map over the radius of the parallel on the body. -/
noncomputable def Stereographic.scale (p : Stereographic) (latg : ℝ) : ℝ :=
  p.stereoRho latg / axisDistance p.body latg

/-- The latitude that is as far from the pole in the centre of the map as `y` is
from the north pole. -/
def Stereographic.fromPole (p : Stereographic) (y : ℝ) : ℝ := if p.northPole then y else -y

private theorem fromPole_mem (p : Stereographic) {x : ℝ} (hx : x ∈ Ioo (-(π / 2)) (π / 2)) :
    p.fromPole x ∈ Ioo (-(π / 2)) (π / 2) := by
  rw [Stereographic.fromPole]
  split
  · exact hx
  · exact ⟨by linarith [hx.2], by linarith [hx.1]⟩

private theorem fromPole_fromPole (p : Stereographic) (x : ℝ) : p.fromPole (p.fromPole x) = x := by
  rw [Stereographic.fromPole, Stereographic.fromPole]
  split <;> simp

private theorem new_ok {body : Spheroid} {prograde north : Bool} {m : Option ℝ}
    {p : Stereographic} (h : Stereographic.new body prograde m north = .ok p) :
    p.body = body ∧ p.rhoCoeff = rhoCoefficient body ∧
    p.distortionCoeff = distortionCoefficient body ∧ p.northPole = north := by
  unfold Stereographic.new at h
  cases m with
  | none => cases h; exact ⟨rfl, rfl, rfl, rfl⟩
  | some m =>
    simp only at h
    split at h
    · cases h
    · cases h; exact ⟨rfl, rfl, rfl, rfl⟩

/-- **C81** (polar stereographic: the same scale in both directions).  At every
latitude between the poles, a small step toward or away from the pole is drawn
on the same scale as one along the parallel. -/
theorem C81_stereographic_conformal (h : s.Valid) {prograde north : Bool} {m : Option ℝ}
    {p : Stereographic} (hp : Stereographic.new s prograde m north = .ok p)
    {x : ℝ} (hx : x ∈ Ioo (-(π / 2)) (π / 2)) :
    ∃ v r', GroundSpeed s x v ∧ 0 < v ∧ HasDerivAt p.stereoRho r' x ∧ p.scale x = |r'| / v := by
  obtain ⟨hb, hc, -, hn⟩ := new_ok hp
  have he := h.eq_pos
  have hcos : 0 < cos x := cos_pos_of_mem_Ioo hx
  obtain ⟨h0, h1⟩ := eccentricity_bounds h
  have hk : 0 < 1 - s.firstEccentricity ^ 2 := by nlinarith
  have hw : 0 < √(1 - s.firstEccentricity ^ 2 * sin x ^ 2) := sqrt_pos.2 (W_pos h x)
  have hr := rhoCoefficient_pos h
  have hev : ∀ {z}, z ∈ Ioo (-(π / 2)) (π / 2) → Ioo (-(π / 2)) (π / 2) ∈ nhds z :=
    fun hz => Ioo_mem_nhds hz.1 hz.2
  have key : ∀ {z}, z ∈ Ioo (-(π / 2)) (π / 2) →
      HasDerivAt (stereoRhoImpl s (rhoCoefficient s))
        (-(stereoRhoImpl s (rhoCoefficient s) z * ((1 - s.firstEccentricity ^ 2) /
          (cos z * (√(1 - s.firstEccentricity ^ 2 * sin z ^ 2)) ^ 2)))) z := by
    intro z hz
    have : stereoRhoImpl s (rhoCoefficient s) =ᶠ[nhds z]
        fun y => rhoCoefficient s * exp (-mercatorX s y) :=
      Filter.eventually_of_mem (hev hz) fun y hy => stereo_eq h _ hy
    refine HasDerivAt.congr_of_eventuallyEq ?_ this
    refine ((mercator_hasDerivAt h hz).neg.exp.const_mul _).congr_deriv ?_
    rw [stereo_eq h _ hz]
    simp only [Pi.neg_apply]
    ring
  have hpos : 0 < p.stereoRho x := by
    rw [Stereographic.stereoRho, hb, hc]
    exact (C17_radius h).2.1 _ (fromPole_mem p hx)
  have hd : ∃ r', HasDerivAt p.stereoRho r' x ∧ |r'| = p.stereoRho x *
      ((1 - s.firstEccentricity ^ 2) /
        (cos x * (√(1 - s.firstEccentricity ^ 2 * sin x ^ 2)) ^ 2)) := by
    have habs : |-(p.stereoRho x * ((1 - s.firstEccentricity ^ 2) /
        (cos x * (√(1 - s.firstEccentricity ^ 2 * sin x ^ 2)) ^ 2)))| = p.stereoRho x *
        ((1 - s.firstEccentricity ^ 2) /
        (cos x * (√(1 - s.firstEccentricity ^ 2 * sin x ^ 2)) ^ 2)) := by
      rw [abs_neg, abs_of_pos (by positivity)]
    cases hn' : p.northPole with
    | true =>
      have e : p.stereoRho = stereoRhoImpl s (rhoCoefficient s) := by
        funext y; simp [Stereographic.stereoRho, hb, hc, hn']
      refine ⟨_, ?_, habs⟩
      rw [e]
      exact key hx
    | false =>
      have e : p.stereoRho = fun y => stereoRhoImpl s (rhoCoefficient s) (-y) := by
        funext y; simp [Stereographic.stereoRho, hb, hc, hn']
      refine ⟨p.stereoRho x * ((1 - s.firstEccentricity ^ 2) /
        (cos x * (√(1 - s.firstEccentricity ^ 2 * sin x ^ 2)) ^ 2)), ?_,
        abs_of_pos (by positivity)⟩
      rw [e]
      have hx' : -x ∈ Ioo (-(π / 2)) (π / 2) := ⟨by linarith [hx.2], by linarith [hx.1]⟩
      refine ((key hx').comp x (hasDerivAt_neg x)).congr_deriv ?_
      simp only [cos_neg, sin_neg, neg_sq]
      ring
  obtain ⟨r', hd, hr'⟩ := hd
  refine ⟨_, r', groundSpeed h hx, by positivity, hd, ?_⟩
  rw [Stereographic.scale, hb, (ground_eq h hx).1, hr']
  field_simp

private theorem tan_quarter {x : ℝ} (hx : x ∈ Ioo (-(π / 2)) (π / 2)) :
    tan (π / 4 - x / 2) = cos x / (1 + sin x) := by
  have hs := (sin_mem hx).1
  have hc : 0 < cos (π / 4 - x / 2) :=
    cos_pos_of_mem_Ioo ⟨by linarith [hx.2, pi_pos], by linarith [hx.1]⟩
  have h1 : cos x = 2 * sin (π / 4 - x / 2) * cos (π / 4 - x / 2) := by
    rw [← sin_two_mul, show 2 * (π / 4 - x / 2) = π / 2 - x by ring, sin_pi_div_two_sub]
  have h2 : sin x = 2 * cos (π / 4 - x / 2) ^ 2 - 1 := by
    rw [← cos_two_mul, show 2 * (π / 4 - x / 2) = π / 2 - x by ring, cos_pi_div_two_sub]
  rw [h1, h2, tan_eq_sin_div_cos, add_sub_cancel]
  field_simp

/-- The scale in closed form, which makes sense at the pole as well. -/
private theorem scale_eq (h : s.Valid) {prograde north : Bool} {m : Option ℝ}
    {p : Stereographic} (hp : Stereographic.new s prograde m north = .ok p)
    {x : ℝ} (hx : x ∈ Ioo (-(π / 2)) (π / 2)) :
    p.scale (p.fromPole x) = rhoCoefficient s *
      ((1 + s.firstEccentricity * sin x) / (1 - s.firstEccentricity * sin x)) ^
        (s.firstEccentricity / 2) * √(1 - s.firstEccentricity ^ 2 * sin x ^ 2) /
      (s.eqRad * (1 + sin x)) := by
  obtain ⟨hb, hc, -, hn⟩ := new_ok hp
  have he := h.eq_pos
  have hcos : 0 < cos x := cos_pos_of_mem_Ioo hx
  have hs := (sin_mem hx).1
  have hs' : 0 < 1 + sin x := by linarith
  have e1 : p.stereoRho (p.fromPole x) = stereoRhoImpl s (rhoCoefficient s) x := by
    rw [Stereographic.stereoRho, hb, hc]
    exact congrArg _ (fromPole_fromPole p x)
  have e2 : axisDistance s (p.fromPole x) =
      s.eqRad * cos x / √(1 - s.firstEccentricity ^ 2 * sin x ^ 2) := by
    rw [(ground_eq h (fromPole_mem p hx)).1, Stereographic.fromPole]
    split <;> simp
  have hw : 0 < √(1 - s.firstEccentricity ^ 2 * sin x ^ 2) := sqrt_pos.2 (W_pos h x)
  rw [Stereographic.scale, hb, e1, e2, stereoRhoImpl, tan_quarter hx]
  field_simp

/-- **C81** (polar stereographic map of a sphere).  The reported distortion is
the scale of the map, whichever pole is in the centre.  It is one in the
centre. -/
theorem C81_stereographic_partial (h : s.Valid) (hs : s.polRad = s.eqRad)
    {prograde north : Bool} {m : Option ℝ}
    {p : Stereographic} (hp : Stereographic.new s prograde m north = .ok p) :
    (∀ x ∈ Ioo (-(π / 2)) (π / 2), p.distortion x = p.scale x ∧ 1 < p.distortion x) ∧
    p.distortion (p.fromPole (π / 2)) = 1 := by
  obtain ⟨hb, hc, hd, hn⟩ := new_ok hp
  have he := h.eq_pos
  have e0 : s.firstEccentricity = 0 := by
    rw [Spheroid.firstEccentricity, hs, div_self he.ne']
    simp
  have ec : rhoCoefficient s = 2 * s.eqRad := by simp [rhoCoefficient, e0]
  have ed : distortionCoefficient s = 1 / (4 * s.eqRad * s.eqRad) := by
    simp [distortionCoefficient, e0]
  have er : ∀ y, p.stereoRho (p.fromPole y) = 2 * s.eqRad * tan (π / 4 - y / 2) := by
    intro y
    have : p.stereoRho (p.fromPole y) = stereoRhoImpl s (rhoCoefficient s) y := by
      rw [Stereographic.stereoRho, hb, hc]
      exact congrArg _ (fromPole_fromPole p y)
    rw [this, stereoRhoImpl, ec, e0]
    simp
  constructor
  · intro z hz
    obtain ⟨x, hx, rfl⟩ : ∃ x, x ∈ Ioo (-(π / 2)) (π / 2) ∧ p.fromPole x = z :=
      ⟨p.fromPole z, fromPole_mem p hz, fromPole_fromPole p z⟩
    have hs1 := (sin_mem hx).1
    have hs' : 0 < 1 + sin x := by linarith
    have hcos : 0 < cos x := cos_pos_of_mem_Ioo hx
    have hsc := sin_sq_add_cos_sq x
    rw [scale_eq h hp hx, Stereographic.distortion, er, hd, ed, ec, e0, tan_quarter hx]
    constructor
    · have : cos x ^ 2 = 1 - sin x ^ 2 := by linarith
      simp
      field_simp
      rw [this]
      ring
    · have : 0 < 1 / (4 * s.eqRad * s.eqRad) *
          (2 * s.eqRad * (cos x / (1 + sin x))) ^ 2 := by positivity
      linarith
  · rw [Stereographic.distortion, er]
    have : π / 4 - π / 2 / 2 = 0 := by ring
    simp [this]

example : ∃ p, Stereographic.new ⟨1737, 1737⟩ true (some 30) false = .ok p := by
  simp only [Stereographic.new]
  rw [if_neg (by norm_num)]
  exact ⟨_, rfl⟩

/-- **C81** fails for polar stereographic maps of flattened bodies.  In the
centre the distortion is reported as one while the scale tends to `k`, which is
larger.  Relative to the scale in the centre, the distortion reported for the
equator is too small. -/
theorem C81_stereographic_violated (h : s.Valid) (hs : s.polRad < s.eqRad)
    {prograde north : Bool} {m : Option ℝ}
    {p : Stereographic} (hp : Stereographic.new s prograde m north = .ok p) :
    ∃ k, Filter.Tendsto (fun y => p.scale (p.fromPole y)) (nhdsWithin (π / 2) (Iio (π / 2)))
        (nhds k) ∧
      p.distortion (p.fromPole (π / 2)) = 1 ∧ 1 < k ∧ p.distortion 0 < p.scale 0 / k := by
  obtain ⟨hb, hc, hd, hn⟩ := new_ok hp
  have hpp := h.pol_pos
  have he := h.eq_pos
  obtain ⟨h0, h1⟩ := eccentricity_bounds h
  have hepos : 0 < s.firstEccentricity := by
    rw [Spheroid.firstEccentricity, sqrt_pos, sub_pos, sq_lt_one_iff₀ (by positivity),
      div_lt_one he]
    exact hs
  have er : ∀ y, p.stereoRho (p.fromPole y) = stereoRhoImpl s (rhoCoefficient s) y := by
    intro y
    rw [Stereographic.stereoRho, hb, hc]
    exact congrArg _ (fromPole_fromPole p y)
  have hz : p.fromPole 0 = 0 := by simp [Stereographic.fromPole]
  have h0m : (0 : ℝ) ∈ Ioo (-(π / 2)) (π / 2) := ⟨by linarith [pi_pos], by linarith [pi_pos]⟩
  have hsc0 := scale_eq h hp h0m
  rw [hz] at hsc0
  have her0 := er 0
  rw [hz] at her0
  have hsca := fun x hx => scale_eq h hp (x := x) hx
  set e := s.firstEccentricity with hedef
  have hm : 0 < 1 - e := by linarith
  have hpl : 0 < 1 + e := by linarith
  set q := (1 + e) / (1 - e) with hq
  have hq1 : 1 < q := by rw [hq, one_lt_div hm]; linarith
  have hrc : rhoCoefficient s = 2 * s.eqRad / √(1 - e ^ 2) * q ^ (e / 2) := by
    rw [rhoCoefficient, ← hedef, hq, div_rpow hpl.le hm.le, sqrt_eq_rpow,
      show 1 - e ^ 2 = (1 + e) * (1 - e) by ring, mul_rpow hpl.le hm.le,
      show -(1 - e) / 2 = e / 2 - 1 / 2 by ring, show -(1 + e) / 2 = -(e / 2) - 1 / 2 by ring,
      rpow_sub hpl, rpow_sub hm, rpow_neg hm.le]
    field_simp
  have hk : 0 < 1 - e ^ 2 := by nlinarith
  have hkw : 0 < √(1 - e ^ 2) := sqrt_pos.2 hk
  have hqp : 0 < q := by linarith
  have hqe : 0 < q ^ e := rpow_pos_of_pos hqp _
  have hqh : q ^ (e / 2) * q ^ (e / 2) = q ^ e := by
    rw [← rpow_add hqp]; congr 1; ring
  refine ⟨q ^ e, ?_, ?_, one_lt_rpow hq1 hepos, ?_⟩
  · have hlim : Filter.Tendsto (fun x => rhoCoefficient s *
        ((1 + e * sin x) / (1 - e * sin x)) ^ (e / 2) * √(1 - e ^ 2 * sin x ^ 2) /
        (s.eqRad * (1 + sin x))) (nhds (π / 2)) (nhds (rhoCoefficient s *
        ((1 + e * sin (π / 2)) / (1 - e * sin (π / 2))) ^ (e / 2) *
          √(1 - e ^ 2 * sin (π / 2) ^ 2) / (s.eqRad * (1 + sin (π / 2))))) := by
      have c : ContinuousAt sin (π / 2) := continuous_sin.continuousAt
      refine ContinuousAt.tendsto (f := fun x => rhoCoefficient s *
        ((1 + e * sin x) / (1 - e * sin x)) ^ (e / 2) * √(1 - e ^ 2 * sin x ^ 2) /
        (s.eqRad * (1 + sin x))) ?_
      have d1 : 1 - e * sin (π / 2) ≠ 0 := by rw [sin_pi_div_two]; linarith
      have d2 : s.eqRad * (1 + sin (π / 2)) ≠ 0 := by
        rw [sin_pi_div_two]; positivity
      have c1 : ContinuousAt (fun x => (1 + e * sin x) / (1 - e * sin x)) (π / 2) := by fun_prop (disch := exact d1)
      have c2 : ContinuousAt (fun x => ((1 + e * sin x) / (1 - e * sin x)) ^ (e / 2)) (π / 2) :=
        c1.rpow_const (Or.inr (by positivity))
      exact ((c2.const_mul _).mul (by fun_prop)).div (by fun_prop) d2
    have hval : rhoCoefficient s *
        ((1 + e * sin (π / 2)) / (1 - e * sin (π / 2))) ^ (e / 2) *
          √(1 - e ^ 2 * sin (π / 2) ^ 2) / (s.eqRad * (1 + sin (π / 2))) = q ^ e := by
      rw [sin_pi_div_two, mul_one, one_pow, mul_one, ← hq, hrc, ← hqh]
      field_simp
      ring
    rw [hval] at hlim
    refine (hlim.mono_left nhdsWithin_le_nhds).congr' ?_
    have : Ioo (-(π / 2)) (π / 2) ∈ nhdsWithin (π / 2) (Iio (π / 2)) :=
      Ioo_mem_nhdsLT (by linarith [pi_pos])
    exact Filter.eventually_of_mem this fun x hx => (hsca x hx).symm
  · have : π / 4 - π / 2 / 2 = 0 := by ring
    rw [Stereographic.distortion, er, stereoRhoImpl, this]
    simp
  · -- `g` is the factor that makes the scale true in the centre
    set g := √(1 - e ^ 2) * q ^ (e / 2) with hg
    have hgp : 0 < g := by positivity
    have hg2 : g ^ 2 = (1 - e ^ 2) * q ^ e := by
      rw [hg, mul_pow, sq_sqrt hk.le, sq (q ^ _), hqh]
    have hlo : 1 - e < g := by
      refine lt_of_pow_lt_pow_left₀ 2 hgp.le ?_
      have : 1 - e ^ 2 = (1 - e) ^ 2 * q := by rw [hq]; field_simp; ring
      rw [hg2, this]
      have := one_lt_rpow hq1 hepos
      have : 1 < q * q ^ e := one_lt_mul_of_lt_of_le hq1 this.le
      nlinarith [sq_pos_of_pos hm]
    have hhi : g < 1 + e := by
      refine lt_of_pow_lt_pow_left₀ 2 hpl.le ?_
      have : 1 - e ^ 2 = (1 + e) ^ 2 / q := by rw [hq]; field_simp; ring
      rw [hg2, this, div_mul_eq_mul_div, div_lt_iff₀ hqp]
      have : q ^ e < q := by
        conv_rhs => rw [← rpow_one q]
        exact rpow_lt_rpow_of_exponent_lt hq1 h1
      nlinarith [sq_pos_of_pos hpl]
    have hscale : p.scale 0 / q ^ e = 2 / g := by
      rw [hsc0, hrc, hg]
      simp
      field_simp
      nlinarith
    have hdist : p.distortion 0 = 1 + (1 - e ^ 2) / g ^ 2 := by
      rw [Stereographic.distortion, her0, hd, stereoRhoImpl, hrc, hg2]
      have hdc : distortionCoefficient s = (1 - e ^ 2) / (4 * s.eqRad * s.eqRad) / q ^ (2 * e) := by
        rw [distortionCoefficient, ← hedef, hq, div_rpow hpl.le hm.le, rpow_sub hpl, rpow_add hm]
        simp only [rpow_one]
        field_simp
        ring
      have h2 : q ^ (2 * e) = q ^ e * q ^ e := by rw [← rpow_add hqp]; congr 1; ring
      have e3 : √(1 - e ^ 2) ^ 2 = 1 - e ^ 2 := sq_sqrt hk.le
      rw [hdc, h2]
      simp
      field_simp
      rw [e3, show (q ^ (e / 2)) ^ 2 = q ^ e by rw [sq, hqh]]
      field_simp
      norm_num
    rw [hscale, hdist]
    rw [← sub_pos]
    have : 2 / g - (1 + (1 - e ^ 2) / g ^ 2) = (g - (1 - e)) * (1 + e - g) / g ^ 2 := by
      field_simp
      ring
    rw [this]
    have := mul_pos (sub_pos.2 hlo) (sub_pos.2 hhi)
    positivity

example : ∃ p, Stereographic.new ⟨71492, 66854⟩ false (some 30) true = .ok p := by
  simp only [Stereographic.new]
  rw [if_neg (by norm_num)]
  exact ⟨_, rfl⟩

end MaRC.Projection
