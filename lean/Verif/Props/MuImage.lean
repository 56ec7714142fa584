import Verif.Lemmas.MuAccuracy

/-! # Accuracy of cosine images (C93), reading them (C94) -/

namespace MaRC

open Fp Geo

/-! ## Specification -/

/-- `p` is the point of the spheroid with radii `eqRad` and `polRad` that is seen from
the centre in the direction of a latitude and longitude. -/
structure SurfacePoint (eqRad polRad lat lon : ℝ) (p : Point) : Prop where
  on : OnSpheroid eqRad polRad p
  ray : ∃ k : ℝ, 0 < k ∧ p = k • direction lat lon

theorem SurfacePoint.eq {s : Spheroid} (h : s.Valid) {lat lon : ℝ} {p : Point}
    (hp : SurfacePoint s.eqRad s.polRad lat lon p) : p = s.surface lat lon := by
  obtain ⟨hon, k, hk, rfl⟩ := hp
  rw [Spheroid.surface, (Spheroid.C34_surface h lat lon).2 k hk.le hon]

theorem lat_inside {lat : ℚ} (h : |lat| ≤ pi2Q) :
    (lat : ℝ) ∈ Set.Ioo (-(Real.pi / 2)) (Real.pi / 2) := by
  have h1 : |(lat : ℝ)| ≤ pi2Q := by exact_mod_cast h
  have hpi := pi2Q_lt
  have h2 : (0 : ℝ) < 1 / 2 ^ 54 := by positivity
  rw [abs_le] at h1
  exact ⟨by linarith [h1.1], by linarith [h1.2]⟩

theorem lat_two {lat : ℚ} (h : |lat| ≤ pi2Q) : |(lat : ℝ)| ≤ 2 := by
  have h1 : |(lat : ℝ)| ≤ pi2Q := by exact_mod_cast h
  exact h1.trans (by norm_num [pi2Q])

/-- A longitude given in radians. -/
theorem Ap.lonExact {lon : ℚ} (h : |lon| ≤ 8) : Ap (.fin lon) (lon : ℝ) 2 8 :=
  (Ap.exact lon (by exact_mod_cast h)).mono (by norm_num)

/-! ## The data of maps of every type -/

/-- Scale and offset of the cosine images. -/
theorem cosine_scale (T : MapType) : ∃ (s o : ℚ) (lo hi : Dbl),
    makeVirtual .ieee T (.fin (-1)) (.fin 1) = .ok (⟨.fin s, .fin o⟩, lo, hi) ∧
    (o = 0 ∨ o = s) ∧ 1 ≤ s ∧ s ≤ 2 ^ 60 := by
  cases T
  · exact ⟨100, 100, .fin 0, .fin 200, by decide +kernel, by decide +kernel⟩
  · exact ⟨10000, 0, .fin (-10000), .fin 10000, by decide +kernel, by decide +kernel⟩
  · exact ⟨10 ^ 9, 0, .fin (-10 ^ 9), .fin (10 ^ 9), by decide +kernel, by decide +kernel⟩
  · exact ⟨10 ^ 18, 0, .fin (-10 ^ 18), .fin (10 ^ 18), by decide +kernel, by decide +kernel⟩
  · exact ⟨1, 0, .fin (-1), .fin 1, by decide +kernel, by decide +kernel⟩
  · exact ⟨1, 0, .fin (-1), .fin 1, by decide +kernel, by decide +kernel⟩

/-- The scaled datum of a cosine. -/
theorem Ap.scaled {a : Dbl} {x k : ℝ} (ha : Ap a x k 1) (hk : 0 ≤ k ∧ k ≤ 800) {s o : ℚ}
    (ho : o = 0 ∨ o = s) (hs : 1 ≤ s) (hs' : s ≤ 2 ^ 60) :
    ∃ d : ℚ, (VirtualImage.mk (.fin s) (.fin o)).readData .ieee (some a) = some (.fin d) ∧
      |(d : ℝ) - (x * s + o)| ≤ s / 2 ^ 42 := by
  have hsR : (1 : ℝ) ≤ s := by exact_mod_cast hs
  have hsR' : (s : ℝ) ≤ 2 ^ 60 := by exact_mod_cast hs'
  have hsc : Scale (s : ℝ) := ⟨by norm_num; linarith, by norm_num at hsR' ⊢; linarith⟩
  have hsc2 : Scale (2 * s : ℝ) := ⟨by norm_num; linarith, by norm_num at hsR' ⊢; linarith⟩
  have m1 := Ap.mul ha (Ap.exact s (by rw [abs_of_pos (by linarith)])) ⟨hk.1, by linarith [hk.2]⟩
    (by norm_num) scale_one hsc (by rwa [one_mul])
  rw [one_mul] at m1
  have hoR : |(o : ℝ)| ≤ s := by
    rcases ho with rfl | rfl
    · simp; linarith
    · rw [abs_of_pos (by linarith)]
  obtain ⟨-, -, -, hb⟩ := id m1
  have m2 := Ap.add (k := 450) (S := 2 * s) m1 (Ap.exact o hoR) hsc2
    (by refine (abs_add_le _ _).trans ?_; linarith) (by nlinarith [hk.2]) (by norm_num)
  obtain ⟨d, hd, he, -⟩ := m2
  refine ⟨d, ?_, he.trans ?_⟩
  · simp only [VirtualImage.readData, Option.map_some, hd]
  · norm_num
    linarith

/-- **C93** (emission).  In maps of every data type, for every body, place of the
observer in degrees and point in radians, with a correctly rounded library: the image
the factory makes has a datum at the point, which is `cos * s + o` up to `s` times
2^-42, where `s` and `o` are the scale and offset of the image and `cos` is the cosine
of the angle between the outward normal of the spheroid at the point and the vector
from the point to the observer.  The observer is at least twice the equatorial radius
from the centre (`InRange`). -/
theorem C93_emission {L : LibmRoot} (hL : L.Correct) (T : MapType) {eqRad polRad range : ℚ}
    (h : InRange eqRad polRad range) {subLat subLon lat lon : ℚ} (h1 : |subLat| ≤ 90)
    (h2 : |subLon| ≤ 360) (h3 : |lat| ≤ pi2Q) (h4 : |lon| ≤ 8) {p : Point}
    (hp : SurfacePoint eqRad polRad lat lon p) :
    ∃ (m : MuImage) (lo hi : Dbl) (s o d : ℚ),
      MuImage.make .ieee T (.fin eqRad) (.fin polRad) (.fin subLat) (.fin subLon) (.fin range) =
        .ok (m, lo, hi) ∧
      m.virtual.scale = .fin s ∧ m.virtual.offset = .fin o ∧ 1 ≤ s ∧
      m.readData .ieee L false (.fin lat) (.fin lon) = .ok (some (.fin d)) ∧
      |(d : ℝ) - (cosAngle (normal eqRad polRad p)
          ((range : ℝ) • direction (subLat * Real.pi / 180) (subLon * Real.pi / 180) - p) * s + o)| ≤
        s / 2 ^ 42 := by
  obtain ⟨s, o, lo, hi, hv, ho, hs, hs'⟩ := cosine_scale T
  have ha := h.mu hL (Ap.latDegrees h1) (Ap.lonDegrees h2) (Ap.lonExact h4) h3
  obtain ⟨d, hd, he⟩ := ha.scaled (by norm_num) ho hs hs'
  refine ⟨.new .ieee (.fin eqRad) (.fin polRad) (.fin subLat) (.fin subLon) (.fin range)
    ⟨.fin s, .fin o⟩, lo, hi, s, o, d, by rw [MuImage.make, hv]; rfl, rfl, rfl, hs, ?_, ?_⟩
  · simp only [MuImage.readData, MuImage.readDataI, MuImage.new, Bool.false_and,
      Bool.false_eq_true, if_false, Outcome.bind, hd]
  · have e := Spheroid.C35_mu h.valid (subLat * Real.pi / 180) (subLon * Real.pi / 180) lat lon
      range (lat_inside h3)
    rw [hp.eq h.valid, ← Spheroid.observer, ← e]
    exact he

/-- **C93** (phase).  The same for the image of phase cosines: the angle is that
between the direction of the sun and the vector from the point to the observer. -/
theorem C93_phase {L : LibmRoot} (hL : L.Correct) (T : MapType) {eqRad polRad range : ℚ}
    (h : InRange eqRad polRad range) {obsLat obsLon sunLat sunLon lat lon : ℚ} (h1 : |obsLat| ≤ 90)
    (h2 : |obsLon| ≤ 360) (h5 : |sunLat| ≤ 90) (h6 : |sunLon| ≤ 360) (h3 : |lat| ≤ pi2Q)
    (h4 : |lon| ≤ 8) {p : Point} (hp : SurfacePoint eqRad polRad lat lon p) :
    ∃ (m : CosPhaseImage) (lo hi : Dbl) (s o d : ℚ),
      CosPhaseImage.make .ieee T (.fin eqRad) (.fin polRad) (.fin obsLat) (.fin obsLon)
        (.fin sunLat) (.fin sunLon) (.fin range) = .ok (m, lo, hi) ∧
      m.virtual.scale = .fin s ∧ m.virtual.offset = .fin o ∧ 1 ≤ s ∧
      m.readData .ieee L false (.fin lat) (.fin lon) = .ok (some (.fin d)) ∧
      |(d : ℝ) - (cosAngle (direction (sunLat * Real.pi / 180) (sunLon * Real.pi / 180))
          ((range : ℝ) • direction (obsLat * Real.pi / 180) (obsLon * Real.pi / 180) - p) * s + o)| ≤
        s / 2 ^ 42 := by
  obtain ⟨s, o, lo, hi, hv, ho, hs, hs'⟩ := cosine_scale T
  have ha := h.cosPhase hL (Ap.latDegrees h1) (Ap.lonDegrees h2) (Ap.latDegrees h5)
    (Ap.lonDegrees h6) (Ap.lonExact h4) (lat_two h3)
  obtain ⟨d, hd, he⟩ := ha.scaled (by norm_num) ho hs hs'
  refine ⟨.new .ieee (.fin eqRad) (.fin polRad) (.fin obsLat) (.fin obsLon) (.fin sunLat)
    (.fin sunLon) (.fin range) ⟨.fin s, .fin o⟩, lo, hi, s, o, d,
    by rw [CosPhaseImage.make, hv]; rfl, rfl, rfl, hs, ?_, ?_⟩
  · simp only [CosPhaseImage.readData, CosPhaseImage.readDataI, CosPhaseImage.new, Bool.false_and,
      Bool.false_eq_true, if_false, Outcome.bind, hd]
  · have e := Spheroid.C35_cos_phase ⟨eqRad, polRad⟩ (obsLat * Real.pi / 180)
      (obsLon * Real.pi / 180) (sunLat * Real.pi / 180) (sunLon * Real.pi / 180) lat lon range
    rw [hp.eq h.valid, ← Spheroid.observer, ← e]
    exact he

/-- **C93** (incidence).  The same for the image of incidence cosines: the angle is
that between the outward normal of the spheroid at the point and the direction of the
sun. -/
theorem C93_incidence {L : Libm} (hL : L.Correct) (T : MapType) {eqRad polRad range : ℚ}
    (h : InRange eqRad polRad range) {subLat subLon lat lon : ℚ} (h1 : |subLat| ≤ 90)
    (h2 : |subLon| ≤ 360) (h3 : |lat| ≤ pi2Q) (h4 : |lon| ≤ 8) {p : Point}
    (hp : SurfacePoint eqRad polRad lat lon p) :
    ∃ (m : Mu0Image) (lo hi : Dbl) (s o d : ℚ),
      Mu0Image.make .ieee T (.fin eqRad) (.fin polRad) (.fin subLat) (.fin subLon) =
        .ok (m, lo, hi) ∧
      m.virtual.scale = .fin s ∧ m.virtual.offset = .fin o ∧ 1 ≤ s ∧
      m.readData .ieee L false (.fin lat) (.fin lon) = .ok (some (.fin d)) ∧
      |(d : ℝ) - (cosAngle (normal eqRad polRad p)
          (direction (subLat * Real.pi / 180) (subLon * Real.pi / 180)) * s + o)| ≤ s / 2 ^ 42 := by
  obtain ⟨s, o, lo, hi, hv, ho, hs, hs'⟩ := cosine_scale T
  have ha := h.mu0 hL (Ap.latDegrees h1) (Ap.lonDegrees h2) (Ap.lonExact h4) h3
  obtain ⟨d, hd, he⟩ := ha.scaled (by norm_num) ho hs hs'
  refine ⟨.new .ieee (.fin eqRad) (.fin polRad) (.fin subLat) (.fin subLon)
    ⟨.fin s, .fin o⟩, lo, hi, s, o, d, by rw [Mu0Image.make, hv]; rfl, rfl, rfl, hs, ?_, ?_⟩
  · simp only [Mu0Image.readData, Mu0Image.readDataI, Mu0Image.new, Bool.false_and,
      Bool.false_eq_true, if_false, Outcome.bind, hd]
  · have e := Spheroid.C35_mu0 h.valid (subLat * Real.pi / 180) (subLon * Real.pi / 180) lat lon
      (lat_inside h3)
    rw [hp.eq h.valid, ← e]
    exact he

/-- Non-vacuity: Jupiter in kilometres, seen from two million, at a point off the
equator; there is such a library and such a point. -/
example : (∃ L : LibmRoot, L.Correct) ∧ InRange 71492 66854 2000000 ∧ |(1 / 5 : ℚ)| ≤ pi2Q ∧
    ∃ p, SurfacePoint (71492 : ℚ) (66854 : ℚ) (1 / 5 : ℚ) (3 : ℚ) p := by
  have hv : Spheroid.Valid ⟨(71492 : ℚ), (66854 : ℚ)⟩ := ⟨by norm_num, by norm_num⟩
  exact ⟨exists_correctRoot, ⟨by norm_num, by norm_num, by norm_num, by norm_num, by norm_num⟩,
    by norm_num [pi2Q, abs_of_pos],
    Spheroid.surface ⟨(71492 : ℚ), (66854 : ℚ)⟩ (1 / 5 : ℚ) (3 : ℚ),
    (Spheroid.C34_surface hv _ _).1,
    Spheroid.centricRadius ⟨(71492 : ℚ), (66854 : ℚ)⟩ (1 / 5 : ℚ),
    Spheroid.centricRadius_pos hv _, rfl⟩

/-! ## C94: reading the images -/

/-- Assertion of the images: data between -1 and 1. -/
theorem Ap.asserted {a : Dbl} {x k : ℝ} (ha : Ap a x k 1) (hk : k ≤ 1024)
    (hx : |x| ≤ 1 - 1 / 2 ^ 42) : (a.ge (.fin (-1)) && a.le (.fin 1)) = true := by
  obtain ⟨q, rfl, hq, -⟩ := ha
  have h1 : |(q : ℝ)| ≤ 1 := by
    have := abs_add_le ((q : ℝ) - x) x
    rw [sub_add_cancel] at this
    norm_num at hq hx ⊢
    linarith
  have h2 : |q| ≤ 1 := by exact_mod_cast h1
  rw [abs_le] at h2
  simp [Dbl.ge, Dbl.le, h2.1, h2.2]

/-- **C94** (emission; partial).  Points whose emission angle has a cosine not within
2^-42 of -1 and 1 are read without failing assertion.  Missing: the other points
(`C94_emission_violated`). -/
theorem C94_emission_partial {L : LibmRoot} (hL : L.Correct) {eqRad polRad range : ℚ}
    (h : InRange eqRad polRad range) {subLat subLon lat lon : ℚ} (h1 : |subLat| ≤ 90)
    (h2 : |subLon| ≤ 360) (h3 : |lat| ≤ pi2Q) (h4 : |lon| ≤ 8) {p : Point}
    (hp : SurfacePoint eqRad polRad lat lon p)
    (hc : |cosAngle (normal eqRad polRad p)
        ((range : ℝ) • direction (subLat * Real.pi / 180) (subLon * Real.pi / 180) - p)| ≤
      1 - 1 / 2 ^ 42) (v : VirtualImage) :
    ∃ d, (MuImage.new .ieee (.fin eqRad) (.fin polRad) (.fin subLat) (.fin subLon) (.fin range)
      v).readData .ieee L true (.fin lat) (.fin lon) = .ok (some d) := by
  have ha := h.mu hL (Ap.latDegrees h1) (Ap.lonDegrees h2) (Ap.lonExact h4) h3
  have e := Spheroid.C35_mu h.valid (subLat * Real.pi / 180) (subLon * Real.pi / 180) lat lon
    range (lat_inside h3)
  rw [hp.eq h.valid, ← Spheroid.observer, ← e] at hc
  have := ha.asserted (by norm_num) hc
  simp only [MuImage.readData, MuImage.readDataI, MuImage.new, this, Bool.not_true,
    Bool.and_false, Bool.false_eq_true, if_false, Outcome.bind, VirtualImage.readData,
    Option.map_some]
  exact ⟨_, rfl⟩

/-- **C94** (phase; partial).  The same for phase angles. -/
theorem C94_phase_partial {L : LibmRoot} (hL : L.Correct) {eqRad polRad range : ℚ}
    (h : InRange eqRad polRad range) {obsLat obsLon sunLat sunLon lat lon : ℚ} (h1 : |obsLat| ≤ 90)
    (h2 : |obsLon| ≤ 360) (h5 : |sunLat| ≤ 90) (h6 : |sunLon| ≤ 360) (h3 : |lat| ≤ pi2Q)
    (h4 : |lon| ≤ 8) {p : Point} (hp : SurfacePoint eqRad polRad lat lon p)
    (hc : |cosAngle (direction (sunLat * Real.pi / 180) (sunLon * Real.pi / 180))
        ((range : ℝ) • direction (obsLat * Real.pi / 180) (obsLon * Real.pi / 180) - p)| ≤
      1 - 1 / 2 ^ 42) (v : VirtualImage) :
    ∃ d, (CosPhaseImage.new .ieee (.fin eqRad) (.fin polRad) (.fin obsLat) (.fin obsLon)
      (.fin sunLat) (.fin sunLon) (.fin range) v).readData .ieee L true (.fin lat) (.fin lon) =
        .ok (some d) := by
  have ha := h.cosPhase hL (Ap.latDegrees h1) (Ap.lonDegrees h2) (Ap.latDegrees h5)
    (Ap.lonDegrees h6) (Ap.lonExact h4) (lat_two h3)
  have e := Spheroid.C35_cos_phase ⟨eqRad, polRad⟩ (obsLat * Real.pi / 180)
    (obsLon * Real.pi / 180) (sunLat * Real.pi / 180) (sunLon * Real.pi / 180) lat lon range
  rw [hp.eq h.valid, ← Spheroid.observer, ← e] at hc
  have := ha.asserted (by norm_num) hc
  simp only [CosPhaseImage.readData, CosPhaseImage.readDataI, CosPhaseImage.new, this,
    Bool.not_true, Bool.and_false, Bool.false_eq_true, if_false, Outcome.bind,
    VirtualImage.readData, Option.map_some]
  exact ⟨_, rfl⟩

/-- Non-vacuity: on a sphere, a point 90 degrees from the sub-observer point meets the
hypotheses of `C94_emission_partial`. -/
example : InRange 1 1 2 ∧ SurfacePoint (1 : ℚ) (1 : ℚ) (0 : ℚ) (0 : ℚ) ![1, 0, 0] ∧
    |cosAngle (normal (1 : ℚ) (1 : ℚ) ![1, 0, 0])
      (((2 : ℚ) : ℝ) • direction ((0 : ℚ) * Real.pi / 180) ((90 : ℚ) * Real.pi / 180) -
        ![1, 0, 0])| ≤ 1 - 1 / 2 ^ 42 := by
  have e1 : (direction ((0 : ℚ) : ℝ) ((0 : ℚ) : ℝ)) = ![1, 0, 0] := by simp [direction]
  have e2 : ((90 : ℚ) : ℝ) * Real.pi / 180 = Real.pi / 2 := by push_cast; ring
  have e3 : direction (((0 : ℚ) : ℝ) * Real.pi / 180) (Real.pi / 2) = ![0, 1, 0] := by
    simp [direction]
  refine ⟨⟨by norm_num, by norm_num, by norm_num, by norm_num, by norm_num⟩,
    ⟨by simp [OnSpheroid, level], 1, by norm_num, by rw [e1, one_smul]⟩, ?_⟩
  have e4 : cosAngle (normal ((1 : ℚ) : ℝ) ((1 : ℚ) : ℝ) ![1, 0, 0])
      (((2 : ℚ) : ℝ) • ![0, 1, 0] - ![1, 0, 0]) = -1 / Real.sqrt 5 := by
    have e5 : normal ((1 : ℚ) : ℝ) ((1 : ℚ) : ℝ) ![1, 0, 0] = ![1, 0, 0] := by simp [normal]
    rw [e5, cosAngle, length, length, Spheroid.dot3, Spheroid.dot3, Spheroid.dot3]
    simp
    norm_num
  rw [e2, e3, e4, abs_div, abs_of_nonneg (Real.sqrt_nonneg 5)]
  have h5 : (2 : ℝ) ≤ Real.sqrt 5 := Real.le_sqrt_of_sq_le (by norm_num)
  rw [div_le_iff₀ (by linarith)]
  norm_num
  linarith

/-- Non-vacuity: the same point, with the sun above a pole, meets the hypotheses of
`C94_phase_partial`. -/
example : |cosAngle (direction ((90 : ℚ) * Real.pi / 180) ((0 : ℚ) * Real.pi / 180))
    (((2 : ℚ) : ℝ) • direction ((0 : ℚ) * Real.pi / 180) ((90 : ℚ) * Real.pi / 180) -
      ![1, 0, 0])| ≤ 1 - 1 / 2 ^ 42 := by
  have e2 : ((90 : ℚ) : ℝ) * Real.pi / 180 = Real.pi / 2 := by push_cast; ring
  have e3 : direction (((0 : ℚ) : ℝ) * Real.pi / 180) (Real.pi / 2) = ![0, 1, 0] := by
    simp [direction]
  have e4 : direction (Real.pi / 2) (((0 : ℚ) : ℝ) * Real.pi / 180) = ![0, 0, 1] := by
    simp [direction]
  rw [e2, e3, e4, cosAngle, Spheroid.dot3]
  simp
  norm_num

/-- The radius of Venus in kilometres, 6051.8, as a `double`. -/
def venus : ℚ := 6654024468974797 / 2 ^ 40

theorem venus_eq : ieee.rnd (60518 / 10) = .fin venus := by decide +kernel

theorem venus_radius {L : LibmRoot} (h : L.Correct) :
    centricRadiusF .ieee L (.fin venus) (.fin venus) (.fin lat12) = .fin venus := by
  have h' := h.toCorrect
  have e1 : ieee.div (.fin cos12) (.fin venus) = .fin (1490766256076667 / 2 ^ 63) := by
    decide +kernel
  have e2 : ieee.div (.fin sin12) (.fin venus) = .fin (5069954394325569 / 2 ^ 67) := by
    decide +kernel
  have e3 : L.hypot (.fin (1490766256076667 / 2 ^ 63)) (.fin (5069954394325569 / 2 ^ 67)) =
      .fin (6096283444168529 / 2 ^ 65) := by
    refine (h.hypot _ _).eq (q1 := 6096283444168529 / 2 ^ 65 - 1 / 2 ^ 67)
      (q2 := 6096283444168529 / 2 ^ 65 + 1 / 2 ^ 67) ?_ ?_ (by decide +kernel) (by decide +kernel)
    · refine Real.le_sqrt_of_sq_le ?_
      norm_num
    · refine Real.sqrt_le_iff.2 ⟨by norm_num, ?_⟩
      norm_num
  have e4 : ieee.div (.fin 1) (.fin (6096283444168529 / 2 ^ 65)) = .fin venus := by decide +kernel
  rw [centricRadiusF, cos_lat12 h', sin_lat12 h', e1, e2, e3, e4]

theorem venus_distance {L : LibmRoot} (h : L.Correct) (lon : ℚ) :
    observerDistanceF .ieee L (.fin venus) (.fin lat12) (.fin lon) (.fin lat12) (.fin lon)
      (.fin 100000) = .fin (6456071144289075 / 2 ^ 36) := by
  have h' := h.toCorrect
  have e2 : ieee.sub (.fin lon) (.fin lon) = .fin 0 := by
    simp only [Fp.sub, Dbl.neg, Fp.add, add_neg_cancel]
    exact ieee_rnd_zero
  rw [observerDistanceF, e2, sin_lat12 h', cos_lat12 h', cos_zero h']
  have e3 : ieee.sub (ieee.add (ieee.mul (.fin 100000) (.fin 100000)) (ieee.mul (.fin venus) (.fin venus)))
      (ieee.mul (ieee.mul (ieee.mul (.fin 2) (.fin 100000)) (.fin venus))
        (ieee.add (ieee.mul (.fin sin12) (.fin sin12))
          (ieee.mul (ieee.mul (.fin cos12) (.fin cos12)) (.fin 1)))) =
      .fin (4627504448531333 / 2 ^ 19) := by decide +kernel
  rw [e3]
  refine (h.sqrt _ (by norm_num)).eq (q1 := 6456071144289075 / 2 ^ 36 - 49 / 100 / 2 ^ 36)
    (q2 := 6456071144289075 / 2 ^ 36 + 49 / 100 / 2 ^ 36) ?_ ?_ (by decide +kernel)
    (by decide +kernel)
  · refine Real.le_sqrt_of_sq_le ?_
    norm_num
  · refine Real.sqrt_le_iff.2 ⟨by norm_num, ?_⟩
    norm_num

theorem venus_mu {L : LibmRoot} (h : L.Correct) (lon : ℚ) :
    muF .ieee L (.fin venus) (.fin venus) (.fin lat12) (.fin lon) (.fin lat12) (.fin lon)
      (.fin 100000) = .fin (1 + 1 / 2 ^ 52) := by
  have h' := h.toCorrect
  have e1 : ieee.mul (ieee.mul (ieee.div (.fin venus) (.fin venus))
      (ieee.div (.fin venus) (.fin venus))) (.fin tan12) = .fin tan12 := by decide +kernel
  have e2 : ieee.sub (.fin lon) (.fin lon) = .fin 0 := by
    simp only [Fp.sub, Dbl.neg, Fp.add, add_neg_cancel]
    exact ieee_rnd_zero
  have e3 : graphicLatitudeF .ieee L.toLibm (.fin venus) (.fin venus) (.fin lat12) =
      .fin lat12 := by
    rw [graphicLatitudeF, tan_lat12 h', e1, atan_tan12 h']
  have e4 : ieee.sub (.fin lat12) (.fin lat12) = .fin 0 := by decide +kernel
  simp only [muF, e3, venus_radius h, venus_distance h, sin_lat12 h', cos_lat12 h', e2, e4,
    cos_zero h']
  decide +kernel

theorem venus_phase {L : LibmRoot} (h : L.Correct) (lon : ℚ) :
    cosPhaseF .ieee L (.fin venus) (.fin venus) (.fin lat12) (.fin lon) (.fin lat12) (.fin lon)
      (.fin lat12) (.fin lon) (.fin 100000) = .fin (1 + 1 / 2 ^ 52) := by
  have h' := h.toCorrect
  have e2 : ieee.sub (.fin lon) (.fin lon) = .fin 0 := by
    simp only [Fp.sub, Dbl.neg, Fp.add, add_neg_cancel]
    exact ieee_rnd_zero
  simp only [cosPhaseF, venus_radius h, venus_distance h, sin_lat12 h', cos_lat12 h', e2,
    cos_zero h']
  decide +kernel

/-- **C94** (emission; violated).  However good the mathematical library: on a sphere
of the size of Venus seen from 100000 km above latitude 12 degrees, the image of
emission cosines cannot be read at the sub-observer point, where a failed assertion
ends the program. -/
theorem C94_emission_violated {L : LibmRoot} (h : L.Correct) (lon : ℚ) (v : VirtualImage) :
    (MuImage.mk (.fin venus) (.fin venus) (ieee.mul (.fin 12) cDegree) (.fin lon) (.fin 100000)
      v).readData .ieee L true (ieee.mul (.fin 12) cDegree) (.fin lon) = .ub := by
  rw [lat12_eq]
  have : (!((Dbl.fin (1 + 1 / 2 ^ 52)).ge (.fin (-1)) && (Dbl.fin (1 + 1 / 2 ^ 52)).le (.fin 1))) =
      true := by decide +kernel
  simp only [MuImage.readData, MuImage.readDataI, venus_mu h, this, Bool.and_self, if_true,
    Outcome.bind]

/-- **C94** (which emission cosines are read).  With assertions, a point is read exactly if the
cosine computed there is a number from -1 to 1, both included, and the datum is this number
through scale and offset. -/
theorem C94_emission_read_partial (F : Fp) (L : LibmRoot) (m : MuImage) (lat lon d : Dbl) :
    m.readData F L true lat lon = .ok (some d) ↔
      ∃ q : ℚ, muF F L m.eqRad m.polRad m.subLat m.subLon lat lon m.range =
          .fin q ∧ -1 ≤ q ∧ q ≤ 1 ∧
        d = F.add (F.mul (.fin q) m.virtual.scale) m.virtual.offset := by
  simp only [MuImage.readData, MuImage.readDataI, Bool.true_and]
  generalize muF F L m.eqRad m.polRad m.subLat m.subLon lat lon m.range = a
  cases h : (!(a.ge (.fin (-1)) && a.le (.fin 1))) with
  | false =>
    obtain ⟨q, h1, h2, h3⟩ := asserted_iff.1 h
    simp [h1, h2, h3, Outcome.bind, VirtualImage.readData, eq_comm]
  | true =>
    simp only [if_true, Outcome.bind, reduceCtorEq, false_iff]
    rintro ⟨q, h1, h2, h3, -⟩
    have := asserted_iff.2 ⟨q, h1, h2, h3⟩
    rw [h] at this
    cases this

/-- **C94** (which phase cosines are read).  With assertions, a point is read exactly if the
cosine computed there is a number from -1 to 1, both included, and the datum is this number
through scale and offset. -/
theorem C94_phase_read_partial (F : Fp) (L : LibmRoot) (m : CosPhaseImage) (lat lon d : Dbl) :
    m.readData F L true lat lon = .ok (some d) ↔
      ∃ q : ℚ, cosPhaseF F L m.eqRad m.polRad m.obsLat m.obsLon m.sunLat m.sunLon lat lon m.range =
          .fin q ∧ -1 ≤ q ∧ q ≤ 1 ∧
        d = F.add (F.mul (.fin q) m.virtual.scale) m.virtual.offset := by
  simp only [CosPhaseImage.readData, CosPhaseImage.readDataI, Bool.true_and]
  generalize cosPhaseF F L m.eqRad m.polRad m.obsLat m.obsLon m.sunLat m.sunLon lat lon m.range = a
  cases h : (!(a.ge (.fin (-1)) && a.le (.fin 1))) with
  | false =>
    obtain ⟨q, h1, h2, h3⟩ := asserted_iff.1 h
    simp [h1, h2, h3, Outcome.bind, VirtualImage.readData, eq_comm]
  | true =>
    simp only [if_true, Outcome.bind, reduceCtorEq, false_iff]
    rintro ⟨q, h1, h2, h3, -⟩
    have := asserted_iff.2 ⟨q, h1, h2, h3⟩
    rw [h] at this
    cases this

/-- **C94** (phase; violated).  The same for the image of phase cosines, with the sun
behind the observer. -/
theorem C94_phase_violated {L : LibmRoot} (h : L.Correct) (lon : ℚ) (v : VirtualImage) :
    (CosPhaseImage.mk (.fin venus) (.fin venus) (ieee.mul (.fin 12) cDegree) (.fin lon)
      (ieee.mul (.fin 12) cDegree) (.fin lon) (.fin 100000) v).readData .ieee L true
      (ieee.mul (.fin 12) cDegree) (.fin lon) = .ub := by
  rw [lat12_eq]
  have : (!((Dbl.fin (1 + 1 / 2 ^ 52)).ge (.fin (-1)) && (Dbl.fin (1 + 1 / 2 ^ 52)).le (.fin 1))) =
      true := by decide +kernel
  simp only [CosPhaseImage.readData, CosPhaseImage.readDataI, venus_phase h, this, Bool.and_self,
    if_true, Outcome.bind]

/-- The image as a map factory reads it. -/
def MuImage.source (L : LibmRoot) (m : MuImage) : ReadData (Dbl × Dbl) := fun c old =>
  (m.readData .ieee L false c.1 c.2).bind fun d => match d with
    | some d => .ok (true, d)
    | none => .ok (false, old)

/-- **C94** (violated, without assertions).  If assertions are compiled out, the same
pixel is left blank in maps of every data type: the datum read is above the maximum
the image factory gives. -/
theorem C94_blank_violated {L : LibmRoot} (h : L.Correct) (T : MapType) {lonDeg lon : ℚ}
    (hl : ieee.mul (.fin lonDeg) cDegree = .fin lon) :
    ∃ (m : MuImage) (lo hi : Dbl) (e : Extrema),
      MuImage.make .ieee T (.fin venus) (.fin venus) (.fin 12) (.fin lonDeg) (.fin 100000) =
        .ok (m, lo, hi) ∧
      ((Extrema.mk (some lo) (some hi)).convert T).bind (MapFactory.getExtrema T) = .ok e ∧
      (∃ d, m.readData .ieee L false (ieee.mul (.fin 12) cDegree) (.fin lon) = .ok (some d) ∧
        d.gt hi = true) ∧
      ∀ (s s' : MapFactory.State) (offset : ℕ),
        MapFactory.plot T (m.source L) e s (ieee.mul (.fin 12) cDegree, .fin lon) offset = .ok s' →
        s'.map = s.map := by
  obtain ⟨v, lo, hi, e, hv, he, hgt, hout⟩ := excess_out T
  have hread : (MuImage.new .ieee (.fin venus) (.fin venus) (.fin 12) (.fin lonDeg) (.fin 100000)
      v).readData .ieee L false (ieee.mul (.fin 12) cDegree) (.fin lon) =
      .ok (some (ieee.add (ieee.mul (.fin (1 + 1 / 2 ^ 52)) v.scale) v.offset)) := by
    simp only [MuImage.readData, MuImage.readDataI, MuImage.new, hl, lat12_eq, venus_mu h]
    rfl
  refine ⟨_, lo, hi, e, by simp [MuImage.make, hv, Outcome.bind], he, ⟨_, hread, hgt⟩, ?_⟩
  intro s s' offset hp
  have hsrc : (MuImage.new .ieee (.fin venus) (.fin venus) (.fin 12) (.fin lonDeg) (.fin 100000)
      v).source L (ieee.mul (.fin 12) cDegree, .fin lon) (.fin 0) =
      .ok (true, ieee.add (ieee.mul (.fin (1 + 1 / 2 ^ 52)) v.scale) v.offset) := by
    simp only [MuImage.source, hread, Outcome.bind]
  simp only [MapFactory.plot, hsrc, Outcome.bind_ok, hout, Bool.and_false, Bool.false_eq_true,
    if_false] at hp
  cases hn : s.info.notifier.notifyPlotted s.map.length with
  | ok n =>
    rw [hn] at hp
    simp only [Outcome.bind_ok, Outcome.ok.injEq] at hp
    rw [← hp]
  | throw => rw [hn] at hp; simp at hp
  | ub => rw [hn] at hp; simp at hp

/-- Non-vacuity: the longitude 30 degrees. -/
example : ∃ lon, ieee.mul (.fin 30) cDegree = .fin lon :=
  ⟨4716158501352293 / 2 ^ 53, by decide +kernel⟩

end MaRC
