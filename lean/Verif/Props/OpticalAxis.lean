import Verif.Props.Rotation

/-!
# C68: set-up from the latitude and longitude at the optical axis
-/

namespace MaRC

open Real Geometry

namespace ViewInput

theorem atan2_zero_pos (x : ℝ) (hx : 0 < x) : atan2 0 x = 0 := by
  have : (⟨x, 0⟩ : ℂ) = (x : ℂ) := rfl
  rw [atan2, this, Complex.arg_ofReal_of_nonneg hx.le]

theorem sin_atan2_zero (x : ℝ) : sin (atan2 0 x) = 0 := by
  have h := (atan2_spec 0 x).2
  by_cases hx : x = 0
  · have : (⟨x, 0⟩ : ℂ) = (0 : ℂ) := by rw [hx]; rfl
    rw [atan2, this, Complex.arg_zero, sin_zero]
  · have : √(0 ^ 2 + x ^ 2) ≠ 0 := (Real.sqrt_pos.2 (by positivity)).ne'
    exact (mul_eq_zero.1 h).resolve_left this

/-- Where a candidate points the camera. -/
theorem axisCandidate_apply (g : ViewInput) (θ k : ℝ) :
    ∃ z, sin z = 0 ∧ (0 < g.range * (cos g.subLat * cos θ + sin g.subLat * sin θ) → z = 0) ∧
      matVec (g.axisCandidate θ) (vec3 0 k 0) =
        vec3 (k * cos θ * sin z) (k * cos θ * cos z) (-(k * sin θ)) := by
  refine ⟨atan2 (rotX (-θ) g.rangeB 0) (-rotX (-θ) g.rangeB 1), sin_atan2_zero _, fun h => ?_, ?_⟩
  · apply atan2_zero_pos
    have e : -rotX (-θ) g.rangeB 1 =
        g.range * (cos g.subLat * cos θ + sin g.subLat * sin θ) := by
      simp only [rotX, rangeB, vec3, Matrix.cons_val, cos_neg, sin_neg]
      ring
    rw [e]
    exact h
  · rw [axisCandidate, matVec_o2b]
    generalize atan2 _ _ = z
    funext i
    fin_cases i <;> simp [rotX, rotY, rotZ, vec3]

/-- The matrix selected for a unit vector `u`, scaled by `k`. -/
theorem rotMatricesAxis_apply (g : ViewInput) (u : Vec ℝ 3) (k : ℝ) (hk : 0 < k)
    (hu : u 0 ^ 2 + u 1 ^ 2 + u 2 ^ 2 = 1) (h0 : u 0 = 0) (hb : dot u g.rangeB < 0) :
    matVec (g.rotMatricesAxis (vecScale u k)) (vec3 0 k 0) = vecScale u k := by
  have hmag : magnitude3 (vecScale u k) = k := by
    rw [magnitude3]
    simp only [vecScale]
    rw [show (u 0 * k) ^ 2 + (u 1 * k) ^ 2 + (u 2 * k) ^ 2 = k ^ 2 by
      linear_combination k ^ 2 * hu]
    exact Real.sqrt_sq hk.le
  have hunit : unit3 (vecScale u k) = u := by
    funext i
    simp only [unit3, hmag, vecScale]
    field_simp
  have hdot : -dot (vec3 0 0 1) u = -u 2 := by simp [dot_three, vec3]
  rw [dot_three] at hb
  have hb' : 0 < g.range * (cos g.subLat * u 1 - sin g.subLat * u 2) := by
    have e : u 0 * g.rangeB 0 + u 1 * g.rangeB 1 + u 2 * g.rangeB 2 =
        -(g.range * (cos g.subLat * u 1 - sin g.subLat * u 2)) := by
      simp only [rangeB, vec3, Matrix.cons_val]; ring
    rw [e] at hb
    linarith
  have hu1 : u 1 ^ 2 + u 2 ^ 2 = 1 := by rw [h0] at hu; linarith
  have hs : sin (arcsin (-u 2)) = -u 2 :=
    sin_arcsin (by nlinarith [sq_nonneg (u 1)]) (by nlinarith [sq_nonneg (u 1)])
  have hcos : cos (arcsin (-u 2)) = |u 1| := by
    rw [cos_arcsin, ← Real.sqrt_sq_eq_abs]
    congr 1
    linarith
  have goal_eq : ∀ a, a = u 1 → vec3 (k * a * 0) (k * a * 1) (-(k * -u 2)) = vecScale u k := by
    rintro a rfl
    funext i
    fin_cases i
    · simp [vec3, vecScale, h0]
    · simp [vec3, vecScale, mul_comm]
    · simp [vec3, vecScale, mul_comm]
  have good : matVec (g.axisCandidate (arcsin (-u 2))) (vec3 0 k 0) = vecScale u k ∨
      matVec (g.axisCandidate (π - arcsin (-u 2))) (vec3 0 k 0) = vecScale u k := by
    rcases le_total 0 (u 1) with h1 | h1
    · left
      obtain ⟨z, hz, hz0, e⟩ := axisCandidate_apply g (arcsin (-u 2)) k
      have hz1 : z = 0 := by
        apply hz0
        rw [hs, hcos, abs_of_nonneg h1]
        nlinarith
      rw [e, hz1, hs, hcos, sin_zero, cos_zero]
      exact goal_eq _ (abs_of_nonneg h1)
    · right
      obtain ⟨z, hz, hz0, e⟩ := axisCandidate_apply g (π - arcsin (-u 2)) k
      have hz1 : z = 0 := by
        apply hz0
        rw [sin_pi_sub, cos_pi_sub, hs, hcos, abs_of_nonpos h1]
        nlinarith
      rw [e, hz1, sin_pi_sub, cos_pi_sub, hs, hcos, sin_zero, cos_zero]
      exact goal_eq _ (by rw [abs_of_nonpos h1, neg_neg])
  unfold rotMatricesAxis
  simp only [hunit, hmag, hdot]
  split_ifs with hgt
  · rcases good with h | h
    · rw [(mismatch_zero _ _ _).2 h] at hgt
      exact absurd hgt (not_lt.2 (magnitude3_nonneg _))
    · exact h
  · rcases good with h | h
    · exact h
    · rw [(mismatch_zero _ _ _).2 h, gt_iff_lt, not_lt] at hgt
      exact (mismatch_zero _ _ _).1 (le_antisymm hgt (magnitude3_nonneg _))

/-- Whatever the optical axis, the camera is pointed into the plane of the
central meridian. -/
theorem rotMatricesAxis_plane (g : ViewInput) (oa : Vec ℝ 3) (k : ℝ) :
    matVec (g.rotMatricesAxis oa) (vec3 0 k 0) 0 = 0 := by
  have key : ∀ θ, matVec (g.axisCandidate θ) (vec3 0 k 0) 0 = 0 := by
    intro θ
    obtain ⟨z, hz, -, e⟩ := axisCandidate_apply g θ k
    rw [e]
    simp [vec3, hz]
  unfold rotMatricesAxis
  simp only
  split_ifs <;> exact key _

/-- **C68** (optical axis).  The point whose latitude and longitude the user
gave is seen straight along the optical axis exactly if it lies on the central
meridian (or at a pole). -/
theorem C68_axis_iff (g : ViewInput) (lat lon km : ℝ) (samples lines : ℕ)
    (hR : 0 < g.body.centricRadius lat) (hr : g.body.centricRadius lat < g.range) :
    let c := g.finalizeAxis (lat, lon) km samples lines
    (∃ d, 0 < d ∧ c.seen lat lon = vec3 0 d 0) ↔ cos lat * sin (g.subLon - lon) = 0 := by
  intro c
  set R := g.body.centricRadius lat with hRdef
  set l := c.relativeLon lon with hl
  have hlon : (if g.prograde then g.subLon - lon else -(g.subLon - lon)) = l := by
    rw [hl, Camera.relativeLon]
    change _ = if g.prograde then g.subLon - lon else lon - g.subLon
    split_ifs <;> ring
  have hsin : cos lat * sin (g.subLon - lon) = 0 ↔ R * cos lat * sin l = 0 := by
    rw [← hlon]
    split_ifs
    · rw [mul_assoc, mul_eq_zero (a := R)]; simp [hR.ne']
    · rw [sin_neg, mul_neg, neg_eq_zero, mul_assoc, mul_eq_zero (a := R)]; simp [hR.ne']
  have hcoord : c.coord lat lon =
      vec3 (R * cos lat * sin l) (-R * cos lat * cos l) (R * sin lat) := rfl
  set r0 := c.coord lat lon with hr0
  set w := vecSub r0 g.rangeB with hw
  have hrange : 0 < g.range := hR.trans hr
  -- the point lies in front of the observer
  have hfront : dot w g.rangeB < 0 := by
    have e : dot w g.rangeB =
        g.range * R * (cos lat * cos l * cos g.subLat + sin lat * sin g.subLat) - g.range ^ 2 := by
      rw [hw, hcoord, dot_three]
      simp only [vecSub, rangeB, vec3, Matrix.cons_val]
      linear_combination (-g.range ^ 2) * sin_sq_add_cos_sq g.subLat
    have hle : cos lat * cos l * cos g.subLat + sin lat * sin g.subLat ≤ 1 := by
      have h1 := sin_sq_add_cos_sq lat
      have h2 := sin_sq_add_cos_sq g.subLat
      have h3 := cos_sq_le_one l
      have h4 := mul_le_mul_of_nonneg_left h3 (sq_nonneg (cos lat))
      nlinarith [sq_nonneg (cos lat * cos l - cos g.subLat), sq_nonneg (sin lat - sin g.subLat)]
    rw [e]
    have h5 := mul_le_mul_of_nonneg_left hle (mul_pos hrange hR).le
    nlinarith
  have hmagsq := magnitude3_sq w
  have hd : 0 < magnitude3 w := by
    refine lt_of_le_of_ne (magnitude3_nonneg _) fun h => ?_
    rw [← h] at hmagsq
    have p0 := sq_nonneg (w 0)
    have p1 := sq_nonneg (w 1)
    have p2 := sq_nonneg (w 2)
    have h0 : w 0 = 0 := pow_eq_zero_iff two_ne_zero |>.1 (by linarith)
    have h1 : w 1 = 0 := pow_eq_zero_iff two_ne_zero |>.1 (by linarith)
    have h2 : w 2 = 0 := pow_eq_zero_iff two_ne_zero |>.1 (by linarith)
    rw [dot_three, h0, h1, h2] at hfront
    simp at hfront
  set d := magnitude3 w with hddef
  set u := unit3 w with hu
  have hwu : w = vecScale u d := by
    funext i
    simp only [hu, unit3, vecScale, ← hddef]
    field_simp
  have hunit : u 0 ^ 2 + u 1 ^ 2 + u 2 ^ 2 = 1 := by
    simp only [hu, unit3, ← hddef]
    field_simp
    linarith
  have hub : dot u g.rangeB < 0 := by
    have : dot w g.rangeB = d * dot u g.rangeB := by
      rw [hwu, dot_three, dot_three]; simp only [vecScale]; ring
    rw [this] at hfront
    by_contra hge
    have := mul_nonneg hd.le (not_lt.1 hge)
    linarith
  have hw0 : w 0 = R * cos lat * sin l := by
    rw [hw, hcoord]
    simp [vecSub, rangeB, vec3]
  set k := d - dot r0 u with hk
  have hkpos : 0 < k := by
    have h1 : dot w u = d := by
      rw [hwu, dot_three]; simp only [vecScale]; linear_combination d * hunit
    have h2 : dot w u = dot r0 u - dot u g.rangeB := by
      rw [hw, dot_three, dot_three, dot_three]; simp only [vecSub]; ring
    rw [hk]
    linarith
  have hoa : g.opticalAxis (lat, lon) = vecScale u k := by
    have e1 : g.opticalAxis (lat, lon) = vecSub w (vecScale u (dot r0 u)) := by
      simp only [opticalAxis, hlon]
      rfl
    rw [e1]
    funext i
    simp only [vecSub, vecScale, hk]
    rw [hwu]
    simp only [vecScale]
    ring
  have hm : c.body2observ = transpose (g.rotMatricesAxis (vecScale u k)) := by
    rw [← hoa]; rfl
  have hseen : c.seen lat lon = matVec (transpose (g.rotMatricesAxis (vecScale u k))) w := by
    rw [← hm]; rfl
  have hrot := (C41_axis g (vecScale u k)).2.2
  rw [hsin, ← hw0, hseen]
  constructor
  · rintro ⟨e, -, he⟩
    have h1 := (hrot w).1
    rw [he] at h1
    rw [← h1]
    exact rotMatricesAxis_plane g _ _
  · intro h0
    have hu0 : u 0 = 0 := by
      rw [hwu] at h0
      exact (mul_eq_zero.1 h0).resolve_right hd.ne'
    have h1 := rotMatricesAxis_apply g u k hkpos hunit hu0 hub
    refine ⟨d, hd, ?_⟩
    have h2 : w = matVec (g.rotMatricesAxis (vecScale u k)) (vec3 0 d 0) := by
      have e1 : vec3 0 d 0 = vecScale (vec3 0 k 0) (d / k) := by
        funext i
        fin_cases i
        · simp [vec3, vecScale]
        · simp only [vec3, vecScale, Fin.mk_one, Matrix.cons_val]; field_simp
        · simp [vec3, vecScale]
      have e2 : ∀ (m : Mat ℝ 3 3) (v : Vec ℝ 3) (a : ℝ),
          matVec m (vecScale v a) = vecScale (matVec m v) a := by
        intro m v a
        funext i
        simp only [matVec, sumLoop_three, vecScale]
        ring
      rw [e1, e2, h1, hwu]
      funext i
      simp only [vecScale]
      field_simp
    conv_lhs => rw [h2]
    exact (hrot _).2

/-- Away from the central meridian the camera is not pointed at the given
point: it is not seen along the optical axis. -/
theorem C68_axis_violated (g : ViewInput) (lat lon km : ℝ) (samples lines : ℕ)
    (hR : 0 < g.body.centricRadius lat) (hl : cos lat * sin (g.subLon - lon) ≠ 0) :
    let c := g.finalizeAxis (lat, lon) km samples lines
    ∀ d, c.seen lat lon ≠ vec3 0 d 0 := by
  intro c d he
  have hw0 : vecSub (c.coord lat lon) g.rangeB 0 =
      g.body.centricRadius lat * cos lat * sin (c.relativeLon lon) := by
    simp only [vecSub, rangeB, vec3, Matrix.cons_val]
    rw [sub_zero]
    rfl
  have h1 := ((C41_axis g (g.opticalAxis (lat, lon))).2.2 (vecSub (c.coord lat lon) g.rangeB)).1
  have h2 : matVec (transpose (g.rotMatricesAxis (g.opticalAxis (lat, lon))))
      (vecSub (c.coord lat lon) g.rangeB) = vec3 0 d 0 := he
  rw [h2] at h1
  have h3 := congrFun h1 0
  rw [rotMatricesAxis_plane, hw0, Camera.relativeLon] at h3
  apply hl
  have h4 : cos lat * sin (if c.prograde then c.subLon - lon else lon - c.subLon) = 0 := by
    rw [mul_assoc, eq_comm] at h3
    exact (mul_eq_zero.1 h3).resolve_left hR.ne'
  change cos lat * sin (if g.prograde then g.subLon - lon else lon - g.subLon) = 0 at h4
  split_ifs at h4
  · exact h4
  · rwa [← neg_sub g.subLon lon, sin_neg, mul_neg, neg_eq_zero] at h4

/-- **C68** (scale of images set up from the optical axis).  When the camera
is pointed at the given point, the center of the body is ahead of it, and
whatever is as far ahead of it as that center is drawn with the given number of
kilometers per pixel. -/
theorem C68_axis_scale (g : ViewInput) (lat lon km : ℝ) (samples lines : ℕ)
    (hR : 0 < g.body.centricRadius lat) (hr : g.body.centricRadius lat < g.range)
    (hm : cos lat * sin (g.subLon - lon) = 0) :
    let c := g.finalizeAxis (lat, lon) km samples lines
    let ahead := fun P : Vec ℝ 3 => matVec c.body2observ (vecSub P c.rangeB)
    0 < ahead (vec3 0 0 0) 1 ∧
    ∀ P, ahead P 1 = ahead (vec3 0 0 0) 1 →
      ahead P 0 / ahead P 1 * c.focalPixels = ahead P 0 / km ∧
      ahead P 2 / ahead P 1 * c.focalPixels = ahead P 2 / km := by
  intro c ahead
  obtain ⟨d, hd, hseen⟩ := (C68_axis_iff g lat lon km samples lines hR hr).2 hm
  set m := g.rotMatricesAxis (g.opticalAxis (lat, lon)) with hmdef
  have hrot := (C41_axis g (g.opticalAxis (lat, lon))).2.2
  set w := vecSub (c.coord lat lon) g.rangeB with hw
  have hw1 : matVec (transpose m) w = vec3 0 d 0 := hseen
  have hrange : 0 < g.range := hR.trans hr
  have hfront : dot w g.rangeB < 0 := by
    set R := g.body.centricRadius lat
    set l := c.relativeLon lon
    have hcoord : c.coord lat lon =
        vec3 (R * cos lat * sin l) (-R * cos lat * cos l) (R * sin lat) := rfl
    have e : dot w g.rangeB =
        g.range * R * (cos lat * cos l * cos g.subLat + sin lat * sin g.subLat) - g.range ^ 2 := by
      rw [hw, hcoord, dot_three]
      simp only [vecSub, rangeB, vec3, Matrix.cons_val]
      linear_combination (-g.range ^ 2) * sin_sq_add_cos_sq g.subLat
    have hle : cos lat * cos l * cos g.subLat + sin lat * sin g.subLat ≤ 1 := by
      have h1 := sin_sq_add_cos_sq lat
      have h2 := sin_sq_add_cos_sq g.subLat
      have h3 := cos_sq_le_one l
      have h4 := mul_le_mul_of_nonneg_left h3 (sq_nonneg (cos lat))
      nlinarith [sq_nonneg (cos lat * cos l - cos g.subLat), sq_nonneg (sin lat - sin g.subLat)]
    rw [e]
    have h5 := mul_le_mul_of_nonneg_left hle (mul_pos hrange hR).le
    nlinarith
  have hw2 : w = matVec m (vec3 0 d 0) := by rw [← hw1]; exact ((hrot w).1).symm
  have hdot : dot w g.rangeB = d * matVec (transpose m) g.rangeB 1 := by
    rw [hw2, dot_three]
    simp only [matVec, transpose, sumLoop_three, vec3, Matrix.cons_val]
    ring
  have hneg : matVec (transpose m) g.rangeB 1 < 0 := by
    rw [hdot] at hfront
    by_contra h
    exact absurd hfront (not_lt.2 (mul_nonneg hd.le (not_lt.1 h)))
  have hc : ahead (vec3 0 0 0) 1 = -matVec (transpose m) g.rangeB 1 := by
    change matVec (transpose m) (vecSub (vec3 0 0 0) g.rangeB) 1 = _
    simp only [matVec, transpose, sumLoop_three, vec3, vecSub, Matrix.cons_val]
    ring
  have hf : c.focalPixels = -matVec (transpose m) g.rangeB 1 / km := rfl
  have hpos : 0 < -matVec (transpose m) g.rangeB 1 := by linarith
  refine ⟨by rw [hc]; exact hpos, fun P hP => ?_⟩
  rw [hP, hc, hf]
  generalize -matVec (transpose m) g.rangeB 1 = n at hpos
  constructor <;> field_simp

/-- The camera is pointed at the sub-observer point. -/
example : ∃ (g : ViewInput) (lat lon : ℝ), 0 < g.body.centricRadius lat ∧
    g.body.centricRadius lat < g.range ∧ cos lat * sin (g.subLon - lon) = 0 := by
  refine ⟨{ body := ⟨1, 1⟩, prograde := true, subLat := 0, subLon := π / 6, sunLat := 0,
            sunLon := 0, range := 2, positionAngle := 0, kmPerPixel := some 1,
            focalLength := none, scale := none, oaSample := none, oaLine := none,
            center := none, latLonCenter := some (0, 0), muLimit := 0, useTerminator := false,
            objectToImage := id, imageToObject := id }, 0, π / 6, ?_⟩
  have : Spheroid.centricRadius ⟨1, 1⟩ 0 = 1 := by
    simp [Spheroid.centricRadius, hypot]
  simp only [this]
  norm_num

/-- The hypotheses of `C68_axis_iff` and `C68_axis_violated` are met: a sphere of radius 1 seen from above the
equator, with the optical axis 30° off the central meridian. -/
example : ∃ (g : ViewInput) (lat lon : ℝ), 0 < g.body.centricRadius lat ∧
    g.body.centricRadius lat < g.range ∧ cos lat * sin (g.subLon - lon) ≠ 0 := by
  refine ⟨{ body := ⟨1, 1⟩, prograde := true, subLat := 0, subLon := π / 6, sunLat := 0,
            sunLon := 0, range := 2, positionAngle := 0, kmPerPixel := some 1,
            focalLength := none, scale := none, oaSample := none, oaLine := none,
            center := none, latLonCenter := some (0, 0), muLimit := 0, useTerminator := false,
            objectToImage := id, imageToObject := id }, 0, 0, ?_⟩
  have : Spheroid.centricRadius ⟨1, 1⟩ 0 = 1 := by
    simp [Spheroid.centricRadius, hypot]
  simp only [this]
  norm_num

end ViewInput

end MaRC
