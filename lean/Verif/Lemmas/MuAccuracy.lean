import Verif.Lemmas.RadiusAccuracy
import Verif.Props.CosineImage

/-! # Error of computed emission and phase cosines -/

namespace MaRC

open Fp

theorem scale_one : Scale 1 := ⟨by norm_num, by norm_num⟩

theorem Ap.trig {a b : Dbl} {x y i j X : ℝ} (ha : Ap a x i X) (hb : Ap b y j 1)
    (hi : 0 ≤ i ∧ i ≤ 2 ^ 10) (hj : 0 ≤ j ∧ j ≤ 2 ^ 10) (hX : Scale X) :
    Ap (ieee.mul a b) (x * y) (i + j + 2) X := by
  have := Ap.mul ha hb hi hj hX scale_one (by rwa [mul_one])
  rwa [mul_one] at this

theorem Ap.count {a : Dbl} {x i j X : ℝ} (ha : Ap a x i X) (h : i = j) : Ap a x j X := h ▸ ha

namespace InRange

variable {eqRad polRad range : ℚ} (h : InRange eqRad polRad range)

include h

theorem polR : (1 : ℝ) / 2 ^ 20 ≤ polRad := by
  have := (Rat.cast_le (K := ℝ)).mpr h.pol
  push_cast at this
  exact this

theorem pol_pos : 0 < polRad := lt_of_lt_of_le (by positivity) h.pol

theorem eqR : (polRad : ℝ) ≤ eqRad := by exact_mod_cast h.le

theorem farR : 2 * (eqRad : ℝ) ≤ range := by exact_mod_cast h.far

theorem nearR : (range : ℝ) ≤ 2 ^ 60 := by exact_mod_cast h.near

theorem valid : Spheroid.Valid ⟨eqRad, polRad⟩ :=
  ⟨lt_of_lt_of_le (by positivity) h.polR, h.eqR⟩

theorem range_lo : (1 : ℝ) / 2 ^ 19 ≤ range := by
  have h1 := h.polR
  have h2 := h.eqR
  have h3 := h.farR
  norm_num at h1 ⊢
  linarith

theorem range_pos : (0 : ℝ) < range := lt_of_lt_of_le (by positivity) h.range_lo

theorem scale {k : ℝ} (hk : 1 / 4 ≤ k) (hk' : k ≤ 4) : Scale (k * range) := by
  have h1 := h.range_lo
  have h2 := h.nearR
  have h0 := h.range_pos
  constructor
  · have : 1 / 4 * (range : ℝ) ≤ k * range := mul_le_mul_of_nonneg_right hk h0.le
    norm_num at h1 ⊢
    linarith
  · have : k * (range : ℝ) ≤ 4 * range := mul_le_mul_of_nonneg_right hk' h0.le
    norm_num at h2 ⊢
    linarith

theorem scale1 : Scale range := by
  have := h.scale (k := 1) (by norm_num) (by norm_num)
  rwa [one_mul] at this

theorem scale_sq {k : ℝ} (hk : 1 / 4 ≤ k) (hk' : k ≤ 4) : Scale (k * (range * range)) := by
  have h1 := h.range_lo
  have h2 := h.nearR
  have h0 := h.range_pos
  have h3 : (1 / 2 ^ 19 : ℝ) * (1 / 2 ^ 19) ≤ range * range :=
    mul_le_mul h1 h1 (by positivity) h0.le
  have h4 : (range : ℝ) * range ≤ 2 ^ 60 * 2 ^ 60 := mul_le_mul h2 h2 h0.le (by positivity)
  have h5 : (0 : ℝ) < range * range := by positivity
  constructor
  · have : 1 / 4 * ((range : ℝ) * range) ≤ k * (range * range) :=
      mul_le_mul_of_nonneg_right hk h5.le
    norm_num at h3 ⊢
    linarith
  · have : k * ((range : ℝ) * range) ≤ 4 * (range * range) :=
      mul_le_mul_of_nonneg_right hk' h5.le
    norm_num at h4 ⊢
    linarith

theorem radius {L : LibmRoot} (hL : L.Correct) (lat : ℚ) :
    Ap (centricRadiusF .ieee L (.fin eqRad) (.fin polRad) (.fin lat))
      (Spheroid.centricRadius ⟨eqRad, polRad⟩ lat) 3 (1 / 2 * range) := by
  have hbig : eqRad ≤ 2 ^ 59 := by
    have h1 := h.far
    have h2 := h.near
    norm_num at h2 ⊢
    linarith
  obtain ⟨c, hc, he⟩ := centricRadiusF_near hL h.pol h.le hbig lat
  have hcb := (Spheroid.C34_bounds h.valid lat).2
  have hcp := Spheroid.centricRadius_pos h.valid lat
  have h1 := h.farR
  refine ⟨c, hc, he.trans ?_, ?_⟩
  · simp only at hcb
    norm_num
    linarith
  · rw [abs_of_pos hcp]
    simp only at hcb
    linarith

end InRange

theorem Ap.mono {a : Dbl} {x i j X : ℝ} (ha : Ap a x i X) (h : i ≤ j) : Ap a x j X := by
  obtain ⟨q, hq, he, hx⟩ := ha
  exact ⟨q, hq, he.trans (mul_le_mul_of_nonneg_right h
    (div_nonneg ((abs_nonneg _).trans hx) (by positivity))), hx⟩

/-- The computed difference of two longitudes. -/
theorem Ap.lon {a b : Dbl} {x y : ℝ} (ha : Ap a x 2 8) (hb : Ap b y 2 8) :
    Ap (ieee.sub a b) (x - y) 3 16 := by
  obtain ⟨-, -, -, hx⟩ := id ha
  obtain ⟨-, -, -, hy⟩ := id hb
  refine Ap.sub ha hb ⟨by norm_num, by norm_num⟩ ?_ (by norm_num) (by norm_num)
  refine (abs_sub _ _).trans ?_
  linarith

/-- The computed cosine of the angle between two directions. -/
theorem Ap.dirs {L : LibmRoot} (hL : L.Correct) {a b dlon : Dbl} {x y d : ℝ} (ha : Ap a x 2 2)
    (hb : Ap b y 2 2) (hd : Ap dlon d 3 16) :
    Ap (ieee.add (ieee.mul (L.sin a) (L.sin b))
        (ieee.mul (ieee.mul (L.cos a) (L.cos b)) (L.cos dlon)))
      (Real.sin x * Real.sin y + Real.cos x * Real.cos y * Real.cos d) 77 1 := by
  have hL' := hL.toCorrect
  have a1 := Ap.sin hL' ha (k := 5) (by norm_num)
  have a2 := Ap.sin hL' hb (k := 5) (by norm_num)
  have b1 := Ap.cos hL' ha (k := 5) (by norm_num)
  have b2 := Ap.cos hL' hb (k := 5) (by norm_num)
  have b3 := Ap.cos hL' hd (k := 49) (by norm_num)
  have m1 := a1.trig a2 (by norm_num) (by norm_num) scale_one
  have m2 := b1.trig b2 (by norm_num) (by norm_num) scale_one
  have m3 := m2.trig b3 (by norm_num) (by norm_num) scale_one
  exact Ap.add m1 m3 scale_one (cosine_le_one _ _ _) (by norm_num) (by norm_num)

/-- The same with the products in the other order. -/
theorem Ap.dirs' {L : LibmRoot} (hL : L.Correct) {a b dlon : Dbl} {x y d : ℝ} (ha : Ap a x 2 2)
    (hb : Ap b y 2 2) (hd : Ap dlon d 3 16) :
    Ap (ieee.add (ieee.mul (ieee.mul (L.cos a) (L.cos b)) (L.cos dlon))
        (ieee.mul (L.sin a) (L.sin b)))
      (Real.cos x * Real.cos y * Real.cos d + Real.sin x * Real.sin y) 77 1 := by
  have hL' := hL.toCorrect
  have a1 := Ap.sin hL' ha (k := 5) (by norm_num)
  have a2 := Ap.sin hL' hb (k := 5) (by norm_num)
  have b1 := Ap.cos hL' ha (k := 5) (by norm_num)
  have b2 := Ap.cos hL' hb (k := 5) (by norm_num)
  have b3 := Ap.cos hL' hd (k := 49) (by norm_num)
  have m1 := a1.trig a2 (by norm_num) (by norm_num) scale_one
  have m2 := b1.trig b2 (by norm_num) (by norm_num) scale_one
  have m3 := m2.trig b3 (by norm_num) (by norm_num) scale_one
  refine Ap.add m3 m1 scale_one ?_ (by norm_num) (by norm_num)
  rw [add_comm]
  exact cosine_le_one _ _ _

/-- The square of the distance from a point at distance `c` of the centre to one at
distance `r`, given the cosine of the angle between them. -/
theorem square_bounds {r c k : ℝ} (hc : 0 < c) (hcr : c ≤ 1 / 2 * r) (hk : |k| ≤ 1) :
    1 / 4 * (r * r) ≤ r * r + c * c - 2 * r * c * k ∧
      r * r + c * c - 2 * r * c * k ≤ 9 / 4 * (r * r) := by
  rw [abs_le] at hk
  have h0 : 0 < r := by linarith
  have h1 : 0 ≤ 2 * r * c * (1 - k) := mul_nonneg (by positivity) (by linarith)
  have h2 : 0 ≤ 2 * r * c * (1 + k) := mul_nonneg (by positivity) (by linarith)
  have h3 : 0 ≤ (1 / 2 * r - c) * (3 / 2 * r - c) := mul_nonneg (by linarith) (by linarith)
  have h4 : 0 ≤ (1 / 2 * r - c) * (5 / 2 * r + c) := mul_nonneg (by linarith) (by linarith)
  constructor <;> nlinarith

/-- The computed distance of the observer from a surface point. -/
theorem InRange.distance {eqRad polRad range : ℚ} (h : InRange eqRad polRad range) {L : LibmRoot}
    (hL : L.Correct) {subLatF subLonF lonF : Dbl} {subLat subLon lon : ℝ} {lat : ℚ}
    (h0 : Ap subLatF subLat 2 2) (h1 : Ap subLonF subLon 2 8) (h2 : Ap lonF lon 2 8)
    (h3 : |(lat : ℝ)| ≤ 2) :
    ∃ q : ℚ, observerDistanceF .ieee L (centricRadiusF .ieee L (.fin eqRad) (.fin polRad) (.fin lat))
        subLatF subLonF (.fin lat) lonF (.fin range) = .fin q ∧
      |(q : ℝ) - Spheroid.observerDistance ⟨eqRad, polRad⟩ subLat subLon lat lon range| ≤
        210 * (range / 2 ^ 52) ∧
      1 / 2 * range ≤ Spheroid.observerDistance ⟨eqRad, polRad⟩ subLat subLon lat lon range ∧
      Spheroid.observerDistance ⟨eqRad, polRad⟩ subLat subLon lat lon range ≤ 3 / 2 * range := by
  have hR := h.range_pos
  have hcA := h.radius hL lat
  have hcp := Spheroid.centricRadius_pos h.valid lat
  have hcr : Spheroid.centricRadius ⟨eqRad, polRad⟩ lat ≤ 1 / 2 * range := by
    obtain ⟨-, -, -, hb⟩ := hcA
    rwa [abs_of_pos hcp] at hb
  have hk := Ap.dirs hL h0 ((Ap.exact lat h3).mono (by norm_num)) (Ap.lon h1 h2)
  have hk1 := cosine_le_one subLat lat (subLon - lon)
  rw [Spheroid.observerDistance, observerDistanceF]
  generalize centricRadiusF .ieee L (.fin eqRad) (.fin polRad) (.fin lat) = cF at hcA ⊢
  generalize Spheroid.centricRadius ⟨eqRad, polRad⟩ lat = c at *
  generalize Real.sin subLat * Real.sin lat +
    Real.cos subLat * Real.cos lat * Real.cos (subLon - lon) = k at *
  generalize ieee.add (ieee.mul (L.sin subLatF) (L.sin (.fin lat)))
    (ieee.mul (ieee.mul (L.cos subLatF) (L.cos (.fin lat)))
      (L.cos (ieee.sub subLonF lonF))) = kF at *
  have hr : Ap (.fin range) (range : ℝ) 0 range := Ap.exact range (by rw [abs_of_pos hR])
  have h2A : Ap (.fin 2) ((2 : ℚ) : ℝ) 0 2 := Ap.exact 2 (by norm_num)
  have hhalf := h.scale (k := 1 / 2) (by norm_num) (by norm_num)
  have hsq := square_bounds hcp hcr hk1
  have hccr : c * c ≤ 1 / 4 * (range * range) := by
    have := mul_le_mul hcr hcr hcp.le (by positivity)
    linarith
  -- range * range
  have s1 := h.scale_sq (k := 1) (by norm_num) (by norm_num)
  have m1 := Ap.mul hr hr (by norm_num) (by norm_num) h.scale1 h.scale1 (by rwa [one_mul] at s1)
  -- radius * radius
  have e2 : 1 / 2 * (range : ℝ) * (1 / 2 * range) = 1 / 4 * (range * range) := by ring
  have m2 := Ap.mul hcA hcA (by norm_num) (by norm_num) hhalf hhalf
    (by rw [e2]; exact h.scale_sq (by norm_num) (by norm_num))
  rw [e2] at m2
  have m3 := Ap.add (k := 6) (S := 5 / 4 * (range * range)) m1 m2
    (h.scale_sq (by norm_num) (by norm_num)) (by rw [abs_of_pos (by positivity)]; linarith)
    (by have : (0 : ℝ) < range * range := by positivity
        norm_num; linarith) (by norm_num)
  -- 2 * range * radius
  have m4 := Ap.mul h2A hr (by norm_num) (by norm_num) ⟨by norm_num, by norm_num⟩ h.scale1
    (h.scale (by norm_num) (by norm_num))
  have e5 : 2 * (range : ℝ) * (1 / 2 * range) = 1 * (range * range) := by ring
  have m5 := Ap.mul m4 hcA (by norm_num) (by norm_num) (h.scale (by norm_num) (by norm_num)) hhalf
    (by rw [e5]; exact s1)
  rw [e5] at m5
  have m6 := m5.trig hk (by norm_num) (by norm_num) s1
  push_cast at m6
  have m7 := Ap.sub (k := 43) (S := 9 / 4 * (range * range)) m3 m6
    (h.scale_sq (by norm_num) (by norm_num))
    (by rw [abs_of_nonneg (by nlinarith)]; exact hsq.2)
    (by have : (0 : ℝ) < range * range := by positivity
        norm_num; linarith) (by norm_num)
  obtain ⟨q, hq, hqe, -⟩ := m7
  obtain ⟨x, hx⟩ : ∃ x : ℝ, x = range * range + c * c - 2 * range * c * k := ⟨_, rfl⟩
  rw [← hx] at hqe hsq ⊢
  rw [hq]
  have hRR : (0 : ℝ) < range * range := by positivity
  have hqe' : |(q : ℝ) - x| ≤ 100 * (range * range / 2 ^ 52) := by
    refine hqe.trans ?_
    norm_num
    linarith
  have hx0 : 0 < x := by linarith [hsq.1]
  have hq0R : (0 : ℝ) ≤ q := by
    have := (abs_le.1 hqe').1
    norm_num at this
    linarith [hsq.1]
  have hq0 : 0 ≤ q := by exact_mod_cast hq0R
  -- the true distance
  obtain ⟨D, hD⟩ : ∃ D, D = Real.sqrt x := ⟨_, rfl⟩
  have hDlo : 1 / 2 * range ≤ D := by
    rw [hD]
    refine Real.le_sqrt_of_sq_le ?_
    nlinarith [hsq.1]
  have hDhi : D ≤ 3 / 2 * range := by
    rw [hD]
    refine Real.sqrt_le_iff.2 ⟨by positivity, ?_⟩
    nlinarith [hsq.2]
  have hDD : D * D = x := by rw [hD]; exact Real.mul_self_sqrt hx0.le
  -- the root of the computed square
  obtain ⟨E, hE⟩ : ∃ E, E = Real.sqrt (q : ℝ) := ⟨_, rfl⟩
  have hE0 : 0 ≤ E := by rw [hE]; exact Real.sqrt_nonneg _
  have hEE : E * E = q := by rw [hE]; exact Real.mul_self_sqrt hq0R
  have hED : |E - D| ≤ 200 * (range / 2 ^ 52) := by
    have e : (E - D) * (E + D) = q - x := by rw [← hEE, ← hDD]; ring
    have h3 : |E - D| * (E + D) = |(q : ℝ) - x| := by
      rw [← e, abs_mul, abs_of_pos (by linarith : 0 < E + D)]
    have h4 : |E - D| * (1 / 2 * range) ≤ 200 * (range / 2 ^ 52) * (1 / 2 * range) := by
      have h5 : |E - D| * (1 / 2 * range) ≤ |E - D| * (E + D) :=
        mul_le_mul_of_nonneg_left (by linarith) (abs_nonneg _)
      calc _ ≤ _ := h5
        _ ≤ 100 * (range * range / 2 ^ 52) := by rw [h3]; exact hqe'
        _ = _ := by ring
    exact le_of_mul_le_mul_right h4 (by positivity)
  have hlo := h.range_lo
  have hhi := h.nearR
  have hEle : E ≤ 1.6 * range := by
    have := (abs_le.1 hED).2
    norm_num at this ⊢
    linarith
  obtain ⟨p, hp, hpe⟩ := (hL.sqrt q hq0).err (by
    rw [← hE, abs_of_nonneg hE0]
    norm_num at hhi hEle ⊢
    linarith)
  rw [← hE, abs_of_nonneg hE0] at hpe
  refine ⟨p, hp, ?_, hD ▸ hDlo, hD ▸ hDhi⟩
  rw [← hD]
  have := abs_sub_le (p : ℝ) E D
  norm_num at this hpe hED hlo hEle ⊢
  linarith

/-- A quotient not above 1 of numbers known with small errors. -/
theorem quot_near {n d N D r : ℝ} (hr : 0 < r) (hND : |N| ≤ D) (hD : 1 / 2 * r ≤ D)
    (hn : |n - N| ≤ 165 * (r / 2 ^ 52)) (hd : |d - D| ≤ 210 * (r / 2 ^ 52)) :
    0 < d ∧ |n / d - N / D| ≤ 760 / 2 ^ 52 := by
  have hD0 : 0 < D := by linarith
  have hdlo : 0.495 * r ≤ d := by
    have := (abs_le.1 hd).1
    norm_num at this ⊢
    linarith
  have hd0 : 0 < d := lt_of_lt_of_le (by positivity) hdlo
  refine ⟨hd0, ?_⟩
  have e : n / d - N / D = ((n - N) + N / D * (D - d)) / d := by
    field_simp
    ring
  have hq : |N / D| ≤ 1 := by
    rw [abs_div, abs_of_pos hD0]
    exact div_le_one_of_le₀ hND hD0.le
  rw [e, abs_div, abs_of_pos hd0, div_le_iff₀ hd0]
  have h1 : |N / D * (D - d)| ≤ 1 * (210 * (r / 2 ^ 52)) := by
    rw [abs_mul, abs_sub_comm D d]
    exact mul_le_mul hq hd (abs_nonneg _) zero_le_one
  refine (abs_add_le _ _).trans ?_
  norm_num at hn h1 hdlo ⊢
  linarith

/-- The rounded quotient. -/
theorem Ap.quot {a b : Dbl} {n d : ℚ} {N D r : ℝ} (hr : 0 < r) (ha : a = .fin n) (hb : b = .fin d)
    (hND : |N| ≤ D) (hD : 1 / 2 * r ≤ D) (hn : |(n : ℝ) - N| ≤ 165 * (r / 2 ^ 52))
    (hd : |(d : ℝ) - D| ≤ 210 * (r / 2 ^ 52)) : Ap (ieee.div a b) (N / D) 761 1 := by
  obtain ⟨h0, hq⟩ := quot_near hr hND hD hn hd
  have hd0 : d ≠ 0 := by
    rintro rfl
    simp at h0
  rw [ha, hb]
  simp only [Fp.div, hd0, if_false]
  refine ap_rnd scale_one (k := 760) ?_ ?_ (by norm_num) (by norm_num)
  · push_cast
    refine hq.trans ?_
    norm_num
  · have hD0 : 0 < D := by linarith
    rw [abs_div, abs_of_pos hD0]
    exact div_le_one_of_le₀ hND hD0.le

theorem InRange.distance_pos {eqRad polRad range : ℚ} (h : InRange eqRad polRad range)
    (subLat subLon lat lon : ℝ) :
    0 < Spheroid.observerDistance ⟨eqRad, polRad⟩ subLat subLon lat lon range := by
  refine Spheroid.C35_divisor h.valid _ _ _ _ _ ?_
  have h1 := h.farR
  have h2 := h.valid.eq_pos
  simp only at h2 ⊢
  linarith

/-- The computed emission cosine. -/
theorem InRange.mu {eqRad polRad range : ℚ} (h : InRange eqRad polRad range) {L : LibmRoot}
    (hL : L.Correct) {subLatF subLonF lonF : Dbl} {subLat subLon lon : ℝ} {lat : ℚ}
    (h3 : Ap subLatF subLat 2 2) (h1 : Ap subLonF subLon 2 8) (h2 : Ap lonF lon 2 8)
    (h0 : |lat| ≤ pi2Q) :
    Ap (muF .ieee L (.fin eqRad) (.fin polRad) subLatF subLonF (.fin lat) lonF (.fin range)) (Spheroid.mu ⟨eqRad, polRad⟩ subLat subLon lat lon range) 761 1 := by
  have hL' := hL.toCorrect
  have hR := h.range_pos
  have hlatR : |(lat : ℝ)| ≤ pi2Q := by exact_mod_cast h0
  have hp2 : (pi2Q : ℝ) ≤ 2 := by norm_num [pi2Q]
  obtain ⟨d, hd, hde, hDlo, hDhi⟩ := h.distance hL h3 h1 h2 (hlatR.trans hp2)
  have hpi := pi2Q_lt
  have hlat : (lat : ℝ) ∈ Set.Ioo (-(Real.pi / 2)) (Real.pi / 2) := by
    rw [abs_le] at hlatR
    constructor
    · have : (0 : ℝ) < 1 / 2 ^ 54 := by positivity
      linarith [hlatR.1]
    · have : (0 : ℝ) < 1 / 2 ^ 54 := by positivity
      linarith [hlatR.2]
  have hb := (Spheroid.C35_bounds h.valid subLat subLon 0 0 lat lon range hlat).1
  have hDp := h.distance_pos subLat subLon lat lon
  rw [Spheroid.mu, abs_div, abs_of_pos hDp, div_le_one hDp] at hb
  have hcA := h.radius hL lat
  -- the planetographic latitude
  obtain ⟨g, hg, hgb, hge⟩ := graphicLatitudeF_near hL' h.pol_pos h.le h.ratio h0
  have hgr := (Spheroid.C33_range ⟨eqRad, polRad⟩ (lat : ℝ)).2
  have hpi4 := Real.pi_lt_d2
  have hgA : Ap (.fin g) (Spheroid.graphicLatitude ⟨eqRad, polRad⟩ lat) 16 2 := by
    refine ⟨g, rfl, hge.trans (by norm_num), ?_⟩
    have h1 := hgr.1
    have h2 := hgr.2
    rw [abs_le]
    norm_num at h1 h2 hpi4 ⊢
    constructor <;> linarith
  rw [Spheroid.mu, muF]
  simp only [hg]
  generalize centricRadiusF .ieee L (.fin eqRad) (.fin polRad) (.fin lat) = cF at *
  obtain ⟨-, -, -, hgle⟩ := id hgA
  obtain ⟨-, -, -, hcle⟩ := id hcA
  have hla : Ap (.fin lat) (lat : ℝ) 0 2 := Ap.exact lat (hlatR.trans hp2)
  have hdiff := Ap.sub (k := 9) (S := 4) hla hgA ⟨by norm_num, by norm_num⟩
    (by refine (abs_sub _ _).trans ?_; linarith) (by norm_num) (by norm_num)
  generalize Spheroid.graphicLatitude ⟨eqRad, polRad⟩ lat = G at *
  generalize Spheroid.centricRadius ⟨eqRad, polRad⟩ lat = c at *
  generalize Spheroid.observerDistance ⟨eqRad, polRad⟩ subLat subLon lat lon range = D at *
  have hr : Ap (.fin range) (range : ℝ) 0 range := Ap.exact range (by rw [abs_of_pos hR])
  have a1 := Ap.sin hL' h3 (k := 5) (by norm_num)
  have a2 := Ap.sin hL' hgA (k := 33) (by norm_num)
  have b1 := Ap.cos hL' h3 (k := 5) (by norm_num)
  have b2 := Ap.cos hL' hgA (k := 33) (by norm_num)
  have b3 := Ap.cos hL' (Ap.lon h1 h2) (k := 49) (by norm_num)
  have b4 := Ap.cos hL' hdiff (k := 37) (by norm_num)
  have m1 := (hr.trig a1 (by norm_num) (by norm_num) h.scale1).trig a2 (by norm_num) (by norm_num)
    h.scale1
  have m2 := hcA.trig b4 (by norm_num) (by norm_num) (h.scale (by norm_num) (by norm_num))
  have m3 := ((hr.trig b1 (by norm_num) (by norm_num) h.scale1).trig b2 (by norm_num) (by norm_num)
    h.scale1).trig b3 (by norm_num) (by norm_num) h.scale1
  obtain ⟨-, -, -, hb1⟩ := id m1
  obtain ⟨-, -, -, hb2⟩ := id m2
  obtain ⟨-, -, -, hb3⟩ := id m3
  have m4 := Ap.sub (k := 43) (S := 3 / 2 * range) m1 m2 (h.scale (by norm_num) (by norm_num))
    (by refine (abs_sub _ _).trans ?_; linarith) (by norm_num; linarith) (by norm_num)
  obtain ⟨-, -, -, hb4⟩ := id m4
  have m5 := Ap.add (k := 65) (S := 5 / 2 * range) m4 m3 (h.scale (by norm_num) (by norm_num))
    (by refine (abs_add_le _ _).trans ?_; linarith) (by norm_num; linarith) (by norm_num)
  obtain ⟨n, hn, hne, -⟩ := m5
  refine Ap.quot hR hn hd hb hDlo (hne.trans ?_) hde
  norm_num
  linarith

/-- The computed phase cosine. -/
theorem InRange.cosPhase {eqRad polRad range : ℚ} (h : InRange eqRad polRad range) {L : LibmRoot}
    (hL : L.Correct) {obsLatF obsLonF sunLatF sunLonF lonF : Dbl}
    {obsLat obsLon sunLat sunLon lon : ℝ} {lat : ℚ} (h4 : Ap obsLatF obsLat 2 2)
    (h1 : Ap obsLonF obsLon 2 8) (h5 : Ap sunLatF sunLat 2 2) (h2 : Ap sunLonF sunLon 2 8)
    (h3 : Ap lonF lon 2 8) (h0 : |(lat : ℝ)| ≤ 2) :
    Ap (cosPhaseF .ieee L (.fin eqRad) (.fin polRad) obsLatF obsLonF sunLatF sunLonF (.fin lat)
      lonF (.fin range))
      (Spheroid.cosPhase ⟨eqRad, polRad⟩ obsLat obsLon sunLat sunLon lat lon range) 761 1 := by
  have hR := h.range_pos
  obtain ⟨d, hd, hde, hDlo, hDhi⟩ := h.distance hL h4 h1 h3 h0
  have hDp := h.distance_pos obsLat obsLon lat lon
  have hb : |Spheroid.cosPhase ⟨eqRad, polRad⟩ obsLat obsLon sunLat sunLon lat lon range| ≤ 1 := by
    rw [Spheroid.C35_cos_phase, abs_le]
    exact Spheroid.cosAngle_bounds _ _
  rw [Spheroid.cosPhase, abs_div, abs_of_pos hDp, div_le_one hDp] at hb
  have hcA := h.radius hL lat
  rw [Spheroid.cosPhase, cosPhaseF]
  generalize centricRadiusF .ieee L (.fin eqRad) (.fin polRad) (.fin lat) = cF at *
  generalize Spheroid.centricRadius ⟨eqRad, polRad⟩ lat = c at *
  generalize Spheroid.observerDistance ⟨eqRad, polRad⟩ obsLat obsLon lat lon range = D at *
  have hr : Ap (.fin range) (range : ℝ) 0 range := Ap.exact range (by rw [abs_of_pos hR])
  have k1 := Ap.dirs' hL h4 h5 (Ap.lon h1 h2)
  have k2 := Ap.dirs' hL ((Ap.exact lat h0).mono (by norm_num)) h5 (Ap.lon h3 h2)
  have m1 := hr.trig k1 (by norm_num) (by norm_num) h.scale1
  have m2 := hcA.trig k2 (by norm_num) (by norm_num) (h.scale (by norm_num) (by norm_num))
  obtain ⟨-, -, -, hb1⟩ := id m1
  obtain ⟨-, -, -, hb2⟩ := id m2
  have m3 := Ap.sub (k := 82) (S := 3 / 2 * range) m1 m2 (h.scale (by norm_num) (by norm_num))
    (by refine (abs_sub _ _).trans ?_; linarith) (by norm_num; linarith) (by norm_num)
  obtain ⟨n, hn, hne, -⟩ := m3
  refine Ap.quot hR hn hd hb hDlo (hne.trans ?_) hde
  norm_num
  linarith

/-- The computed incidence cosine. -/
theorem InRange.mu0 {eqRad polRad range : ℚ} (h : InRange eqRad polRad range) {L : Libm}
    (hL : L.Correct) {subLatF subLonF lonF : Dbl} {subLat subLon lon : ℝ} {lat : ℚ}
    (h3 : Ap subLatF subLat 2 2) (h1 : Ap subLonF subLon 2 8) (h2 : Ap lonF lon 2 8)
    (h0 : |lat| ≤ pi2Q) :
    Ap (mu0F .ieee L (.fin eqRad) (.fin polRad) subLatF subLonF (.fin lat) lonF)
      (Spheroid.mu0 ⟨eqRad, polRad⟩ subLat subLon lat lon) 140 1 := by
  obtain ⟨g, hg, hgb, hge⟩ := graphicLatitudeF_near hL h.pol_pos h.le h.ratio h0
  have hgr := (Spheroid.C33_range ⟨eqRad, polRad⟩ (lat : ℝ)).2
  have hpi4 := Real.pi_lt_d2
  have hgA : Ap (.fin g) (Spheroid.graphicLatitude ⟨eqRad, polRad⟩ lat) 16 2 := by
    refine ⟨g, rfl, hge.trans (by norm_num), ?_⟩
    have h1 := hgr.1
    have h2 := hgr.2
    rw [abs_le]
    norm_num at h1 h2 hpi4 ⊢
    constructor <;> linarith
  rw [Spheroid.mu0, mu0F]
  simp only [hg]
  have a1 := Ap.sin hL h3 (k := 5) (by norm_num)
  have a2 := Ap.sin hL hgA (k := 33) (by norm_num)
  have b1 := Ap.cos hL h3 (k := 5) (by norm_num)
  have b2 := Ap.cos hL hgA (k := 33) (by norm_num)
  have b3 := Ap.cos hL (Ap.lon h1 h2) (k := 49) (by norm_num)
  have m1 := a1.trig a2 (by norm_num) (by norm_num) scale_one
  have m2 := b1.trig b2 (by norm_num) (by norm_num) scale_one
  have m3 := m2.trig b3 (by norm_num) (by norm_num) scale_one
  exact Ap.add m1 m3 scale_one (cosine_le_one _ _ _) (by norm_num) (by norm_num)

/-- Degrees of latitude converted to radians. -/
theorem Ap.latDegrees {q : ℚ} (h : |q| ≤ 90) :
    Ap (ieee.mul (.fin q) cDegree) (q * Real.pi / 180) 2 2 := by
  have h1 := Real.pi_gt_d20
  have h2 := Real.pi_lt_d20
  have hR : |(q : ℝ)| ≤ 90 := by exact_mod_cast h
  have hpi : |Real.pi / 180| ≤ 1 / 50 := by
    rw [abs_of_pos (by positivity)]
    norm_num at h2 ⊢
    linarith
  have hc : ∃ d : ℚ, cDegree = .fin d ∧ |(d : ℝ) - Real.pi / 180| ≤ 1 / 180 * (1 / 2 ^ 52) := by
    refine ⟨degreeQ, cDegree_eq, ?_⟩
    rw [abs_le]
    norm_num [degreeQ] at h1 h2 ⊢
    constructor <;> linarith
  obtain ⟨d, hd, hde⟩ := hc
  rw [hd]
  simp only [Fp.mul]
  refine ap_rnd ⟨by norm_num, by norm_num⟩ (k := 1) ?_ ?_ (by norm_num) (by norm_num)
  · push_cast
    have e : (q : ℝ) * d - q * Real.pi / 180 = q * (d - Real.pi / 180) := by ring
    rw [e, abs_mul]
    have := mul_le_mul hR hde (abs_nonneg _) (by norm_num)
    norm_num at this ⊢
    linarith
  · rw [mul_div_assoc, abs_mul]
    have := mul_le_mul hR hpi (abs_nonneg _) (by norm_num)
    norm_num at this ⊢
    linarith

/-- Degrees of longitude converted to radians. -/
theorem Ap.lonDegrees {q : ℚ} (h : |q| ≤ 360) :
    Ap (ieee.mul (.fin q) cDegree) (q * Real.pi / 180) 2 8 := by
  have h1 := Real.pi_gt_d20
  have h2 := Real.pi_lt_d20
  have hR : |(q : ℝ)| ≤ 360 := by exact_mod_cast h
  have hpi : |Real.pi / 180| ≤ 1 / 50 := by
    rw [abs_of_pos (by positivity)]
    norm_num at h2 ⊢
    linarith
  have hc : ∃ d : ℚ, cDegree = .fin d ∧ |(d : ℝ) - Real.pi / 180| ≤ 1 / 180 * (1 / 2 ^ 52) := by
    refine ⟨degreeQ, cDegree_eq, ?_⟩
    rw [abs_le]
    norm_num [degreeQ] at h1 h2 ⊢
    constructor <;> linarith
  obtain ⟨d, hd, hde⟩ := hc
  rw [hd]
  simp only [Fp.mul]
  refine ap_rnd ⟨by norm_num, by norm_num⟩ (k := 1) ?_ ?_ (by norm_num) (by norm_num)
  · push_cast
    have e : (q : ℝ) * d - q * Real.pi / 180 = q * (d - Real.pi / 180) := by ring
    rw [e, abs_mul]
    have := mul_le_mul hR hde (abs_nonneg _) (by norm_num)
    norm_num at this ⊢
    linarith
  · rw [mul_div_assoc, abs_mul]
    have := mul_le_mul hR hpi (abs_nonneg _) (by norm_num)
    norm_num at this ⊢
    linarith

end MaRC
