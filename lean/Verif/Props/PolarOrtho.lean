import Verif.Props.GridOrtho

/-!
# C70 and C72: orthographic maps seen from above a pole
-/

namespace MaRC.Projection.Ortho

open Real Set Geo

variable {o : Ortho}

/-! ## Lemmas -/

/-- `std::tan(C::pi_2)` is large. -/
theorem tan_ninety : 10 ^ 14 ≤ tan (90 * degree) := by
  have h90 := ninety_lt
  have hd := degree_pos
  have hgap : π / 2 - 90 * degree < 1 / 10 ^ 15 := by
    have := pi_lt_d20
    rw [degree, degreeQ]
    push_cast
    norm_num at this ⊢
    linarith
  have hpi := pi_gt_d2
  set δ := π / 2 - 90 * degree with hδ
  have hδ0 : 0 < δ := by linarith
  have e : 90 * degree = π / 2 - δ := by rw [hδ]; ring
  rw [e, tan_pi_div_two_sub, le_inv_comm₀ (by norm_num)
    (tan_pos_of_pos_of_lt_pi_div_two hδ0 (by norm_num at hgap; linarith)), tan_eq_sin_div_cos]
  have h1 : sin δ ≤ δ := (sin_lt hδ0).le
  have h2 : 1 / 2 ≤ cos δ := by
    have := one_sub_sq_div_two_le_cos (x := δ)
    norm_num at hgap
    nlinarith
  rw [div_le_iff₀ (by linarith)]
  norm_num at hgap ⊢
  linarith

/-- The cosine of a latitude away from the equator is beyond 1. -/
theorem cosine_beyond {body : Spheroid} (hb : body.Valid) {n : ℝ} (h0 : 1 / 10 ^ 12 ≤ n)
    (h90 : n ≤ 90) : 1 < (body.eqRad / body.polRad) ^ 2 * tan (n * degree) * tan (90 * degree) := by
  have hc := hb.pol_pos
  have h1 : 1 ≤ body.eqRad / body.polRad := by rw [le_div_iff₀ hc, one_mul]; exact hb.le
  have h2 : 1 ≤ (body.eqRad / body.polRad) ^ 2 := by nlinarith
  have hd1 : (0.0174532 : ℝ) < degree := by rw [degree, degreeQ]; norm_num
  have hn : n * degree ≤ tan (n * degree) := by
    have hm := lat_mem (d := n) (by norm_num at h0; linarith) h90
    refine le_tan ?_ hm.2
    have := degree_pos
    have : 0 ≤ n := le_trans (by positivity) h0
    positivity
  have h3 : 1.7 / 10 ^ 14 ≤ tan (n * degree) := by
    refine le_trans ?_ hn
    have : (1 : ℝ) / 10 ^ 12 * 0.0174532 ≤ n * degree := by gcongr
    norm_num at this ⊢
    linarith
  have h4 := tan_ninety
  have h5 : (1.7 : ℝ) / 10 ^ 14 * 10 ^ 14 ≤ tan (n * degree) * tan (90 * degree) := by gcongr
  have h6 : (1.7 : ℝ) ≤ tan (n * degree) * tan (90 * degree) := by
    norm_num at h5 ⊢
    linarith
  rw [mul_assoc]
  nlinarith

/-- The side of the equator the observer is on. -/
noncomputable def side (subLat : ℝ) : ℝ := if 0 < subLat then 1 else -1

theorem new_polar {body : Spheroid} {prograde : Bool}
    {subLat subLon pa km : ℝ} {center : CenterInput} {o : Ortho}
    (h : Ortho.new body prograde subLat subLon pa km center = .ok o)
    (hpol : AlmostEqual |subLat| 90 4) :
    o.body = body ∧ o.prograde = prograde ∧ o.polar = true ∧ o.subLon = 0 ∧
      o.subLat = side subLat * (π / 2) := by
  obtain ⟨v, c, hv, -, h1, h2, h3, h4, h5, h6, -⟩ := new_ok h
  obtain ⟨-, -, -, ⟨-, hv'⟩ | ⟨hp, -⟩⟩ := makeView_ok hv
  · refine ⟨h1, h2, by rw [h6, hv']; rfl, by rw [h4, hv']; rfl, ?_⟩
    rw [h3, hv', side, polarView]
    simp only [gt_iff_lt]
    split_ifs <;> ring
  · exact absurd hpol hp

/-- From above a pole, the points of its hemisphere are visible. -/
theorem polar_visible (hb : o.body.Valid) {subLat : ℝ} (hs : o.subLat = side subLat * (π / 2))
    (lat lon : ℝ) :
    Visible o.viewer o.body (surfacePoint o.body o.prograde lat lon) ↔
      0 ≤ side subLat * sin lat := by
  rw [C70_visible hb (surfacePoint o.body o.prograde lat lon) (Spheroid.C34_surface hb _ _).1]
  have hc := hb.pol_pos
  have hr := Spheroid.centricRadius_pos hb lat
  have hsin : sin o.subLat = side subLat := by
    rw [hs, side]
    split_ifs <;> simp
  have hcos : cos o.subLat = 0 := by
    rw [hs, side]
    split_ifs <;> simp
  have key : normal o.body.eqRad o.body.polRad (surfacePoint o.body o.prograde lat lon) ⬝ᵥ
      o.viewer.toward = o.body.centricRadius lat / o.body.polRad ^ 2 * (side subLat * sin lat) := by
    rw [toward_val]
    simp only [normal, surfacePoint, direction, Pi.smul_apply, smul_eq_mul, Matrix.cons_val,
      viewer, hsin, hcos]
    ring
  rw [key, mul_nonneg_iff_of_pos_left (by positivity)]

theorem polar_cosine (hp : o.polar = true) {subLat : ℝ} (hs : o.subLat = side subLat * (π / 2))
    (lat : ℝ) : o.gridCosine lat =
      side subLat * ((o.body.eqRad / o.body.polRad) ^ 2 * tan lat * tan (90 * degree)) := by
  have hpi := pi_pos
  rw [gridCosine, limbCosine]
  simp only [hp, if_true, hs, side]
  by_cases h : 0 < subLat
  · rw [if_pos h, if_pos (by rw [one_mul]; positivity)]
    ring
  · rw [if_neg h, if_neg (by rw [not_lt]; linarith), tan_neg]
    ring

theorem side_sq (x : ℝ) : side x = 1 ∨ side x = -1 := by
  unfold side
  split_ifs <;> simp

/-- The cosine of a latitude on the observer's side or the other one. -/
theorem polar_cosine_cases (hb : o.body.Valid) (hp : o.polar = true) {subLat : ℝ}
    (hs : o.subLat = side subLat * (π / 2)) {n : ℝ} (h90 : |n| ≤ 90) (hn : 1 / 10 ^ 12 ≤ |n|) :
    (0 < side subLat * n ∧ 1 < o.gridCosine (n * degree)) ∨
    (side subLat * n < 0 ∧ o.gridCosine (n * degree) < -1) := by
  rw [polar_cosine hp hs]
  rcases le_total 0 n with h | h
  · rw [abs_of_nonneg h] at h90 hn
    have := cosine_beyond hb hn h90
    have h0 : 0 < n := lt_of_lt_of_le (by positivity) hn
    rcases side_sq subLat with e | e
    · rw [e]; left; constructor <;> linarith
    · rw [e]; right; constructor <;> linarith
  · rw [abs_of_nonpos h] at h90 hn
    have := cosine_beyond hb hn h90
    have h0 : 0 < -n := lt_of_lt_of_le (by positivity) hn
    rw [neg_mul, tan_neg] at this
    rcases side_sq subLat with e | e
    · rw [e]; right; constructor <;> linarith
    · rw [e]; left; constructor <;> linarith

theorem side_sin {subLat n : ℝ} (h90 : |n| ≤ 90) :
    (0 ≤ side subLat * sin (n * degree) ↔ 0 ≤ side subLat * n) := by
  have hd := degree_pos
  have h90' := ninety_lt
  have hpi := pi_pos
  have hs : (0 ≤ n → 0 ≤ sin (n * degree)) ∧ (n < 0 → sin (n * degree) < 0) := by
    have hm := lat_mem (abs_le.mp h90).1 (abs_le.mp h90).2
    constructor
    · intro h
      exact sin_nonneg_of_nonneg_of_le_pi (by positivity) (by linarith [hm.2])
    · intro h
      exact sin_neg_of_neg_of_neg_pi_lt (by nlinarith) (by linarith [hm.1])
  have hs' : (n ≤ 0 → sin (n * degree) ≤ 0) ∧ (0 < n → 0 < sin (n * degree)) := by
    have hm := lat_mem (abs_le.mp h90).1 (abs_le.mp h90).2
    constructor
    · intro h
      rcases h.lt_or_eq with h | h
      · exact (hs.2 h).le
      · rw [h]; simp
    · intro h
      exact sin_pos_of_pos_of_lt_pi (by positivity) (by linarith [hm.2])
  rcases side_sq subLat with e | e <;> rw [e]
  · rw [one_mul, one_mul]
    exact ⟨fun h => not_lt.1 fun hn => absurd (hs.2 hn) (not_lt.2 h), hs.1⟩
  · constructor
    · intro h
      have : ¬ 0 < n := fun hn => by linarith [hs'.2 hn]
      linarith [not_lt.1 this]
    · intro h
      linarith [hs'.1 (by linarith)]

theorem wrap_all {lon : ℝ} (h0 : 0 ≤ lon) (h1 : lon ≤ 2 * π) :
    ∃ L', wrapTo (-π, π) lon = some L' := by
  rw [wrapTo_iff]
  have := pi_pos
  simp only
  split_ifs <;> constructor <;> linarith

/-- Away from the equator the bounds of the loops select the visible points. -/
theorem polar_selected (hb : o.body.Valid) (hp : o.polar = true) {subLat : ℝ}
    (hs : o.subLat = side subLat * (π / 2)) {n lon : ℝ} (h90 : |n| ≤ 90)
    (hn : 1 / 10 ^ 12 ≤ |n|) (h0 : 0 ≤ lon) (h1 : lon ≤ 2 * π) :
    Selected (o.gridBounds (n * degree)) lon ↔
      Visible o.viewer o.body (surfacePoint o.body o.prograde (n * degree) lon) := by
  rw [polar_visible hb hs, side_sin h90, Selected, gridBounds]
  rcases polar_cosine_cases hb hp hs h90 hn with ⟨k1, k2⟩ | ⟨k1, k2⟩
  · rw [if_neg fun hh => absurd hh.2 (not_le.2 k2), if_pos k2]
    exact iff_of_true ⟨_, rfl, wrap_all h0 h1⟩ k1.le
  · rw [if_neg fun hh => absurd hh.1 (not_le.2 k2), if_neg (by linarith)]
    exact iff_of_false (by simp) (not_le.2 k1)

/-- On the equator they select half of the meridians. -/
theorem polar_equator (hp : o.polar = true) {subLat : ℝ}
    (hs : o.subLat = side subLat * (π / 2)) (hS : o.subLon = 0) {lon : ℝ} (h0 : 0 ≤ lon)
    (h1 : lon ≤ 2 * π) : Selected (o.gridBounds 0) lon ↔ 0 ≤ cos lon := by
  have hK : o.gridCosine 0 = 0 := by rw [polar_cosine hp hs]; simp
  have hb : o.gridBounds 0 = some (0 - |arccos (-0)|, 0 + |arccos (-0)|) := by
    rw [gridBounds, hK, hS, if_pos (by norm_num)]
  have := wrap_limb (K := 0) (S := 0) (L := lon) (limb := |arccos (-0)|) (by norm_num)
    (by norm_num) le_rfl (by linarith [pi_pos]) h0 h1 rfl
  have e : cos (0 - lon) = cos lon := by rw [zero_sub, cos_neg]
  rw [e, neg_zero] at this
  rw [← this, Selected, hb, neg_zero]
  simp

theorem almostEqual_right_angle (subLat : ℝ) :
    AlmostEqual |side subLat * (π / 2)| (π / 2) 8 := by
  have hpi := pi_pos
  have : |side subLat * (π / 2)| = π / 2 := by
    rcases side_sq subLat with e | e <;> rw [e]
    · rw [one_mul, abs_of_pos (by positivity)]
    · rw [neg_one_mul, abs_neg, abs_of_pos (by positivity)]
  rw [this, AlmostEqual]
  left
  rw [sub_self, abs_zero]
  have : (0 : ℝ) < (dblEpsilon : ℝ) := by rw [dblEpsilon]; norm_num
  positivity

/-! ## Properties -/

/-- **C72** (polar views).  For an observer above a pole, a pixel of the grid is white
exactly if it is nearest to one of the points of the grid lines that the observer sees,
but for the points of meridians on the equator itself, which are only drawn within 90
degrees of the prime meridian.  This holds for grid latitudes that are 0 or at least
`10^-12` degrees.  Missing: those points of the meridians, which the code leaves out
(`C72_equator_violated`). -/
theorem C72_polar_partial {body : Spheroid} {prograde : Bool}
    {subLat subLon pa km : ℝ} {center : CenterInput} {o : Ortho}
    (h : Ortho.new body prograde subLat subLon pa km center = .ok o)
    (hpol : AlmostEqual |subLat| 90 4)
    {samples lines : ℕ} (hd : o.Drawable samples lines) {latI lonI : ℝ}
    (h1 : 0 < latI) (h2 : 0 < lonI)
    (hI : ∀ n, OrthoLatitude latI n → n = 0 ∨ 1 / 10 ^ 12 ≤ |n|) :
    ∃ g, makeGrid (o.plotGrid samples lines latI lonI) samples lines = .ok g ∧
      g.Shows samples lines fun k i =>
        ∃ lat lon, (LatitudePoint latI lat lon ∨
            LongitudePoint lonI lat lon ∧ (lat = 0 → 0 ≤ cos lon)) ∧
          Visible o.viewer body (surfacePoint body prograde lat lon) ∧
          o.NearestPixel samples lines (surfacePoint body prograde lat lon) k i := by
  obtain ⟨rfl, rfl, hp, hS, hs⟩ := new_polar h hpol
  obtain ⟨g, hg, hlen, hsh⟩ := grid_shows hd h1 h2
  refine ⟨g, hg, hlen, fun k hk i hi => ?_⟩
  have hdeg := degree_pos
  have hL : ∀ lon, o.latLongitude lon = lon := fun lon => by
    rw [latLongitude, hS]; simp
  have tb : ∀ t : ℕ, t < 2000 → 0 ≤ (t : ℝ) / 2000 * degree * 360 ∧
      (t : ℝ) / 2000 * degree * 360 ≤ 2 * π := by
    intro t ht
    have h3 : (t : ℝ) ≤ 2000 := by exact_mod_cast ht.le
    refine ⟨by positivity, ?_⟩
    have := lon_le (t := (t : ℝ) / 2000 * 360) (by linarith)
    linarith
  have lb : ∀ n, OrthoLatitude latI n → |n| ≤ 90 := by
    rintro n ⟨j, rfl, hn⟩
    have : (0 : ℝ) ≤ j * latI := by positivity
    exact abs_le.2 ⟨by linarith, hn⟩
  have mb : ∀ m, OrthoLongitude lonI m → 0 ≤ m * degree ∧ m * degree ≤ 2 * π := by
    rintro m ⟨j, -, rfl, hm⟩
    exact ⟨by positivity, lon_le hm⟩
  have latSel : ∀ n, OrthoLatitude latI n → ∀ lon, 0 ≤ lon → lon ≤ 2 * π →
      (Selected (o.latBounds n) lon ↔
        Visible o.viewer o.body (surfacePoint o.body o.prograde (n * degree) lon)) := by
    intro n hn lon l0 l1
    rcases hI n hn with rfl | hn'
    · rw [latBounds, if_pos ⟨rfl, by rw [hs]; exact almostEqual_right_angle _⟩]
      refine iff_of_true ⟨_, rfl, wrap_all l0 l1⟩ ((polar_visible hd.body hs _ _).2 ?_)
      simp
    · rw [latBounds, if_neg (by
        rintro ⟨rfl, -⟩
        norm_num at hn')]
      exact polar_selected hd.body hp hs (lb n hn) hn' l0 l1
  have lonSel : ∀ t : ℕ, t < 1000 → ∀ lon, 0 ≤ lon → lon ≤ 2 * π →
      (Selected (o.gridBounds (((t : ℝ) / 1000 * 180 - 90) * degree)) lon ↔
        (((t : ℝ) / 1000 * 180 - 90) * degree = 0 → 0 ≤ cos lon) ∧
        Visible o.viewer o.body (surfacePoint o.body o.prograde
          (((t : ℝ) / 1000 * 180 - 90) * degree) lon)) := by
    intro t ht lon l0 l1
    have h3 : (t : ℝ) ≤ 1000 := by exact_mod_cast ht.le
    have h4 : (0 : ℝ) ≤ t := by positivity
    by_cases h5 : t = 500
    · have e : ((t : ℝ) / 1000 * 180 - 90) * degree = 0 := by rw [h5]; norm_num
      rw [e, polar_equator hp hs hS l0 l1]
      have hv : Visible o.viewer o.body (surfacePoint o.body o.prograde 0 lon) :=
        (polar_visible hd.body hs _ _).2 (by simp)
      exact ⟨fun hh => ⟨fun _ => hh, hv⟩, fun hh => hh.1 rfl⟩
    · have h6 : 1 ≤ |(t : ℝ) - 500| := by
        have : (1 : ℤ) ≤ |(t : ℤ) - 500| := Int.one_le_abs (by omega)
        exact_mod_cast this
      have h7 : (18 : ℝ) / 100 ≤ |(t : ℝ) / 1000 * 180 - 90| := by
        have e : (t : ℝ) / 1000 * 180 - 90 = (t - 500) * (18 / 100) := by ring
        rw [e, abs_mul, abs_of_pos (by norm_num : (0 : ℝ) < 18 / 100)]
        linarith
      rw [polar_selected hd.body hp hs (abs_le.2 ⟨by linarith, by linarith⟩)
        (le_trans (by norm_num) h7) l0 l1]
      refine ⟨fun hh => ⟨fun e => ?_, hh⟩, fun hh => hh.2⟩
      rw [mul_eq_zero] at e
      rcases e with e | e
      · rw [e] at h7; norm_num at h7
      · linarith
  obtain ⟨q1, q2⟩ := hsh k hk i hi
  constructor
  · rintro ⟨_, _, ⟨n, hn, t, ht, rfl, rfl⟩ | ⟨⟨m, hm, t, ht, rfl, rfl⟩, he⟩, hv, e⟩
    · refine q1 (.inl ⟨n, hn, t, ht, (latSel n hn _ (tb t ht).1 (tb t ht).2).2 hv, ?_⟩)
      rw [hL]
      exact e
    · exact q1 (.inr ⟨m, hm, t, ht, (lonSel t ht _ (mb m hm).1 (mb m hm).2).2 ⟨he, hv⟩, e⟩)
  · intro hno
    refine q2 fun hw => hno ?_
    rcases hw with ⟨n, hn, t, ht, hsel, e⟩ | ⟨m, hm, t, ht, hsel, e⟩
    · rw [hL] at e
      exact ⟨_, _, .inl ⟨n, hn, t, ht, rfl, rfl⟩,
        (latSel n hn _ (tb t ht).1 (tb t ht).2).1 hsel, e⟩
    · obtain ⟨he, hv⟩ := (lonSel t ht _ (mb m hm).1 (mb m hm).2).1 hsel
      exact ⟨_, _, .inr ⟨⟨m, hm, t, ht, rfl, rfl⟩, he⟩, hv, e⟩

/-- **C70** (acceptance, polar views).  For an observer above a pole, a latitude and
longitude asked for at the middle of the map are accepted exactly if that point of the
body is visible.  Missing: latitudes less than `10^-12` degrees beyond the equator, which
are accepted. -/
theorem C70_polar_partial {body : Spheroid} (hb : body.Valid) {prograde : Bool}
    {subLat subLon pa km lat lon : ℝ} {o : Ortho}
    (h : Ortho.new body prograde subLat subLon pa km .default = .ok o)
    (hpol : AlmostEqual |subLat| 90 4)
    (hlat : |lat| ≤ 90) (hlon : |lon| ≤ 360) (hI : lat = 0 ∨ 1 / 10 ^ 12 ≤ |lat|) :
    (∃ o', Ortho.new body prograde subLat subLon pa km (.latLonGiven lat lon) = .ok o') ↔
      Visible o.viewer body (surfacePoint body prograde (lat * degree) (lon * degree)) := by
  obtain ⟨v, c, hv, -, h1, h2, h3, h4, h5, h6, -⟩ := new_ok h
  obtain ⟨rfl, rfl, hp, hS, hs⟩ := new_polar h hpol
  have hd := degree_pos
  rw [polar_visible hb hs, side_sin hlat, Ortho.new, hv, Outcome.bind_ok, makeCenter, latLonCenter,
    validateLat_ok.2 ⟨(abs_le.1 hlat).1, (abs_le.1 hlat).2, rfl⟩,
    validateLon_ok.2 ⟨(abs_le.1 hlon).1, (abs_le.1 hlon).2, rfl⟩]
  simp only [Outcome.bind_ok]
  have hcos : limbCosine o.body v (lat * degree) = o.gridCosine (lat * degree) := by
    rw [gridCosine, h3, h4, h5, h6]
  have hlimb : ∀ x, limbAngle v x = π := fun x => by
    rw [limbAngle, if_neg]
    rw [← h6, hp]
    simp
  rw [hlimb, hcos]
  have hv0 : v.subLon = 0 := by rw [← h4, hS]
  have hwrap : ¬ (wrapLon v π (lon * degree) < v.subLon - π ∨
      wrapLon v π (lon * degree) > v.subLon + π) := by
    have l1 := mul_le_mul_of_nonneg_right (abs_le.1 hlon).1 hd.le
    have l2 := mul_le_mul_of_nonneg_right (abs_le.1 hlon).2 hd.le
    have := circle_le
    have hpi := pi_pos
    rw [wrapLon, hv0, not_or]
    split_ifs with w1 w2 <;> constructor <;> linarith
  rw [if_neg hwrap]
  rcases hI with rfl | hI
  · have hK : o.gridCosine (0 * degree) = 0 := by rw [zero_mul, polar_cosine hp hs]; simp
    rw [hK, if_neg (by norm_num), Outcome.bind_ok]
    exact iff_of_true ⟨_, rfl⟩ (by simp)
  · rcases polar_cosine_cases hb hp hs hlat hI with ⟨k1, k2⟩ | ⟨k1, k2⟩
    · rw [if_neg (by linarith), Outcome.bind_ok]
      exact iff_of_true ⟨_, rfl⟩ k1.le
    · rw [if_pos k2]
      exact iff_of_false (by simp) (not_le.2 k1)

/-- The hypotheses are met by an oblate body seen from above its north pole with grid
lines every 15 degrees. -/
example (prograde : Bool) : ∃ o : Ortho,
    Ortho.new ⟨10, 9⟩ prograde 90 45 0 1 .default = .ok o ∧ AlmostEqual |(90 : ℝ)| 90 4 ∧
    o.Drawable 40 40 ∧ (∀ n, OrthoLatitude 15 n → n = 0 ∨ 1 / 10 ^ 12 ≤ |n|) ∧
    LongitudePoint 10 (18 / 100 * degree) (50 * degree) := by
  have hpol : AlmostEqual |(90 : ℝ)| 90 4 := by
    rw [AlmostEqual]
    left
    have : (0 : ℝ) < (dblEpsilon : ℝ) := by rw [dblEpsilon]; norm_num
    rw [abs_of_pos (by norm_num : (0 : ℝ) < 90), sub_self, abs_zero]
    positivity
  have hv : makeView prograde 90 45 0 = .ok (polarView prograde 90) := by
    simp only [makeView]
    rw [validateLat_ok.2 ⟨by norm_num, by norm_num, rfl⟩,
      validateLon_ok.2 ⟨by norm_num, by norm_num, rfl⟩,
      validateLon_ok.2 ⟨by norm_num, by norm_num, rfl⟩]
    simp only [Outcome.bind_ok]
    rw [if_pos hpol]
  refine ⟨_, by rw [Ortho.new, hv, Outcome.bind_ok, makeCenter, Outcome.bind_ok], hpol,
    ⟨⟨by norm_num, by norm_num⟩, by simp [mapKm], by norm_num, ?_, ?_⟩, ?_, ?_⟩
  · simp [mapKm, mapCenter]; norm_num
  · simp [mapKm, mapCenter]; norm_num
  · rintro n ⟨j, rfl, -⟩
    by_cases hj : j = 6
    · left; rw [hj]; norm_num
    · right
      have h6 : (1 : ℝ) ≤ |(j : ℝ) - 6| := by
        have : (1 : ℤ) ≤ |(j : ℤ) - 6| := Int.one_le_abs (by omega)
        exact_mod_cast this
      have e : -90 + (j : ℝ) * 15 = (j - 6) * 15 := by ring
      rw [e, abs_mul, abs_of_pos (by norm_num : (0 : ℝ) < 15)]
      norm_num
      linarith
  · exact ⟨50, ⟨5, by norm_num, by norm_num, by norm_num⟩, 501, by norm_num, by norm_num, rfl⟩

theorem right_angle_polar : AlmostEqual |(90 : ℝ)| 90 4 := by
  rw [AlmostEqual]
  left
  have : (0 : ℝ) < (dblEpsilon : ℝ) := by rw [dblEpsilon]; norm_num
  rw [abs_of_pos (by norm_num : (0 : ℝ) < 90), sub_self, abs_zero]
  positivity

/-- **C72** fails for points of meridians on the equator seen from above a pole.  On this
map of one pixel, at the limb of a sphere of 10000000 km seen from above its north pole,
the visible point of the equator at longitude 180 is in the pixel, but the pixel is
black. -/
theorem C72_equator_violated : ∃ (o : Ortho) (g : Grid),
    Ortho.new ⟨10 ^ 7, 10 ^ 7⟩ true 90 0 0 1 (.centerGiven 0 (10 ^ 7)) = .ok o ∧
    makeGrid (o.plotGrid 1 1 400 180) 1 1 = .ok g ∧
    LongitudePoint 180 0 (180 * degree) ∧
    Visible o.viewer ⟨10 ^ 7, 10 ^ 7⟩ (surfacePoint ⟨10 ^ 7, 10 ^ 7⟩ true 0 (180 * degree)) ∧
    o.NearestPixel 1 1 (surfacePoint ⟨10 ^ 7, 10 ^ 7⟩ true 0 (180 * degree)) 0 0 ∧
    g[0]? = some 0 := by
  have hb : Spheroid.Valid ⟨10 ^ 7, 10 ^ 7⟩ := ⟨by norm_num, by norm_num⟩
  have hd0 := degree_pos
  have hd1 : (0.0174532 : ℝ) < degree := by rw [degree, degreeQ]; norm_num
  have hpol := right_angle_polar
  have hv : makeView true 90 0 0 = .ok (polarView true 90) := by
    simp only [makeView]
    rw [validateLat_ok.2 ⟨by norm_num, by norm_num, rfl⟩,
      validateLon_ok.2 ⟨by norm_num, by norm_num, rfl⟩]
    simp only [Outcome.bind_ok]
    rw [if_pos hpol]
  set o : Ortho := ⟨⟨10 ^ 7, 10 ^ 7⟩, true, π / 2, 0, π, some 1, .pixels 0 (10 ^ 7), true⟩ with ho
  have hnew : Ortho.new ⟨10 ^ 7, 10 ^ 7⟩ true 90 0 0 1 (.centerGiven 0 (10 ^ 7)) = .ok o := by
    rw [Ortho.new, hv, Outcome.bind_ok, makeCenter, Outcome.bind_ok]
    simp [polarView, ho]
  have hdraw : o.Drawable 1 1 := by
    refine ⟨hb, by simp [mapKm, ho], by norm_num, ?_, ?_⟩
    · simp [mapKm, mapCenter, ho]; norm_num
    · simp [mapKm, mapCenter, ho]; norm_num
  have hr : ∀ t, Spheroid.centricRadius ⟨10 ^ 7, 10 ^ 7⟩ t = 10 ^ 7 := fun t =>
    Spheroid.C34_sphere hb rfl t
  have himg : ∀ lat lon, o.viewer.image (surfacePoint ⟨10 ^ 7, 10 ^ 7⟩ true lat lon) =
      (10 ^ 7 * cos lat * sin lon, 10 ^ 7 * cos lat * cos lon) := by
    intro lat lon
    simp only [Viewer.image, surfacePoint, hr, viewer, ho, Viewer.east, Viewer.north, eastward,
      if_true, direction, Spheroid.dot3, Pi.smul_apply, smul_eq_mul, Matrix.cons_val, cos_pi,
      sin_pi, neg_zero, sin_zero, cos_zero, sin_pi_div_two, cos_pi_div_two, sin_neg, cos_neg]
    refine Prod.ext ?_ ?_ <;> ring
  have hnear : ∀ lat lon, o.NearestPixel 1 1 (surfacePoint ⟨10 ^ 7, 10 ^ 7⟩ true lat lon) 0 0 ↔
      PixelAt (10 ^ 7 * cos lat * sin lon) (10 ^ 7 + 10 ^ 7 * cos lat * cos lon) 0 0 := by
    intro lat lon
    rw [NearestPixel, himg]
    simp [mapKm, mapCenter, ho]
  obtain ⟨g, hg, hlen, hsh⟩ := C72_polar_partial hnew hpol hdraw (latI := 400) (lonI := 180)
    (by norm_num) (by norm_num) (by
      rintro n ⟨j, rfl, hj⟩
      right
      have : j = 0 := by
        by_contra h
        have : (1 : ℝ) ≤ j := by exact_mod_cast Nat.one_le_iff_ne_zero.2 h
        linarith
      rw [this]
      norm_num)
  refine ⟨o, g, hnew, hg, ⟨180, ⟨1, by norm_num, by norm_num, by norm_num⟩, 500, by norm_num,
    by norm_num, rfl⟩, ?_, ?_, ?_⟩
  · have hs : o.subLat = side 90 * (π / 2) := by simp [ho, side]
    exact (polar_visible (o := o) hb hs 0 (180 * degree)).2 (by simp)
  · rw [hnear]
    have hgap : π - 180 * degree < 1 / 10 ^ 14 := by
      have := pi_lt_d20
      rw [degree, degreeQ]
      push_cast
      norm_num at this ⊢
      linarith
    have h90 := ninety_lt
    set δ := π - 180 * degree with hδ
    have hδ0 : 0 < δ := by linarith
    have e : 180 * degree = π - δ := by rw [hδ]; ring
    rw [e, sin_pi_sub, cos_pi_sub, cos_zero]
    have h1 : sin δ ≤ δ := (sin_lt hδ0).le
    have h2 : 0 ≤ sin δ := sin_nonneg_of_nonneg_of_le_pi hδ0.le (by linarith)
    have h3 := one_sub_sq_div_two_le_cos (x := δ)
    have h4 := cos_le_one δ
    norm_num at hgap
    have h5 : δ ^ 2 ≤ 1 / 10 ^ 14 := by norm_num; nlinarith
    norm_num at h5
    constructor
    · have ha : |10 ^ 7 * 1 * sin δ| < 1 / 2 := by rw [abs_lt]; constructor <;> linarith
      refine ⟨?_, fun h => ?_⟩
      · simpa using ha.le
      · simp at h ha; linarith
    · have ha : |10 ^ 7 + 10 ^ 7 * 1 * -cos δ| < 1 / 2 := by rw [abs_lt]; constructor <;> linarith
      refine ⟨?_, fun h => ?_⟩
      · simpa using ha.le
      · simp at h ha; linarith
  · refine (hsh 0 one_pos 0 one_pos).2 ?_
    rintro ⟨lat, lon, hp, -, hn⟩
    rw [hnear] at hn
    have hz := (abs_le.1 hn.2.1).2
    push_cast at hz
    have key : ∀ x : ℝ, |x| ≤ 90 → lat = x * degree → (0 ≤ cos lon ∨ 0.18 ≤ |x|) → False := by
      rintro x hx rfl hor
      have hm := lat_mem (d := x) (abs_le.1 hx).1 (abs_le.1 hx).2
      have hc := (cos_pos_of_mem_Ioo hm).le
      rcases hor with h | h
      · have := mul_nonneg hc h
        nlinarith
      · have hpi1 := pi_gt_d2
        have hpi2 := pi_lt_d2
        have h1 := cos_le_one_sub_mul_cos_sq (x := x * degree) (by
          rw [abs_le]; constructor <;> linarith [hm.1, hm.2])
        have h2 : (0.18 * 0.0174532) ^ 2 ≤ (x * degree) ^ 2 := by
          rw [← sq_abs (x * degree), abs_mul, abs_of_pos hd0]
          gcongr
        have h3 : (1 : ℝ) / 5 ≤ 2 / π ^ 2 := by
          rw [div_le_div_iff₀ (by norm_num) (by positivity)]
          nlinarith
        have h4 : (1 : ℝ) / 5 * (0.18 * 0.0174532) ^ 2 ≤ 2 / π ^ 2 * (x * degree) ^ 2 := by
          gcongr
        have h5 := neg_one_le_cos lon
        have h6 := mul_nonneg hc (by linarith : 0 ≤ cos lon + 1)
        norm_num at h4
        nlinarith
    rcases hp with ⟨n, ⟨j, rfl, hj⟩, t, -, rfl, -⟩ | ⟨⟨m, -, t, ht, hlat, -⟩, hlon⟩
    · have : j = 0 := by
        by_contra h
        have : (1 : ℝ) ≤ j := by exact_mod_cast Nat.one_le_iff_ne_zero.2 h
        linarith
      refine key _ ?_ rfl (.inr ?_) <;> rw [this] <;> norm_num
    · have ht' : (t : ℝ) ≤ 1000 := by exact_mod_cast ht.le
      have ht0 : (0 : ℝ) ≤ t := Nat.cast_nonneg t
      refine key _ (abs_le.2 ⟨by linarith, by linarith⟩) hlat ?_
      by_cases h5 : t = 500
      · left
        apply hlon
        rw [hlat, h5]
        norm_num
      · right
        have h6 : (1 : ℝ) ≤ |(t : ℝ) - 500| := by
          have : (1 : ℤ) ≤ |(t : ℤ) - 500| := Int.one_le_abs (by omega)
          exact_mod_cast this
        have e : (t : ℝ) / 1000 * 180 - 90 = (t - 500) * 0.18 := by ring
        rw [e, abs_mul, abs_of_pos (by norm_num : (0 : ℝ) < 0.18)]
        linarith

end MaRC.Projection.Ortho
