import Verif.Props.Grid
import Verif.Props.Orthographic

/-!
# C43 and C72: grids of orthographic maps
-/

namespace MaRC.Projection.Ortho

open Real Set Geo

variable {o : Ortho}

/-! ## Lemmas -/

theorem mem_gridLats {interval n : ℝ} (h : 0 < interval) :
    n ∈ gridLats interval ↔ OrthoLatitude interval n := by
  simp only [gridLats, List.mem_map, List.mem_range, OrthoLatitude, stepsTo]
  constructor
  · rintro ⟨j, hj, rfl⟩
    refine ⟨j, rfl, ?_⟩
    have h1 : (j : ℤ) ≤ ⌊(90 - -90) / interval⌋ := by omega
    have h2 := Int.le_floor.1 h1
    rw [le_div_iff₀ h] at h2
    push_cast at h2
    linarith
  · rintro ⟨j, rfl, hn⟩
    refine ⟨j, ?_, rfl⟩
    have h1 : (j : ℤ) ≤ ⌊(90 - -90) / interval⌋ := by
      rw [Int.le_floor, le_div_iff₀ h]
      push_cast
      linarith
    omega

theorem mem_gridLons {interval m : ℝ} (h : 0 < interval) :
    m ∈ gridLons interval ↔ OrthoLongitude interval m := by
  simp only [gridLons, List.mem_map, List.mem_range, OrthoLongitude, stepsTo]
  constructor
  · rintro ⟨j, hj, rfl⟩
    refine ⟨j + 1, by omega, by push_cast; ring, ?_⟩
    have h1 : (j : ℤ) ≤ ⌊(360 - interval) / interval⌋ := by omega
    have h2 := Int.le_floor.1 h1
    rw [le_div_iff₀ h] at h2
    push_cast at h2
    linarith
  · rintro ⟨j, hj, rfl, hn⟩
    refine ⟨j - 1, ?_, ?_⟩
    · have h1 : ((j - 1 : ℕ) : ℤ) ≤ ⌊(360 - interval) / interval⌋ := by
        rw [Int.le_floor, le_div_iff₀ h]
        have : ((j - 1 : ℕ) : ℝ) = j - 1 := by
          rw [Nat.cast_sub (by omega)]; simp
        push_cast
        rw [this]
        linarith
      omega
    · rw [Nat.cast_sub (by omega)]
      push_cast
      ring

/-- The map longitude of a point whose angle in the loops is `angle`. -/
theorem gridCoord_image (lat lon angle : ℝ)
    (hs : sin angle = -sin (eastward o.prograde lon - eastward o.prograde o.subLon))
    (hc : cos angle = -cos (eastward o.prograde lon - eastward o.prograde o.subLon)) :
    o.gridCoord lat angle 0 = -(o.viewer.image (surfacePoint o.body o.prograde lat lon)).1 ∧
    o.gridCoord lat angle 2 = (o.viewer.image (surfacePoint o.body o.prograde lat lon)).2 := by
  rw [Viewer.image, surface_east, surface_north]
  simp only [gridCoord, matVec, matMul, Geometry.rotYMatrix, Geometry.rotXMatrix, hs, hc, viewer]
  constructor <;>
  · simp [sumLoop_eq, Fin.sum_univ_three]
    ring

theorem wrapTo_iff (b : ℝ × ℝ) (L : ℝ) : (∃ L', wrapTo b L = some L') ↔
    b.1 ≤ (if L < b.1 then L + 2 * π else if L > b.2 then L - 2 * π else L) ∧
    (if L < b.1 then L + 2 * π else if L > b.2 then L - 2 * π else L) ≤ b.2 := by
  simp only [wrapTo]
  generalize (if L < b.1 then L + 2 * π else if L > b.2 then L - 2 * π else L) = w
  by_cases h : w ≥ b.1 ∧ w ≤ b.2
  · rw [if_pos h]
    exact iff_of_true ⟨_, rfl⟩ h
  · rw [if_neg h]
    exact iff_of_false (by simp) h

theorem wrapTo_some {b : ℝ × ℝ} {L L' : ℝ} (h : wrapTo b L = some L') :
    L' = L + 2 * π ∨ L' = L - 2 * π ∨ L' = L := by
  simp only [wrapTo] at h
  split_ifs at h <;> simp only [Option.some.injEq] at h <;> simp [h]

theorem wrap_limb {K S L limb : ℝ} (hK : -1 ≤ K) (hK1 : K ≤ 1) (hS0 : 0 ≤ S) (hS1 : S < 2 * π)
    (hL0 : 0 ≤ L) (hL1 : L ≤ 2 * π) (hl : limb = |arccos (-K)|) :
    (∃ L', wrapTo (S - limb, S + limb) L = some L') ↔ -K ≤ cos (S - L) := by
  have hl' : limb = if |K| ≤ 1 then |arccos (-K)| else π := by
    rw [if_pos (abs_le.2 ⟨hK, hK1⟩), hl]
  have h0 : 0 ≤ limb := hl ▸ abs_nonneg _
  rw [wrapTo_iff]
  simp only
  split_ifs with w1 w2
  · have e : cos (S - L) = cos (L + 2 * π - S) := by
      rw [← cos_neg, show -(S - L) = L + 2 * π - S - 2 * π by ring, cos_sub_two_pi]
    rw [e, limb_iff hK (by linarith) (by linarith) hl']
    constructor
    · rintro ⟨-, hh⟩
      exact .inl (by linarith)
    · rintro (hh | hh)
      · constructor <;> linarith
      · linarith
  · have e : cos (S - L) = cos (S - (L - 2 * π)) := by
      rw [show S - (L - 2 * π) = S - L + 2 * π by ring, cos_add_two_pi]
    rw [e, limb_iff hK (by linarith) (by linarith) hl']
    constructor
    · rintro ⟨hh, -⟩
      exact .inl (by linarith)
    · rintro (hh | hh)
      · constructor <;> linarith
      · linarith
  · rw [not_lt] at w1
    rw [gt_iff_lt, not_lt] at w2
    refine iff_of_true ⟨w1, w2⟩ ?_
    rcases le_total L S with g | g
    · rw [limb_iff hK (by linarith) (by linarith) hl']
      exact .inl (by linarith)
    · rw [← cos_neg, limb_iff hK (by linarith) (by linarith) hl']
      exact .inl (by linarith)

/-- The bounds of the loops select the visible points. -/
theorem bounds_visible (hb : o.body.Valid) (hpolar : o.polar = false) {lat lon : ℝ}
    (hl : 0 < cos lat) (hsub : 0 < cos o.subLat) (hS0 : 0 ≤ o.subLon) (hS1 : o.subLon < 2 * π)
    (hL0 : 0 ≤ lon) (hL1 : lon ≤ 2 * π) :
    (∃ b, o.gridBounds lat = some b ∧ ∃ lon', wrapTo b lon = some lon') ↔
      Visible o.viewer o.body (surfacePoint o.body o.prograde lat lon) := by
  rw [C70_visible hb (surfacePoint o.body o.prograde lat lon) (Spheroid.C34_surface hb _ _).1,
    facing hb _ _ hl hsub]
  have hK : o.gridCosine lat = (o.body.eqRad / o.body.polRad) ^ 2 * tan lat * tan o.subLat := by
    rw [gridCosine, limbCosine, hpolar]; simp
  rw [← hK, gridBounds]
  set K := o.gridCosine lat
  by_cases h1 : -1 ≤ K ∧ K ≤ 1
  · rw [if_pos h1, ← wrap_limb h1.1 h1.2 hS0 hS1 hL0 hL1 rfl]
    simp
  · rw [if_neg h1]
    by_cases h2 : 1 < K
    · rw [if_pos h2]
      refine iff_of_true ⟨_, rfl, (wrapTo_iff _ _).2 ?_⟩ (by linarith [neg_one_le_cos (o.subLon - lon)])
      have := pi_pos
      simp only
      split_ifs <;> constructor <;> linarith
    · rw [if_neg h2]
      refine iff_of_false (by simp) ?_
      have : K < -1 := by
        by_contra h3
        exact h1 ⟨not_lt.1 h3, not_lt.1 h2⟩
      linarith [cos_le_one (o.subLon - lon)]

/-- The pixel nearest to where a point of space is seen. -/
def NearestPixel (o : Ortho) (samples lines : ℕ) (p : Point) (k i : ℕ) : Prop :=
  PixelAt ((o.mapCenter samples lines).1 + (o.viewer.image p).1 / o.mapKm samples lines)
    ((o.mapCenter samples lines).2 + (o.viewer.image p).2 / o.mapKm samples lines) k i

/-- A map, and a body on it, of a reasonable size. -/
structure Drawable (o : Ortho) (samples lines : ℕ) : Prop where
  body : o.body.Valid
  scale : 0 < o.mapKm samples lines
  size : samples * lines < 2 ^ 64
  column : |(o.mapCenter samples lines).1| + 3 * o.body.eqRad / o.mapKm samples lines ≤ 2 ^ 62
  row : |(o.mapCenter samples lines).2| + 3 * o.body.eqRad / o.mapKm samples lines ≤ 2 ^ 62

theorem image_le (hb : o.body.Valid) (lat lon : ℝ) :
    |(o.viewer.image (surfacePoint o.body o.prograde lat lon)).1| ≤ 3 * o.body.eqRad ∧
    |(o.viewer.image (surfacePoint o.body o.prograde lat lon)).2| ≤ 3 * o.body.eqRad := by
  have hr0 := (Spheroid.centricRadius_pos hb lat).le
  have hr1 := (Spheroid.C34_bounds hb lat).2
  have one : ∀ a b : ℝ, |a| ≤ 1 → |b| ≤ 1 → |a * b| ≤ 1 := fun a b ha hb => by
    rw [abs_mul]; exact mul_le_one₀ ha (abs_nonneg _) hb
  set d := eastward o.prograde lon - eastward o.prograde o.subLon
  have hE : |cos lat * sin d| ≤ 1 := one _ _ (abs_cos_le_one _) (abs_sin_le_one _)
  have hN : |sin lat * cos o.subLat - cos lat * sin o.subLat * cos d| ≤ 2 := by
    refine (abs_sub _ _).trans ?_
    have h1 := one _ _ (abs_sin_le_one lat) (abs_cos_le_one o.subLat)
    have h2 := one _ _ (one _ _ (abs_cos_le_one lat) (abs_sin_le_one o.subLat)) (abs_cos_le_one d)
    linarith
  set E := cos lat * sin d
  set N := sin lat * cos o.subLat - cos lat * sin o.subLat * cos d
  have key : ∀ s c : ℝ, |s| ≤ 1 → |c| ≤ 1 → ∀ e : ℝ, e = E * s + N * c →
      |o.body.centricRadius lat * e| ≤ 3 * o.body.eqRad := by
    rintro s c hs hc _ rfl
    have h1 : |E * s| ≤ 1 := one _ _ hE hs
    have h2 : |N * c| ≤ 2 := by
      rw [abs_mul]
      calc |N| * |c| ≤ 2 * 1 := mul_le_mul hN hc (abs_nonneg _) (by norm_num)
        _ = 2 := by norm_num
    have h3 := (abs_add_le (E * s) (N * c)).trans (add_le_add h1 h2)
    rw [abs_mul, abs_of_nonneg hr0]
    calc o.body.centricRadius lat * |E * s + N * c| ≤ o.body.eqRad * 3 :=
          mul_le_mul hr1 (by linarith) (abs_nonneg _) (hr0.trans hr1)
      _ = 3 * o.body.eqRad := by ring
  rw [Viewer.image, surface_east, surface_north]
  constructor
  · have := key (cos o.pa) (-sin o.pa) (abs_cos_le_one _) (by rw [abs_neg]; exact abs_sin_le_one _)
      (E * cos o.pa - N * sin o.pa) (by ring)
    convert this using 2
    simp only [viewer, E, N]
    ring
  · have := key (sin o.pa) (cos o.pa) (abs_sin_le_one _) (abs_cos_le_one _)
      (E * sin o.pa + N * cos o.pa) (by ring)
    convert this using 2
    simp only [viewer, E, N]
    ring

theorem ssizeOf_cround {c x y : ℝ} (hx : |x| ≤ y) (h : |c| + y ≤ 2 ^ 62) :
    ssizeOf (cround (c + x)) = .ok (cround (c + x)) := by
  have h1 := abs_le.1 (roundsTo_cround (c + x)).1
  have h2 := abs_le.1 ((abs_add_le c x).trans ((add_le_add le_rfl hx).trans h))
  rw [ssizeOf, if_pos]
  constructor
  · have : (-2 ^ 63 : ℝ) ≤ cround (c + x) := by
      have := h1.2; have := h2.1; norm_num at *; linarith
    exact_mod_cast this
  · have : (cround (c + x) : ℝ) < 2 ^ 63 := by
      have := h1.1; have := h2.2; norm_num at *; linarith
    exact_mod_cast this

theorem writes_drawPoint {samples lines : ℕ} (hd : o.Drawable samples lines) {lat lon angle : ℝ}
    (hs : sin angle = -sin (eastward o.prograde lon - eastward o.prograde o.subLon))
    (hc : cos angle = -cos (eastward o.prograde lon - eastward o.prograde o.subLon)) :
    Writes (samples * lines) (o.drawPoint samples lines lat angle)
      {j | ∃ l < lines, ∃ q < samples,
        o.NearestPixel samples lines (surfacePoint o.body o.prograde lat lon) l q ∧
        j = l * samples + q} := by
  obtain ⟨g0, g2⟩ := gridCoord_image lat lon angle hs hc
  have hkm := hd.scale
  obtain ⟨b0, b2⟩ := image_le hd.body lat lon
  set im := o.viewer.image (surfacePoint o.body o.prograde lat lon)
  have sc : ∀ t : ℝ, |t| ≤ 3 * o.body.eqRad →
      |t / o.mapKm samples lines| ≤ 3 * o.body.eqRad / o.mapKm samples lines := by
    intro t ht
    rw [abs_div, abs_of_pos hkm]
    exact div_le_div_of_nonneg_right ht hkm.le
  have e : o.drawPoint samples lines lat angle = fun g =>
      if 0 ≤ cround ((o.mapCenter samples lines).1 + im.1 / o.mapKm samples lines) ∧
          cround ((o.mapCenter samples lines).1 + im.1 / o.mapKm samples lines) < samples ∧
          0 ≤ cround ((o.mapCenter samples lines).2 + im.2 / o.mapKm samples lines) ∧
          cround ((o.mapCenter samples lines).2 + im.2 / o.mapKm samples lines) < lines
        then setCell ((cround ((o.mapCenter samples lines).2 +
            im.2 / o.mapKm samples lines)).toNat * samples +
          (cround ((o.mapCenter samples lines).1 + im.1 / o.mapKm samples lines)).toNat) g
        else .ok g := by
    funext g
    simp only [drawPoint, g0, g2, neg_div, sub_neg_eq_add]
    rw [ssizeOf_cround (sc _ b0) hd.column, Outcome.bind_ok, ssizeOf_cround (sc _ b2) hd.row,
      Outcome.bind_ok]
  rw [e]
  refine (writes_point _ _).congr fun j _ => ?_
  simp only [mem_ofPred_eq, NearestPixel, PixelAt, cround_eq_iff]
  constructor
  · rintro ⟨l, hl, q, hq, e1, e2, ej⟩; exact ⟨l, hl, q, hq, ⟨e2, e1⟩, ej⟩
  · rintro ⟨l, hl, q, hq, ⟨e2, e1⟩, ej⟩; exact ⟨l, hl, q, hq, e1, e2, ej⟩

/-- The longitude the latitude loop draws for its counter: it is off by twice the
sub-observer longitude for retrograde bodies. -/
noncomputable def latLongitude (o : Ortho) (lon : ℝ) : ℝ :=
  if o.prograde then lon else lon + 2 * o.subLon

theorem periodic {a b : ℝ} (h : a = b + 2 * π ∨ a = b - 2 * π ∨ a = b) (c : ℝ) :
    sin (a + c) = sin (b + c) ∧ cos (a + c) = cos (b + c) := by
  rcases h with rfl | rfl | rfl
  · rw [show b + 2 * π + c = b + c + 2 * π by ring, sin_add_two_pi, cos_add_two_pi]
    exact ⟨rfl, rfl⟩
  · rw [show b - 2 * π + c = b + c - 2 * π by ring, sin_sub_two_pi, cos_sub_two_pi]
    exact ⟨rfl, rfl⟩
  · exact ⟨rfl, rfl⟩

theorem lonAngle_eq {mm lon : ℝ} (h : mm = lon + 2 * π ∨ mm = lon - 2 * π ∨ mm = lon) :
    sin (o.lonAngle mm) = -sin (eastward o.prograde lon - eastward o.prograde o.subLon) ∧
    cos (o.lonAngle mm) = -cos (eastward o.prograde lon - eastward o.prograde o.subLon) := by
  simp only [lonAngle, eastward]
  obtain ⟨h1, h2⟩ := periodic h (-o.subLon)
  cases o.prograde
  · simp only [Bool.false_eq_true, if_false]
    rw [show mm - (π + o.subLon) = mm + -o.subLon - π by ring, sin_sub_pi, cos_sub_pi, h1, h2,
      sub_eq_add_neg]
    exact ⟨rfl, rfl⟩
  · simp only [if_true]
    rw [show o.subLon + π - mm = -(mm + -o.subLon) + π by ring, sin_add_pi, cos_add_pi, sin_neg,
      cos_neg, h1, h2, show -lon - -o.subLon = -(lon + -o.subLon) by ring, sin_neg, cos_neg]
    exact ⟨rfl, rfl⟩

theorem latAngle_eq {mm lon : ℝ} (h : mm = lon + 2 * π ∨ mm = lon - 2 * π ∨ mm = lon) :
    sin (o.latAngle mm) =
      -sin (eastward o.prograde (o.latLongitude lon) - eastward o.prograde o.subLon) ∧
    cos (o.latAngle mm) =
      -cos (eastward o.prograde (o.latLongitude lon) - eastward o.prograde o.subLon) := by
  simp only [latAngle, eastward, latLongitude]
  cases o.prograde
  · obtain ⟨h1, h2⟩ := periodic h o.subLon
    simp only [Bool.false_eq_true, if_false]
    rw [show mm - (π - o.subLon) = mm + o.subLon - π by ring, sin_sub_pi, cos_sub_pi, h1, h2,
      show lon + 2 * o.subLon - o.subLon = lon + o.subLon by ring]
    exact ⟨rfl, rfl⟩
  · obtain ⟨h1, h2⟩ := periodic h (-o.subLon)
    simp only [if_true]
    rw [show o.subLon + π - mm = -(mm + -o.subLon) + π by ring, sin_add_pi, cos_add_pi, sin_neg,
      cos_neg, h1, h2, show -lon - -o.subLon = -(lon + -o.subLon) by ring, sin_neg, cos_neg]
    exact ⟨rfl, rfl⟩

/-- The counter of a loop is brought between the bounds. -/
def Selected (b : Option (ℝ × ℝ)) (lon : ℝ) : Prop := ∃ b', b = some b' ∧ ∃ lon', wrapTo b' lon = some lon'

/-- The cells that show a point. -/
def cells (o : Ortho) (samples lines : ℕ) (p : Point) : Set ℕ :=
  {j | ∃ l < lines, ∃ q < samples, o.NearestPixel samples lines p l q ∧ j = l * samples + q}

theorem writes_selected {samples lines : ℕ} (hd : o.Drawable samples lines) {lat lon lon' : ℝ}
    {angle : ℝ → ℝ} (b : ℝ × ℝ)
    (ha : ∀ mm, (mm = lon + 2 * π ∨ mm = lon - 2 * π ∨ mm = lon) →
      sin (angle mm) = -sin (eastward o.prograde lon' - eastward o.prograde o.subLon) ∧
      cos (angle mm) = -cos (eastward o.prograde lon' - eastward o.prograde o.subLon)) :
    Writes (samples * lines)
      (match wrapTo b lon with
        | none => .ok
        | some mm => o.drawPoint samples lines lat (angle mm))
      {j | Selected (some b) lon ∧
        j ∈ o.cells samples lines (surfacePoint o.body o.prograde lat lon')} := by
  cases hw : wrapTo b lon with
  | none =>
    refine writes_ok.congr fun j _ => ⟨fun h => h.elim, ?_⟩
    rintro ⟨⟨b', hb', L, hL⟩, -⟩
    cases Option.some.inj hb'
    rw [hw] at hL
    simp at hL
  | some mm =>
    obtain ⟨h1, h2⟩ := ha mm (wrapTo_some hw)
    refine (writes_drawPoint hd h1 h2).congr fun j _ => ?_
    exact ⟨fun h => ⟨⟨b, rfl, mm, hw⟩, h⟩, fun h => h.2⟩

theorem writes_latLine {samples lines : ℕ} (hd : o.Drawable samples lines) (n : ℝ) :
    Writes (samples * lines) (o.drawLatLine samples lines n)
      {j | ∃ t < 2000, Selected (o.latBounds n) (((t : ℕ) : ℝ) / 2000 * degree * 360) ∧
        j ∈ o.cells samples lines (surfacePoint o.body o.prograde (n * degree)
          (o.latLongitude ((t : ℝ) / 2000 * degree * 360)))} := by
  cases hb : o.latBounds n with
  | none =>
    have e : o.drawLatLine samples lines n = .ok := by
      funext g; simp only [drawLatLine, hb]
    rw [e]
    exact writes_ok.congr fun j _ => ⟨fun h => h.elim, fun ⟨t, _, ⟨b, h, _⟩, _⟩ => by simp at h⟩
  | some b =>
    have e : o.drawLatLine samples lines n = drawAll (fun m : ℕ =>
        match wrapTo b ((m : ℝ) / 2000 * degree * 360) with
        | none => .ok
        | some mm => o.drawPoint samples lines (n * degree) (o.latAngle mm))
      (List.range 2000) := by
      funext g
      simp only [drawLatLine, hb]
      rfl
    rw [e]
    refine (writes_drawAll fun t _ => writes_selected hd b fun mm h => latAngle_eq h).congr
      fun j _ => ?_
    simp

theorem writes_lonLine {samples lines : ℕ} (hd : o.Drawable samples lines) (m : ℝ) :
    Writes (samples * lines) (o.drawLonLine samples lines m)
      {j | ∃ t < 1000, Selected (o.gridBounds ((((t : ℕ) : ℝ) / 1000 * 180 - 90) * degree))
          (m * degree) ∧
        j ∈ o.cells samples lines (surfacePoint o.body o.prograde
          (((t : ℝ) / 1000 * 180 - 90) * degree) (m * degree))} := by
  refine (writes_drawAll (S := fun t : ℕ =>
      {j | Selected (o.gridBounds (((t : ℝ) / 1000 * 180 - 90) * degree)) (m * degree) ∧
        j ∈ o.cells samples lines (surfacePoint o.body o.prograde
          (((t : ℝ) / 1000 * 180 - 90) * degree) (m * degree))}) fun t _ => ?_).congr fun j _ => ?_
  · cases hb : o.gridBounds (((t : ℝ) / 1000 * 180 - 90) * degree) with
    | none =>
      exact writes_ok.congr fun j _ => ⟨fun h => h.elim, fun ⟨⟨b, h, _⟩, _⟩ => by simp at h⟩
    | some b => exact writes_selected hd b fun mm h => lonAngle_eq h
  · simp

/-- What the grid shows, with the code's own choice of points. -/
theorem grid_shows {samples lines : ℕ} (hd : o.Drawable samples lines) {latI lonI : ℝ}
    (h1 : 0 < latI) (h2 : 0 < lonI) :
    ∃ g, makeGrid (o.plotGrid samples lines latI lonI) samples lines = .ok g ∧
      g.Shows samples lines fun k i =>
        (∃ n, OrthoLatitude latI n ∧ ∃ t < 2000,
          Selected (o.latBounds n) (((t : ℕ) : ℝ) / 2000 * degree * 360) ∧
          o.NearestPixel samples lines (surfacePoint o.body o.prograde (n * degree)
            (o.latLongitude ((t : ℝ) / 2000 * degree * 360))) k i) ∨
        (∃ m, OrthoLongitude lonI m ∧ ∃ t < 1000,
          Selected (o.gridBounds ((((t : ℕ) : ℝ) / 1000 * 180 - 90) * degree)) (m * degree) ∧
          o.NearestPixel samples lines (surfacePoint o.body o.prograde
            (((t : ℝ) / 1000 * 180 - 90) * degree) (m * degree)) k i) := by
  refine makeGrid_shows hd.size (writes_drawGrid h1 h2 (fun n _ => writes_latLine hd n)
    (fun m _ => writes_lonLine hd m)) fun k hk i hi => ?_
  simp only [mem_ofPred_eq, mem_gridLats h1, mem_gridLons h2, cells]
  constructor
  · rintro (⟨n, hn, t, ht, hs, l, hl, q, hq, e, ej⟩ | ⟨n, hn, t, ht, hs, l, hl, q, hq, e, ej⟩)
    · obtain ⟨rfl, rfl⟩ := cell_unique hi hq ej
      exact .inl ⟨n, hn, t, ht, hs, e⟩
    · obtain ⟨rfl, rfl⟩ := cell_unique hi hq ej
      exact .inr ⟨n, hn, t, ht, hs, e⟩
  · rintro (⟨n, hn, t, ht, hs, e⟩ | ⟨n, hn, t, ht, hs, e⟩)
    · exact .inl ⟨n, hn, t, ht, hs, k, hk, i, hi, e, rfl⟩
    · exact .inr ⟨n, hn, t, ht, hs, k, hk, i, hi, e, rfl⟩

/-! ## Properties -/

/-- **C43** (orthographic).  For maps and bodies of a reasonable size, polar views
included, the grid is made without undefined behaviour; its cells are black or
white, and a white cell is the one nearest to the place where some point of the
body, at a grid latitude or a grid longitude, is on the map. -/
theorem C43_orthographic {samples lines : ℕ} (hd : o.Drawable samples lines) {latI lonI : ℝ}
    (h1 : 0 < latI) (h2 : 0 < lonI) :
    ∃ g, makeGrid (o.plotGrid samples lines latI lonI) samples lines = .ok g ∧
      g.length = samples * lines ∧
      ∀ k < lines, ∀ i < samples, g[k * samples + i]? = some 0 ∨
        (g[k * samples + i]? = some 255 ∧ ∃ lat lon,
          ((∃ n, OrthoLatitude latI n ∧ lat = n * degree) ∨
            ∃ m, OrthoLongitude lonI m ∧ lon = m * degree) ∧
          o.NearestPixel samples lines (surfacePoint o.body o.prograde lat lon) k i) := by
  obtain ⟨g, hg, hlen, hsh⟩ := grid_shows hd h1 h2
  refine ⟨g, hg, hlen, fun k hk i hi => ?_⟩
  obtain ⟨q1, q2⟩ := hsh k hk i hi
  by_cases hW : g[k * samples + i]? = some 0
  · exact .inl hW
  · have hw := not_not.1 fun hn => hW (q2 hn)
    refine .inr ⟨q1 hw, ?_⟩
    rcases hw with ⟨n, hn, t, -, -, e⟩ | ⟨m, hm, t, -, -, e⟩
    · exact ⟨_, _, .inl ⟨n, hn, rfl⟩, e⟩
    · exact ⟨_, _, .inr ⟨m, hm, rfl⟩, e⟩

/-- The pixel nearest to a point of the body is the one whose centre is within one
pixel of where the point is seen. -/
theorem C72_near {samples lines : ℕ} (hkm : 0 < o.mapKm samples lines) {p : Point} {k i : ℕ}
    (h : o.NearestPixel samples lines p k i) :
    |(o.viewer.image p).1 - (o.pixelPosition samples lines i k).1| ≤ o.mapKm samples lines ∧
    |(o.viewer.image p).2 - (o.pixelPosition samples lines i k).2| ≤ o.mapKm samples lines := by
  have key : ∀ (c x : ℝ) (j : ℕ), RoundsTo (c + x / o.mapKm samples lines) j →
      |x - ((j : ℝ) + 1 / 2 - c) * o.mapKm samples lines| ≤ o.mapKm samples lines := by
    intro c x j hr
    obtain ⟨r1, r2⟩ := abs_le.1 hr.1
    push_cast at r1 r2
    have e : x - ((j : ℝ) + 1 / 2 - c) * o.mapKm samples lines =
        (c + x / o.mapKm samples lines - j - 1 / 2) * o.mapKm samples lines := by
      field_simp
      ring
    rw [e, abs_mul, abs_of_pos hkm]
    exact mul_le_of_le_one_left hkm.le (abs_le.2 ⟨by linarith, by linarith⟩)
  exact ⟨key _ _ _ h.1, key _ _ _ h.2⟩

theorem new_normal {body : Spheroid} {prograde : Bool}
    {subLat subLon pa km : ℝ} {center : CenterInput} {o : Ortho}
    (h : Ortho.new body prograde subLat subLon pa km center = .ok o)
    (hpol : ¬ AlmostEqual |subLat| 90 4) :
    o.body = body ∧ o.prograde = prograde ∧ o.polar = false ∧ 0 < cos o.subLat ∧ 0 ≤ o.subLon ∧
      o.subLon < 2 * π := by
  have hview := (C18_viewer h).2.2.1 hpol
  obtain ⟨v, c, hv, -, h1, h2, h3, h4, h5, h6, -⟩ := new_ok h
  obtain ⟨hsub, -, -, ⟨hp, -⟩ | ⟨-, hv'⟩⟩ := makeView_ok hv
  · exact absurd hp hpol
  refine ⟨h1, h2, by rw [h6, hv'], ?_, hview.2.2.2.1, hview.2.2.2.2⟩
  have hd := degree_pos
  have h90 := ninety_lt
  have g1 := mul_le_mul_of_nonneg_right (abs_le.1 hsub).1 hd.le
  have g2 := mul_le_mul_of_nonneg_right (abs_le.1 hsub).2 hd.le
  rw [h3, hv']
  exact cos_pos_of_mem_Ioo ⟨by simp only; linarith, by simp only; linarith⟩

theorem lat_cos_pos {t : ℝ} (h0 : -90 ≤ t) (h1 : t ≤ 90) : 0 < cos (t * degree) := by
  have hd := degree_pos
  have h90 := ninety_lt
  have g1 := mul_le_mul_of_nonneg_right h0 hd.le
  have g2 := mul_le_mul_of_nonneg_right h1 hd.le
  exact cos_pos_of_mem_Ioo ⟨by linarith, by linarith⟩

theorem lon_le {t : ℝ} (h1 : t ≤ 360) : t * degree ≤ 2 * π := by
  have := mul_le_mul_of_nonneg_right h1 degree_pos.le
  linarith [circle_le]

/-- **C72**.  For an observer away from the poles, a pixel of the grid is white
exactly if it is nearest to one of the points of the grid lines that the observer
sees; but for retrograde bodies the circles of latitude are drawn turned about the
body's axis by twice the sub-observer longitude, see `C72_violated`.  Missing:
the retrograde bodies' circles; for polar views see `C72_polar_partial`. -/
theorem C72_lines_partial {body : Spheroid} {prograde : Bool}
    {subLat subLon pa km : ℝ} {center : CenterInput} {o : Ortho}
    (h : Ortho.new body prograde subLat subLon pa km center = .ok o)
    (hpol : ¬ AlmostEqual |subLat| 90 4) (hpol' : ¬ AlmostEqual |o.subLat| (π / 2) 8)
    {samples lines : ℕ} (hd : o.Drawable samples lines) {latI lonI : ℝ}
    (h1 : 0 < latI) (h2 : 0 < lonI) :
    ∃ g, makeGrid (o.plotGrid samples lines latI lonI) samples lines = .ok g ∧
      g.Shows samples lines fun k i =>
        (∃ lat lon, LatitudePoint latI lat lon ∧
          Visible o.viewer body (surfacePoint body prograde lat lon) ∧
          o.NearestPixel samples lines (surfacePoint body prograde lat
            (if prograde then lon else lon + 2 * o.subLon)) k i) ∨
        (∃ lat lon, LongitudePoint lonI lat lon ∧
          Visible o.viewer body (surfacePoint body prograde lat lon) ∧
          o.NearestPixel samples lines (surfacePoint body prograde lat lon) k i) := by
  obtain ⟨rfl, rfl, hp, hc, hS0, hS1⟩ := new_normal h hpol
  obtain ⟨g, hg, hlen, hsh⟩ := grid_shows hd h1 h2
  refine ⟨g, hg, hlen, fun k hk i hi => ?_⟩
  have hdeg := degree_pos
  have vis : ∀ n lon : ℝ, -90 ≤ n → n ≤ 90 → 0 ≤ lon → lon ≤ 360 →
      (Selected (o.gridBounds (n * degree)) (lon * degree) ↔
        Visible o.viewer o.body (surfacePoint o.body o.prograde (n * degree) (lon * degree))) :=
    fun n lon n0 n1 l0 l1 => bounds_visible hd.body hp (lat_cos_pos n0 n1) hc hS0 hS1
      (mul_nonneg l0 hdeg.le) (lon_le l1)
  have hlat : ∀ n, o.latBounds n = o.gridBounds (n * degree) := fun n => by
    rw [latBounds, if_neg fun hh => hpol' hh.2]
  have turn : ∀ t : ℕ, (t : ℝ) / 2000 * degree * 360 = (t : ℝ) / 2000 * 360 * degree := fun t => by
    ring
  have tb : ∀ t : ℕ, t < 2000 → 0 ≤ (t : ℝ) / 2000 * 360 ∧ (t : ℝ) / 2000 * 360 ≤ 360 := by
    intro t ht
    have : (t : ℝ) ≤ 2000 := by exact_mod_cast ht.le
    exact ⟨by positivity, by linarith⟩
  have nb : ∀ t : ℕ, t < 1000 → -90 ≤ (t : ℝ) / 1000 * 180 - 90 ∧ (t : ℝ) / 1000 * 180 - 90 ≤ 90 := by
    intro t ht
    have : (t : ℝ) ≤ 1000 := by exact_mod_cast ht.le
    have h0 : (0 : ℝ) ≤ t := by positivity
    exact ⟨by linarith, by linarith⟩
  have lb : ∀ n, OrthoLatitude latI n → -90 ≤ n ∧ n ≤ 90 := by
    rintro n ⟨j, rfl, hn⟩
    have : (0 : ℝ) ≤ j * latI := by positivity
    exact ⟨by linarith, hn⟩
  have mb : ∀ m, OrthoLongitude lonI m → 0 ≤ m ∧ m ≤ 360 := by
    rintro m ⟨j, -, rfl, hm⟩
    exact ⟨by positivity, hm⟩
  have hiff : ∀ {W W' : Prop} {x : Option UInt8}, (W ↔ W') →
      (W → x = some 255) ∧ (¬ W → x = some 0) → (W' → x = some 255) ∧ (¬ W' → x = some 0) :=
    fun e hh => ⟨fun w => hh.1 (e.2 w), fun w => hh.2 fun w' => w (e.1 w')⟩
  refine hiff (or_congr ?_ ?_) (hsh k hk i hi)
  · constructor
    · rintro ⟨n, hn, t, ht, hs, e⟩
      refine ⟨n * degree, (t : ℝ) / 2000 * degree * 360, ⟨n, hn, t, ht, rfl, rfl⟩, ?_, e⟩
      rw [hlat, turn] at hs
      rw [turn]
      exact (vis _ _ (lb n hn).1 (lb n hn).2 (tb t ht).1 (tb t ht).2).1 hs
    · rintro ⟨_, _, ⟨n, hn, t, ht, rfl, rfl⟩, hv, e⟩
      refine ⟨n, hn, t, ht, ?_, e⟩
      rw [turn] at hv
      rw [hlat, turn]
      exact (vis _ _ (lb n hn).1 (lb n hn).2 (tb t ht).1 (tb t ht).2).2 hv
  · constructor
    · rintro ⟨m, hm, t, ht, hs, e⟩
      exact ⟨_, _, ⟨m, hm, t, ht, rfl, rfl⟩,
        (vis _ _ (nb t ht).1 (nb t ht).2 (mb m hm).1 (mb m hm).2).1 hs, e⟩
    · rintro ⟨_, _, ⟨m, hm, t, ht, rfl, rfl⟩, hv, e⟩
      exact ⟨m, hm, t, ht, (vis _ _ (nb t ht).1 (nb t ht).2 (mb m hm).1 (mb m hm).2).2 hv, e⟩

/-- **C72** (prograde bodies, and retrograde ones seen from above longitude 0).  For
an observer away from the poles, a pixel of the grid is white exactly if it is
nearest to one of the points of the grid lines that the observer sees. -/
theorem C72_prograde {body : Spheroid} {prograde : Bool}
    {subLat subLon pa km : ℝ} {center : CenterInput} {o : Ortho}
    (h : Ortho.new body prograde subLat subLon pa km center = .ok o)
    (hpro : prograde = true ∨ subLon = 0)
    (hpol : ¬ AlmostEqual |subLat| 90 4) (hpol' : ¬ AlmostEqual |o.subLat| (π / 2) 8)
    {samples lines : ℕ} (hd : o.Drawable samples lines) {latI lonI : ℝ}
    (h1 : 0 < latI) (h2 : 0 < lonI) :
    ∃ g, makeGrid (o.plotGrid samples lines latI lonI) samples lines = .ok g ∧
      g.Shows samples lines fun k i =>
        ∃ lat lon, (LatitudePoint latI lat lon ∨ LongitudePoint lonI lat lon) ∧
          Visible o.viewer body (surfacePoint body prograde lat lon) ∧
          o.NearestPixel samples lines (surfacePoint body prograde lat lon) k i := by
  obtain ⟨g, hg, hlen, hsh⟩ := C72_lines_partial h hpol hpol' hd h1 h2
  have hshift : ∀ lon : ℝ, (if prograde then lon else lon + 2 * o.subLon) = lon := by
    intro lon
    cases prograde
    · have h0 : subLon = 0 := by simpa using hpro
      have hv := (C18_viewer h).2.2.1 hpol
      have : o.subLon = 0 := by
        have e1 : o.subLon = subLon * degree ∨ o.subLon = subLon * degree + 2 * π := hv.2.2.1
        have e2 : o.subLon < 2 * π := hv.2.2.2.2
        rw [h0, zero_mul] at e1
        rcases e1 with e | e
        · exact e
        · linarith
      simp [this]
    · simp
  refine ⟨g, hg, hlen, fun k hk i hi => ?_⟩
  obtain ⟨q1, q2⟩ := hsh k hk i hi
  constructor
  · rintro ⟨lat, lon, hL | hL, hv, hn⟩
    · exact q1 (.inl ⟨lat, lon, hL, hv, by rw [hshift]; exact hn⟩)
    · exact q1 (.inr ⟨lat, lon, hL, hv, hn⟩)
  · intro hno
    refine q2 fun hw => hno ?_
    rcases hw with ⟨lat, lon, hL, hv, hn⟩ | ⟨lat, lon, hL, hv, hn⟩
    · rw [hshift] at hn
      exact ⟨lat, lon, .inl hL, hv, hn⟩
    · exact ⟨lat, lon, .inr hL, hv, hn⟩

theorem far_from_pole {x : ℝ} (h0 : 0 ≤ x) (h1 : x ≤ 1 / 2) : ¬ AlmostEqual |x| (π / 2) 8 := by
  have hpi1 := pi_gt_d2
  have hpi2 := pi_lt_d2
  rw [abs_of_nonneg h0, AlmostEqual, not_or, not_lt, not_lt,
    abs_of_nonpos (by linarith : x - π / 2 ≤ 0), abs_of_nonneg (by linarith : 0 ≤ x + π / 2)]
  have e1 : (dblEpsilon : ℝ) ≤ 1 / 2 ^ 20 := by rw [dblEpsilon]; norm_num
  have e2 : (dblMin : ℝ) ≤ 1 := by
    rw [dblMin]; push_cast
    exact div_le_one_of_le₀ (one_le_pow₀ (by norm_num)) (by positivity)
  constructor
  · have : (dblEpsilon : ℝ) * (x + π / 2) ≤ 1 / 2 ^ 20 * 3 :=
      mul_le_mul e1 (by linarith) (by linarith) (by norm_num)
    push_cast
    norm_num at this ⊢
    linarith
  · linarith

theorem ortho_example (body : Spheroid) (prograde : Bool) {subLat subLon : ℝ} (h0 : 0 ≤ subLat)
    (h1 : subLat ≤ 20) (h2 : 0 ≤ subLon) (h3 : subLon ≤ 360) :
    Ortho.new body prograde subLat subLon 0 1 .default =
      .ok ⟨body, prograde, subLat * degree, subLon * degree, 0 * degree, some 1, .unset, false⟩ := by
  rw [Ortho.new, makeView_normal prograde h0 (by linarith) h2 h3 le_rfl (by norm_num),
    Outcome.bind_ok]
  simp [makeCenter]

/-- The hypotheses are met by an oblate body seen from 20 degrees latitude and 45
degrees longitude. -/
example (prograde : Bool) : ∃ o : Ortho,
    Ortho.new ⟨10, 9⟩ prograde 20 45 0 1 .default = .ok o ∧ ¬ AlmostEqual |(20 : ℝ)| 90 4 ∧
    ¬ AlmostEqual |o.subLat| (π / 2) 8 ∧ o.Drawable 40 40 ∧ LatitudePoint 10 (30 * degree) 0 ∧
    LongitudePoint 10 0 (50 * degree) := by
  have hd := degree_pos
  have hd2 : degree < (0.0174533 : ℝ) := by rw [degree, degreeQ]; norm_num
  refine ⟨_, ortho_example _ _ (by norm_num) (by norm_num) (by norm_num) (by norm_num),
    not_polar (by norm_num) (by norm_num), far_from_pole (by simp only; linarith)
    (by simp only; linarith), ⟨⟨by norm_num, by norm_num⟩, by simp [mapKm], by norm_num, ?_, ?_⟩,
    ⟨30, ⟨12, by norm_num, by norm_num⟩, 0, by norm_num, rfl, by norm_num⟩,
    ⟨50, ⟨5, by norm_num, by norm_num, by norm_num⟩, 500, by norm_num, by norm_num, rfl⟩⟩
  · simp [mapKm, mapCenter]; norm_num
  · simp [mapKm, mapCenter]; norm_num

/-- **C72** is violated by retrograde bodies.  Seen from above the equator at
longitude 45 degrees, the point of the equator at longitude 0, which is one of the
points of a grid line and visible, is not drawn. -/
theorem C72_violated : ∃ (o : Ortho) (g : Grid),
    Ortho.new ⟨10, 10⟩ false 0 45 0 1 .default = .ok o ∧
    makeGrid (o.plotGrid 40 40 90 400) 40 40 = .ok g ∧
    LatitudePoint 90 0 0 ∧
    Visible o.viewer ⟨10, 10⟩ (surfacePoint ⟨10, 10⟩ false 0 0) ∧
    o.NearestPixel 40 40 (surfacePoint ⟨10, 10⟩ false 0 0) 20 13 ∧
    g[20 * 40 + 13]? = some 0 := by
  have hb : Spheroid.Valid ⟨10, 10⟩ := ⟨by norm_num, by norm_num⟩
  have hd := degree_pos
  have hd1 : (0.0174532 : ℝ) < degree := by rw [degree, degreeQ]; norm_num
  have hd2 : degree < (0.0174533 : ℝ) := by rw [degree, degreeQ]; norm_num
  have hpi1 := pi_gt_d6
  have hpi2 := pi_lt_d6
  have hnew := ortho_example ⟨10, 10⟩ false (subLat := 0) (subLon := 45) le_rfl (by norm_num)
    (by norm_num) (by norm_num)
  set o : Ortho := ⟨⟨10, 10⟩, false, 0 * degree, 45 * degree, 0 * degree, some 1, .unset, false⟩
    with ho
  have hdraw : o.Drawable 40 40 := by
    refine ⟨hb, by simp [mapKm, ho], by norm_num, ?_, ?_⟩
    · simp [mapKm, mapCenter, ho]; norm_num
    · simp [mapKm, mapCenter, ho]; norm_num
  have hpol := not_polar (d := 0) le_rfl (by norm_num)
  have hr : ∀ t, o.body.centricRadius t = 10 := fun t => Spheroid.C34_sphere hb rfl t
  have him : ∀ lat lon, o.viewer.image (surfacePoint o.body o.prograde lat lon) =
      (10 * cos lat * sin (lon - 45 * degree), 10 * sin lat) := by
    intro lat lon
    rw [Viewer.image, surface_east, surface_north, hr]
    simp [viewer, eastward, ho]
  have hnear : ∀ lat lon k i, o.NearestPixel 40 40 (surfacePoint o.body o.prograde lat lon) k i ↔
      RoundsTo (20 + 10 * cos lat * sin (lon - 45 * degree)) i ∧
      RoundsTo (20 + 10 * sin lat) k := by
    intro lat lon k i
    rw [NearestPixel, PixelAt, him]
    simp only [mapCenter, mapKm, ho]
    norm_num
  have hS := sin_bound (x := 45 * degree) (by rw [abs_of_pos (by linarith)]; linarith)
  rw [abs_of_pos (by linarith : 0 < 45 * degree)] at hS
  have hx1 : (0.78539 : ℝ) < 45 * degree := by linarith
  have hx2 : 45 * degree < (0.7854 : ℝ) := by linarith
  have p5 : (45 * degree) ^ 5 ≤ 0.7854 ^ 5 := pow_le_pow_left₀ (by linarith) hx2.le 5
  have p3 : (45 * degree) ^ 3 ≤ 0.7854 ^ 3 := pow_le_pow_left₀ (by linarith) hx2.le 3
  have p3' : 0.78539 ^ 3 ≤ (45 * degree) ^ 3 := pow_le_pow_left₀ (by norm_num) hx1.le 3
  have hs1 : (0.66 : ℝ) < sin (45 * degree) := by
    have := (abs_le.1 hS).1; norm_num at p5 p3 p3'; linarith
  have hs2 : sin (45 * degree) < (0.74 : ℝ) := by
    have := (abs_le.1 hS).2; norm_num at p5 p3 p3'; linarith
  have hlatP : LatitudePoint 90 0 0 :=
    ⟨0, ⟨1, by norm_num, by norm_num⟩, 0, by norm_num, by norm_num, by norm_num⟩
  have hvisible : ∀ L, Visible o.viewer o.body (surfacePoint o.body o.prograde 0 L) ↔
      0 ≤ cos (45 * degree - L) := by
    intro L
    rw [C70_visible hb (surfacePoint o.body o.prograde 0 L) (Spheroid.C34_surface hb _ _).1,
      facing hb _ _ (by simp) (by simp [ho])]
    simp only [tan_zero, mul_zero, zero_mul, neg_zero]
    rfl
  have hvis : Visible o.viewer o.body (surfacePoint o.body o.prograde 0 0) := by
    rw [hvisible, sub_zero]
    exact (cos_pos_of_mem_Ioo ⟨by linarith, by linarith⟩).le
  obtain ⟨g, hg, hlen, hsh⟩ := C72_lines_partial hnew hpol
    (far_from_pole (by simp [ho]) (by simp [ho])) hdraw (latI := 90) (lonI := 400)
    (by norm_num) (by norm_num)
  refine ⟨o, g, hnew, hg, hlatP, hvis, (hnear 0 0 20 13).2 ?_, (hsh 20 (by norm_num) 13
    (by norm_num)).2 ?_⟩
  · rw [cos_zero, sin_zero, zero_sub, sin_neg]
    refine ⟨⟨abs_le.2 ⟨by push_cast; linarith, by push_cast; linarith⟩, fun e => ?_⟩, ?_⟩
    · exfalso
      have := abs_eq (by norm_num : (0 : ℝ) ≤ 1 / 2) |>.1 e
      push_cast at this
      rcases this with e | e <;> linarith
    · rw [RoundsTo]; norm_num
  · rintro (⟨_, _, ⟨n, ⟨j, hn, hj⟩, t, ht, rfl, rfl⟩, hv, hp⟩ | ⟨_, _, ⟨m, ⟨j, hj, hm, hm'⟩, -⟩, -⟩)
    · obtain ⟨r1, r2⟩ := (hnear _ _ _ _).1 hp
      have hj2 : j ≤ 2 := by
        have : (j : ℝ) ≤ 2 := by linarith
        exact_mod_cast this
      have h90 : 1 / 2 ≤ sin (90 * degree) := by
        rw [← sin_pi_div_six]
        exact sin_le_sin_of_le_of_le_pi_div_two (by linarith) (by linarith [ninety_lt])
          (by linarith)
      have hrow := abs_le.1 r2.1
      push_cast at hrow
      obtain rfl | rfl | rfl : j = 0 ∨ j = 1 ∨ j = 2 := by omega
      · rw [show n = -90 by rw [hn]; norm_num, show -90 * degree = -(90 * degree) by ring,
          sin_neg] at hrow
        linarith [hrow.1]
      · rw [show n = 0 by rw [hn]; norm_num, zero_mul] at hv r1
        have hcol := abs_le.1 r1.1
        push_cast at hcol
        set L := (t : ℝ) / 2000 * degree * 360 with hL
        replace hv := (hvisible L).1 hv
        -- the angle drawn is a right angle away from the visible one
        have e : sin (L + 2 * o.subLon - 45 * degree) =
            cos (45 * degree - L + (π / 2 - 90 * degree)) := by
          rw [← sin_pi_div_two_sub]
          congr 1
          simp only [ho]
          ring
        rw [e, cos_zero, cos_add] at hcol
        have g0 : 0 ≤ π / 2 - 90 * degree := by linarith [ninety_lt]
        have g1 : π / 2 - 90 * degree ≤ 0.00002 := by linarith
        have c0 : 0 ≤ cos (π / 2 - 90 * degree) :=
          (cos_pos_of_mem_Ioo ⟨by linarith, by linarith⟩).le
        have s0 : 0 ≤ sin (π / 2 - 90 * degree) :=
          sin_nonneg_of_nonneg_of_le_pi g0 (by linarith)
        have s1 : sin (π / 2 - 90 * degree) ≤ 0.00002 := (sin_le g0).trans g1
        have m1 := mul_nonneg hv c0
        have m2 : sin (45 * degree - L) * sin (π / 2 - 90 * degree) ≤ 0.00002 := by
          calc sin (45 * degree - L) * sin (π / 2 - 90 * degree)
              ≤ 1 * sin (π / 2 - 90 * degree) := mul_le_mul_of_nonneg_right (sin_le_one _) s0
            _ ≤ 0.00002 := by linarith
        linarith [hcol.2]
      · rw [show n = 90 by rw [hn]; norm_num] at hrow
        linarith [hrow.2]
    · have : (1 : ℝ) ≤ j := by exact_mod_cast hj
      linarith

end MaRC.Projection.Ortho
