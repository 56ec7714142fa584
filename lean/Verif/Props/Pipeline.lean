import Verif.Model.Pipeline
import Verif.Props.MapFactory
import Verif.Props.PhotoImage
import Verif.Props.Visibility
import Verif.Props.Projection

/-!
# C82: from the photo to the cells of the map
-/

namespace MaRC

open Real

/-! ## Specification -/

/-- A camera takes a picture of the surface point at a latitude and longitude at
a position of the photo: the point is turned to the observer (and to the sun, if
asked for), and the ray of that position passes through it. -/
def Camera.Pictures (c : Camera) (limit lat lon sample line : ℝ) : Prop :=
  c.emissionAngle lat lon < limit ∧
  (c.useTerminator = true → c.incidenceAngle lat lon < π / 2) ∧
  ∃ k : ℝ, 0 < k ∧ c.coord lat lon = c.rangeB + k • c.ray sample line

/-- The pixels of a photo that are used: not nibbled off, and on the body if the
sky is removed. -/
def Photo.Used (samples lines : ℕ) (q : Photo.Params) (onBody : ℕ → ℕ → Prop) (i k : ℕ) : Prop :=
  q.nibbleLeft ≤ i ∧ i + q.nibbleRight < samples ∧
  q.nibbleTop ≤ k ∧ k + q.nibbleBottom < lines ∧ (q.removeSky = true → onBody i k)

/-- The camera finds a surface point at the corner of a pixel. -/
def Camera.OnBody (c : Camera) (center : ℝ × ℝ) (i k : ℕ) : Prop :=
  ∃ p, c.pix2latlon center i k = .ok (some p)

/-- All that a map of a photo depends on.  `rnd` rounds the coordinates of the
pictures the camera takes with an error of at most `ε`. -/
structure PhotoMap (T : MapType) (c : Camera) (center : ℝ × ℝ) (limit ε : ℝ) (rnd : ℝ → Dbl)
    (image : List Dbl) (samples lines : ℕ) (q : Photo.Params) (p : Photo.Img (ℝ × ℝ))
    (plots : List Projection.Plot) (minmax : Extrema) : Prop where
  type : T ≠ .i64
  consistent : ViewInput.Consistent c center
  body : c.body.Valid
  distance : c.body.eqRad < c.normalRange
  no_lens : c.objectToImage = id
  limit_nonneg : 0 ≤ limit
  limit_le : limit ≤ π / 2
  limit_eq : c.muLimit = cos limit
  rounding : ∀ lat lon sample line, c.latlon2pix lat lon = some (sample, line) →
    (∃ a : ℚ, rnd sample = .fin a ∧ |(a : ℝ) - sample| ≤ ε) ∧
    ∃ b : ℚ, rnd line = .fin b ∧ |(b : ℝ) - line| ≤ ε
  photo : Photo.Built image samples lines q (c.photoGeometry center rnd) p
  no_interpolation : q.interpolate = Bilinear.null
  no_correction : q.correct = Photo.nullCorrect
  once : (plots.map Prod.snd).Nodup
  latitudes : ∀ lat lon o, ((lat, lon), o) ∈ plots → lat ∈ Set.Ioo (-(π / 2)) (π / 2)
  range : IsRange T minmax

/-! ## Theorems -/

private theorem latlon2pix_true {c : Camera} {center : ℝ × ℝ} {rnd : ℝ → Dbl} {lat lon : ℝ}
    {x z : Dbl} (h : (c.photoGeometry center rnd).latlon2pix (lat, lon) = (true, x, z)) :
    ∃ sample line, c.latlon2pix lat lon = some (sample, line) ∧ rnd sample = x ∧ rnd line = z := by
  simp only [Camera.photoGeometry] at h
  split at h
  · rename_i s l heq
    simp only [Prod.mk.injEq, true_and] at h
    exact ⟨s, l, heq, h⟩
  · simp at h

private theorem onBody_iff {c : Camera} {center : ℝ × ℝ} {rnd : ℝ → Dbl} {i k : ℕ} :
    (c.photoGeometry center rnd).onBody i k = true ↔ c.OnBody center i k := by
  simp only [Camera.photoGeometry, Camera.OnBody]
  split
  · rename_i heq; simp [heq]
  · rename_i hne
    simp only [Bool.false_eq_true, false_iff, not_exists]
    exact fun p hp => hne p hp

private theorem focal_pos {c : Camera} {center : ℝ × ℝ} (h : ViewInput.Consistent c center) :
    0 < c.focalPixels := by
  have h1 := h.focal
  have h2 := h.normal_pos
  rw [← h1] at h2
  exact (mul_pos_iff_of_pos_right h.km_pos).1 h2

/-- **C82** (what a cell shows).  Every cell of the map is blank or shows the
value of a photo pixel that is used, within the limits of the map and converted
to its type.  That pixel contains, but for the rounding of coordinates, the
position at which the camera takes a picture of the surface point the projection
puts into the cell. -/
theorem C82_shown {T : MapType} {c : Camera} {center : ℝ × ℝ} {limit ε : ℝ} {rnd : ℝ → Dbl}
    {image : List Dbl} {samples lines : ℕ} {q : Photo.Params} {p : Photo.Img (ℝ × ℝ)}
    {plots : List Projection.Plot} {minmax : Extrema}
    (h : PhotoMap T c center limit ε rnd image samples lines q p plots minmax)
    {info info' : PlotInfo} {map : List Dbl}
    (hmap : MapFactory.makeMap T (fun _ _ => plots) (Photo.read p) minmax info = .ok (map, info'))
    (o : ℕ) (ho : o < map.length) :
    map[o]? = some (if T.isIntegral then .fin (info.blank.getD 0) else .nan) ∨
    ∃ lat lon sample line, ((lat, lon), o) ∈ plots ∧ c.Pictures limit lat lon sample line ∧
      ∃ (i k : ℕ) (d v : Dbl), (i - ε ≤ sample ∧ sample < i + 1 + ε) ∧ (k - ε ≤ line ∧ line < k + 1 + ε) ∧
        Photo.Used samples lines q (c.OnBody center) i k ∧
        image[k * samples + i]? = some d ∧
        (lowLimit T minmax).le d = true ∧ d.le (highLimit T minmax) = true ∧
        T.cast d = .ok v ∧ map[o]? = some v := by
  obtain ⟨h1, h2⟩ := MapFactory.C06_cells_each_visited_once T h.type (fun _ _ => plots)
    (Photo.read p) minmax h.range info info' map h.once hmap
  by_cases hex : ∃ loc v, (loc, o) ∈ plots ∧
      Stores T (lowLimit T minmax) (highLimit T minmax) (Photo.read p) loc v
  · obtain ⟨⟨lat, lon⟩, v, hpl, hst⟩ := hex
    have hcell := h1 _ _ _ hpl hst
    obtain ⟨d, hread, hlo, hhi, hcast⟩ := hst
    obtain ⟨a, b, i, k, hg, ha, ha', hb, hb', his, hkl, himg⟩ :=
      Photo.C25_datum h.photo h.no_interpolation h.no_correction hread
    have hused : Photo.Used samples lines q (c.OnBody center) i k := by
      have hr := hread
      unfold Photo.read at hr
      cases hw : Photo.readWeighted p (lat, lon) (.fin 0) (.fin 1) false with
      | throw e => rw [hw] at hr; cases hr
      | ub => rw [hw] at hr; cases hr
      | ok r =>
        obtain ⟨f, d', w⟩ := r
        rw [hw] at hr
        simp only [Outcome.bind_ok, Outcome.ok.injEq, Prod.mk.injEq] at hr
        obtain ⟨rfl, rfl⟩ := hr
        obtain ⟨a2, b2, i2, k2, hg2, q1, q2, q3, q4, n1, n2, n3, n4, n5, -⟩ :=
          Photo.C25_successful_read h.photo hw
        rw [hg] at hg2
        simp only [Prod.mk.injEq, Dbl.fin.injEq, true_and] at hg2
        obtain ⟨rfl, rfl⟩ := hg2
        have hi : i = i2 := by
          have h3 : (i : ℚ) < i2 + 1 := lt_of_le_of_lt ha q2
          have h4 : (i2 : ℚ) < i + 1 := lt_of_le_of_lt q1 ha'
          have h3 : i < i2 + 1 := by exact_mod_cast h3
          have h4 : i2 < i + 1 := by exact_mod_cast h4
          omega
        have hk : k = k2 := by
          have h3 : (k : ℚ) < k2 + 1 := lt_of_le_of_lt hb q4
          have h4 : (k2 : ℚ) < k + 1 := lt_of_le_of_lt q3 hb'
          have h3 : k < k2 + 1 := by exact_mod_cast h3
          have h4 : k2 < k + 1 := by exact_mod_cast h4
          omega
        subst hi hk
        exact ⟨n1, n2, n3, n4, fun hr => onBody_iff.1 (n5 hr)⟩
    obtain ⟨sample, line, hpix, hx, hz⟩ := latlon2pix_true hg
    obtain ⟨⟨a1, ea, hea⟩, b1, eb, heb⟩ := h.rounding _ _ _ _ hpix
    rw [hx] at ea
    rw [hz] at eb
    simp only [Dbl.fin.injEq] at ea eb
    subst ea eb
    have hvis : c.isVisible lat lon = true := by
      rw [← Camera.C40_success, hpix]; rfl
    obtain ⟨hem, hin⟩ := (Camera.C39_visible c h.body limit lat lon (h.latitudes _ _ _ hpl)
      h.limit_nonneg h.limit_le h.limit_eq).1 hvis
    obtain ⟨hray, -⟩ := Camera.C40_perspective c h.consistent.rotation h.consistent.inverse
      h.no_lens lat lon sample line
      (Camera.front c center h.consistent h.body h.distance lat lon)
      (focal_pos h.consistent) hpix
    have ha : (i : ℝ) ≤ a := by exact_mod_cast ha
    have ha' : (a : ℝ) < i + 1 := by exact_mod_cast ha'
    have hb : (k : ℝ) ≤ b := by exact_mod_cast hb
    have hb' : (b : ℝ) < k + 1 := by exact_mod_cast hb'
    rw [abs_le] at hea heb
    exact .inr ⟨lat, lon, sample, line, hpl, ⟨hem, hin, hray⟩, i, k, d, v,
      ⟨by linarith, by linarith⟩, ⟨by linarith, by linarith⟩, hused, himg, hlo, hhi, hcast, hcell⟩
  · exact .inl (h2 o ho fun loc hl v hv => hex ⟨loc, v, hl, hv⟩)

/-- **C82** (nothing is left out).  If the camera takes a picture of the surface
point of a cell well inside a pixel that is used, and the pixel's value is
within the limits of the map, then the cell shows that value. -/
theorem C82_complete {T : MapType} {c : Camera} {center : ℝ × ℝ} {limit ε : ℝ} {rnd : ℝ → Dbl}
    {image : List Dbl} {samples lines : ℕ} {q : Photo.Params} {p : Photo.Img (ℝ × ℝ)}
    {plots : List Projection.Plot} {minmax : Extrema}
    (h : PhotoMap T c center limit ε rnd image samples lines q p plots minmax)
    {info info' : PlotInfo} {map : List Dbl}
    (hmap : MapFactory.makeMap T (fun _ _ => plots) (Photo.read p) minmax info = .ok (map, info'))
    {lat lon : ℝ} {o : ℕ} (hpl : ((lat, lon), o) ∈ plots) {sample line : ℝ}
    (hpic : c.Pictures limit lat lon sample line) {i k : ℕ}
    (hi : i + ε ≤ sample ∧ sample + ε < i + 1) (hk : k + ε ≤ line ∧ line + ε < k + 1)
    (hused : Photo.Used samples lines q (c.OnBody center) i k) {d : Dbl}
    (himg : image[k * samples + i]? = some d)
    (hlo : (lowLimit T minmax).le d = true) (hhi : d.le (highLimit T minmax) = true) :
    ∃ v, T.cast d = .ok v ∧ map[o]? = some v := by
  obtain ⟨h1, -⟩ := MapFactory.C06_cells_each_visited_once T h.type (fun _ _ => plots)
    (Photo.read p) minmax h.range info info' map h.once hmap
  obtain ⟨hem, hin, m, hm, hray⟩ := hpic
  have hvis := (Camera.C39_visible c h.body limit lat lon (h.latitudes _ _ _ hpl)
    h.limit_nonneg h.limit_le h.limit_eq).2 ⟨hem, hin⟩
  have hsome : (c.latlon2pix lat lon).isSome = true := by rw [Camera.C40_success, hvis]
  obtain ⟨⟨x, z⟩, hpix⟩ := Option.isSome_iff_exists.1 hsome
  obtain ⟨-, huniq⟩ := Camera.C40_perspective c h.consistent.rotation h.consistent.inverse
    h.no_lens lat lon x z (Camera.front c center h.consistent h.body h.distance lat lon)
    (focal_pos h.consistent) hpix
  obtain ⟨rfl, rfl⟩ := huniq sample line m hray
  obtain ⟨⟨a, ea, hea⟩, b, eb, heb⟩ := h.rounding _ _ _ _ hpix
  rw [abs_le] at hea heb
  have hg : (c.photoGeometry center rnd).latlon2pix (lat, lon) = (true, .fin a, .fin b) := by
    simp only [Camera.photoGeometry, hpix, ea, eb]
  have hdn : d ≠ .nan := by
    rintro rfl
    cases hl : lowLimit T minmax <;> rw [hl] at hlo <;> simp [Dbl.le] at hlo
  obtain ⟨n1, n2, n3, n4, n5⟩ := hused
  have ha : (i : ℝ) ≤ a := by linarith
  have ha' : (a : ℝ) < i + 1 := by linarith
  have hb : (k : ℝ) ≤ b := by linarith
  have hb' : (b : ℝ) < k + 1 := by linarith
  have hread : Photo.read p (lat, lon) (.fin 0) = .ok (true, d) :=
    Photo.C25_readable h.photo h.no_interpolation h.no_correction (by simp) hg
      (by exact_mod_cast ha) (by exact_mod_cast ha') (by exact_mod_cast hb)
      (by exact_mod_cast hb') n1 n2 n3 n4 (fun hr => onBody_iff.2 (n5 hr)) himg hdn
  obtain ⟨v, hv⟩ := MapFactory.cast_in_limits (MapFactory.isValue_lowLimit h.range)
    (MapFactory.isValue_highLimit h.range) hlo hhi
  exact ⟨v, hv, h1 _ _ _ hpl ⟨d, hread, hlo, hhi, hv⟩⟩

/-- The camera's pictures of the body lie within a distance of the optical axis
that depends on how large and how far away the body is. -/
theorem Camera.picture_bound (c : Camera) (center : ℝ × ℝ) (hc : ViewInput.Consistent c center)
    (hs : c.body.Valid) (hn : c.body.eqRad < c.normalRange) (hid : c.objectToImage = id)
    {lat lon sample line : ℝ} (h : c.latlon2pix lat lon = some (sample, line)) :
    |sample - c.oaS| ≤ (c.body.eqRad + |c.oaS - center.1| * c.km) /
      (c.normalRange - c.body.eqRad) * c.focalPixels ∧
    |line - c.oaL| ≤ (c.body.eqRad + |center.2 - c.oaL| * c.km) /
      (c.normalRange - c.body.eqRad) * c.focalPixels := by
  have hf := focal_pos hc
  have hk := hc.km_pos
  have hd := Camera.depth c center hc hs lat lon
  have hgap : 0 < c.normalRange - c.body.eqRad := by linarith
  have key : ∀ x m o : ℝ, |m| ≤ c.body.eqRad → x = m - o * c.km →
      |x / c.seen lat lon 1 * c.focalPixels| ≤
        (c.body.eqRad + |o| * c.km) / (c.normalRange - c.body.eqRad) * c.focalPixels := by
    intro x m o hm hx
    rw [abs_mul, abs_div, abs_of_pos hf, abs_of_pos (hgap.trans_le hd)]
    refine mul_le_mul_of_nonneg_right ?_ hf.le
    refine div_le_div₀ (by have := mul_nonneg (abs_nonneg o) hk.le; linarith [abs_nonneg m]) ?_ hgap hd
    rw [hx]
    refine (abs_sub _ _).trans ?_
    rw [abs_mul, abs_of_pos hk]
    linarith
  rw [Camera.latlon2pix] at h
  split at h
  · simp only [hid, id, Option.some.injEq, Prod.mk.injEq] at h
    obtain ⟨rfl, rfl⟩ := h
    have e0 := Camera.seen_eq c center hc lat lon 0
    have e2 := Camera.seen_eq c center hc lat lon 2
    simp only [vec3, Matrix.cons_val] at e0 e2
    constructor
    · rw [add_sub_cancel_right]
      exact key _ _ _ (Camera.extent c center hc hs lat lon 0) e0
    · rw [sub_sub_cancel_left, abs_neg]
      exact key _ _ _ (Camera.extent c center hc hs lat lon 2) e2
  · simp at h

private theorem castSize_no_throw (x : Dbl) (e : Exc) : castSize x ≠ .throw e := by
  unfold castSize castInt
  cases x <;> simp
  split <;> simp

private theorem arrayAt_no_throw {α : Type} (l : List α) (i : ℕ) (e : Exc) :
    arrayAt l i ≠ .throw e := by
  unfold arrayAt
  split <;> simp

private theorem bind_no_throw {α β : Type} {x : Outcome α} {f : α → Outcome β} {e : Exc}
    (hx : x ≠ .throw e) (hf : ∀ a, f a ≠ .throw e) : (x >>= f) ≠ .throw e := by
  cases x with
  | ok a => exact hf a
  | throw e' => exact fun h => hx (by injection h with h; rw [h])
  | ub => exact fun h => by cases h

private theorem read_total {T : MapType} {c : Camera} {center : ℝ × ℝ} {limit ε : ℝ}
    {rnd : ℝ → Dbl} {image : List Dbl} {samples lines : ℕ} {q : Photo.Params}
    {p : Photo.Img (ℝ × ℝ)} {plots : List Projection.Plot} {minmax : Extrema}
    (h : PhotoMap T c center limit ε rnd image samples lines q p plots minmax)
    (hg : (c.photoGeometry center rnd).Bounded) (loc : ℝ × ℝ) (d : Dbl) :
    ∃ r, Photo.read p loc d = .ok r := by
  have h1 := Photo.C24_no_out_of_bounds h.photo (.inl h.no_interpolation)
    (by rw [h.no_correction]; intro d; simp [Photo.nullCorrect]) hg loc d (.fin 1) false
  have h2 : ∀ e, Photo.readWeighted p loc d (.fin 1) false ≠ .throw e := by
    intro e
    have hq : p.config = q := by rw [h.photo.facts.1]
    unfold Photo.readWeighted
    rw [hq, h.no_interpolation, h.no_correction]
    simp only [Photo.nullCorrect, Bilinear.null]
    split
    · simp
    · refine bind_no_throw (castSize_no_throw _ _) fun i => bind_no_throw (castSize_no_throw _ _) fun k => ?_
      split
      · simp
      · refine bind_no_throw ?_ fun sky => ?_
        · split
          · simp
          · exact bind_no_throw (arrayAt_no_throw _ _ _) fun _ => by simp
        · split
          · simp
          · refine bind_no_throw (arrayAt_no_throw _ _ _) fun v => ?_
            simp only [Outcome.bind_ok]
            split <;> simp
            split <;> simp
  unfold Photo.read
  cases hr : Photo.readWeighted p loc d (.fin 1) false with
  | ok r => exact ⟨_, rfl⟩
  | throw e => exact absurd hr (h2 e)
  | ub => exact absurd hr h1

/-- **C82** (the map is made).  Making the map does not fail and has no undefined
behaviour, provided that the pictures the camera takes do not lie more than
about 2⁶⁴ pixels off, the limits are in order, the blank value fits, and the
projection stays within the map. -/
theorem C82_made {T : MapType} {c : Camera} {center : ℝ × ℝ} {limit ε : ℝ} {rnd : ℝ → Dbl}
    {image : List Dbl} {samples lines : ℕ} {q : Photo.Params} {p : Photo.Img (ℝ × ℝ)}
    {plots : List Projection.Plot} {minmax : Extrema}
    (h : PhotoMap T c center limit ε rnd image samples lines q p plots minmax)
    (hsample : c.oaS + (c.body.eqRad + |c.oaS - center.1| * c.km) /
      (c.normalRange - c.body.eqRad) * c.focalPixels + ε < 2 ^ 64)
    (hline : c.oaL + (c.body.eqRad + |center.2 - c.oaL| * c.km) /
      (c.normalRange - c.body.eqRad) * c.focalPixels + ε < 2 ^ 64)
    {info : PlotInfo} (hc : info.notifier.count = 0) (hpos : 0 < info.samples * info.lines)
    (hmem : info.samples * info.lines < 2 ^ 64)
    (hoff : ∀ loc o, (loc, o) ∈ plots → o < info.samples * info.lines)
    (hord : (lowLimit T minmax).le (highLimit T minmax) = true)
    (hblank : ∀ b, T.isIntegral = true → info.blank = some b →
      T.intRange.1 ≤ b ∧ b ≤ T.intRange.2) :
    ∃ map info', MapFactory.makeMap T (fun _ _ => plots) (Photo.read p) minmax info =
      .ok (map, info') := by
  have hg : (c.photoGeometry center rnd).Bounded := by
    rintro ⟨lat, lon⟩ x z hx
    obtain ⟨s, l, hpix, rfl, rfl⟩ := latlon2pix_true hx
    obtain ⟨⟨a, ea, hea⟩, b, eb, heb⟩ := h.rounding _ _ _ _ hpix
    obtain ⟨b1, b2⟩ := Camera.picture_bound c center h.consistent h.body h.distance h.no_lens hpix
    rw [abs_le] at hea heb b1 b2
    have ha : (a : ℝ) < 2 ^ 64 := by linarith
    have hb : (b : ℝ) < 2 ^ 64 := by linarith
    exact ⟨a, b, ea, eb, by exact_mod_cast ha, by exact_mod_cast hb⟩
  have hsz : szMul info.samples info.lines = info.samples * info.lines :=
    Nat.mod_eq_of_lt hmem
  have hlen : plots.length ≤ info.samples * info.lines := by
    have h1 : plots.map Prod.snd ⊆ List.range (info.samples * info.lines) := by
      intro o ho
      obtain ⟨⟨loc, o'⟩, hm, rfl⟩ := List.mem_map.1 ho
      exact List.mem_range.2 (hoff _ _ hm)
    have := (h.once.subperm h1).length_le
    simpa using this
  obtain ⟨⟨m, i⟩, hr⟩ := MapFactory.C06_no_failure T h.type (fun _ _ => plots) (Photo.read p)
    (fun loc => read_total h hg loc _) minmax h.range hord info hc (by rw [hsz]; exact hpos)
    (by rw [hsz]; exact fun x hx => hoff x.1 x.2 hx) (by rw [hsz]; exact hlen) hblank
  exact ⟨m, i, hr⟩

/-- A byte map of three cells made from a photo of 21 by 17 pixels: its middle
cell shows the sub-observer point, pictured in the middle of a pixel away from the
optical axis. -/
example : ∃ (c : Camera) (p : Photo.Img (ℝ × ℝ)) (plots : List Projection.Plot)
    (rnd : ℝ → Dbl) (map : List Dbl) (info' : PlotInfo),
    (⟨⟨1, 1⟩, true, -(π / 4), π / 4, 0, π, false⟩ : Projection.Cylindrical).plotMap 3 1 =
      .ok plots ∧
    PhotoMap .u8 c (15 / 2, 9 / 2) (π / 2) (1 / 1024) rnd (List.replicate 357 (.fin 7)) 21 17
      (Photo.demoParams false) p plots ⟨none, none⟩ ∧
    MapFactory.makeMap .u8 (fun _ _ => plots) (Photo.read p) ⟨none, none⟩
      ⟨3, 1, ⟨none, none⟩, some 200, ⟨0, []⟩⟩ = .ok (map, info') ∧
    map[1]? = some (.fin 7) := by
  obtain ⟨c, hcons, hbody, hdist, -, hlens, -, hmu, hvis, -, hlat, hlon, hterm, hb, hrange, hs, hl,
    hkm, hnr⟩ := Camera.C40_instance true
  let rnd : ℝ → Dbl := fun x => .fin (⌊x * 1024⌋ / 1024)
  obtain ⟨plots, hplots, hsnd, hlats, hmid⟩ : ∃ plots,
      (⟨⟨1, 1⟩, true, -(π / 4), π / 4, 0, π, false⟩ : Projection.Cylindrical).plotMap 3 1 =
        .ok plots ∧ plots.map Prod.snd = List.range 3 ∧
      (∀ lat lon o, ((lat, lon), o) ∈ plots → lat ∈ Set.Ioo (-(π / 2)) (π / 2)) ∧
      ((0, π / 2), 1) ∈ plots := by
    refine ⟨_, Projection.cylindrical_plots _ 3 1, Projection.map_snd _ _, ?_, ?_⟩
    · intro lat lon o ho
      obtain ⟨o', ho', he⟩ := List.mem_map.1 ho
      simp only [Prod.mk.injEq] at he
      obtain ⟨⟨rfl, -⟩, rfl⟩ := he
      have h0 : o' / 3 = 0 := by
        have := List.mem_range.1 ho'
        omega
      rw [h0]
      norm_num [Projection.Cylindrical.latitude, Projection.Cylindrical.rawLatitude]
      constructor <;> linarith [pi_pos]
    · refine List.mem_map.2 ⟨1, by simp, ?_⟩
      norm_num [Projection.Cylindrical.latitude, Projection.Cylindrical.rawLatitude,
        Projection.Cylindrical.longitude]
      constructor <;> ring
  obtain ⟨image, himage⟩ : ∃ image, image = List.replicate 357 (Dbl.fin 7) := ⟨_, rfl⟩
  have hlength : image.length = 357 := by rw [himage, List.length_replicate]
  rw [← himage]
  have hrnd : ∀ x, ∃ a : ℚ, rnd x = .fin a ∧ |(a : ℝ) - x| ≤ 1 / 1024 := by
    intro x
    refine ⟨_, rfl, ?_⟩
    have h1 := Int.floor_le (x * 1024)
    have h2 := Int.lt_floor_add_one (x * 1024)
    push_cast
    rw [abs_le]
    constructor <;> linarith
  obtain ⟨p, hp⟩ : ∃ p, Photo.new image 21 17 (some (Photo.demoParams false))
      (some (c.photoGeometry (15 / 2, 9 / 2) rnd)) = .ok p := by
    simp [Photo.new, Photo.demoParams, Photo.Params.validate, hlength, szMul, szSub,
      szMod, Outcome.bind_ok]
  have hpm : PhotoMap .u8 c (15 / 2, 9 / 2) (π / 2) (1 / 1024) rnd image 21 17
      (Photo.demoParams false) p plots ⟨none, none⟩ :=
    ⟨by simp, hcons, hbody, hdist, hlens, by positivity, le_rfl, by rw [hmu, cos_pi_div_two],
      fun _ _ s l _ => ⟨hrnd s, hrnd l⟩,
      ⟨hp, by norm_num, by simp [Photo.demoParams], by simp [Photo.demoParams]⟩, rfl, rfl,
      by rw [hsnd]; exact List.nodup_range, hlats, by simp [IsRange]⟩
  have hfocal : c.focalPixels = 12 := by
    have := hcons.focal
    rwa [hkm, hnr, mul_one] at this
  obtain ⟨map, info', hmap⟩ := C82_made hpm
    (by rw [hs, hb, hkm, hnr, hfocal]; norm_num) (by rw [hl, hb, hkm, hnr, hfocal]; norm_num)
    (info := ⟨3, 1, ⟨none, none⟩, some 200, ⟨0, []⟩⟩) rfl (by norm_num) (by norm_num)
    (by
      intro loc o ho
      have : o ∈ plots.map Prod.snd := List.mem_map_of_mem ho
      rw [hsnd] at this
      exact List.mem_range.1 this)
    (by decide +kernel) (by simp [MapType.intRange])
  refine ⟨c, p, plots, rnd, map, info', hplots, hpm, hmap, ?_⟩
  have hcoord : c.coord 0 (π / 2) = (1 / 13 : ℝ) • c.rangeB := by
    rw [hcons.range_eq]
    funext i
    have hrel : c.relativeLon (π / 2) = 0 := by simp [Camera.relativeLon, hlon]
    have hrad : c.body.centricRadius 0 = 1 := by
      rw [Spheroid.C34_sphere hbody (by rw [hb]), hb]
    fin_cases i <;>
      simp [Camera.coord, ViewInput.rangeB, vec3, hrel, hlat, hrad, hrange]
  have hpix : c.latlon2pix 0 (π / 2) = some (15 / 2, 9 / 2) := by
    have hm : ∀ i, matVec c.body2observ (c.coord 0 (π / 2)) i =
        1 / 13 * vec3 ((c.oaS - 15 / 2) * c.km) (-c.normalRange) ((9 / 2 - c.oaL) * c.km) i := by
      intro i
      have h1 : matVec c.body2observ c.rangeB = vec3 ((c.oaS - 15 / 2) * c.km) (-c.normalRange)
          ((9 / 2 - c.oaL) * c.km) := by
        rw [← hcons.aligned, hcons.inverse, (hcons.rotation.apply_transpose _).2]
      rw [hcoord, ← h1]
      simp only [matVec, sumLoop_three, Pi.smul_apply, smul_eq_mul]
      ring
    rw [Camera.latlon2pix, if_pos hvis, hlens]
    have e0 := Camera.seen_eq c _ hcons 0 (π / 2) 0
    have e1 := Camera.seen_eq c _ hcons 0 (π / 2) 1
    have e2 := Camera.seen_eq c _ hcons 0 (π / 2) 2
    rw [hm, hs, hl, hkm, hnr] at e0 e1 e2
    simp only [vec3, Matrix.cons_val] at e0 e1 e2
    simp only [id, e0, e1, e2, hfocal, hs, hl]
    norm_num
  have hpic : c.Pictures (π / 2) 0 (π / 2) (15 / 2) (9 / 2) := by
    obtain ⟨h1, h2⟩ := (Camera.C39_visible c hbody (π / 2) 0 (π / 2)
      ⟨by linarith [pi_pos], by linarith [pi_pos]⟩ (by positivity) le_rfl
      (by rw [hmu, cos_pi_div_two])).1 hvis
    exact ⟨h1, h2, (Camera.C40_perspective c hcons.rotation hcons.inverse hlens _ _ _ _
      (Camera.front c _ hcons hbody hdist _ _) (focal_pos hcons) hpix).1⟩
  obtain ⟨v, hv, hcell⟩ := C82_complete hpm hmap hmid hpic (i := 7) (k := 4) (d := .fin 7)
    (by norm_num) (by norm_num) (by simp [Photo.Used, Photo.demoParams])
    (by rw [himage, List.getElem?_replicate]; rfl) (by decide +kernel) (by decide +kernel)
  have : MapType.u8.cast (.fin 7) = .ok (.fin 7) := by decide +kernel
  rw [this] at hv
  injection hv with hv
  rw [hcell, ← hv]

end MaRC
