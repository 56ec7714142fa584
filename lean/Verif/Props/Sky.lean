import Verif.Model.Sky
import Verif.Props.Pipeline
import Verif.Props.PhotoClauses

/-!
# C100: which pixels sky removal takes for the body
-/

namespace MaRC

open Real Geo Geometry Matrix Spheroid

/-! ## With the pixel coordinates of the body center -/

theorem Camera.pixel_vector (c : Camera) (center : ℝ × ℝ) (hc : ViewInput.Consistent c center)
    (sample line : ℝ) :
    vecSub (vecScale (matVec c.observ2body (vec3 (sample - center.1) 0 (center.2 - line))) c.km)
      c.rangeB = c.km • c.ray sample line := by
  have hkm := hc.km_pos
  have hf := hc.focal
  have e1 : ∀ v : Vec ℝ 3, vecScale v c.km = c.km • v := by
    intro v; funext i; simp [vecScale, mul_comm]
  rw [e1, ← Camera.matVec_scale, Camera.vecSub_eq, ← hc.aligned, ← Camera.matVec_sub, Camera.ray,
    ← Camera.matVec_scale]
  congr 1
  funext i
  fin_cases i
  · simp [vec3]; ring
  · simp [vec3]; linarith
  · simp [vec3]; ring

theorem Camera.ray_ne_zero (c : Camera) (center : ℝ × ℝ) (hc : ViewInput.Consistent c center)
    (sample line : ℝ) : c.ray sample line ≠ 0 := by
  intro h
  have h1 := (hc.rotation.apply_transpose (vec3 (sample - c.oaS) c.focalPixels (c.oaL - line))).2
  have h2 : matVec c.observ2body (vec3 (sample - c.oaS) c.focalPixels (c.oaL - line)) = 0 := h
  rw [h2] at h1
  have h3 := congrFun h1 1
  simp [matVec, sumLoop_three, vec3] at h3
  have := hc.focal
  rw [← h3, zero_mul] at this
  linarith [hc.normal_pos]

/-- The observer is outside the body. -/
theorem Camera.outside (c : Camera) (center : ℝ × ℝ) (hc : ViewInput.Consistent c center)
    (hs : c.body.Valid) (hn : c.body.eqRad < c.normalRange) :
    1 < level c.body.eqRad c.body.polRad c.rangeB := by
  have h1 : matVec c.body2observ c.rangeB 1 = -c.normalRange := by
    rw [← hc.aligned, hc.inverse, (hc.rotation.apply_transpose _).2]
    rfl
  have hrow : matVec c.body2observ c.rangeB 1 = (fun j => c.body2observ 1 j) ⬝ᵥ c.rangeB := by
    rw [dot3]; simp only [matVec, sumLoop_three]
  have hunit : (fun j => c.body2observ 1 j) ⬝ᵥ (fun j => c.body2observ 1 j) = 1 := by
    have := congrFun (congrFun hc.rotation.left 1) 1
    rw [hc.inverse, dot3]
    simp only [matMul, transpose, sumLoop_three, identity, if_true] at this
    simpa [transpose] using this
  have hcs := cauchy (fun j => c.body2observ 1 j) c.rangeB
  rw [← hrow, hunit, h1, one_mul, dot3] at hcs
  have hp := hs.pol_pos
  have he := hs.eq_pos
  have hle : c.body.polRad ≤ c.body.eqRad := hs.2
  have hz : (c.rangeB 2 / c.body.eqRad) ^ 2 ≤ (c.rangeB 2 / c.body.polRad) ^ 2 := by
    rw [div_pow, div_pow]
    gcongr
  have hlev : (c.rangeB 0 / c.body.eqRad) ^ 2 + (c.rangeB 1 / c.body.eqRad) ^ 2 +
      (c.rangeB 2 / c.body.eqRad) ^ 2 ≤ level c.body.eqRad c.body.polRad c.rangeB := by
    rw [level]; linarith
  refine lt_of_lt_of_le ?_ hlev
  rw [div_pow, div_pow, div_pow, ← add_div, ← add_div, one_lt_div (by positivity)]
  nlinarith

/-- **C100** (body).  Given the pixel coordinates of the body center, a position in
the photo is taken for the body exactly if the ray through it enters the body. -/
theorem C100_body_partial (c : Camera) (center : ℝ × ℝ) (hc : ViewInput.Consistent c center)
    (hs : c.body.Valid) (hn : c.body.eqRad < c.normalRange) (hid : c.imageToObject = id)
    (sample line : ℝ) :
    (∃ p, c.pix2latlon center sample line = .ok (some p)) ↔
      ∃ k : ℝ, 0 < k ∧ level c.body.eqRad c.body.polRad (c.rangeB + k • c.ray sample line) < 1 := by
  have hkm := hc.km_pos
  have hr := c.ray_ne_zero center hc sample line
  have hd : c.km • c.ray sample line ≠ 0 := smul_ne_zero hkm.ne' hr
  have hpix : (∃ p, c.pix2latlon center sample line = .ok (some p)) ↔
      ∃ lat lon, c.body.ellipseIntersection c.rangeB (c.km • c.ray sample line) =
        .ok (.found lat lon) := by
    rw [Camera.pix2latlon]
    simp only [hid, id, Camera.pixel_vector c center hc]
    cases h : c.body.ellipseIntersection c.rangeB (c.km • c.ray sample line) with
    | ok x => cases x <;> simp
    | throw e => simp
    | ub => simp
  rw [hpix]
  constructor
  · intro h
    obtain ⟨k₁, k₂, hlt, hsum, h1, h2⟩ := (C37_found_iff hs _ _ hd).1 h
    obtain ⟨x₁, x₂, hle, -, hfac⟩ := exists_roots hs c.rangeB _ hd k₁ h1
    have hon := on_iff (level_pos hs _ hd) hfac
    have hx : k₁ = x₁ ∧ k₂ = x₂ := by
      rcases (hon k₁).1 h1 with e1 | e1 <;> rcases (hon k₂).1 h2 with e2 | e2
      · linarith
      · exact ⟨e1, e2⟩
      · linarith
      · linarith
    refine ⟨(k₁ + k₂) / 2 * c.km, by positivity, ?_⟩
    have := hfac ((k₁ + k₂) / 2)
    rw [smul_smul, ← hx.1, ← hx.2] at this
    have hneg : level c.body.eqRad c.body.polRad (c.km • c.ray sample line) *
        ((k₁ + k₂) / 2 - k₁) * ((k₁ + k₂) / 2 - k₂) < 0 := by
      have h3 := level_pos hs _ hd
      have h4 := mul_pos h3 (mul_pos (sub_pos.2 hlt) (sub_pos.2 hlt))
      have e : level c.body.eqRad c.body.polRad (c.km • c.ray sample line) *
        ((k₁ + k₂) / 2 - k₁) * ((k₁ + k₂) / 2 - k₂) =
        -(level c.body.eqRad c.body.polRad (c.km • c.ray sample line) *
          ((k₂ - k₁) * (k₂ - k₁))) / 4 := by ring
      rw [e]
      linarith
    linarith
  · rintro ⟨k, hk, hl⟩
    obtain ⟨lat, lon, -, h, -⟩ := C37_nearer hs c.rangeB (c.km • c.ray sample line)
      (c.outside center hc hs hn) (k / c.km) (by positivity) (by
        rw [smul_smul, div_mul_cancel₀ _ hkm.ne']
        exact hl)
    exact ⟨lat, lon, h⟩

/-- **C100** (sky).  It is taken for the sky exactly if the ray does not meet the
surface. -/
theorem C100_sky_partial (c : Camera) (center : ℝ × ℝ) (hc : ViewInput.Consistent c center)
    (hs : c.body.Valid) (hid : c.imageToObject = id) (sample line : ℝ) :
    c.pix2latlon center sample line = .ok none ↔
      ∀ k : ℝ, ¬ OnSpheroid c.body.eqRad c.body.polRad (c.rangeB + k • c.ray sample line) := by
  have hkm := hc.km_pos
  have hd : c.km • c.ray sample line ≠ 0 :=
    smul_ne_zero hkm.ne' (c.ray_ne_zero center hc sample line)
  have hpix : c.pix2latlon center sample line = .ok none ↔
      c.body.ellipseIntersection c.rangeB (c.km • c.ray sample line) = .ok .none := by
    rw [Camera.pix2latlon]
    simp only [hid, id, Camera.pixel_vector c center hc]
    cases h : c.body.ellipseIntersection c.rangeB (c.km • c.ray sample line) with
    | ok x => cases x <;> simp
    | throw e => simp
    | ub => simp
  rw [hpix, C37_miss hs]
  constructor
  · rintro ⟨-, h⟩ k hk
    apply h (k / c.km)
    rw [smul_smul, div_mul_cancel₀ _ hkm.ne']
    exact hk
  · intro h
    refine ⟨hd, fun k => ?_⟩
    rw [smul_smul]
    exact h _

/-- Non-vacuity: a camera for these theorems. -/
example : ∃ (c : Camera) (center : ℝ × ℝ), ViewInput.Consistent c center ∧ c.body.Valid ∧
    c.body.eqRad < c.normalRange ∧ c.imageToObject = id := by
  obtain ⟨c, h1, h2, h3, -, -, h4, -⟩ := Camera.C40_instance true
  exact ⟨c, _, h1, h2, h3, h4⟩

/-! ## With the latitude and longitude at the optical axis -/

open Sky _root_.MaRC.Parser

theorem add_nan (F : Fp) (x : Dbl) : F.add x .nan = .nan ∧ F.add .nan x = .nan := by
  cases x <;> exact ⟨rfl, rfl⟩

theorem mul_nan (F : Fp) (x : Dbl) : F.mul x .nan = .nan ∧ F.mul .nan x = .nan := by
  cases x <;> exact ⟨rfl, rfl⟩

theorem sub_nan (F : Fp) (x : Dbl) : F.sub x .nan = .nan ∧ F.sub .nan x = .nan :=
  ⟨(add_nan F x).1, (add_nan F x.neg).2⟩

theorem div_nan (F : Fp) (x : Dbl) : F.div x .nan = .nan ∧ F.div .nan x = .nan := by
  cases x <;> exact ⟨rfl, rfl⟩

/-- Lens corrections keep coordinates that are not numbers. -/
theorem gll_nan (F : Fp) (hypot : Dbl → Dbl → Dbl) (radius : Dbl → Dbl) (summation : Bool) :
    gllLens F hypot radius summation (.nan, .nan) = (.nan, .nan) := by
  cases summation <;>
    simp [gllLens, add_nan, mul_nan, sub_nan, div_nan]

theorem pixel_nan (F : Fp) (sqrt : Dbl → Dbl) (asserts : Bool) (v : View)
    (hs : v.sampleCenter = .nan) (hl : v.lineCenter = .nan)
    (hlens : v.lens (.nan, .nan) = (.nan, .nan)) (sample line : Dbl) :
    v.pix2latlon F sqrt asserts sample line = if asserts then .ub else .ok true := by
  cases asserts <;>
    simp [View.pix2latlon, hs, hl, hlens, sub_nan, add_nan, mul_nan, div_nan, toImage, rowProduct,
      Sky.ellipseIntersection, addTerm, Sky.quadraticRoots, Dbl.le, Dbl.lt, Dbl.neg]

theorem collect_same {α : Type} (x : α) (l : List (Outcome α)) (h : ∀ y ∈ l, y = .ok x) :
    collect l = .ok (List.replicate l.length x) := by
  induction l with
  | nil => rfl
  | cons y ys ih =>
    rw [collect, h y (List.mem_cons_self ..), ih fun z hz => h z (List.mem_cons_of_mem _ hz)]
    rfl

theorem collect_ok {α : Type} (l : List (Outcome α)) (as : List α) (h : collect l = .ok as) :
    l = as.map .ok := by
  induction l generalizing as with
  | nil => simp [collect] at h; simp [← h]
  | cons x xs ih =>
    simp only [collect, bind_eq_ok] at h
    obtain ⟨a, rfl, bs, hbs, h⟩ := h
    simp only [Outcome.ok.injEq] at h
    rw [← h, ih bs hbs, List.map_cons]

theorem rows_get {α : Type} (f : ℕ → ℕ → α) (samples lines i k : ℕ) (hi : i < samples)
    (hk : k < lines) :
    ((List.range lines).flatMap fun k => (List.range samples).map fun i => f i k)[k * samples + i]? =
      some (f i k) := by
  induction lines with
  | zero => omega
  | succ n ih =>
    have hlen : ((List.range n).flatMap fun k => (List.range samples).map fun i => f i k).length =
        n * samples := by simp [List.length_flatMap]
    rw [List.range_succ, List.flatMap_append]
    rcases Nat.lt_succ_iff_lt_or_eq.1 hk with h | h
    · rw [List.getElem?_append_left, ih h]
      rw [hlen]
      calc k * samples + i < (k + 1) * samples := by rw [Nat.succ_mul]; omega
        _ ≤ n * samples := Nat.mul_le_mul_right _ h
    · subst h
      rw [List.getElem?_append_right (by rw [hlen]; omega), hlen, Nat.add_sub_cancel_left]
      simp [hi]

/-- **C100** (places in the mask).  The mask has an entry for every pixel, row by row
from the first line: what the camera says about that pixel. -/
theorem C100_mask (F : Fp) (sqrt : Dbl → Dbl) (asserts : Bool) (v : View) (samples lines : ℕ)
    (mask : List Bool) (h : v.bodyMask F sqrt asserts samples lines = .ok mask) :
    mask.length = lines * samples ∧ ∀ i k : ℕ, i < samples → k < lines →
      ∃ b, mask[k * samples + i]? = some b ∧
        v.pix2latlon F sqrt asserts (F.rnd i) (F.rnd k) = .ok b := by
  have hl := collect_ok _ _ h
  constructor
  · have := congrArg List.length hl
    simpa [List.length_flatMap] using this.symm
  · intro i k hi hk
    have := rows_get (fun i k => v.pix2latlon F sqrt asserts (F.rnd (i : ℕ)) (F.rnd (k : ℕ)))
      samples lines i k hi hk
    rw [hl, List.getElem?_map, Option.map_eq_some_iff] at this
    obtain ⟨b, h1, h2⟩ := this
    exact ⟨b, h1, h2.symm⟩

/-- Non-vacuity: the mask of a photo with a body in its second pixel. -/
example :
    let v : View := ⟨.fin 1, .fin 1, .fin 1, .fin 0, ((.fin 1, .fin 0, .fin 0),
      (.fin 0, .fin 1, .fin 0), (.fin 0, .fin 0, .fin 1)), .fin 5, (.fin 0, .fin (-10), .fin 0), id⟩
    v.bodyMask .exact (fun _ => .fin 20) true 3 2 = .ok [false, true, false, false, false, false] := by
  decide +kernel

/-- The lens corrections there are: none and that of Galileo images. -/
def LensCorrection (F : Fp) (lens : Dbl × Dbl → Dbl × Dbl) : Prop :=
  lens = id ∨ ∃ hypot radius summation, lens = gllLens F hypot radius summation

/-- **C100** fails for photos with the latitude and longitude at the optical axis.
Whatever the rest of the photo and its viewing geometry: with assertions the program
stops at the first pixel, and without them all pixels are taken for the body. -/
theorem C100_axis_violated {cos : Dbl → Dbl} {d : Nibbles} {g g' : PhotoVars}
    (h : PhotoReachable cos d g) (eqRad polRad : Dbl) (p : PhotoSrc) (c : PhotoCmd)
    (lat lon : Dbl) (hp : p.Scanned) (hcenter : p.center = .latLon lat lon)
    (hnum : lat ≠ .nan ∧ lon ≠ .nan)
    (hlens : ∀ f s, p.scale = .lens f s → (Dbl.fin 0).lt f = true ∧ (Dbl.fin 0).lt s = true)
    (hi : images cos eqRad polRad [p] g = .ok (some (g', [c])))
    (F : Fp) (sqrt : Dbl → Dbl) (v : View) (hs : v.sampleCenter = c.view.sampleCenter)
    (hl : v.lineCenter = c.view.lineCenter) (hv : LensCorrection F v.lens) (samples lines : ℕ)
    (hpos : 0 < samples ∧ 0 < lines) :
    v.bodyMask F sqrt true samples lines = .ub ∧
      v.bodyMask F sqrt false samples lines = .ok (List.replicate (lines * samples) true) := by
  have hc := C80_options_partial h eqRad polRad [p] [c] (by simpa using hp) (by simpa using hlens)
    (by
      intro q hq x y hxy
      obtain rfl : q = p := by simpa using hq
      rw [hcenter] at hxy
      rcases hxy with hxy | hxy
      · simp at hxy
      · simp only [CenterClause.latLon.injEq] at hxy
        rw [← hxy.1, ← hxy.2]
        exact hnum) hi
  simp only [List.map_cons, List.map_nil, List.cons.injEq, and_true] at hc
  have hs' : v.sampleCenter = .nan := by
    rw [hs, hc]
    simp [PhotoSrc.wanted, PhotoSrc.view, hcenter]
  have hl' : v.lineCenter = .nan := by
    rw [hl, hc]
    simp [PhotoSrc.wanted, PhotoSrc.view, hcenter]
  have hn : v.lens (.nan, .nan) = (.nan, .nan) := by
    rcases hv with e | ⟨f, r, b, e⟩
    · rw [e]; rfl
    · rw [e]; exact gll_nan F f r b
  constructor
  · obtain ⟨m, rfl⟩ := Nat.exists_eq_succ_of_ne_zero hpos.1.ne'
    obtain ⟨n, rfl⟩ := Nat.exists_eq_succ_of_ne_zero hpos.2.ne'
    simp only [View.bodyMask, List.range_succ_eq_map, List.flatMap_cons, List.map_cons,
      List.cons_append, collect, pixel_nan F sqrt true v hs' hl' hn]
    rfl
  · rw [View.bodyMask, collect_same true]
    · congr 2
      simp [List.length_flatMap]
    · intro y hy
      simp only [List.mem_flatMap, List.mem_map] at hy
      obtain ⟨k, -, i, -, rfl⟩ := hy
      rw [pixel_nan F sqrt false v hs' hl' hn]
      rfl

/-- Non-vacuity: such a photo is accepted. -/
example : ∃ g' c, images (fun x => x) (.fin 71492) (.fin 66854) [samplePhoto] .start =
      .ok (some (g', [c])) ∧ samplePhoto.Scanned ∧
      samplePhoto.center = .latLon (.fin 10) (.fin 200) ∧ samplePhoto.removeSky = none := by
  obtain ⟨g1, c1, h1⟩ := C80_accepts (cos := fun x => x) (d := PhotoVars.start.ppNibble)
    .start (by simp) (by simp) samplePhoto_valid
  refine ⟨g1, c1, ?_, by simp [PhotoSrc.Scanned, samplePhoto, NibbleClause.numbers], rfl, rfl⟩
  have h2 : imageSetup (fun x => x) (.fin 71492) (.fin 66854) samplePhoto .start =
    .ok (some (g1, c1)) := h1
  simp only [images, h2, Outcome.bind_ok]

/-- In contrast, with a given center and exact arithmetic, a pixel is taken for the sky
exactly if the line through it does not meet the body. -/
theorem C100_exact_partial (sqrt : Dbl → Dbl) (asserts : Bool) (eqRad polRad km sc lc : ℚ)
    (m : Fin 3 → Fin 3 → ℚ) (r : Fin 3 → ℚ) (hp : 0 < polRad) (hle : polRad ≤ eqRad)
    (sample line : ℚ)
    (d : Point) (hd : d = fun i => ((m i 0 * (sample - sc) + m i 2 * (lc - line)) * km - r i : ℝ))
    (hne : d ≠ 0) :
    let v : View := ⟨.fin eqRad, .fin polRad, .fin sc, .fin lc,
      ((.fin (m 0 0), .fin (m 0 1), .fin (m 0 2)), (.fin (m 1 0), .fin (m 1 1), .fin (m 1 2)),
        (.fin (m 2 0), .fin (m 2 1), .fin (m 2 2))), .fin km, (.fin (r 0), .fin (r 1), .fin (r 2)), id⟩
    v.pix2latlon .exact sqrt asserts (.fin sample) (.fin line) = .ok false ↔
      ∀ k : ℝ, ¬ OnSpheroid eqRad polRad ((fun i => (r i : ℝ)) + k • d) := by
  intro v
  have he : eqRad ≠ 0 := (lt_of_lt_of_le hp hle).ne'
  let s : Spheroid := ⟨eqRad, polRad⟩
  have hs : s.Valid := ⟨(by exact_mod_cast hp : (0 : ℝ) < polRad),
    (by exact_mod_cast hle : (polRad : ℝ) ≤ eqRad)⟩
  have hmiss := C37_miss hs (fun i => (r i : ℝ)) d
  have hlev := level_pos hs d hne
  have hcoef := coefficients_eq s (fun i => (r i : ℝ)) d
  let D : Fin 3 → ℚ := fun i => (m i 0 * (sample - sc) + m i 2 * (lc - line)) * km - r i
  have hD : ∀ i, d i = D i := by
    intro i; rw [hd]; push_cast [D]; ring
  set A : ℚ := 0 + D 0 / eqRad * (D 0 / eqRad) + D 1 / eqRad * (D 1 / eqRad) +
    D 2 / polRad * (D 2 / polRad) with hA
  set B : ℚ := 0 + 2 * (D 0 / eqRad) * (r 0 / eqRad) + 2 * (D 1 / eqRad) * (r 1 / eqRad) +
    2 * (D 2 / polRad) * (r 2 / polRad) with hB
  set C : ℚ := -1 + r 0 / eqRad * (r 0 / eqRad) + r 1 / eqRad * (r 1 / eqRad) +
    r 2 / polRad * (r 2 / polRad) with hC
  have hA' : (s.coefficients (fun i => (r i : ℝ)) d).1 = A := by
    rw [hcoef]; simp only [level, hD, s, hA]; push_cast; ring
  have hB' : (s.coefficients (fun i => (r i : ℝ)) d).2.1 = B := by
    rw [hcoef]; simp only [hD, s, hB]; push_cast; ring
  have hC' : (s.coefficients (fun i => (r i : ℝ)) d).2.2 = C := by
    rw [hcoef]; simp only [level, s, hC]; push_cast; ring
  have hApos : 0 < A := by
    have : (0 : ℝ) < A := by rw [← hA', hcoef]; exact hlev
    exact_mod_cast this
  have hreal : s.ellipseIntersection (fun i => (r i : ℝ)) d = .ok .none ↔ B * B - 4 * A * C < 0 := by
    rw [Spheroid.ellipseIntersection, hA', hB', hC', if_neg (by exact_mod_cast hApos.not_ge),
      MaRC.quadraticRoots]
    have hcast : ((B : ℝ) * B - 4 * A * C < 0) ↔ B * B - 4 * A * C < 0 := by
      exact_mod_cast Iff.rfl
    by_cases hlt : B * B - 4 * A * C < 0
    · rw [if_pos (hcast.2 hlt)]; simp [hlt]
    · rw [if_neg fun h => hlt (hcast.1 h)]
      simp only [hlt, iff_false]
      split <;> simp_all
      split_ifs <;> simp [locate]
  have hdvec : ∀ i, toImage .exact (.fin km) (.fin (m i 0), .fin (m i 1), .fin (m i 2))
      (.fin (sample + -sc), .fin 0, .fin (lc + -line)) (.fin (r i)) = .fin (D i) := by
    intro i
    simp only [toImage, rowProduct, Fp.sub, Fp.add, Fp.mul, Fp.exact, Dbl.neg, D, Dbl.fin.injEq]
    ring
  have hsum : addTerm .exact (.fin polRad) (.fin (r 2)) (.fin (D 2))
      (addTerm .exact (.fin eqRad) (.fin (r 1)) (.fin (D 1))
        (addTerm .exact (.fin eqRad) (.fin (r 0)) (.fin (D 0)) (.fin 0, .fin 0, .fin (-1)))) =
      (.fin A, .fin B, .fin C) := by
    simp only [addTerm, Fp.div, Fp.add, Fp.mul, Fp.exact, if_neg he, if_neg hp.ne', hA, hB, hC]
  have hon : (∀ k : ℝ, ¬ OnSpheroid eqRad polRad ((fun i => (r i : ℝ)) + k • d)) ↔
      B * B - 4 * A * C < 0 := by
    rw [← hreal, hmiss]
    simp [hne, s]
  rw [hon]
  have hobj : v.lens (Fp.exact.sub (.fin sample) v.sampleCenter,
      Fp.exact.sub v.lineCenter (.fin line)) = (.fin (sample + -sc), .fin (lc + -line)) := by
    simp [v, Fp.sub, Fp.add, Fp.exact, Dbl.neg]
  have hdisc : Fp.exact.sub (Fp.exact.mul (.fin B) (.fin B))
      (Fp.exact.mul (Fp.exact.mul (.fin 4) (.fin A)) (.fin C)) = .fin (B * B - 4 * A * C) := by
    simp only [Fp.sub, Fp.add, Fp.mul, Fp.exact, Dbl.neg, Dbl.fin.injEq]
    ring
  have hnotle : Dbl.le (.fin A) (.fin 0) = false := by simp [Dbl.le, hApos]
  simp only [View.pix2latlon, hobj]
  simp only [v, hdvec, Sky.ellipseIntersection, hsum, hnotle, Bool.false_eq_true, if_false,
    Sky.quadraticRoots, hdisc]
  by_cases hlt : B * B - 4 * A * C < 0
  · have : Dbl.lt (.fin (B * B - 4 * A * C)) (.fin 0) = true := by simpa [Dbl.lt] using hlt
    simp only [this, if_true]
    simp [hlt]
  · have : Dbl.lt (.fin (B * B - 4 * A * C)) (.fin 0) = false := by simpa [Dbl.lt] using hlt
    simp only [this, Bool.false_eq_true, if_false, hlt, iff_false]
    split
    · rename_i h
      split at h
      · simp at h
      · simp only [Outcome.ok.injEq] at h
        simp [← h]
    · simp
    · simp

/-- Non-vacuity, for a unit sphere seen from 10 km: the pixel of its center is taken for
the body, one five samples away for the sky. -/
example :
    let v : View := ⟨.fin 1, .fin 1, .fin 5, .fin 5, ((.fin 1, .fin 0, .fin 0),
      (.fin 0, .fin 1, .fin 0), (.fin 0, .fin 0, .fin 1)), .fin 1, (.fin 0, .fin (-10), .fin 0), id⟩
    v.pix2latlon .exact (fun _ => .fin 20) true (.fin 5) (.fin 5) = .ok true ∧
      v.pix2latlon .exact (fun _ => .fin 20) true (.fin 10) (.fin 5) = .ok false := by
  decide +kernel

/-- **C80** fails for photos without `REMOVE_SKY`: the manual says that sky removal is
then enabled, and it is not. -/
theorem C80_sky_default_violated {cos : Dbl → Dbl} {g g' : PhotoVars} (eqRad polRad : Dbl)
    (p : PhotoSrc) (c : PhotoCmd) (hr : p.removeSky = none)
    (hi : imageSetup cos eqRad polRad p g = .ok (some (g', c))) : c.removeSky = false := by
  simp only [imageSetup] at hi
  split at hi
  · simp at hi
  · simp only [bind_eq_ok] at hi
    obtain ⟨v₁, -, v₂, -, v₃, -, hi⟩ := hi
    split at hi
    · simp at hi
    · simp only [bind_eq_ok] at hi
      obtain ⟨⟨g₁, v⟩, -, hi⟩ := hi
      simp only [Outcome.ok.injEq, Option.some.injEq, Prod.mk.injEq] at hi
      rw [← hi.2]
      simp [hr]

end MaRC
