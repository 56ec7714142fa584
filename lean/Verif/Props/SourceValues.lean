import Verif.Props.Sources
import Verif.Props.Factories
import Verif.Props.PhotoImage

/-!
# C85: maps that take data type and blank value from their photo
-/

namespace MaRC.Source

open MapParams Execute MapFactory MapCommand Utility

variable {C : Type}

/-! ## Specification -/

/-- The camera sees the surface point `pt` in the photo's pixel of sample `i` and line
`k`, and the pixel is used: it is not nibbled off, and on the body if the sky is
removed. -/
def SeenIn (g : Photo.Geometry C) (q : Photo.Params) (samples lines : ℕ) (pt : C) (i k : ℕ) :
    Prop :=
  (∃ a b : ℚ, g.latlon2pix pt = (true, .fin a, .fin b) ∧
    (i : ℚ) ≤ a ∧ a < i + 1 ∧ (k : ℚ) ≤ b ∧ b < k + 1) ∧
  q.nibbleLeft ≤ i ∧ i + q.nibbleRight < samples ∧
  q.nibbleTop ≤ k ∧ k + q.nibbleBottom < lines ∧ (q.removeSky = true → g.onBody i k = true)

/-- The element of the file's array for the pixel of sample `i` and line `k`, after the
inversions. -/
def PhotoFile.element (f : PhotoFile) (s : MaRC.Factory.Photo) (i k : ℕ) : Option Dbl :=
  f.raw[(if s.invertV then f.naxis2.toNat - 1 - k else k) * f.naxis1.toNat +
    (if s.invertH then f.naxis1.toNat - 1 - i else i)]?

/-! ## Reading a photo -/

theorem read_iff {image : List Dbl} {samples lines : ℕ} {q : Photo.Params}
    {g : Photo.Geometry C} {p : Photo.Img C} (h : Photo.Built image samples lines q g p)
    (hi : q.interpolate = Bilinear.null) (hc : q.correct = Photo.nullCorrect) (pt : C) (v : Dbl) :
    Photo.read p pt (.fin 0) = .ok (true, v) ↔
      v ≠ .nan ∧ ∃ i k, SeenIn g q samples lines pt i k ∧ image[k * samples + i]? = some v := by
  constructor
  · intro hr
    obtain ⟨a, b, i, k, hg, ha, ha', hb, hb', -, -, hv⟩ := Photo.C25_datum h hi hc hr
    unfold Photo.read at hr
    cases hw : Photo.readWeighted p pt (.fin 0) (.fin 1) false with
    | throw e => rw [hw] at hr; cases hr
    | ub => rw [hw] at hr; cases hr
    | ok r =>
      obtain ⟨f, d', w⟩ := r
      rw [hw] at hr
      simp only [Outcome.bind_ok, Outcome.ok.injEq, Prod.mk.injEq] at hr
      obtain ⟨rfl, rfl⟩ := hr
      obtain ⟨a2, b2, i2, k2, hg2, q1, q2, q3, q4, n1, n2, n3, n4, n5, n6⟩ :=
        Photo.C25_successful_read h hw
      rw [hg] at hg2
      simp only [Prod.mk.injEq, Dbl.fin.injEq, true_and] at hg2
      obtain ⟨rfl, rfl⟩ := hg2
      have e1 : i = i2 := by
        have h3 : (i : ℚ) < i2 + 1 := lt_of_le_of_lt ha q2
        have h4 : (i2 : ℚ) < i + 1 := lt_of_le_of_lt q1 ha'
        have h3 : i < i2 + 1 := by exact_mod_cast h3
        have h4 : i2 < i + 1 := by exact_mod_cast h4
        omega
      have e2 : k = k2 := by
        have h3 : (k : ℚ) < k2 + 1 := lt_of_le_of_lt hb q4
        have h4 : (k2 : ℚ) < k + 1 := lt_of_le_of_lt q3 hb'
        have h3 : k < k2 + 1 := by exact_mod_cast h3
        have h4 : k2 < k + 1 := by exact_mod_cast h4
        omega
      subst e1 e2
      exact ⟨n6, i, k, ⟨⟨a, b, hg, ha, ha', hb, hb'⟩, n1, n2, n3, n4, n5⟩, hv⟩
  · rintro ⟨hn, i, k, ⟨⟨a, b, hg, ha, ha', hb, hb'⟩, n1, n2, n3, n4, n5⟩, hv⟩
    exact Photo.C25_readable h hi hc (by simp) hg ha ha' hb hb' n1 n2 n3 n4 n5 hv hn

theorem cast_value {T : MapType} {v : Dbl} (hv : IsValue T v) : T.cast v = .ok v := by
  cases T with
  | f64 => rfl
  | f32 =>
    obtain ⟨q, rfl, h1, h2⟩ := hv
    rw [abs_le] at h1
    simp only [MapType.cast, MapType.toFloat, h2]
    rw [if_neg (by linarith), if_neg (by linarith)]
  | _ =>
    obtain ⟨n, rfl, h1, h2⟩ := hv
    simp only [MapType.cast, castInt, truncQ]
    simp only [Int.floor_intCast, Int.ceil_intCast, ite_self]
    rw [if_pos ⟨h1, h2⟩]

/-- What is known about a map of one photo, whatever its data type. -/
structure OnePhoto (F : Fp) (c : Command C) (file : PhotoFile) (s : MaRC.Factory.Photo)
    (q : Photo.Params) (g : Photo.Geometry C) : Prop where
  /-- The command maps this photo and nothing else. -/
  source : c.factories = [photoFactory F file s q g]
  config : s.configSet = true
  geometry : s.geometrySet = true
  plane : c.params.plane = 0
  /-- The photo's data are not corrected, interpolated, or too many. -/
  flat : s.flatField = none
  interpolate : q.interpolate = Bilinear.null
  correct : q.correct = Photo.nullCorrect
  memory : file.naxis1 * file.naxis2 < 2 ^ 63
  nibbleRight : (q.nibbleRight : ℤ) ≤ file.naxis1
  nibbleBottom : (q.nibbleBottom : ℤ) ≤ file.naxis2
  /-- The map has at least two cells, each of which is plotted at most once. -/
  size : 2 ≤ c.samples * c.lines
  fits : c.samples * c.lines < 2 ^ 62
  once : ((c.plots c.samples c.lines).map Prod.snd).Nodup

/-- What is known about a map of one photo that takes its data type and blank value
from the photo's file.  `b` is the file's blank value. -/
structure OwnType (F : Fp) (c : Command C) (file : PhotoFile) (s : MaRC.Factory.Photo)
    (q : Photo.Params) (g : Photo.Geometry C) (T : MapType) (b : ℤ) : Prop where
  /-- The command maps this photo and nothing else, -/
  source : c.factories = [photoFactory F file s q g]
  config : s.configSet = true
  geometry : s.geometrySet = true
  /-- the user gives neither data type nor blank value. -/
  plane : c.params.plane = 0
  noType : c.params.bitpix = 0
  noBlank : c.params.locked .blank = false ∧ c.params.blank = none
  /-- The file has a type other than 64 bit integers, with a blank value in the range of
  an integer type, and its elements are values of that type. -/
  type : FitsType file.bitpix T
  small : T ≠ .i64
  blank : T.isIntegral = true → file.blank = .value b
  values : ∀ x ∈ file.raw, IsValue T x ∨ T.isIntegral = false ∧ x = .nan
  /-- They are not scaled, -/
  bscale : file.bscale = .fin 1
  bzero : file.bzero = .fin 0
  /-- corrected, interpolated, or too many. -/
  flat : s.flatField = none
  interpolate : q.interpolate = Bilinear.null
  correct : q.correct = Photo.nullCorrect
  memory : file.naxis1 * file.naxis2 < 2 ^ 63
  nibbleRight : (q.nibbleRight : ℤ) ≤ file.naxis1
  nibbleBottom : (q.nibbleBottom : ℤ) ≤ file.naxis2
  /-- The map has at least two cells, each of which is plotted at most once. -/
  size : 2 ≤ c.samples * c.lines
  fits : c.samples * c.lines < 2 ^ 62
  once : ((c.plots c.samples c.lines).map Prod.snd).Nodup

/-- How empty cells are marked. -/
def marker (T : MapType) (b : ℤ) : Dbl := if T.isIntegral then .fin b else .nan

theorem physical_unscaled {F : Fp} {file : PhotoFile} {T : MapType} {b : ℤ}
    (hT : FitsType file.bitpix T) (hsmall : T ≠ .i64)
    (hb : T.isIntegral = true → file.blank = .value b) (h1 : file.bscale = .fin 1)
    (h0 : file.bzero = .fin 0) (d v : Dbl) (hv : v ≠ .nan) :
    file.physical F d = v ↔ d = v ∧ d ≠ marker T b := by
  unfold PhotoFile.physical marker
  have h64 : file.bitpix ≠ 64 := by
    generalize file.bitpix = n at hT
    cases hT <;> first | omega | exact absurd rfl hsmall
  rw [h1, h0]
  simp only [and_self, if_true, h64, if_false]
  cases hi : T.isIntegral with
  | true =>
    have hpos : 0 < file.bitpix := by
      generalize file.bitpix = n at hT
      cases hT <;> first | omega | simp [MapType.isIntegral] at hi
    simp only [PhotoFile.isBlank, hb hi, hpos, decide_true, Bool.true_and, decide_eq_true_eq, if_true]
    split_ifs with hd
    · exact ⟨fun h => absurd h.symm hv, fun h => absurd hd h.2⟩
    · exact ⟨fun h => ⟨h, hd⟩, fun h => h.1⟩
  | false =>
    have hneg : ¬ 0 < file.bitpix := by
      generalize file.bitpix = n at hT
      cases hT <;> first | omega | simp [MapType.isIntegral] at hi
    have : file.isBlank d = false := by
      unfold PhotoFile.isBlank
      split <;> simp [hneg]
    rw [this]
    simp only [Bool.false_eq_true, if_false]
    exact ⟨fun h => ⟨h, h ▸ hv⟩, fun h => h.1⟩

section C85

variable {F : Fp} {c : Command C} {file : PhotoFile} {s : MaRC.Factory.Photo}
  {q : Photo.Params} {g : Photo.Geometry C} {T : MapType} {b : ℤ}

/-- The image that a successful `make` of the photo's factory gives, in terms of the file. -/
theorem OnePhoto.made (h : OnePhoto F c file s q g) {im : Plane C × Option VirtualImage}
    (hm : (photoFactory F file s q g).make T = .ok (some im)) :
    im.2 = none ∧ im.1.minmax = ⟨s.extrema.min.or s.datamin, s.extrema.max.or s.datamax⟩ ∧
      ∀ pt v, im.1.read pt (.fin 0) = .ok (true, v) ↔ v ≠ .nan ∧
        ∃ i k d, SeenIn g q file.naxis1.toNat file.naxis2.toNat pt i k ∧
          file.element s i k = some d ∧ file.physical F d = v := by
  simp only [photoFactory] at hm
  cases hmk : ({ s with file := file.input F } : MaRC.Factory.Photo).make F with
  | throw e => rw [hmk] at hm; cases hm
  | ub => rw [hmk] at hm; cases hm
  | ok r =>
  rw [hmk, Outcome.bind_ok] at hm
  obtain ⟨r1, p'⟩ := r
  cases r1 with
  | none => simp at hm
  | some x =>
  obtain ⟨img, samples, lines⟩ := x
  simp only at hm
  obtain ⟨raw, flat, hread, hflat, hlen, hpix, hmin, hmax⟩ := MaRC.Factory.C57_pixels F _ p' img
    samples lines h.memory (by intro f hf; rw [h.flat] at hf; cases hf) hmk
  have hflat : flat = none := by
    rcases hflat with ⟨-, hf⟩ | ⟨f, d, hf, -⟩
    · exact hf
    · rw [h.flat] at hf; cases hf
  subst hflat
  obtain ⟨-, hs, hl, hs2, hl2, hraw, rest, hpx⟩ :=
    (Fits.C48_read _ h.memory raw samples lines).mp hread
  have hs : file.naxis1 = samples := hs
  have hl : file.naxis2 = lines := hl
  cases hnew : Photo.new img samples lines (some q) (some g) with
  | throw e => rw [hnew] at hm; cases hm
  | ub => rw [hnew] at hm; cases hm
  | ok pim =>
  rw [hnew, Outcome.bind_ok] at hm
  simp only [Outcome.ok.injEq, Option.some.injEq] at hm
  subst hm
  have hmem := h.memory
  have hnr := h.nibbleRight
  have hnb := h.nibbleBottom
  rw [hs] at hmem hnr
  rw [hl] at hmem hnb
  have hbuilt : Photo.Built img samples lines q g pim :=
    ⟨hnew, by have : samples * lines < 2 ^ 63 := by exact_mod_cast hmem
              omega, by omega, by omega⟩
  have e1 : file.naxis1.toNat = samples := by omega
  have e2 : file.naxis2.toNat = lines := by omega
  refine ⟨rfl, ?_, ?_⟩
  · obtain ⟨⟩ := p'
    simp only at hmin hmax ⊢
    rw [← hmin, ← hmax]
  · intro pt v
    rw [read_iff hbuilt h.interpolate h.correct, e1, e2]
    constructor
    · rintro ⟨hn, i, k, hseen, hv⟩
      have hi : i < samples := by have := hseen.2.2.1; omega
      have hk : k < lines := by have := hseen.2.2.2.2.1; omega
      have h1 := hpix k i hk hi
      simp only [pixel, hv, MaRC.Factory.corrected] at h1
      have h2 : (file.input F).pixels[(if s.invertV then lines - 1 - k else k) * samples +
          (if s.invertH then samples - 1 - i else i)]? = some v := by
        have hpx : (file.input F).pixels = raw ++ rest := hpx
        rw [hpx, List.getElem?_append_left, ← h1]
        by_contra hc
        rw [List.getElem?_eq_none (by omega)] at h1
        cases h1
      simp only [PhotoFile.input, List.getElem?_map, Option.map_eq_some_iff] at h2
      obtain ⟨d, hd, hph⟩ := h2
      exact ⟨hn, i, k, d, hseen, by unfold PhotoFile.element; rw [e1, e2]; exact hd, hph⟩
    · rintro ⟨hn, i, k, d, hseen, hv, hph⟩
      have hi : i < samples := by have := hseen.2.2.1; omega
      have hk : k < lines := by have := hseen.2.2.2.2.1; omega
      refine ⟨hn, i, k, hseen, ?_⟩
      have h1 := hpix k i hk hi
      simp only [pixel, MaRC.Factory.corrected] at h1
      rw [h1]
      have h2 : (file.input F).pixels[(if s.invertV then lines - 1 - k else k) * samples +
          (if s.invertH then samples - 1 - i else i)]? = some v := by
        simp only [PhotoFile.input, List.getElem?_map, Option.map_eq_some_iff]
        unfold PhotoFile.element at hv
        rw [e1, e2] at hv
        exact ⟨d, hv, hph⟩
      have hpx : (file.input F).pixels = raw ++ rest := hpx
      rw [hpx, List.getElem?_append_left] at h2
      · exact h2
      · rw [hraw]
        have a1 : (if s.invertV then lines - 1 - k else k) < lines := by split_ifs <;> omega
        have a2 : (if s.invertH then samples - 1 - i else i) < samples := by split_ifs <;> omega
        generalize (if s.invertV then lines - 1 - k else k) = y at *
        generalize (if s.invertH then samples - 1 - i else i) = x at *
        calc y * samples + x < y * samples + samples := by omega
          _ = (y + 1) * samples := by ring
          _ ≤ lines * samples := Nat.mul_le_mul_right _ a1
          _ = samples * lines := Nat.mul_comm _ _

theorem OwnType.one (h : OwnType F c file s q g T b) : OnePhoto F c file s q g :=
  ⟨h.source, h.config, h.geometry, h.plane, h.flat, h.interpolate, h.correct, h.memory,
    h.nibbleRight, h.nibbleBottom, h.size, h.fits, h.once⟩

theorem OwnType.made (h : OwnType F c file s q g T b) {im : Plane C × Option VirtualImage}
    (hm : (photoFactory F file s q g).make T = .ok (some im)) :
    im.2 = none ∧ im.1.minmax = ⟨s.extrema.min.or s.datamin, s.extrema.max.or s.datamax⟩ ∧
      ∀ pt v, im.1.read pt (.fin 0) = .ok (true, v) ↔ v ≠ .nan ∧ v ≠ marker T b ∧
        ∃ i k, SeenIn g q file.naxis1.toNat file.naxis2.toNat pt i k ∧
          file.element s i k = some v := by
  obtain ⟨h1, h2, h3⟩ := h.one.made hm
  refine ⟨h1, h2, fun pt v => ?_⟩
  rw [h3]
  constructor
  · rintro ⟨hn, i, k, d, hseen, hd, hph⟩
    obtain ⟨rfl, hne⟩ := (physical_unscaled h.type h.small h.blank h.bscale h.bzero d v hn).1 hph
    exact ⟨hn, hne, i, k, hseen, hd⟩
  · rintro ⟨hn, hne, i, k, hseen, hv⟩
    exact ⟨hn, i, k, v, hseen, hv,
      (physical_unscaled h.type h.small h.blank h.bscale h.bzero v v hn).2 ⟨rfl, hne⟩⟩

theorem SeenIn.unique {samples lines : ℕ} {pt : C} {i k i' k' : ℕ}
    (h : SeenIn g q samples lines pt i k) (h' : SeenIn g q samples lines pt i' k') :
    i = i' ∧ k = k' := by
  obtain ⟨⟨x, y, hg, ha, ha', hb, hb'⟩, -⟩ := h
  obtain ⟨⟨x2, y2, hg2, q1, q2, q3, q4⟩, -⟩ := h'
  rw [hg] at hg2
  simp only [Prod.mk.injEq, Dbl.fin.injEq, true_and] at hg2
  obtain ⟨rfl, rfl⟩ := hg2
  have h3 : (i : ℚ) < i' + 1 := lt_of_le_of_lt ha q2
  have h4 : (i' : ℚ) < i + 1 := lt_of_le_of_lt q1 ha'
  have h5 : (k : ℚ) < k' + 1 := lt_of_le_of_lt hb q4
  have h6 : (k' : ℚ) < k + 1 := lt_of_le_of_lt q3 hb'
  have h3 : i < i' + 1 := by exact_mod_cast h3
  have h4 : i' < i + 1 := by exact_mod_cast h4
  have h5 : k < k' + 1 := by exact_mod_cast h5
  have h6 : k' < k + 1 := by exact_mod_cast h6
  omega

theorem make_some {p p' : MaRC.Factory.Photo} (hc : p.configSet = true)
    (hg : p.geometrySet = true) : p.make F ≠ .ok (none, p') := by
  have key : ∀ {α β : Type} (x : Outcome α) (f : α → Outcome β) (y : β),
      (∀ a, f a ≠ .ok y) → x >>= f ≠ .ok y := by
    intro α β x f y h
    cases x with
    | ok a => exact h a
    | throw e => exact fun h => by cases h
    | ub => exact fun h => by cases h
  unfold MaRC.Factory.Photo.make
  rw [hc, hg]
  simp only [Bool.not_true, Bool.or_self, Bool.false_eq_true, if_false]
  refine key _ _ _ fun a => key _ _ _ fun b => key _ _ _ fun c => key _ _ _ fun d =>
    key _ _ _ fun _ => key _ _ _ fun e => key _ _ _ fun e' => ?_
  simp

theorem OnePhoto.made_some (h : OnePhoto F c file s q g)
    {ims : List (Plane C × Option VirtualImage)}
    (hi : MadeImages T [photoFactory F file s q g] ims) :
    ∃ im, (photoFactory F file s q g).make T = .ok (some im) ∧ ims = [im] := by
  rcases hi with ⟨hn, hi⟩ | ⟨im, ims', hm, hims, hi⟩
  · exfalso
    simp only [photoFactory] at hn
    cases hmk : ({ s with file := file.input F } : MaRC.Factory.Photo).make F with
    | throw e => rw [hmk] at hn; cases hn
    | ub => rw [hmk] at hn; cases hn
    | ok r =>
    rw [hmk, Outcome.bind_ok] at hn
    obtain ⟨r1, p'⟩ := r
    cases r1 with
    | none => exact make_some (by exact h.config) (by exact h.geometry) hmk
    | some x =>
      obtain ⟨img, samples, lines⟩ := x
      simp only at hn
      cases hnew : Photo.new img samples lines (some q) (some g) with
      | throw e => rw [hnew] at hn; cases hn
      | ub => rw [hnew] at hn; cases hn
      | ok pim => rw [hnew, Outcome.bind_ok] at hn; cases hn
  · cases hi
    exact ⟨im, hm, hims⟩

theorem le_nan_false {a : Dbl} : a.le .nan ≠ true := by cases a <;> simp [Dbl.le]

/-- **C85**.  A map that takes its data type and blank value from its photo says so in
its header, and each of its cells is either marked as empty or holds the very element of
the photo's array in which the camera sees a point plotted there.  A cell holds that
element if it is within the limits of the map, or marks an empty pixel itself.
(Missing: the photo's data must not be scaled, corrected or interpolated, and the user
must give neither data type nor blank value, see `C85_scaled_violated` and
`C85_type_violated`.) -/
theorem C85_cells_partial (h : OwnType F c file s q g T b) (env : Env) (w w' : World)
    (hok : ∀ k, env.plane k = true) (hx : execute F c env w = .ok (w', .returned 0)) :
    ∃ map rest, w' c.filename = some (map :: rest) ∧ map.bitpix = file.bitpix ∧
      valueOf "BLANK" map.header = (if T.isIntegral then some (.int b) else none) ∧
      ∀ o < c.samples * c.lines,
        (map.image.cells (1 + o) = some (marker T b) ∨
          ∃ pt i k d, (pt, o) ∈ c.plots c.samples c.lines ∧
            SeenIn g q file.naxis1.toNat file.naxis2.toNat pt i k ∧
            file.element s i k = some d ∧ map.image.cells (1 + o) = some d) ∧
        ∀ pt i k d lo hi, (pt, o) ∈ c.plots c.samples c.lines →
          SeenIn g q file.naxis1.toNat file.naxis2.toNat pt i k →
          file.element s i k = some d →
          PlaneLimits T ⟨s.extrema.min.or s.datamin, s.extrema.max.or s.datamax⟩ lo hi →
          (d = marker T b ∨ lo.le d = true ∧ d.le hi = true) →
          map.image.cells (1 + o) = some d := by
  obtain ⟨p, T', map, rest, hp, hT', hw, -, hbp, -, -, -⟩ := C74_file F c env w w' hx
  have hk : c.factories.map (·.populate) = [Kind.photo file].map Kind.populate := by
    rw [h.source]; rfl
  have hbit : p.bitpix = file.bitpix := by
    rw [C84_type_partial F c [.photo file] p hk hp h.noType (by simp [Agree, Kind.files])]
    have : file.bitpix ≠ 0 := by
      have := h.type
      generalize file.bitpix = n at this
      cases this <;> omega
    simp [Kind.files, firstNonzero, this]
  have hblank : p.blank = file.blank.value? := by
    rw [C84_blank_partial F c [.photo file] p hk h.plane hp (by simp [Agree, Kind.files]),
      if_pos h.noBlank]
    cases hv : file.blank.value? <;> simp [Kind.files, firstSome, hv]
  have hT : FitsType p.bitpix T := hbit ▸ h.type
  have hbv : T.isIntegral = true → p.blank = some b := by
    intro hi; rw [hblank, h.blank hi]; rfl
  obtain ⟨map', rest', ims, maps, info, hw', hi, hmk, hsz, hholds, -, -⟩ :=
    C74_data_partial F c env w w' p T hp hT h.size
      (by rw [h.source, List.length_singleton]; have := h.fits; omega) hok hx
  rw [hw] at hw'
  simp only [Option.some.injEq, List.cons.injEq] at hw'
  obtain ⟨rfl, rfl⟩ := hw'
  rw [h.source] at hi
  have him := h.one.made_some hi
  obtain ⟨⟨pl, v⟩, hm, rfl⟩ := him
  obtain ⟨hv, hmm, hread⟩ := h.made hm
  obtain ⟨read, mm⟩ := pl
  simp only at hv hmm hread
  simp only [List.map_cons, List.map_nil, makePlanes] at hmk
  cases hpl : makePlane T c.plots ⟨read, mm⟩ (startInfo c.samples c.lines p.blank) with
  | throw e => simp [hpl] at hmk
  | ub => simp [hpl] at hmk
  | ok r =>
  obtain ⟨m, info1⟩ := r
  simp only [hpl, Outcome.bind_ok, Outcome.ok.injEq, Prod.mk.injEq] at hmk
  obtain ⟨rfl, rfl⟩ := hmk
  have hlen := hsz m (by simp)
  unfold makePlane at hpl
  cases hcv : mm.convert T with
  | throw e => simp [hcv] at hpl
  | ub => simp [hcv] at hpl
  | ok mm' =>
  simp only [hcv, Outcome.bind_ok] at hpl
  obtain ⟨bl, -, -, hbl, -⟩ := makeMap_ok hpl
  obtain ⟨lo', hi', hab, -, hst, hno⟩ := C06_cells T c.plots read mm' _ _ _ hpl
  have hblankr : ∀ x, T.isIntegral = true → p.blank = some x →
      T.intRange.1 ≤ x ∧ x ≤ T.intRange.2 := by
    intro x hint hx
    by_contra hc
    simp only [startInfo, blankValue, hint, hx] at hbl
    rw [if_pos (by omega)] at hbl
    simp at hbl
  have hel : ∀ {i k : ℕ} {d : Dbl}, file.element s i k = some d →
      IsValue T d ∨ T.isIntegral = false ∧ d = .nan := by
    intro i k d hd
    exact h.values d (List.mem_of_getElem? hd)
  have hone : ∀ {pt pt' : C} {o : ℕ}, (pt, o) ∈ c.plots c.samples c.lines →
      (pt', o) ∈ c.plots c.samples c.lines → pt = pt' := by
    intro pt pt' o h1 h2
    have := List.inj_on_of_nodup_map h.once h1 h2 rfl
    exact (Prod.mk.inj this).1
  have hmark : (if T.isIntegral then Dbl.fin ((startInfo c.samples c.lines p.blank).blank.getD 0)
      else .nan) = marker T b := by
    unfold marker
    cases hint : T.isIntegral with
    | true => simp [startInfo, hbv hint]
    | false => rfl
  -- what is stored at a point
  have hstore : ∀ pt v, Stores T (T.toDouble lo') (T.toDouble hi') read pt v ↔
      (T.toDouble lo').le v = true ∧ v.le (T.toDouble hi') = true ∧ v ≠ marker T b ∧
      ∃ i k, SeenIn g q file.naxis1.toNat file.naxis2.toNat pt i k ∧
        file.element s i k = some v := by
    intro pt v
    constructor
    · rintro ⟨d, hd, l1, l2, hc⟩
      obtain ⟨h1, h2, i, k, hs, he⟩ := (hread pt d).1 hd
      rcases hel he with hval | ⟨-, hn⟩
      · rw [cast_value hval] at hc
        simp only [Outcome.ok.injEq] at hc
        subst hc
        exact ⟨l1, l2, h2, i, k, hs, he⟩
      · exact absurd hn h1
    · rintro ⟨l1, l2, h2, i, k, hs, he⟩
      rcases hel he with hval | ⟨hi, hn⟩
      · refine ⟨v, (hread pt v).2 ⟨?_, h2, i, k, hs, he⟩, l1, l2, cast_value hval⟩
        rintro rfl
        exact le_nan_false l1
      · exact absurd (by rw [hn, marker, hi]; rfl) h2
  have hkey : valueOf "BLANK" map.header = (if T.isIntegral then some (.int b) else none) := by
    obtain ⟨map', rest', hw', hv⟩ := blank_keyword hp hT hx
    rw [hw] at hw'
    simp only [Option.some.injEq, List.cons.injEq] at hw'
    rw [hw'.1, hv]
    cases hint : T.isIntegral with
    | false => rfl
    | true =>
      simp [hbv hint, wrapTo_of_mem (hblankr b hint (hbv hint)).1 (hblankr b hint (hbv hint)).2]
  refine ⟨map, rest, hw, by rw [hbp, hbit], hkey, ?_⟩
  intro o ho
  have hcell : map.image.cells (1 + o) = m[o]? := by
    rw [hholds, if_pos (by omega), show (1 + (o : ℤ) - 1).toNat = o by omega]
    simp
  rw [hcell]
  have hput : ∀ pt v, (pt, o) ∈ c.plots c.samples c.lines →
      Stores T (T.toDouble lo') (T.toDouble hi') read pt v → m[o]? = some v := by
    intro pt v hpt hv
    obtain ⟨pre, post, hsp⟩ := List.append_of_mem hpt
    refine hst pre pt o post v hsp hv ?_
    intro pt' hpt' v' hv'
    have hn := h.once
    rw [hsp] at hn
    simp only [List.map_append, List.map_cons] at hn
    have := (List.nodup_cons.1 (List.nodup_append.1 hn).2.1).1
    exact this (List.mem_map.2 ⟨(pt', o), hpt', rfl⟩)
  constructor
  · by_cases hsome : ∃ pt v, (pt, o) ∈ c.plots c.samples c.lines ∧
        Stores T (T.toDouble lo') (T.toDouble hi') read pt v
    · obtain ⟨pt, v, hpt, hv⟩ := hsome
      obtain ⟨-, -, -, i, k, hs, he⟩ := (hstore pt v).1 hv
      exact .inr ⟨pt, i, k, v, hpt, hs, he, hput pt v hpt hv⟩
    · refine .inl ?_
      rw [hno o (by omega) fun pt hpt v hv => hsome ⟨pt, v, hpt, hv⟩, hmark]
  · rintro pt i k d lo hi hpt hs he ⟨mm2, a2, b2, k1, k2, rfl, rfl⟩ hd
    rw [← hmm, hcv] at k1
    simp only [Outcome.ok.injEq] at k1
    subst k1
    rw [hab] at k2
    simp only [Outcome.ok.injEq, Extrema.mk.injEq, Option.some.injEq] at k2
    obtain ⟨rfl, rfl⟩ := k2
    by_cases hdm : d = marker T b
    · rw [hno o (by omega), hmark, hdm]
      intro pt' hpt' v' hv'
      obtain rfl := hone hpt hpt'
      obtain ⟨-, -, hne, i', k', hs', he'⟩ := (hstore pt v').1 hv'
      obtain ⟨rfl, rfl⟩ := hs.unique hs'
      rw [he] at he'
      simp only [Option.some.injEq] at he'
      exact hne (he' ▸ hdm)
    · rcases hd with hd | ⟨l1, l2⟩
      · exact absurd hd hdm
      · exact hput pt d hpt ((hstore pt d).2 ⟨l1, l2, hdm, i, k, hs, he⟩)

/-- **C85** (nothing is lost).  Without limits given by the user, a cell holds the photo's
element in which the camera sees the point plotted there, whatever it is, if the photo
has no infinite elements. -/
theorem C85_whole_partial (h : OwnType F c file s q g T b) (env : Env) (w w' : World)
    (hok : ∀ k, env.plane k = true) (hx : execute F c env w = .ok (w', .returned 0))
    (hlim : s.extrema = .empty ∧ s.datamin = none ∧ s.datamax = none)
    (hfin : ∀ x ∈ file.raw, x = .nan ∨ ∃ y, x = .fin y ∧ |y| ≤ Fp.dblMax) :
    ∃ map rest, w' c.filename = some (map :: rest) ∧
      ∀ o < c.samples * c.lines, ∀ pt i k d, (pt, o) ∈ c.plots c.samples c.lines →
        SeenIn g q file.naxis1.toNat file.naxis2.toNat pt i k →
        file.element s i k = some d → map.image.cells (1 + o) = some d := by
  obtain ⟨map, rest, hw, -, -, hcells⟩ := C85_cells_partial h env w w' hok hx
  refine ⟨map, rest, hw, ?_⟩
  intro o ho pt i k d hpt hs he
  have hr : IsRange T ⟨none, none⟩ := ⟨fun v hv => by simp at hv, fun v hv => by simp at hv⟩
  have hle : (lowLimit T ⟨none, none⟩).le (highLimit T ⟨none, none⟩) = true := by
    cases T <;> decide +kernel
  have hpl : PlaneLimits T ⟨s.extrema.min.or s.datamin, s.extrema.max.or s.datamax⟩
      (.fin T.lowest) (.fin T.highest) := by
    rw [hlim.1, hlim.2.1, hlim.2.2]
    refine ⟨⟨none, none⟩, .fin T.lowest, .fin T.highest, rfl, ?_, ?_, ?_⟩
    · rw [C06_limits T h.small _ hr, if_pos hle]; rfl
    · rw [toDouble_of_ne T h.small]
    · rw [toDouble_of_ne T h.small]
  refine (hcells o ho).2 pt i k d _ _ hpt hs he hpl ?_
  have hmem := List.mem_of_getElem? he
  rcases h.values d hmem with hv | ⟨hi, rfl⟩
  · refine .inr ?_
    have h64 := h.small
    cases T with
    | f64 =>
      rcases hfin d hmem with rfl | ⟨y, rfl, hy⟩
      · cases hv
      · rw [abs_le] at hy
        exact ⟨decide_eq_true hy.1, decide_eq_true hy.2⟩
    | f32 =>
      obtain ⟨y, rfl, hy, -⟩ := hv
      rw [abs_le] at hy
      exact ⟨decide_eq_true hy.1, decide_eq_true hy.2⟩
    | i64 => exact absurd rfl h64
    | _ =>
      obtain ⟨n, rfl, h1, h2⟩ := hv
      simp only [MapType.intRange] at h1 h2
      refine ⟨decide_eq_true ?_, decide_eq_true ?_⟩
      · simp only [MapType.lowest]; exact_mod_cast h1
      · simp only [MapType.highest]
        refine le_trans (Int.cast_le.2 h2) (by norm_num)
  · exact .inl (by simp [marker, hi])

end C85

/-! ## Examples -/

/-- A photo of two samples and two lines. -/
def smallPhoto (bitpix : ℤ) (blank : Keyword ℤ) (bzero : ℚ) (raw : List Dbl) : PhotoFile where
  bitpix := bitpix
  str := fun _ => .absent
  blank := blank
  equinox := .absent
  bscale := .fin 1
  bzero := .fin bzero
  naxis := 2
  naxis1 := 2
  naxis2 := 2
  raw := raw

/-- A photo factory whose settings change nothing but subtract a flat field if there is
one.  Point `n < 4` of the surface is seen in pixel `n`, other points are not seen. -/
def smallFactory (file : PhotoFile) (flat : Option Fits.Input) : Execute.Factory ℕ :=
  photoFactory .ieee file
    { file := ⟨0, 0, 0, []⟩, datamin := none, datamax := none, flatField := flat,
      invertV := false, invertH := false, configSet := true, geometrySet := true,
      finalize := fun _ _ => .ok (), extrema := .empty }
    ⟨0, 0, 0, 0, false, Bilinear.null, Photo.nullCorrect⟩
    ⟨fun n => (decide (n < 4), .fin ((n % 2 : ℕ) : ℚ), .fin ((n / 2 : ℕ) : ℚ)), fun _ _ => true⟩

/-- A map of three cells, of the points 0, 3 and 9. -/
def smallCommand (file : PhotoFile) (flat : Option Fits.Input) (params : Params) : Command ℕ where
  filename := "map.fits"
  samples := 3
  lines := 1
  params := params
  factories := [smallFactory file flat]
  projection := "Test"
  plots := fun _ _ => [(0, 0), (3, 1), (9, 2)]
  grid := none

/-- What a command for a map of a photo does: what it returns, the map's cells and the
keywords BLANK, BSCALE and BZERO. -/
def smallMap (file : PhotoFile) (flat : Option Fits.Input) (params : Params) :=
  (values ["BLANK", "BSCALE", "BZERO"]
    (execute .ieee (smallCommand file flat params) goodEnv fun _ => none)).map
      fun v => (v.result, v.cells, v.keys)

/-- The hypotheses of the theorems are met: points 0 and 3 show elements 1 and 4 of the
photo, point 9 is blank. -/
example : smallMap (smallPhoto 16 (.value (-32768)) 0 [.fin 1, .fin 2, .fin 3, .fin 4]) none
      (fresh 0) =
    some (.returned 0, [none, some (.fin 1), some (.fin 4), some (.fin (-32768)), none],
      [some (.int (-32768)), none, none]) := by decide +kernel

example : OwnType .ieee
    (smallCommand (smallPhoto 16 (.value (-32768)) 0 [.fin 1, .fin 2, .fin 3, .fin 4]) none
      (fresh 0))
    (smallPhoto 16 (.value (-32768)) 0 [.fin 1, .fin 2, .fin 3, .fin 4])
    { file := ⟨0, 0, 0, []⟩, datamin := none, datamax := none, flatField := none,
      invertV := false, invertH := false, configSet := true, geometrySet := true,
      finalize := fun _ _ => .ok (), extrema := .empty }
    ⟨0, 0, 0, 0, false, Bilinear.null, Photo.nullCorrect⟩
    ⟨fun n => (decide (n < 4), .fin ((n % 2 : ℕ) : ℚ), .fin ((n / 2 : ℕ) : ℚ)), fun _ _ => true⟩
    .i16 (-32768) where
  source := rfl
  config := rfl
  geometry := rfl
  plane := rfl
  noType := rfl
  noBlank := ⟨rfl, rfl⟩
  type := .short
  small := by decide
  blank := fun _ => rfl
  values := by
    intro x hx
    simp only [smallPhoto, List.mem_cons, List.not_mem_nil, or_false] at hx
    rcases hx with rfl | rfl | rfl | rfl
    · exact .inl ⟨1, rfl, by decide, by decide⟩
    · exact .inl ⟨2, rfl, by decide, by decide⟩
    · exact .inl ⟨3, rfl, by decide, by decide⟩
    · exact .inl ⟨4, rfl, by decide, by decide⟩
  bscale := rfl
  bzero := rfl
  flat := rfl
  interpolate := rfl
  correct := rfl
  memory := by decide
  nibbleRight := by decide
  nibbleBottom := by decide
  size := by decide
  fits := by decide
  once := by decide

/-- C85 is false of the code for unsigned 16 bit data, which FITS files hold as signed
integers with a BZERO of 32768: the map is given the type of the file but neither BZERO
nor the array, so that the photo's datum 40000 of point 0 is not in the map. -/
theorem C85_scaled_violated :
    smallMap (smallPhoto 16 (.value (-32768)) 32768 [.fin 7232, .fin 0, .fin 0, .fin (-32668)]) none
      (fresh 0) =
    some (.returned 0, [none, some (.fin (-32768)), some (.fin 100), some (.fin (-32768)), none],
      [some (.int (-32768)), none, none]) := by decide +kernel

/-- C85 is false of the code where a datum of the photo becomes its blank value by scaling:
the photo's element 1 of point 0 is the datum 0, which in the map is marked as empty. -/
theorem C85_blank_violated :
    smallMap (smallPhoto 8 (.value 0) (-1) [.fin 1, .fin 0, .fin 0, .fin 5]) none (fresh 0) =
    some (.returned 0, [none, some (.fin 0), some (.fin 4), some (.fin 0), none],
      [some (.int 0), none, none]) := by decide +kernel

/-- C85 is false of the code for a flat field: the differences are negative and are not in
the map of bytes. -/
theorem C85_flat_field_violated :
    smallMap (smallPhoto 8 (.value 0) 0 [.fin 10, .fin 1, .fin 1, .fin 50])
      (some ⟨2, 2, 2, [.fin 20, .fin 20, .fin 20, .fin 20]⟩) (fresh 0) =
    some (.returned 0, [none, some (.fin 0), some (.fin 30), some (.fin 0), none],
      [some (.int 0), none, none]) := by decide +kernel

/-- C85 is false of the code for a data type given by the user: the photo's blank value is
used although it is not a value of that type, and the command fails. -/
theorem C85_type_violated :
    (execute .ieee (smallCommand
        (smallPhoto 16 (.value (-32768)) 0 [.fin 1, .fin 2, .fin 3, .fin 4]) none
        (run .ieee (fresh 0) [.bitpix 8])) goodEnv fun _ => none).bind (fun r => .ok r.2) =
      .ok (.raised .invalidArgument) := by decide +kernel

end MaRC.Source
