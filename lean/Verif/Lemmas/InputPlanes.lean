import Verif.Lemmas.InputValues

/-! # Photos and planes of an input file -/

namespace MaRC.InputMeaning

open MaRC.Calc (Tok)
open MaRC.Scan (Token kw)
open MaRC.Grammar
open MaRC.Parser (Averaging Hemisphere Side NibbleClause CenterClause ScaleClause PhotoSrc PhotoCmd
  Nibbles PhotoVars Inert)

variable {E : Env} {b : Body}

/-! ## Photos -/

theorem get_nibbles {k : String} (h : k ∉ nibbleKeys) (n : Nibble) : get k (nibbleEnts n) = none :=
  (keys_nibble n).get h
theorem get_centers {k : String} (h : k ∉ centerKeys) (n : Centers) : get k (centersEnts n) = none :=
  (keys_centers n).get h
theorem get_axis {k : String} (h : k ∉ axisKeys) (o : Option Pair) :
    get k (o.elim [] (pairEnts "SAMPLE_OA" "LINE_OA")) = none := (keys_axis o).get h
theorem get_sub {k : String} (h : k ∉ subKeys) (s : Point) : get k (subEnts s) = none :=
  (keys_sub s).get h
theorem get_sun {k : String} (h : k ∉ sunKeys) (s : Point) : get k (sunEnts s) = none :=
  (keys_sun s).get h
theorem get_scale {k : String} (h : k ∉ scaleKeys) (s : Scale) : get k (scaleEnts s) = none :=
  (keys_scale s).get h

/-- Look up a keyword in the entries of a photo. -/
macro "photo_get" : tactic => `(tactic|
  simp [photoEnts, photoRest, get_cons, get_append, get_nibbles, get_centers, get_axis, get_sub,
    get_sun, get_scale, nibbleKeys, centerKeys, axisKeys, subKeys, sunKeys, scaleKeys])

theorem axis_of {o : Option Pair} {es : Part}
    (hA : get "SAMPLE_OA" es = get "SAMPLE_OA" (o.elim [] (pairEnts "SAMPLE_OA" "LINE_OA")))
    (hB : get "LINE_OA" es = get "LINE_OA" (o.elim [] (pairEnts "SAMPLE_OA" "LINE_OA"))) :
    both (real E "SAMPLE_OA" es) (real E "LINE_OA" es) = o.bind (Pair.value E) := by
  cases o with
  | none =>
    simp at hA
    rw [real_none hA]; rfl
  | some p => exact pair_of (by decide) hA hB

theorem photo_of {p : Photo} {s : PhotoSrc} (h : p.src E b = some s) :
    s.Scanned ∧ ∃ s', photo E b (photoEnts p) = some s' ∧ s'.scale = s.scale ∧
      s'.center = s.center ∧ ∀ cos e q d, s'.wanted cos e q d = s.wanted cos e q d := by
  simp only [Photo.src, Option.pure_def, Option.bind_eq_bind, Option.bind_eq_some_iff,
    Option.some.injEq] at h
  obtain ⟨nib, hnib, cen, hcen, ax, hax, mi, hmi, emi, hemi, sub, hsub, pa, hpa, sun, hsun, r, hr,
    sc, hsc, rfl⟩ := h
  obtain ⟨hw, hn⟩ := nibble_of (es := photoEnts p) (n := p.nibble) (by
    simp only [nibbleKeys, List.forall_mem_cons]
    refine ⟨?_, ?_, ?_, ?_, ?_, by simp⟩ <;> photo_get) hnib
  have e1 : string "IMAGE" (photoEnts p) = some (String.ofList p.file) := by
    have : get "IMAGE" (photoEnts p) = some [.str p.file] := by photo_get
    simp [string, this]
  have e2 : choice "INVERT" (photoEnts p) = p.invert.map invertWord := by
    have : get "INVERT" (photoEnts p) = p.invert.map fun i => [kw (invertWord i)] := by photo_get
    cases hi : p.invert <;> simp [choice, this, hi]
  have e3 : yes "INTERPOLATE" (photoEnts p) = p.interpolate := yes_opt _ (by photo_get)
  have e4 : yes "REMOVE_SKY" (photoEnts p) = p.removeSky := yes_opt _ (by photo_get)
  have e5 : center E b (photoEnts p) = some cen := by
    rw [center_of (c := p.centers) ?_, hcen]
    simp only [centerKeys, List.forall_mem_cons]
    refine ⟨?_, ?_, ?_, ?_, by simp⟩ <;> photo_get
  have e6 : both (real E "SAMPLE_OA" (photoEnts p)) (real E "LINE_OA" (photoEnts p)) = ax := by
    rw [axis_of (o := p.axis) (by photo_get) (by photo_get), optional_bind hax]
  have e7 : string "FLAT_FIELD" (photoEnts p) = p.flatField.map String.ofList :=
    string_opt _ (by photo_get)
  have e8 : yes "GEOM_CORRECT" (photoEnts p) = p.geomCorrect := yes_opt _ (by photo_get)
  have e9 : real E "EMI_ANG_LIMIT" (photoEnts p) = emi := by
    rw [real_opt p.emiAngLimit (by photo_get), optional_bind hemi]
  have e10 : yes "TERMINATOR" (photoEnts p) = p.terminator := yes_opt _ (by photo_get)
  have e11 : both (latitude E b "SUB_OBSERV_LAT" (photoEnts p))
      (longitude E b "SUB_OBSERV_LON" (photoEnts p)) = some sub := by
    rw [← hsub]
    refine point_of (p := p.subObserv) (by decide) ?_ ?_
    · change _ = get _ (subEnts _); photo_get
    · change _ = get _ (subEnts _); photo_get
  have e12 : turn E (photoEnts p) = some pa := by
    rw [turn_of (t := p.turn) (by photo_get), hpa]
  have e13 : both (latitude E b "SUB_SOLAR_LAT" (photoEnts p))
      (longitude E b "SUB_SOLAR_LON" (photoEnts p)) = some sun := by
    rw [← hsun]
    refine point_of (p := p.subSolar) (by decide) ?_ ?_
    · change _ = get _ (sunEnts _); photo_get
    · change _ = get _ (sunEnts _); photo_get
  obtain ⟨e14, e15⟩ := range_of (E := E) (es := photoEnts p) (d := p.distance) (by photo_get)
  rw [hr] at e14
  have e16 : scale E (photoEnts p) = some sc := by
    rw [scale_of (s := p.scale) ?_, hsc]
    simp only [scaleKeys, List.forall_mem_cons]
    refine ⟨?_, ?_, ?_, ?_, by simp⟩ <;> photo_get
  refine ⟨nibble_lt hnib, ?_⟩
  simp only [photo, e1, e2, e3, e4, e5, e6, e7, e8, e9, e10, e11, e12, e13, e14, e15, e16,
    Option.pure_def, Option.bind_eq_bind, Option.bind_some, Option.some.injEq]
  refine ⟨_, rfl, rfl, rfl, ?_⟩
  intro cos e q d
  rcases p.invert with _ | _ | _ | _ <;>
    simp [invertWord, Inversion.value, PhotoSrc.wanted, hw, PhotoSrc.view,
      PhotoSrc.kilometers]

/-- Photos are as wanted but for the view. -/
theorem setup_plain {cos : Dbl → Dbl} {a b : Dbl} {p : PhotoSrc} {d : Nibbles} {g g' : PhotoVars}
    {c : PhotoCmd} (hg : Inert d g) (hp : p.Scanned)
    (h : Parser.imageSetup cos a b p g = .ok (some (g', c))) :
    { c with view := p.view cos a b } = p.wanted cos a b d := by
  rw [Parser.imageSetup] at h
  split at h
  · simp at h
  case h_2 nib hn =>
  rw [hg.nibble] at hn
  obtain ⟨hn0, hn1⟩ := Parser.nibbling_eq hn
  simp only [Parser.bind_eq_ok] at h
  obtain ⟨v1, h1, v2, h2, v3, h3, h⟩ := h
  split at h
  · simp at h
  case h_2 g2 hg2 =>
  simp only [Parser.bind_eq_ok, Outcome.ok.injEq, Option.some.injEq, Prod.mk.injEq] at h
  obtain ⟨⟨g3, v⟩, hf, rfl, rfl⟩ := h
  simp only [PhotoSrc.wanted]
  rw [hn1 hp]

theorem images_of {cos : Dbl → Dbl} {d : Nibbles} {e q : Dbl} :
    ∀ {ss : List PhotoSrc} {v v' : PhotoVars} {cs : List PhotoCmd}, Inert d v →
      (∀ s ∈ ss, s.Scanned) → Parser.images cos e q ss v = .ok (some (v', cs)) →
      Inert d v' ∧ List.Forall₂ (fun s c => { c with view := s.view cos e q } = s.wanted cos e q d ∧
        (Checked s → c = s.wanted cos e q d)) ss cs
  | [], v, v', cs, hv, _, h => by
    simp [Parser.images] at h
    obtain ⟨rfl, rfl⟩ := h
    exact ⟨hv, .nil⟩
  | s :: ss, v, v', cs, hv, hs, h => by
    simp only [Parser.images, Parser.bind_eq_ok] at h
    obtain ⟨r, hr, h⟩ := h
    rcases r with _ | ⟨g1, c⟩
    · simp at h
    · simp only [Parser.bind_eq_ok] at h
      obtain ⟨r, hrs, h⟩ := h
      rcases r with _ | ⟨g2, cs'⟩
      · simp at h
      · simp only [Outcome.ok.injEq, Option.some.injEq, Prod.mk.injEq] at h
        obtain ⟨rfl, rfl⟩ := h
        obtain ⟨hg1, hw⟩ := Parser.setup_sound hv hr
        obtain ⟨h1, h2⟩ := images_of hg1 (fun x hx => hs x (by simp [hx])) hrs
        refine ⟨h1, .cons ⟨setup_plain hv (hs s (by simp)) hr, fun hc => ?_⟩ h2⟩
        exact (hw (hs s (by simp)) hc.1 (fun x y e => hc.2 x y (.inl e))
          fun x y e => hc.2 x y (.inr e)).1

theorem mapM_forall {α β : Type} {f : α → Option β} : ∀ {l : List α} {r : List β},
    l.mapM f = some r → List.Forall₂ (fun a c => f a = some c) l r
  | [], r, h => by
    simp at h
    subst h
    exact .nil
  | a :: l, r, h => by
    simp only [List.mapM_cons, Option.pure_def, Option.bind_eq_bind, Option.bind_eq_some_iff,
      Option.some.injEq] at h
    obtain ⟨x, hx, y, hy, rfl⟩ := h
    exact .cons hx (mapM_forall hy)

theorem photos_of {d : Nibbles} : ∀ {ps : List Photo} {ss : List PhotoSrc} {cs : List PhotoCmd},
    List.Forall₂ (fun p s => Photo.src E b p = some s) ps ss →
    List.Forall₂ (fun s c => { c with view := s.view (E.L.fn "cos") b.eqRad b.polRad } =
        s.wanted (E.L.fn "cos") b.eqRad b.polRad d ∧
      (Checked s → c = s.wanted (E.L.fn "cos") b.eqRad b.polRad d)) ss cs →
    List.Forall₂ (IsPhoto E b d) (ps.map photoEnts) cs ∧ (∀ s ∈ ss, s.Scanned)
  | _, _, _, .nil, .nil => ⟨.nil, by simp⟩
  | _, _, _, .cons h hs, .cons h' hs' => by
    obtain ⟨h1, h2⟩ := photos_of hs hs'
    obtain ⟨h3, s', h4, h5, h6, h7⟩ := photo_of h
    refine ⟨.cons ⟨s', h4, ?_, ?_⟩ h1, ?_⟩
    · rw [h7, ← h'.1]
      have e := congrArg PhotoCmd.view (h7 (E.L.fn "cos") b.eqRad b.polRad d)
      simp only [PhotoSrc.wanted] at e
      rw [e]
    · intro hc
      rw [h7]
      refine h'.2 ?_
      rw [Checked, h5, h6] at hc
      exact hc
    · intro s hs
      rcases List.mem_cons.mp hs with rfl | hs
      · exact h3
      · exact h2 s hs

theorem scanned_of : ∀ {ps : List Photo} {ss : List PhotoSrc},
    List.Forall₂ (fun p s => Photo.src E b p = some s) ps ss → ∀ s ∈ ss, s.Scanned
  | _, _, .nil => by simp
  | _, _, .cons h hs => by
    intro s hm
    rcases List.mem_cons.mp hm with rfl | hm
    · exact (photo_of h).1
    · exact scanned_of hs s hm

end MaRC.InputMeaning
