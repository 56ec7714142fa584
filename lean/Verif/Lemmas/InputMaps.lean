import Verif.Lemmas.InputPlanes
import Verif.Props.InputOptions

/-! # Clauses of planes and maps -/

namespace MaRC.InputMeaning

open MaRC.Calc (Tok)
open MaRC.Scan (Token kw)
open MaRC.Grammar
open MaRC.Parser (Averaging Hemisphere Side NibbleClause CenterClause ScaleClause PhotoSrc PhotoCmd
  Nibbles PhotoVars Inert RangeClause RadiiClause PlaneSrc PlaneKind PlaneCmd Globals ProjSrc
  IntervalClause GridClause clean)

variable {E : Env} {b : Body}

/-! ## Latitude types -/

/-- Words that are not types of latitudes. -/
def Bare (v : List Token) : Prop := "GRAPHIC" ∉ words v ∧ "CENTRIC" ∉ words v

/-- Entries without a type of latitudes. -/
def NoType (es : Part) : Prop := ∀ e ∈ es, Bare e.2

theorem NoType.nil : NoType [] := by simp [NoType]

theorem NoType.append {a c : Part} (ha : NoType a) (hc : NoType c) : NoType (a ++ c) := by
  intro e he
  rcases List.mem_append.mp he with h | h
  · exact ha e h
  · exact hc e h

theorem NoType.cons {k : String} {v : List Token} {c : Part} (hv : Bare v) (hc : NoType c) :
    NoType ((k, v) :: c) := by
  intro e he
  rcases List.mem_cons.mp he with rfl | h
  · exact hv
  · exact hc e h

theorem NoType.optEnt {k : String} {o : Option (List Token)} (h : ∀ v, o = some v → Bare v) :
    NoType (optEnt k o) := by
  cases o with
  | none => exact .nil
  | some v => exact .cons (h v rfl) .nil

theorem NoType.words {es : Part} (h : NoType es) :
    "GRAPHIC" ∉ es.flatMap (words ·.2) ∧ "CENTRIC" ∉ es.flatMap (words ·.2) := by
  simp only [List.mem_flatMap, not_exists, not_and]
  exact ⟨fun e he => (h e he).1, fun e he => (h e he).2⟩

theorem latType_left {a c : Part} (h : NoType a) : latType (a ++ c) = latType c := by
  have := h.words
  simp only [latType, List.flatMap_append, List.mem_append, this.1, this.2, false_or]

theorem latType_right {a c : Part} (h : NoType c) : latType (a ++ c) = latType a := by
  have := h.words
  simp only [latType, List.flatMap_append, List.mem_append, this.1, this.2, or_false]

theorem bare_op (x : Operand) : Bare x.yield := by simp [Bare]

theorem bare_lat (x : Lat) : Bare x.yield := by
  obtain ⟨x, side, g⟩ := x
  rcases side <;> rcases g with _ | _ | _ <;> simp [Bare, Lat.yield]

theorem bare_lon (x : Lon) : Bare x.yield := by
  obtain ⟨x, side⟩ := x
  rcases side <;> simp [Bare, Lon.yield]

theorem bare_nil : Bare [] := by simp [Bare, words]

theorem bare_num (s : List Char) : Bare [.ex (.num s)] := by simp [Bare, words]

theorem bare_str (s : List Char) : Bare [.str s] := by simp [Bare, words]

theorem bare_yes (y : Bool) : Bare (yesWord y) := by
  cases y <;> simp [Bare, words, yesWord, kw]

theorem bare_kw {w : String} (h : w ≠ "GRAPHIC" ∧ w ≠ "CENTRIC") : Bare [kw w] := by
  simp [Bare, words, kw, h.1.symm, h.2.symm]

theorem noType_range (r : Range) : NoType (rangeEnts [] r) := by
  cases r <;> simp [NoType, rangeEnts, bare_op]

theorem latType_latitude (t : LatType) :
    latType (("LATITUDE", LatTypeBare t) :: latTypeEnts t) = t.clause := by
  rcases t with _ | (_ | _) | (_ | _) <;> simp [LatTypeBare, latTypeEnts, latType, graphicWord,
    LatType.clause, words, kw]

theorem latType_plane (n : Option (List Char)) (r : Range) (t : LatType) :
    latType (planeEnts ⟨n, r, .latitude t⟩) = t.clause := by
  have e : planeEnts ⟨n, r, .latitude t⟩ = (("PLANE", planeVal ⟨n, r, .latitude t⟩) ::
      rangeEnts [] r) ++ (("LATITUDE", LatTypeBare t) :: latTypeEnts t) := rfl
  have hv : Bare (planeVal ⟨n, r, .latitude t⟩) := by
    cases n <;> cases r <;> simp [planeVal, bareType, numVal, Bare, words]
  rw [e, latType_left (.cons hv (noType_range r)), latType_latitude]

/-! ## Planes -/

theorem get_type {k : String} (h : k ∉ typeKeys) (t : PlaneType) : get k (typeEnts t) = none :=
  (keys_type t).get h

theorem get_range {k : String} (h : k ∉ rangeKeys) (ws : List Token) (r : Range) :
    get k (rangeEnts ws r) = none := (keys_range ws r).get h

theorem get_plane {k : String} (p : Plane) (hk : k ≠ "PLANE") (h : k ∉ rangeKeys) :
    get k (planeEnts p) = get k (typeEnts p.type) := by
  simp [planeEnts, planeRest, get_cons, get_append, hk.symm, get_range h]

/-- Lower limit of a range. -/
def lowOf : RangeClause → Option Dbl
  | .min a | .minMax a _ | .maxMin _ a => some a
  | _ => none

/-- Upper limit of a range. -/
def highOf : RangeClause → Option Dbl
  | .max a | .minMax _ a | .maxMin a _ => some a
  | _ => none

theorem expr_bareType (t : PlaneType) : expr (bareType t) = [] := by
  cases t <;> simp [bareType, expr, kw]

theorem range_vals {p : Plane} {c : RangeClause} (h : p.range.clause E = some c) :
    real E "DATA_MIN" (planeEnts p) = lowOf c ∧ real E "DATA_MAX" (planeEnts p) = highOf c := by
  obtain ⟨n, r, t⟩ := p
  have hb := expr_bareType t
  have ht1 := get_type (k := "DATA_MIN") (by decide) t
  have ht2 := get_type (k := "DATA_MAX") (by decide) t
  cases r <;> simp [Range.clause, Option.bind_eq_some_iff] at h
  · subst h
    simp [real, planeEnts, planeRest, get_cons, rangeEnts, ht1, ht2, lowOf, highOf]
  · obtain ⟨x, hx, rfl⟩ := h
    simp [real, planeEnts, planeRest, get_cons, rangeEnts, ht2, lowOf, highOf, hb, hx]
  · obtain ⟨x, hx, rfl⟩ := h
    simp [real, planeEnts, planeRest, get_cons, rangeEnts, ht1, lowOf, highOf, hb, hx]
  · obtain ⟨x, hx, y, hy, rfl⟩ := h
    simp [real, planeEnts, planeRest, get_cons, rangeEnts, lowOf, highOf, hb, hx, hy]
  · obtain ⟨x, hx, y, hy, rfl⟩ := h
    simp [real, planeEnts, planeRest, get_cons, rangeEnts, lowOf, highOf, hb, hx, hy]

theorem dataRange_exact {r : RangeClause} {g g' : Globals} (hmin : g.minimum = none)
    (hmax : g.maximum = none) (h : Parser.dataRange r g = some g') :
    g'.minimum = lowOf r ∧ g'.maximum = highOf r ∧
      ∀ x y, lowOf r = some x → highOf r = some y → x.lt y = true := by
  cases r <;> simp only [Parser.dataRange] at h
  · simp at h; subst h; exact ⟨hmin, hmax, by simp [lowOf]⟩
  · simp at h; subst h; exact ⟨rfl, hmax, by simp [highOf]⟩
  · simp at h; subst h; exact ⟨hmin, rfl, by simp [lowOf]⟩
  · split at h
    · rename_i hl
      simp at h; subst h
      refine ⟨rfl, rfl, ?_⟩
      rintro x y ⟨⟩ ⟨⟩
      exact hl
    · simp at h
  · split at h
    · rename_i hl
      simp at h; subst h
      refine ⟨rfl, rfl, ?_⟩
      rintro x y ⟨⟩ ⟨⟩
      exact hl
    · simp at h

/-- The kind of latitudes after a plane. -/
def kindAfter (graphic : Bool) : PlaneKind → Bool
  | .latitude t => t.getD graphic
  | .other => graphic

theorem plane_exact {s : PlaneSrc} {g g' : Globals} {c : PlaneCmd} (hmin : g.ppMinimum = none)
    (hmax : g.ppMaximum = none) (h : Parser.plane s g = some (g', c)) :
    c.minimum = lowOf s.range ∧ c.maximum = highOf s.range ∧
      (∀ x y, lowOf s.range = some x → highOf s.range = some y → x.lt y = true) ∧
      (∀ t, s.kind = .latitude t → c.graphic = some (t.getD g.graphicLat)) ∧
      g'.graphicLat = kindAfter g.graphicLat s.kind ∧ g'.ppMinimum = none ∧ g'.ppMaximum = none := by
  obtain ⟨number, range, kind⟩ := s
  simp only [Parser.plane] at h
  cases hs : Parser.planeSize number g with
  | none => rw [hs] at h; simp at h
  | some g1 =>
    rw [hs] at h
    simp only at h
    have e1 : ∃ e, g1 = { g with expectedPlane := e, minimum := g.ppMinimum,
                                 maximum := g.ppMaximum } := by
      cases number <;> simp only [Parser.planeSize] at hs
      · simp at hs; exact ⟨_, hs.symm⟩
      · split_ifs at hs; simp at hs; exact ⟨_, hs.symm⟩
    obtain ⟨e, he⟩ := e1
    cases hr : Parser.dataRange range g1 with
    | none => rw [hr] at h; simp at h
    | some g2 =>
      rw [hr] at h
      simp only [Option.some.injEq] at h
      obtain ⟨i1, i2, i3⟩ := dataRange_exact (by rw [he]; exact hmin) (by rw [he]; exact hmax) hr
      obtain ⟨x, y, e2⟩ := Parser.dataRange_ok hr
      have hg : g2.graphicLat = g.graphicLat := by rw [e2, he]
      have hp1 : g2.ppMinimum = none := by rw [e2, he]; exact hmin
      have hp2 : g2.ppMaximum = none := by rw [e2, he]; exact hmax
      rcases kind with ⟨_ | t⟩ | _ <;> simp [Parser.planeType, Parser.latType] at h <;>
        obtain ⟨rfl, rfl⟩ := h <;> refine ⟨i1, i2, i3, ?_, ?_, hp1, hp2⟩ <;>
        simp [hg, kindAfter]

theorem shows_graphic {p : Plane} {graphic : Bool} :
    afterPlane graphic (planeEnts p) = kindAfter graphic p.type.kind := by
  obtain ⟨n, r, t⟩ := p
  have hno : get "LATITUDE" (typeEnts t) = none → t.kind = .other →
      afterPlane graphic (planeEnts ⟨n, r, t⟩) = kindAfter graphic t.kind := by
    intro h1 h2
    rw [h2, afterPlane, has, get_plane _ (by decide) (by decide)]
    simp [h1, kindAfter]
  cases t with
  | photos p ps =>
    refine hno ?_ rfl
    refine (Keys.flatMap (ks := "IMAGE" :: photoKeys) fun x _ => .cons (by simp)
      ((keys_photoRest x).mono fun _ h => by simp [h])).get (by decide)
  | mu s d => exact hno (by simp [typeEnts, get_cons, get_append, get_sub, subKeys]) rfl
  | muFull s d u =>
    exact hno (by simp [typeEnts, get_cons, get_append, get_sub, get_sun, subKeys, sunKeys]) rfl
  | mu0 u => exact hno (by simp [typeEnts, get_cons, get_sun, sunKeys]) rfl
  | mu0Full s d u =>
    exact hno (by simp [typeEnts, get_cons, get_append, get_sub, get_sun, subKeys, sunKeys]) rfl
  | phase s d u =>
    exact hno (by simp [typeEnts, get_cons, get_append, get_sub, get_sun, subKeys, sunKeys]) rfl
  | latitude t =>
    rw [afterPlane, has, get_plane _ (by decide) (by decide), latType_plane]
    simp [typeEnts, get_cons, PlaneType.kind, kindAfter]
  | longitude => exact hno rfl rfl

/-! ## Actions -/

theorem done_inj {α : Type} {a c : α} (h : (Act.done a : Act α) = .done c) : a = c := by
  exact Option.some.inj (Outcome.ok.inj h)

theorem act_bind {α β : Type} {x : Act α} {f : α → Act β} {c : β}
    (h : (x >>= f) = Act.done c) : ∃ a, x = .done a ∧ f a = .done c := by
  change Act.bind x f = _ at h
  rw [Act.bind] at h
  rcases x with o | e | _
  · rcases o with _ | a
    · exact absurd (Outcome.ok.inj h) (by simp)
    · exact ⟨a, rfl, by simpa [Outcome.bind] using h⟩
  · simp [Outcome.bind, Act.done] at h
  · simp [Outcome.bind, Act.done] at h

theorem act_option {α : Type} {o : Option α} {c : α} (h : Act.ofOption o = .done c) :
    o = some c := by
  cases o with
  | none => exact absurd (Outcome.ok.inj h) (by simp)
  | some a => exact congrArg some (done_inj h)

theorem act_outcome {α : Type} {o : Outcome α} {c : α} (h : Act.ofOutcome o = .done c) :
    o = .ok c := by
  rcases o with a | e | _
  · exact congrArg Outcome.ok (done_inj h)
  · simp [Act.ofOutcome, Outcome.bind, Act.done] at h
  · simp [Act.ofOutcome, Outcome.bind, Act.done] at h

theorem act_pure {α : Type} {a c : α} (h : (pure a : Act α) = .done c) : a = c := done_inj h

theorem act_eq {α : Type} {x : Outcome (Option α)} {c : α} (h : (show Act α from x) = .done c) :
    x = .ok (some c) := h

/-! ## Sources -/

theorem sub_of {s : Point} {v : Dbl × Dbl} {es : Part} (h : s.value E b = some v)
    (hA : get "SUB_OBSERV_LAT" es = get "SUB_OBSERV_LAT" (subEnts s))
    (hB : get "SUB_OBSERV_LON" es = get "SUB_OBSERV_LON" (subEnts s)) :
    latitude E b "SUB_OBSERV_LAT" es = some v.1 ∧ longitude E b "SUB_OBSERV_LON" es = some v.2 := by
  have := point_of (E := E) (b := b) (by decide) hA hB
  rw [h] at this
  simp only [both, Option.pure_def, Option.bind_eq_bind, Option.bind_eq_some_iff,
    Option.some.injEq] at this
  obtain ⟨x, hx, y, hy, rfl⟩ := this
  exact ⟨hx, hy⟩

theorem sun_of {s : Point} {v : Dbl × Dbl} {es : Part} (h : s.value E b = some v)
    (hA : get "SUB_SOLAR_LAT" es = get "SUB_SOLAR_LAT" (sunEnts s))
    (hB : get "SUB_SOLAR_LON" es = get "SUB_SOLAR_LON" (sunEnts s)) :
    latitude E b "SUB_SOLAR_LAT" es = some v.1 ∧ longitude E b "SUB_SOLAR_LON" es = some v.2 := by
  have := point_of (E := E) (b := b) (by decide) hA hB
  rw [h] at this
  simp only [both, Option.pure_def, Option.bind_eq_bind, Option.bind_eq_some_iff,
    Option.some.injEq] at this
  obtain ⟨x, hx, y, hy, rfl⟩ := this
  exact ⟨hx, hy⟩

/-- Look up a keyword in the entries of a plane. -/
macro "plane_get" : tactic => `(tactic|
  (rw [get_plane _ (by decide) (by decide)]
   simp [typeEnts, get_cons, get_append, get_sub, get_sun, subKeys, sunKeys]))

/-- There is no photo in a plane of a computed image. -/
macro "no_image" : tactic => `(tactic|
  (rw [has, get_plane _ (by decide) (by decide)]
   simp [typeEnts, get_cons, get_append, get_sub, get_sun, subKeys, sunKeys]))

theorem source_of {p : Plane} {a : Averaging} {d : Nibbles} {graphic : Bool} {g : Option Bool}
    {v v' : PhotoVars} {s : Source} (hv : Inert d v)
    (hg : ∀ t, p.type.kind = .latitude t → g = some (t.getD graphic))
    (h : p.type.source E b a g v = .done (v', s)) :
    Inert d v' ∧ Shows E b a d graphic (planeEnts p) s := by
  obtain ⟨n, r, t⟩ := p
  cases t with
  | photos p ps =>
    simp only [PlaneType.source] at h
    obtain ⟨ss, h1, h⟩ := act_bind h
    obtain ⟨⟨v1, cs⟩, h2, h⟩ := act_bind h
    have h3 := act_pure h
    simp only [Prod.mk.injEq] at h3
    obtain ⟨rfl, rfl⟩ := h3
    have hss := mapM_forall (act_option h1)
    obtain ⟨hi, hf⟩ := images_of hv (scanned_of hss) (act_eq h2)
    have hph := (photos_of hss hf).1
    refine ⟨hi, ?_⟩
    rcases cs with _ | ⟨c, _ | ⟨c', cs⟩⟩
    · cases hph
    · simp only [Parser.planePhotos]
      cases hph with
      | cons hc hn =>
        cases ps with
        | nil => exact .photo (by rw [parts_photos]; rfl) hc
        | cons q qs => cases hn
    · simp only [Parser.planePhotos]
      refine .photos (by simp) ?_
      rw [parts_photos]
      exact hph
  | mu q e =>
    simp only [PlaneType.source] at h
    obtain ⟨x, h1, h⟩ := act_bind h
    obtain ⟨y, h2, h⟩ := act_bind h
    have h3 := act_pure h
    simp only [Prod.mk.injEq] at h3
    obtain ⟨rfl, rfl⟩ := h3
    obtain ⟨j1, j2⟩ := sub_of (act_option h1) (es := planeEnts ⟨n, r, .mu q e⟩) (by plane_get)
      (by plane_get)
    refine ⟨hv, .mu ?_ j1 j2 ?_
      (by no_image)⟩
    · rw [has, get_plane _ (by decide) (by decide)]; simp [typeEnts, get_cons]
    · rw [distance_of (d := e) (by plane_get), act_option h2]
  | muFull q e u =>
    simp only [PlaneType.source] at h
    obtain ⟨x, h1, h⟩ := act_bind h
    obtain ⟨y, h2, h⟩ := act_bind h
    obtain ⟨z, h4, h⟩ := act_bind h
    have h3 := act_pure h
    simp only [Prod.mk.injEq] at h3
    obtain ⟨rfl, rfl⟩ := h3
    obtain ⟨j1, j2⟩ := sub_of (act_option h1) (es := planeEnts ⟨n, r, .muFull q e u⟩) (by plane_get)
      (by plane_get)
    refine ⟨hv, .mu ?_ j1 j2 ?_
      (by no_image)⟩
    · rw [has, get_plane _ (by decide) (by decide)]; simp [typeEnts, get_cons]
    · rw [distance_of (d := e) (by plane_get), act_option h2]
  | mu0 u =>
    simp only [PlaneType.source] at h
    obtain ⟨z, h4, h⟩ := act_bind h
    have h3 := act_pure h
    simp only [Prod.mk.injEq] at h3
    obtain ⟨rfl, rfl⟩ := h3
    obtain ⟨j1, j2⟩ := sun_of (act_option h4) (es := planeEnts ⟨n, r, .mu0 u⟩) (by plane_get)
      (by plane_get)
    refine ⟨hv, .mu0 ?_ j1 j2
      (by no_image)⟩
    rw [has, get_plane _ (by decide) (by decide)]; simp [typeEnts, get_cons]
  | mu0Full q e u =>
    simp only [PlaneType.source] at h
    obtain ⟨x, h1, h⟩ := act_bind h
    obtain ⟨y, h2, h⟩ := act_bind h
    obtain ⟨z, h4, h⟩ := act_bind h
    have h3 := act_pure h
    simp only [Prod.mk.injEq] at h3
    obtain ⟨rfl, rfl⟩ := h3
    obtain ⟨j1, j2⟩ := sun_of (act_option h4) (es := planeEnts ⟨n, r, .mu0Full q e u⟩) (by plane_get)
      (by plane_get)
    refine ⟨hv, .mu0 ?_ j1 j2
      (by no_image)⟩
    rw [has, get_plane _ (by decide) (by decide)]; simp [typeEnts, get_cons]
  | phase q e u =>
    simp only [PlaneType.source] at h
    obtain ⟨x, h1, h⟩ := act_bind h
    obtain ⟨y, h2, h⟩ := act_bind h
    obtain ⟨z, h4, h⟩ := act_bind h
    have h3 := act_pure h
    simp only [Prod.mk.injEq] at h3
    obtain ⟨rfl, rfl⟩ := h3
    obtain ⟨i1, i2⟩ := sub_of (act_option h1) (es := planeEnts ⟨n, r, .phase q e u⟩) (by plane_get)
      (by plane_get)
    obtain ⟨j1, j2⟩ := sun_of (act_option h4) (es := planeEnts ⟨n, r, .phase q e u⟩) (by plane_get)
      (by plane_get)
    refine ⟨hv, .phase ?_ i1 i2 j1 j2 ?_
      (by no_image)⟩
    · rw [has, get_plane _ (by decide) (by decide)]; simp [typeEnts, get_cons]
    · rw [distance_of (d := e) (by plane_get), act_option h2]
  | latitude t =>
    simp only [PlaneType.source] at h
    have h3 := act_pure h
    simp only [Prod.mk.injEq] at h3
    obtain ⟨rfl, rfl⟩ := h3
    refine ⟨hv, ?_⟩
    rw [hg t.clause rfl, Option.getD_some, ← latType_plane n r t]
    refine .latitude ?_ (by
      rw [has, get_plane _ (by decide) (by decide)]
      cases t <;> simp [typeEnts, latTypeEnts, get_cons, get])
    rw [has, get_plane _ (by decide) (by decide)]; simp [typeEnts, get_cons]
  | longitude =>
    simp only [PlaneType.source] at h
    have h3 := act_pure h
    simp only [Prod.mk.injEq] at h3
    obtain ⟨rfl, rfl⟩ := h3
    refine ⟨hv, .longitude ?_
      (by no_image)⟩
    cases r <;> simp [planeEnts, planeRest, planeVal, rangeEnts, bareType, typeEnts]

theorem planes_of {a : Averaging} {d : Nibbles} : ∀ {ps : List Plane} {ss : List PlaneSrc}
    {g g' : Globals} {cs : List PlaneCmd} {v v' : PhotoVars} {is : List PlaneImage},
    List.Forall₂ (fun p s => Plane.src E p = some s) ps ss → g.ppMinimum = none →
    g.ppMaximum = none → Inert d v → Parser.planes ss g = some (g', cs) →
    planeImages E b a (ps.zip cs) v = .done (v', is) →
    ArePlanes E b a d g.graphicLat (ps.map planeEnts) is ∧ Inert d v' ∧
      g'.graphicLat = (ps.map planeEnts).foldl afterPlane g.graphicLat
  | _, _, g, g', cs, v, v', is, .nil, _, _, hv, h, hi => by
    simp only [Parser.planes, Option.some.injEq, Prod.mk.injEq] at h
    obtain ⟨rfl, rfl⟩ := h
    have := act_pure hi
    simp only [Prod.mk.injEq] at this
    obtain ⟨rfl, rfl⟩ := this
    exact ⟨.nil, hv, rfl⟩
  | p :: ps, s :: ss, g, g', cs, v, v', is, .cons hp hps, hmin, hmax, hv, h, hi => by
    simp only [Parser.planes] at h
    cases hpl : Parser.plane s g with
    | none => rw [hpl] at h; simp at h
    | some r =>
      obtain ⟨g1, c⟩ := r
      rw [hpl] at h
      simp only at h
      cases hpls : Parser.planes ss g1 with
      | none => rw [hpls] at h; simp at h
      | some r =>
        obtain ⟨g2, cs'⟩ := r
        rw [hpls] at h
        simp only [Option.some.injEq, Prod.mk.injEq] at h
        obtain ⟨rfl, rfl⟩ := h
        simp only [List.zip_cons_cons, planeImages] at hi
        obtain ⟨⟨v1, src⟩, hi1, hi⟩ := act_bind hi
        obtain ⟨⟨v2, is'⟩, hi2, hi⟩ := act_bind hi
        have := act_pure hi
        simp only [Prod.mk.injEq] at this
        obtain ⟨rfl, rfl⟩ := this
        simp only [Plane.src, Option.pure_def, Option.bind_eq_bind, Option.bind_eq_some_iff,
          Option.some.injEq] at hp
        obtain ⟨num, -, rc, hrc, rfl⟩ := hp
        obtain ⟨k1, k2, k3, k4, k5, k6, k7⟩ := plane_exact hmin hmax hpl
        obtain ⟨l1, l2⟩ := source_of hv k4 hi1
        obtain ⟨m1, m2, m3⟩ := planes_of hps k6 k7 l1 hpls hi2
        obtain ⟨n1, n2⟩ := range_vals (p := p) hrc
        have hgr : afterPlane g.graphicLat (planeEnts p) = g1.graphicLat := by
          rw [k5, shows_graphic]
        refine ⟨.cons ⟨?_, ?_, ?_, l2⟩ (by rw [hgr]; exact m1), m2, ?_⟩
        · rw [n1]; exact k1
        · rw [n2]; exact k2
        · intro x y hx hy
          exact k3 x y (k1 ▸ hx) (k2 ▸ hy)
        · rw [List.map_cons, List.foldl_cons, hgr]
          exact m3

end MaRC.InputMeaning
