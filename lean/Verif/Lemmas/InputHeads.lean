import Verif.Lemmas.InputMaps

/-! # Clauses of maps before their planes -/

namespace MaRC.InputMeaning

open MaRC.Calc (Tok)
open MaRC.Scan (Token kw)
open MaRC.Grammar
open MaRC.Parser (Averaging Hemisphere Side NibbleClause CenterClause ScaleClause PhotoSrc PhotoCmd
  Nibbles PhotoVars Inert RangeClause RadiiClause PlaneSrc PlaneKind PlaneCmd Globals ProjSrc Proj
  OrthoCenter IntervalClause GridClause clean)

variable {E : Env} {b : Body}

/-! ## Projections -/

/-- The projection a clause asks for, given the kind of latitudes before it. -/
def wantedProj (graphic : Bool) : ProjSrc → Proj
  | .simple none lat lon => (ProjSrc.simple (some graphic) lat lon).wanted
  | p => p.wanted

/-- The kind of latitudes after a projection. -/
def graphicAfter (graphic : Bool) : ProjSrc → Bool
  | .simple .. => false
  | _ => graphic

theorem projection_wanted {p : ProjSrc} {g g' : Globals} {q : Proj} (hc : clean g)
    (h : Parser.projection p g = some (g', q)) :
    q = wantedProj g.graphicLat p ∧ g'.graphicLat = graphicAfter g.graphicLat p := by
  have hv := Parser.projection_valid h
  constructor
  · by_cases hp : ∀ lat lon, p ≠ .simple none lat lon
    · obtain ⟨g2, he⟩ := Parser.projection_eq hc hv (.inl hp)
      rw [he] at h
      simp only [Option.some.injEq, Prod.mk.injEq] at h
      rw [← h.2]
      rcases p with _ | _ | _ | ⟨_ | _, _, _⟩ <;> first | rfl | exact absurd rfl (hp _ _)
    · push Not at hp
      obtain ⟨lat, lon, rfl⟩ := hp
      have hv' : (ProjSrc.simple (some g.graphicLat) lat lon).Valid := by
        cases lat <;> exact hv
      obtain ⟨g2, he⟩ := Parser.projection_eq hc hv' (.inl (by simp))
      have : Parser.projection (.simple none lat lon) g =
          Parser.projection (.simple (some g.graphicLat) lat lon) g := by
        simp [Parser.projection, Parser.simpleC, Parser.latType]
      rw [this, he] at h
      simp only [Option.some.injEq, Prod.mk.injEq] at h
      exact h.2.symm
  · cases p with
    | mercator =>
      simp [Parser.projection] at h
      rw [← h.1]; rfl
    | ortho sub pa km c =>
      simp only [Parser.projection, Parser.ortho, Parser.kmPerPixel] at h
      rcases km with _ | k
      · cases sub <;> cases pa <;> cases c <;> simp at h <;> rw [← h.1] <;> rfl
      · by_cases hk : k.gt (.fin 0) = true
        · cases sub <;> cases pa <;> cases c <;> simp [hk] at h <;> rw [← h.1] <;> rfl
        · cases sub <;> cases pa <;> simp [hk] at h
    | polar pole m =>
      cases pole <;> cases m <;> simp [Parser.projection, Parser.polarS] at h <;> rw [← h.1] <;> rfl
    | simple lt lat lon =>
      simp only [Parser.projection, Parser.simpleC] at h
      split at h
      · simp at h
      · simp only [Option.some.injEq, Prod.mk.injEq] at h
        rw [← h.1]; rfl

theorem get_opts {k : String} (h : k ∉ optKeys) (a : Option Averaging) (ws : List Token) :
    get k (optsEnts a ws) = none := (keys_opts a ws).get h

theorem latitude_none {k : String} {es : Part} (h : get k es = none) : latitude E b k es = none := by
  simp [latitude, h]

theorem longitude_none {k : String} {es : Part} (h : get k es = none) :
    longitude E b k es = none := by simp [longitude, h]

theorem turn_none {es : Part} (h : get "POSITION_ANGLE" es = none) : turn E es = none := by
  simp [turn, h]

theorem center_inert {d : Nibbles} {v : PhotoVars} (hv : Inert d v) (x y : Dbl) :
    (Parser.orthoCenters (.pixel x y) v).2 =
        (if x ≠ .nan ∧ y ≠ .nan then OrthoCenter.center x y else .default) ∧
      (Parser.orthoCenters (.latLon x y) v).2 =
        (if x ≠ .nan ∧ y ≠ .nan then OrthoCenter.latLon x y else .default) := by
  have h1 : (!v.sampleCenter.isNaN && !v.lineCenter.isNaN) = false := by
    rcases hv.pixel with h | h <;> simp [h, Dbl.isNaN]
  have h2 : (!v.latAtCenter.isNaN && !v.lonAtCenter.isNaN) = false := by
    rcases hv.latLon with h | h <;> simp [h, Dbl.isNaN]
  have h3 : (!x.isNaN && !y.isNaN) = decide (x ≠ .nan ∧ y ≠ .nan) := by
    cases x <;> cases y <;> simp [Dbl.isNaN]
  constructor
  · simp only [Parser.orthoCenters, Parser.centers, h3, h2, decide_eq_true_eq]
    split <;> simp
  · simp only [Parser.orthoCenters, Parser.centers, h3, h1, decide_eq_true_eq]
    simp only [Bool.false_eq_true, if_false]
    by_cases hn : x ≠ .nan ∧ y ≠ .nan <;> simp only [hn, if_true, if_false, and_self, not_false_eq_true, ne_eq]

/-- The center a clause asks for. -/
def centerFor (v : PhotoVars) : Option CenterClause → OrthoCenter
  | none => .default
  | some c => (Parser.orthoCenters c v).2

theorem mapCenter_of {c : Option Centers} {cc : Option CenterClause} {es : Part} {d : Nibbles}
    {v : PhotoVars} (hv : Inert d v)
    (hk : ∀ k ∈ centerKeys, get k es = get k (c.elim [] centersEnts))
    (h : Grammar.optional (Centers.clause E b) c = some cc) :
    mapCenter E b es = centerFor v cc := by
  simp only [centerKeys, List.forall_mem_cons] at hk
  obtain ⟨h1, h2, h3, h4, -⟩ := hk
  cases c with
  | none =>
    simp only [Grammar.optional, Option.some.injEq] at h
    subst h
    simp only [Option.elim_none, get_nil] at h1 h2 h3 h4
    simp only [mapCenter, real_none h1, latitude_none h3, both_none_left, centerFor]
  | some c =>
    simp only [Grammar.optional, Option.map_eq_some_iff] at h
    obtain ⟨c', hc, rfl⟩ := h
    simp only [Option.elim_some] at h1 h2 h3 h4
    cases c with
    | pixel p =>
      simp only [Centers.clause, Option.pure_def, Option.bind_eq_bind, Option.bind_eq_some_iff,
        Option.some.injEq, Prod.exists] at hc
      obtain ⟨x, y, hp, rfl⟩ := hc
      have := pair_of (E := E) (by decide) h1 h2
      rw [hp] at this
      simp only [mapCenter, this]
      rw [centerFor, (center_inert hv x y).1]
    | latLon p =>
      simp only [Centers.clause, Option.pure_def, Option.bind_eq_bind, Option.bind_eq_some_iff,
        Option.some.injEq, Prod.exists] at hc
      obtain ⟨x, y, hp, rfl⟩ := hc
      have := point_of (E := E) (b := b) (by decide) h3 h4
      rw [hp] at this
      simp only [centersEnts] at h1
      rw [(keys_point _ _ p).get (k := "SAMPLE_CENTER") (by decide)] at h1
      simp only [mapCenter, real_none h1, both_none_left, this]
      rw [centerFor, (center_inert hv x y).2]

theorem ortho_of {o : OrthoOpts} {v v' : PhotoVars} {src : ProjSrc} {es : Part} {d : Nibbles}
    {graphic : Bool} (hv : Inert d v) (hk : ∀ k ∈ orthoKeys, get k es = get k (orthoEnts o))
    (hm : choice "MAP_TYPE" es = some "ORTHO") (h : o.src E b v = some (v', src)) :
    Inert d v' ∧ projection E b graphic es = some (wantedProj graphic src) ∧
      graphicAfter graphic src = graphic := by
  have hk' : ∀ k ∈ orthoKeys, get k es = ((get k (o.parts.1.elim [] subEnts)).or
      (get k (optEnt "POSITION_ANGLE" (o.parts.2.1.map turnVal)))).or
      ((get k (optEnt "KM_PER_PIXEL" (o.parts.2.2.1.map Operand.yield))).or
        (get k (o.parts.2.2.2.elim [] centersEnts))) := by
    intro k hkm
    rw [hk k hkm, orthoEnts, get_append, get_append, get_append]
  simp only [OrthoOpts.src] at h
  generalize o.parts = ps at h hk'
  obtain ⟨s, t, x, c⟩ := ps
  simp only [Option.bind_eq_bind, Option.bind_eq_some_iff] at h
  obtain ⟨sub, hs, tv, ht, km, hx, cc, hc, h⟩ := h
  have gs : ∀ k, k ∉ subKeys → get k (s.elim [] subEnts) = none := by
    intro k hk
    cases s with
    | none => rfl
    | some s => exact get_sub hk s
  have gc : ∀ k, k ∉ centerKeys → get k (c.elim [] centersEnts) = none := by
    intro k hk
    cases c with
    | none => rfl
    | some s => exact get_centers hk s
  have k1 : get "SUB_OBSERV_LAT" es = get "SUB_OBSERV_LAT" (s.elim [] subEnts) := by
    rw [hk' _ (by decide)]; simp [gc "SUB_OBSERV_LAT" (by decide)]
  have k2 : get "SUB_OBSERV_LON" es = get "SUB_OBSERV_LON" (s.elim [] subEnts) := by
    rw [hk' _ (by decide)]; simp [gc "SUB_OBSERV_LON" (by decide)]
  have k3 : get "POSITION_ANGLE" es = t.map turnVal := by
    rw [hk' _ (by decide)]; simp [gc "POSITION_ANGLE" (by decide), gs "POSITION_ANGLE" (by decide)]
  have k4 : get "KM_PER_PIXEL" es = x.map Operand.yield := by
    rw [hk' _ (by decide)]; simp [gc "KM_PER_PIXEL" (by decide), gs "KM_PER_PIXEL" (by decide)]
  have k5 : ∀ k ∈ centerKeys, get k es = get k (c.elim [] centersEnts) := by
    intro k hkm
    have h1 : k ∉ subKeys := by revert k; decide
    have h2 : "POSITION_ANGLE" ≠ k ∧ "KM_PER_PIXEL" ≠ k := by revert k; decide
    rw [hk' k (by simp [orthoKeys, hkm])]
    simp [gs k h1, h2.1, h2.2]
  have e1 : (latitude E b "SUB_OBSERV_LAT" es).getD (.fin 0) = (sub.getD (.fin 0, .fin 0)).1 ∧
      (longitude E b "SUB_OBSERV_LON" es).getD (.fin 0) = (sub.getD (.fin 0, .fin 0)).2 := by
    cases s with
    | none =>
      simp only [Grammar.optional, Option.some.injEq] at hs
      subst hs
      rw [latitude_none k1, longitude_none k2]
      exact ⟨rfl, rfl⟩
    | some s =>
      simp only [Grammar.optional, Option.map_eq_some_iff] at hs
      obtain ⟨w, hw, rfl⟩ := hs
      obtain ⟨i1, i2⟩ := sub_of hw k1 k2
      rw [i1, i2]
      exact ⟨rfl, rfl⟩
  have e2 : turn E es = tv := by
    cases t with
    | none =>
      simp only [Grammar.optional, Option.some.injEq] at ht
      subst ht
      exact turn_none k3
    | some t =>
      simp only [Grammar.optional, Option.map_eq_some_iff] at ht
      obtain ⟨w, hw, rfl⟩ := ht
      rw [turn_of k3, hw]
  have e3 : real E "KM_PER_PIXEL" es = km := by
    rw [real_opt _ k4, optional_bind hx]
  have e4 := mapCenter_of hv k5 hc
  simp only [projection, hm, e1.1, e1.2, e2, e3, e4]
  cases cc with
  | none =>
    simp only [Option.pure_def, Option.some.injEq, Prod.mk.injEq] at h
    obtain ⟨rfl, rfl⟩ := h
    exact ⟨hv, rfl, rfl⟩
  | some cc =>
    simp only [Option.pure_def, Option.some.injEq, Prod.mk.injEq] at h
    obtain ⟨rfl, rfl⟩ := h
    exact ⟨Parser.ortho_inert cc hv, rfl, rfl⟩

theorem ranges_of {r : Ranges} {lat lon : Option (Dbl × Dbl)} {es : Part}
    (hk : ∀ k ∈ rangesKeys, get k es = get k (rangesEnts r)) (h : r.value E b = some (lat, lon)) :
    (latitude E b "LO_LAT" es).getD (.fin (-90)) = (lat.getD (.fin (-90), .fin 90)).1 ∧
    (latitude E b "HI_LAT" es).getD (.fin 90) = (lat.getD (.fin (-90), .fin 90)).2 ∧
    (longitude E b "LO_LON" es).getD (.fin 0) = (lon.getD (.fin 0, .fin 360)).1 ∧
    (longitude E b "HI_LON" es).getD (.fin 360) = (lon.getD (.fin 0, .fin 360)).2 := by
  simp only [rangesKeys, latRangeKeys, lonRangeKeys, List.cons_append, List.nil_append,
    List.forall_mem_cons] at hk
  obtain ⟨h1, h2, h3, h4, -⟩ := hk
  have kLat : ∀ {x : LatRange} {w : Dbl × Dbl}, x.value E b = some w →
      get "LO_LAT" es = get "LO_LAT" (latRangeEnts x) → get "HI_LAT" es = get "HI_LAT" (latRangeEnts x) →
      latitude E b "LO_LAT" es = some w.1 ∧ latitude E b "HI_LAT" es = some w.2 := by
    intro x w hw g1 g2
    cases x <;> simp [latRangeEnts, get_cons] at g1 g2 <;>
      simp [LatRange.value, Option.bind_eq_some_iff] at hw <;>
      obtain ⟨a, ha, c, hc, rfl⟩ := hw <;>
      exact ⟨by rw [latitude_of g1, ha], by rw [latitude_of g2, hc]⟩
  have kLon : ∀ {x : LonRange} {w : Dbl × Dbl}, x.value E b = some w →
      get "LO_LON" es = get "LO_LON" (lonRangeEnts x) → get "HI_LON" es = get "HI_LON" (lonRangeEnts x) →
      longitude E b "LO_LON" es = some w.1 ∧ longitude E b "HI_LON" es = some w.2 := by
    intro x w hw g1 g2
    cases x <;> simp [lonRangeEnts, get_cons] at g1 g2 <;>
      simp [LonRange.value, Option.bind_eq_some_iff] at hw <;>
      obtain ⟨a, ha, c, hc, rfl⟩ := hw <;>
      exact ⟨by rw [longitude_of g1, ha], by rw [longitude_of g2, hc]⟩
  cases r with
  | empty =>
    simp [Ranges.value] at h
    obtain ⟨rfl, rfl⟩ := h
    simp only [rangesEnts, get_nil] at h1 h2 h3 h4
    simp [latitude_none h1, latitude_none h2, longitude_none h3, longitude_none h4]
  | lat x =>
    simp [Ranges.value, Option.bind_eq_some_iff] at h
    obtain ⟨w1, w2, hw, rfl, rfl⟩ := h
    simp only [rangesEnts] at h1 h2 h3 h4
    rw [(keys_latRange x).get (by decide)] at h3 h4
    obtain ⟨i1, i2⟩ := kLat hw h1 h2
    simp [i1, i2, longitude_none h3, longitude_none h4]
  | lon y =>
    simp [Ranges.value, Option.bind_eq_some_iff] at h
    obtain ⟨w1, w2, hw, rfl, rfl⟩ := h
    simp only [rangesEnts] at h1 h2 h3 h4
    rw [(keys_lonRange y).get (by decide)] at h1 h2
    obtain ⟨i1, i2⟩ := kLon hw h3 h4
    simp [i1, i2, latitude_none h1, latitude_none h2]
  | latLon x y =>
    simp [Ranges.value, Option.bind_eq_some_iff] at h
    obtain ⟨w1, w2, hw, u1, u2, hu, rfl, rfl⟩ := h
    simp only [rangesEnts, get_append] at h1 h2 h3 h4
    rw [(keys_lonRange y).get (by decide), Option.or_none] at h1 h2
    rw [(keys_latRange x).get (by decide), Option.none_or] at h3 h4
    obtain ⟨i1, i2⟩ := kLat hw h1 h2
    obtain ⟨i3, i4⟩ := kLon hu h3 h4
    simp [i1, i2, i3, i4]
  | lonLat y x =>
    simp [Ranges.value, Option.bind_eq_some_iff] at h
    obtain ⟨w1, w2, hw, u1, u2, hu, rfl, rfl⟩ := h
    simp only [rangesEnts, get_append] at h1 h2 h3 h4
    rw [(keys_lonRange y).get (by decide), Option.none_or] at h1 h2
    rw [(keys_latRange x).get (by decide), Option.or_none] at h3 h4
    obtain ⟨i1, i2⟩ := kLat hw h1 h2
    obtain ⟨i3, i4⟩ := kLon hu h3 h4
    simp [i1, i2, i3, i4]

theorem noType_ranges (r : Ranges) : NoType (rangesEnts r) := by
  have h1 : ∀ x : LatRange, NoType (latRangeEnts x) := by
    intro x; cases x <;> simp [NoType, latRangeEnts, bare_lat]
  have h2 : ∀ x : LonRange, NoType (lonRangeEnts x) := by
    intro x; cases x <;> simp [NoType, lonRangeEnts, bare_lon]
  cases r with
  | empty => exact .nil
  | lat x => exact h1 x
  | lon x => exact h2 x
  | latLon x y => exact (h1 x).append (h2 y)
  | lonLat y x => exact (h2 y).append (h1 x)

theorem latType_simple (a : Option Averaging) (t : LatType) (r : Ranges) :
    latType (projEnts (.simple (some (a, t, r)))) = t.clause := by
  have e : projEnts (.simple (some (a, t, r))) = ("MAP_TYPE", [kw "SIMPLE_C"]) ::
      (optsEnts a (LatTypeBare t) ++ latTypeEnts t) ++ rangesEnts r := by
    simp [projEnts, projOpts, Projection.name]
  rw [e, latType_right (noType_ranges r)]
  rcases a with _ | _ | _ | _ <;> rcases t with _ | (_ | _) | (_ | _) <;>
    simp [LatTypeBare, latTypeEnts, latType, graphicWord, LatType.clause, words, kw, optsEnts, avgWord]

theorem projection_of {p : Projection} {v v' : PhotoVars} {src : ProjSrc} {es : Part} {d : Nibbles}
    {graphic : Bool} (hv : Inert d v) (hk : ∀ k ∈ projKeys, get k es = get k (projEnts p))
    (hl : latType es = latType (projEnts p)) (h : p.src E b v = some (v', src)) :
    Inert d v' ∧ projection E b graphic es = some (wantedProj graphic src) ∧
      graphicAfter graphic src = afterProjection graphic es := by
  have hm : choice "MAP_TYPE" es = some p.name := by
    rw [choice_congr (hk _ (by decide))]
    simp [choice, projEnts, get_cons]
  rcases p with a | (_ | ⟨a, o⟩) | (_ | ⟨a, north, m⟩) | (_ | ⟨a, t, r⟩)
  · simp only [Projection.src, Option.some.injEq, Prod.mk.injEq] at h
    obtain ⟨rfl, rfl⟩ := h
    simp only [Projection.name] at hm
    exact ⟨hv, by simp [projection, hm, wantedProj, ProjSrc.wanted],
      by simp [afterProjection, hm, graphicAfter]⟩
  · simp only [Projection.name] at hm
    obtain ⟨h1, h2, h3⟩ := ortho_of (graphic := graphic) hv (o := .empty) (es := es) (by
      intro k hko
      rw [hk k (by simp [projKeys, hko])]
      have : "MAP_TYPE" ≠ k := by revert k; decide
      simp [projEnts, get_cons, this, projOpts, orthoEnts, OrthoOpts.parts, optEnt]) hm h
    exact ⟨h1, h2, by simp [afterProjection, hm, h3]⟩
  · simp only [Projection.name] at hm
    obtain ⟨h1, h2, h3⟩ := ortho_of (graphic := graphic) hv (o := o) (es := es) (by
      intro k hko
      rw [hk k (by simp [projKeys, hko])]
      have h1 : "MAP_TYPE" ≠ k := by revert k; decide
      have h2 : k ∉ optKeys := by revert k; decide
      simp [projEnts, get_cons, h1, projOpts, get_append, get_opts h2]) hm h
    exact ⟨h1, h2, by simp [afterProjection, hm, h3]⟩
  · simp only [Projection.src, Option.some.injEq, Prod.mk.injEq] at h
    obtain ⟨rfl, rfl⟩ := h
    simp only [Projection.name] at hm
    have k1 := hk "MAX_LAT" (by decide)
    have k2 := hk "POLE" (by decide)
    simp [projEnts, get_cons, projOpts] at k1 k2
    refine ⟨hv, ?_, by simp [afterProjection, hm, graphicAfter]⟩
    have k3 : choice "POLE" es = none := by simp [choice, k2]
    simp [projection, hm, wantedProj, ProjSrc.wanted, latitude_none k1, k3]
  · simp only [Projection.src, Option.pure_def, Option.bind_eq_bind, Option.bind_eq_some_iff,
      Option.some.injEq, Prod.mk.injEq] at h
    obtain ⟨mv, hmv, rfl, rfl⟩ := h
    simp only [Projection.name] at hm
    have k1 := hk "MAX_LAT" (by decide)
    have k2 := hk "POLE" (by decide)
    simp [projEnts, get_cons, projOpts, get_append, get_opts, optKeys] at k1 k2
    refine ⟨hv, ?_, by simp [afterProjection, hm, graphicAfter]⟩
    have e1 : latitude E b "MAX_LAT" es = mv := by
      cases m with
      | none =>
        simp only [Grammar.optional, Option.some.injEq] at hmv
        subst hmv
        exact latitude_none (by simpa using k1)
      | some x =>
        simp only [Grammar.optional, Option.map_eq_some_iff] at hmv
        obtain ⟨w, hw, rfl⟩ := hmv
        rw [latitude_of (l := x) (by simpa using k1), hw]
    have k3 : choice "POLE" es = some (if north then "N" else "S") := by simp [choice, k2]
    cases north <;> simp [projection, hm, wantedProj, ProjSrc.wanted, e1, k3]
  · simp only [Projection.src, Option.some.injEq, Prod.mk.injEq] at h
    obtain ⟨rfl, rfl⟩ := h
    simp only [Projection.name] at hm
    have k1 := hk "LO_LAT" (by decide)
    have k2 := hk "HI_LAT" (by decide)
    have k3 := hk "LO_LON" (by decide)
    have k4 := hk "HI_LON" (by decide)
    simp [projEnts, get_cons, projOpts] at k1 k2 k3 k4
    have k5 : latType es = none := by
      rw [hl]; simp [latType, projEnts, projOpts, Projection.name, words, kw]
    refine ⟨hv, ?_, by simp [afterProjection, hm, graphicAfter]⟩
    simp [projection, hm, wantedProj, ProjSrc.wanted, latitude_none k1, latitude_none k2,
      longitude_none k3, longitude_none k4, k5]
  · simp only [Projection.src, Option.pure_def, Option.bind_eq_bind, Option.bind_eq_some_iff,
      Option.some.injEq, Prod.mk.injEq, Prod.exists] at h
    obtain ⟨lat, lon, hr, rfl, rfl⟩ := h
    simp only [Projection.name] at hm
    obtain ⟨i1, i2, i3, i4⟩ := ranges_of (r := r) (es := es) (by
      intro k hkr
      rw [hk k (by simp [projKeys, hkr])]
      have h1 : "MAP_TYPE" ≠ k := by revert k; decide
      have h2 : k ∉ optKeys := by revert k; decide
      have h3 : "LATITUDE_TYPE" ≠ k := by revert k; decide
      have h4 : get k (latTypeEnts t) = none := by cases t <;> simp [latTypeEnts, get_cons, h3]
      simp [projEnts, get_cons, h1, projOpts, get_append, get_opts h2, h4]) hr
    rw [latType_simple] at hl
    refine ⟨hv, ?_, by simp [afterProjection, hm, graphicAfter]⟩
    simp only [projection, hm, i1, i2, i3, i4, hl]
    cases t.clause <;> rfl

theorem averaging_of {p : Projection} {es : Part} (h : get "AVERAGING" es = get "AVERAGING" (projEnts p)) :
    averaging es = p.averaging.getD .weighted := by
  rw [averaging, choice_congr h]
  have hn : ∀ o, get "AVERAGING" (orthoEnts o) = none := fun o => (keys_ortho o).get (by decide)
  have hr : ∀ r, get "AVERAGING" (rangesEnts r) = none := fun r => (keys_ranges r).get (by decide)
  have ht : ∀ t, get "AVERAGING" (latTypeEnts t) = none := by
    intro t; cases t <;> simp [latTypeEnts, get_cons]
  rcases p with (_ | _ | _ | _ | _) | (_ | ⟨_ | _ | _ | _, o⟩) | (_ | ⟨_ | _ | _ | _, north, m⟩) |
      (_ | ⟨_ | _ | _ | _, t, r⟩) <;>
    simp [choice, projEnts, projOpts, get_cons, get_append, optsEnts, hn, hr, ht, Projection.averaging,
      avgWord]

end MaRC.InputMeaning
