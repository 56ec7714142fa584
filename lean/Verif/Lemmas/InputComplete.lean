import Verif.Lemmas.InputClauses

/-! # Planes, maps and files with valid values are accepted -/

namespace MaRC.InputMeaning

open MaRC.Calc (Tok)
open MaRC.Scan (Token kw)
open MaRC.Grammar
open MaRC.Parser (Averaging Hemisphere Side NibbleClause CenterClause ScaleClause PhotoSrc PhotoCmd
  Nibbles PhotoVars Inert RangeClause RadiiClause PlaneSrc PlaneKind PlaneCmd Globals ProjSrc Proj
  OrthoCenter IntervalClause GridClause clean)

variable {E : Env} {b : Body} {es : Part}

/-! ## Planes -/

theorem plane_number (p : Plane) (h : (get "PLANE" (planeEnts p)).map expr ≠ some [] →
      ∃ n, int "PLANE" (planeEnts p) = some n) :
    ∃ n, Grammar.optional Parser.integer p.number = some n ∧ int "PLANE" (planeEnts p) = n := by
  have hg : get "PLANE" (planeEnts p) = some (planeVal p) := by simp [planeEnts, get_cons]
  have hb := expr_bareType p.type
  cases hn : p.number with
  | none =>
    refine ⟨none, rfl, ?_⟩
    have : expr (planeVal p) = [] := by
      rw [planeVal, hn]
      cases p.range <;> simp [numVal, hb]
    simp [int, hg, this]
  | some s =>
    have he : ∃ ws, planeVal p = .ex (.num s) :: ws ∧ expr ws = [] := by
      rw [planeVal, hn]
      cases p.range <;> simp [numVal, hb]
    obtain ⟨ws, e, hw⟩ := he
    rw [e] at hg
    have hi := int_of hg hw
    obtain ⟨n, h⟩ := h (by simp [hg, expr])
    rw [hi] at h
    exact ⟨some n, by simp [Grammar.optional, h], by rw [hi, h]⟩

theorem plane_ok {p : Plane} (h : ValidPlane E b (planeEnts p)) :
    ∃ s, p.src E = some s ∧ s.range.Ordered ∧ s.number = int "PLANE" (planeEnts p) ∧
      Grammar.optional Parser.integer p.number = some s.number := by
  obtain ⟨n, h1, h2⟩ := plane_number p h.number
  obtain ⟨c, h3, h4⟩ := range_ok (r := p.range) (expr_bareType p.type) h.limits h.order (by
    simp only [rangeKeys, List.forall_mem_cons]
    refine ⟨?_, ?_, by simp⟩ <;>
      simp [planeEnts, planeRest, get_cons, get_append, get_type (k := "DATA_MIN") (by decide),
        get_type (k := "DATA_MAX") (by decide)])
  exact ⟨⟨n, c, p.type.kind⟩, by simp [Plane.src, h1, h3], h4, h2.symm, h1⟩

theorem images_accepted {cos : Dbl → Dbl} {d : Nibbles} {e q : Dbl} (he : e ≠ .nan) (hq : q ≠ .nan) :
    ∀ {ss : List PhotoSrc} {v : PhotoVars}, Inert d v → (∀ s ∈ ss, s.Valid e q) →
      ∃ v' cs, Parser.images cos e q ss v = .ok (some (v', cs)) ∧ Inert d v'
  | [], v, hv, _ => ⟨v, [], rfl, hv⟩
  | s :: ss, v, hv, hs => by
    obtain ⟨v1, c, h1⟩ := Parser.setup_complete (cos := cos) he hq hv (hs s (by simp))
    have hv1 := (Parser.setup_sound hv h1).1
    obtain ⟨v2, cs, h2, hv2⟩ := images_accepted (cos := cos) (ss := ss) he hq hv1
      fun x hx => hs x (by simp [hx])
    refine ⟨v2, c :: cs, ?_, hv2⟩
    simp only [Parser.images, h1, h2, Bind.bind, Outcome.bind]

theorem mapM_ok {α β : Type} {f : α → Option β} {P : α → β → Prop} : ∀ {l : List α},
    (∀ a ∈ l, ∃ c, f a = some c ∧ P a c) → ∃ r, l.mapM f = some r ∧ List.Forall₂ P l r
  | [], _ => ⟨[], rfl, .nil⟩
  | a :: l, h => by
    obtain ⟨c, h1, h2⟩ := h a (by simp)
    obtain ⟨r, h3, h4⟩ := mapM_ok (l := l) fun x hx => h x (by simp [hx])
    exact ⟨c :: r, by simp [h1, h3], .cons h2 h4⟩

theorem upTo_self {k : String} : ∀ {es : Part}, get k es = none → upTo k es = es := by
  intro es h
  induction es with
  | nil => rfl
  | cons e es ih =>
    obtain ⟨k', v⟩ := e
    rw [get_cons] at h
    by_cases hk : k' = k
    · simp [hk] at h
    · rw [if_neg hk] at h
      have := ih h
      rw [upTo] at this
      rw [upTo, List.takeWhile_cons_of_pos (by simpa using hk), this]

theorem source_ok {p : Plane} {a : Averaging} {g : Option Bool} {v : PhotoVars} {d : Nibbles}
    (hr : b.eqRad ≠ .nan ∧ b.polRad ≠ .nan) (hv : Inert d v) (h : ValidPlane E b (planeEnts p)) :
    ∃ v' s, p.type.source E b a g v = .done (v', s) ∧ Inert d v' := by
  have hat : ∀ {α : Type} {k : String} {x : Option α} {P : α → Prop} {w : List Token},
      get "IMAGE" (planeEnts p) = none → Given k (upTo "IMAGE" (planeEnts p)) x P →
      get k (planeEnts p) = some w → ∃ y, x = some y ∧ P y := by
    intro α k x P w hi hg hk
    rw [upTo_self hi] at hg
    exact hg.at hk
  obtain ⟨n, r, t⟩ := p
  have hsub : ∀ {s : Point}, get "IMAGE" (planeEnts ⟨n, r, t⟩) = none →
      get "SUB_OBSERV_LAT" (planeEnts ⟨n, r, t⟩) = get "SUB_OBSERV_LAT" (subEnts s) →
      get "SUB_OBSERV_LON" (planeEnts ⟨n, r, t⟩) = get "SUB_OBSERV_LON" (subEnts s) →
      ∃ w, s.value E b = some w := by
    intro s hi h1 h2
    have g1 := h.latitudes "SUB_OBSERV_LAT" (by decide)
    have g2 := h.longitudes "SUB_OBSERV_LON" (by decide)
    rw [upTo_self hi] at g1 g2
    obtain ⟨w, hw, -⟩ := point_ok (by decide) g1 g2 h1 h2
    exact ⟨w, hw⟩
  have hsun : ∀ {s : Point}, get "IMAGE" (planeEnts ⟨n, r, t⟩) = none →
      get "SUB_SOLAR_LAT" (planeEnts ⟨n, r, t⟩) = get "SUB_SOLAR_LAT" (sunEnts s) →
      get "SUB_SOLAR_LON" (planeEnts ⟨n, r, t⟩) = get "SUB_SOLAR_LON" (sunEnts s) →
      ∃ w, s.value E b = some w := by
    intro s hi h1 h2
    have g1 := h.latitudes "SUB_SOLAR_LAT" (by decide)
    have g2 := h.longitudes "SUB_SOLAR_LON" (by decide)
    rw [upTo_self hi] at g1 g2
    obtain ⟨w, hw, -⟩ := point_ok (by decide) g1 g2 h1 h2
    exact ⟨w, hw⟩
  have hdist : ∀ {x : Distance}, get "IMAGE" (planeEnts ⟨n, r, t⟩) = none →
      get "RANGE" (planeEnts ⟨n, r, t⟩) = some (distVal x) → ∃ w, x.value E = some w := by
    intro x hi h1
    obtain ⟨w, hw, -⟩ := hat hi h.distance h1
    rw [distance_of h1] at hw
    exact ⟨w, hw⟩
  cases t with
  | photos p ps =>
    have hp := h.photos
    rw [parts_photos] at hp
    obtain ⟨ss, h1, h2⟩ := mapM_ok (f := Photo.src E b) (P := fun _ s => s.Valid b.eqRad b.polRad)
      (l := p :: ps) fun x hx => photo_ok (hp _ (List.mem_map_of_mem hx))
    have hss : ∀ s ∈ ss, s.Valid b.eqRad b.polRad := by
      clear h1
      generalize p :: ps = l at h2
      induction h2 with
      | nil => simp
      | cons hx _ ih =>
        intro s hs
        rcases List.mem_cons.mp hs with rfl | hs
        · exact hx
        · exact ih s hs
    obtain ⟨v', cs, h3, h4⟩ := images_accepted (cos := E.L.fn "cos") hr.1 hr.2 hv hss
    refine ⟨v', .photos (Parser.planePhotos a cs), ?_, h4⟩
    simp only [PlaneType.source]
    rw [act_do (a := ss) (by rw [h1]; rfl)]
    exact act_do (a := (v', cs)) h3
  | mu s x =>
    have hi : get "IMAGE" (planeEnts ⟨n, r, .mu s x⟩) = none := by plane_get
    obtain ⟨w, hw⟩ := hsub (s := s) hi (by plane_get) (by plane_get)
    obtain ⟨y, hy⟩ := hdist (x := x) hi (by plane_get)
    refine ⟨v, .mu w.1 w.2 y, ?_, hv⟩
    simp only [PlaneType.source, hw, hy]
    rfl
  | muFull s x u =>
    have hi : get "IMAGE" (planeEnts ⟨n, r, .muFull s x u⟩) = none := by plane_get
    obtain ⟨w, hw⟩ := hsub (s := s) hi (by plane_get) (by plane_get)
    obtain ⟨z, hz⟩ := hsun (s := u) hi (by plane_get) (by plane_get)
    obtain ⟨y, hy⟩ := hdist (x := x) hi (by plane_get)
    refine ⟨v, .mu w.1 w.2 y, ?_, hv⟩
    simp only [PlaneType.source, hw, hy, hz]
    rfl
  | mu0 u =>
    have hi : get "IMAGE" (planeEnts ⟨n, r, .mu0 u⟩) = none := by plane_get
    obtain ⟨z, hz⟩ := hsun (s := u) hi (by plane_get) (by plane_get)
    refine ⟨v, .mu0 z.1 z.2, ?_, hv⟩
    simp only [PlaneType.source, hz]
    rfl
  | mu0Full s x u =>
    have hi : get "IMAGE" (planeEnts ⟨n, r, .mu0Full s x u⟩) = none := by plane_get
    obtain ⟨w, hw⟩ := hsub (s := s) hi (by plane_get) (by plane_get)
    obtain ⟨z, hz⟩ := hsun (s := u) hi (by plane_get) (by plane_get)
    obtain ⟨y, hy⟩ := hdist (x := x) hi (by plane_get)
    refine ⟨v, .mu0 z.1 z.2, ?_, hv⟩
    simp only [PlaneType.source, hw, hy, hz]
    rfl
  | phase s x u =>
    have hi : get "IMAGE" (planeEnts ⟨n, r, .phase s x u⟩) = none := by plane_get
    obtain ⟨w, hw⟩ := hsub (s := s) hi (by plane_get) (by plane_get)
    obtain ⟨z, hz⟩ := hsun (s := u) hi (by plane_get) (by plane_get)
    obtain ⟨y, hy⟩ := hdist (x := x) hi (by plane_get)
    refine ⟨v, .phase w.1 w.2 z.1 z.2 y, ?_, hv⟩
    simp only [PlaneType.source, hw, hy, hz]
    rfl
  | latitude t => exact ⟨v, _, rfl, hv⟩
  | longitude => exact ⟨v, _, rfl, hv⟩

theorem planeImages_ok {a : Averaging} {d : Nibbles} (hr : b.eqRad ≠ .nan ∧ b.polRad ≠ .nan) :
    ∀ {l : List (Plane × PlaneCmd)} {v : PhotoVars}, Inert d v →
      (∀ p ∈ l, ValidPlane E b (planeEnts p.1)) → ∃ r, planeImages E b a l v = .done r
  | [], v, _, _ => ⟨_, rfl⟩
  | (p, c) :: l, v, hv, h => by
    obtain ⟨v1, s, h1, hv1⟩ := source_ok (a := a) (g := c.graphic) hr hv (h (p, c) (by simp))
    obtain ⟨⟨v2, ss⟩, h2⟩ := planeImages_ok (a := a) (l := l) hr hv1 fun x hx => h x (by simp [hx])
    refine ⟨(v2, ⟨c.minimum, c.maximum, s⟩ :: ss), ?_⟩
    simp only [planeImages]
    rw [act_do h1]
    exact act_do h2

/-! ## Maps -/

theorem integer_bounds {s : List Char} {n : ℤ} (h : Parser.integer s = some n) :
    -(2 ^ 63) ≤ n ∧ n < 2 ^ 63 := by
  simp only [Parser.integer] at h
  split at h
  · simp at h
  · split at h
    · rename_i h1
      simp only [Option.some.injEq] at h
      rw [← h]; exact h1
    · simp at h

theorem extent_ok {s : List Char} {n : ℤ} (h : Parser.integer s = some n) (h0 : 0 < n) :
    Parser.extent s = some n := by
  simp [Parser.extent, h, h0]

theorem map_complete {m : Map} {s : State} {d : Nibbles} (hc : clean s.g) (hv : Inert d s.v)
    (h : ValidMap E s.g.graphicLat (mapEnts m)) : ∃ r, m.run E s = .done r := by
  obtain ⟨b, hh, hn, hp⟩ := h
  rw [upTo_map] at hh hn
  rw [parts_map] at hh hn hp
  have hb := body_ok hh.body hh.radii hh.flattening
  obtain ⟨p, hpar⟩ := params_ok (E := E) (m := m) (hh.numbers _ (by decide)) (hh.numbers _ (by decide))
    hh.blank
  obtain ⟨gc, hg, hbad⟩ := grid_accepted hh.grid
  obtain ⟨v1, pr, hpr, hpv⟩ := proj_accepted (es := mapHead m) (p := m.proj) s.v
    ⟨fun k hk => hh.numbers k (by revert k; decide), hh.latitudes, hh.longitudes, hh.angle, hh.scale,
      hh.order⟩ (get_head_proj m)
  obtain ⟨w1, w2, -⟩ := projection_of (es := mapHead m) (graphic := s.g.graphicLat) hv
    (get_head_proj m) (latType_head m) hpr
  obtain ⟨cnt, hcnt, hs, hcp⟩ := optInt_ok hh.planes (x := m.planes) (by head_get)
  obtain ⟨sa, i1, j1⟩ := hh.samples
  obtain ⟨li, i2, j2⟩ := hh.lines
  rw [int_of (s := m.samples) (ws := []) (by head_get) rfl] at i1
  rw [int_of (s := m.lines) (ws := []) (by head_get) rfl] at i2
  have hsrc : ∃ ps, (m.plane :: m.more).mapM (Plane.src E) = some ps ∧
      List.Forall₂ (fun p s => s.range.Ordered ∧ s.number = int "PLANE" (planeEnts p) ∧
        Grammar.optional Parser.integer p.number = some s.number) (m.plane :: m.more) ps :=
    mapM_ok fun x hx => plane_ok (hp _ (List.mem_map_of_mem hx))
  obtain ⟨ps, hps, hf⟩ := hsrc
  have hord : ∀ p ∈ ps, p.range.Ordered ∧
      ∀ n, p.number = some n → -(2 ^ 63) ≤ n ∧ n < 2 ^ 63 := by
    clear hps hn hp hh
    generalize m.plane :: m.more = l at hf
    induction hf with
    | nil => simp
    | cons hx _ ih =>
      rename_i a s _ _ _
      intro q hq
      rcases List.mem_cons.mp hq with rfl | hq
      · refine ⟨hx.1, fun n hn => ?_⟩
        have := hx.2.2
        rw [hn] at this
        cases ha : a.number with
        | none => rw [ha] at this; simp [Grammar.optional] at this
        | some t =>
          rw [ha] at this
          simp [Grammar.optional] at this
          exact integer_bounds this
      · exact ih q hq
  have hnum : ((m.plane :: m.more).map planeEnts).filterMap (int "PLANE") =
      ps.filterMap PlaneSrc.number := by
    clear hps hn hp hh hord
    generalize m.plane :: m.more = l at hf
    induction hf with
    | nil => rfl
    | cons hx _ ih => simp only [List.map_cons, List.filterMap_cons, hx.2.1, ih]
  have hlen : ps.length = ((m.plane :: m.more).map planeEnts).length := by
    rw [List.length_map, hf.length_eq]
  obtain ⟨k, hk1, hk2⟩ := hn
  rw [hnum] at hk1
  have hkl : k ≤ ps.length := by
    have := congrArg List.length hk1
    simp at this
    rw [← this]
    exact List.length_filterMap_le _ _
  have hhas : has "PLANES" (mapHead m) = cnt.isSome := by
    have : get "PLANES" (mapHead m) = m.planes.map fun s => [.ex (.num s)] := by head_get
    rw [has, this, hs]
    simp
  obtain ⟨⟨g', mc⟩, hmap⟩ := Parser.map_accepted (g := s.g)
    (m := ⟨gc, m.proj.averaging, pr, cnt, ps⟩) hc
    ⟨fun n hn => by
      simp only at hn
      subst hn
      cases hm : m.planes with
      | none => rw [hm] at hcnt; simp [Grammar.optional] at hcnt
      | some t =>
        rw [hm] at hcnt
        simp [Grammar.optional] at hcnt
        exact (integer_bounds hcnt).2, fun p hp => (hord p hp).2⟩
    { grid := hbad
      proj := hpv
      count := fun n hn => by
        rw [hcp n hn]
        simp
      numbered := ⟨k, hk1, by
        cases hq : cnt with
        | none => exact hk2 (by rw [hhas, hq]; rfl)
        | some n =>
          have := hcp n hq
          simp only
          rw [this, ← hlen]
          exact ⟨by exact_mod_cast hkl, rfl⟩⟩
      ranges := fun p hp => (hord p hp).1 }
  have hproj : E.project b mc.proj = .ok () := by
    obtain ⟨g1, x, g2, proj, g3, cs, h1, h2, h3, h4, h5, rfl⟩ := Parser.map_ok hmap
    have hc1 := Parser.clean_entry hc h1
    obtain ⟨q1, q2⟩ := projection_wanted hc1 h2
    refine hh.projection _ ?_
    rw [w2, q1]
    congr 1
    obtain ⟨a1, -⟩ := entry_grid h1
    have : (Parser.averaging m.proj.averaging g1).graphicLat = s.g.graphicLat := by
      cases m.proj.averaging <;> simp [Parser.averaging, a1]
    rw [this]
  have he : Positive b.eqRad := Dbl.lt_of_lt_of_le hh.radii.1 hh.radii.2
  have hnan : b.eqRad ≠ .nan ∧ b.polRad ≠ .nan := by
    have hq := hh.radii.1
    constructor
    · intro e; rw [e] at he; simp [Positive, Dbl.lt] at he
    · intro e; rw [e] at hq; simp [Positive, Dbl.lt] at hq
  obtain ⟨⟨v2, is⟩, his⟩ := planeImages_ok (a := mc.averaging) hnan w1
    (l := (m.plane :: m.more).zip mc.planes) (by
      intro q hq
      exact hp _ (List.mem_map_of_mem (List.of_mem_zip hq).1))
  refine ⟨(⟨g', v2⟩, ⟨String.ofList m.file, sa, li, p, b, mc.proj, mc.grid, is⟩), ?_⟩
  simp only [Map.run]
  rw [act_do hb, act_do hpar, act_do (a := gc) (by rw [hg]; rfl),
    act_do (a := (v1, pr)) (by rw [hpr]; rfl), act_do (a := cnt) (by rw [hcnt]; rfl),
    act_do (a := sa) (by rw [extent_ok i1 j1]; rfl), act_do (a := li) (by rw [extent_ok i2 j2]; rfl),
    act_do (a := ps) (by rw [hps]; rfl)]
  refine (act_do (a := (g', mc)) hmap).trans ?_
  refine (act_do (a := ()) (by rw [hproj]; rfl)).trans ?_
  exact act_do his

theorem maps_complete : ∀ {ms : List Map} {s : State}, Ready s →
    ValidMaps E s.g.graphicLat (ms.map mapEnts) → ∃ r, runMaps E ms s = .done r
  | [], s, _, _ => ⟨_, rfl⟩
  | m :: ms, s, hr, h => by
    rcases h with _ | ⟨h1, h2⟩
    obtain ⟨⟨s1, c⟩, hm⟩ := map_complete hr.clean hr.inert h1
    obtain ⟨k1, k2, k3, k4, k5⟩ := map_of hr.clean hr.minimum hr.maximum hr.inert hm
    simp only [Parser.defaults, Prod.mk.injEq] at k3
    have hr1 : Ready s1 :=
      ⟨k2, k3.2.1.trans hr.minimum, k3.2.2.trans hr.maximum, k4.nibble ▸ k4⟩
    rw [← k5] at h2
    obtain ⟨⟨s2, cs⟩, hms⟩ := maps_complete hr1 h2
    refine ⟨(s2, c :: cs), ?_⟩
    simp only [runMaps]
    rw [act_do hm]
    exact act_do hms

theorem userNibbling_ok {c : NibbleClause} (v : PhotoVars) (h : ∀ k ∈ c.numbers, 0 ≤ k) :
    ∃ v', Parser.userNibbling c v = some v' := by
  obtain ⟨n, hn⟩ := Parser.nibbling_ok v.ppNibble h
  have : ∃ n, Parser.nibbling Parser.toUnsigned c v.ppNibble = some n := by
    cases c with
    | none => exact ⟨_, rfl⟩
    | all k =>
      simp only [Parser.nibbling] at hn ⊢
      split at hn
      · rename_i h0; rw [if_pos h0]; exact ⟨_, rfl⟩
      · simp at hn
    | sides l r t b =>
      simp only [Parser.nibbling, Option.bind_eq_bind, Option.bind_eq_some_iff] at hn
      obtain ⟨_, q1, _, q2, _, q3, _, q4, -⟩ := hn
      have hs : ∀ {o x} {y : Option ℤ}, Parser.nibbleSide Parser.toSize o y = some x →
          ∃ z, Parser.nibbleSide Parser.toUnsigned o y = some z := by
        intro o x y hy
        cases y with
        | none => exact ⟨_, rfl⟩
        | some k =>
          simp only [Parser.nibbleSide] at hy ⊢
          split at hy
          · rename_i h0; rw [if_pos h0]; exact ⟨_, rfl⟩
          · simp at hy
      obtain ⟨a1, e1⟩ := hs q1
      obtain ⟨a2, e2⟩ := hs q2
      obtain ⟨a3, e3⟩ := hs q3
      obtain ⟨a4, e4⟩ := hs q4
      exact ⟨_, by simp [Parser.nibbling, e1, e2, e3, e4]; rfl⟩
  obtain ⟨n, hn⟩ := this
  simp only [Parser.userNibbling, hn]
  exact ⟨_, rfl⟩

theorem user_complete {i : Intervals} {r : Range} {n : Nibble} {s : State}
    (h : ValidUser E (fileEnts (.user i r n))) : ∃ q, File.run E (.user i r n) s = .done q := by
  obtain ⟨ic, h1, hb⟩ := intervals_ok (i := i) h.grid (by
    intro k hk
    rw [fileEnts, get_append, get_append, (keys_range _ r).get (k := k), (keys_nibble n).get (k := k)]
    · simp
    · revert k; decide
    · revert k; decide)
  obtain ⟨rc, h2, ho⟩ := range_ok (r := r) (ws := []) rfl h.limits h.order (by
    intro k hk
    rw [fileEnts, get_append, get_append, (keys_intervals i).get (k := k), (keys_nibble n).get (k := k)]
    · simp
    · revert k; decide
    · revert k; decide)
  obtain ⟨nc, h3, hn⟩ := nibble_ok (n := n) h.nibble (by
    intro k hk
    rw [fileEnts, get_append, get_append, (keys_range _ r).get (k := k),
      (keys_intervals i).get (k := k)]
    · simp
    · revert k; decide
    · revert k; decide)
  obtain ⟨g1, hg1⟩ : ∃ g1, Parser.intervals ic s.g = .ok g1 := by
    rcases Parser.intervals_iff ic s.g with ⟨hb', -⟩ | ⟨-, g1, hg1⟩
    · exact absurd hb' hb
    · exact ⟨g1, hg1⟩
  obtain ⟨g2, hg2⟩ : ∃ g2, Parser.dataRange rc g1 = some g2 := by
    cases rc <;> simp only [RangeClause.Ordered] at ho <;>
      simp only [Parser.dataRange, ho, if_true] <;> exact ⟨_, rfl⟩
  obtain ⟨v', hv'⟩ := userNibbling_ok s.v hn
  obtain ⟨g3, hg3⟩ : ∃ g3, Parser.userFile ic rc s.g = .ok (some g3) := by
    simp only [Parser.userFile, hg1, hg2, Outcome.bind_ok]
    exact ⟨_, rfl⟩
  refine ⟨(⟨g3, v'⟩, []), ?_⟩
  simp only [File.run]
  rw [act_do (a := ic) (by rw [h1]; rfl), act_do (a := rc) (by rw [h2]; rfl),
    act_do (a := nc) (by rw [h3]; rfl)]
  refine (act_do (a := g3) hg3).trans ?_
  exact act_do (a := v') (by rw [hv']; rfl)

end MaRC.InputMeaning
