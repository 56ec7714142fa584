import Verif.Lemmas.InputSound

/-! # The clauses, planes and maps of accepted input files -/

namespace MaRC.InputMeaning

open MaRC.Calc (Tok)
open MaRC.Scan (Token kw)
open MaRC.Grammar
open MaRC.Parser (Averaging Hemisphere Side NibbleClause CenterClause ScaleClause PhotoSrc PhotoCmd
  Nibbles PhotoVars Inert RangeClause RadiiClause PlaneSrc PlaneKind PlaneCmd Globals ProjSrc Proj
  OrthoCenter IntervalClause GridClause clean)

variable {E : Env} {b : Body} {es : Part}

/-! ## Projections -/

theorem given_lat {k : String} {P : Dbl → Prop} {x : Lat} {y : Dbl} (hk : get k es = some x.yield)
    (hx : x.value E b = some y) (hp : P y) : Given k es (latitude E b k es) P :=
  given_some ((latitude_of hk).trans hx) hp

theorem given_lon {k : String} {P : Dbl → Prop} {x : Lon} {y : Dbl} (hk : get k es = some x.yield)
    (hx : x.value E b = some y) (hp : P y) : Given k es (longitude E b k es) P :=
  given_some ((longitude_of hk).trans hx) hp

theorem values_absent (h : ∀ k ∈ "MAX_LAT" :: (orthoKeys ++ rangesKeys), get k es = none) :
    ProjValues E b es where
  numbers k hk := given_absent (h k (by revert k; decide))
  latitudes k hk := given_absent (h k (by revert k; decide))
  longitudes k hk := given_absent (h k (by revert k; decide))
  angle := given_absent (h _ (by decide))
  scale := given_absent (h _ (by decide))
  order x y hx := by rw [latitude_none (h _ (by decide))] at hx; simp at hx

theorem center_sound {P Q R S : Dbl → Prop} {c : Centers} {cc : CenterClause}
    (h : ∀ k ∈ centerKeys, get k es = get k (centersEnts c)) (hc : c.clause E b = some cc)
    (hp : match cc with
      | .pixel s l => R s ∧ S l
      | .latLon x y => P x ∧ Q y) :
    Given "SAMPLE_CENTER" es (real E "SAMPLE_CENTER" es) R ∧
    Given "LINE_CENTER" es (real E "LINE_CENTER" es) S ∧
    Given "LAT_AT_CENTER" es (latitude E b "LAT_AT_CENTER" es) P ∧
    Given "LON_AT_CENTER" es (longitude E b "LON_AT_CENTER" es) Q := by
  simp only [centerKeys, List.forall_mem_cons] at h
  obtain ⟨k1, k2, k3, k4, -⟩ := h
  cases c with
  | pixel p =>
    simp [Centers.clause, Option.bind_eq_some_iff] at hc
    obtain ⟨x, y, hv, rfl⟩ := hc
    obtain ⟨g1, g2⟩ := given_pair (E := E) (P := R) (Q := S) (by decide) hv k1 k2 hp.1 hp.2
    exact ⟨g1, g2, given_absent (k3.trans ((keys_pair _ _ p).get (by decide))),
      given_absent (k4.trans ((keys_pair _ _ p).get (by decide)))⟩
  | latLon p =>
    simp [Centers.clause, Option.bind_eq_some_iff] at hc
    obtain ⟨x, y, hv, rfl⟩ := hc
    obtain ⟨g1, g2⟩ := given_pt (E := E) (P := P) (Q := Q) (by decide) hv k3 k4 hp.1 hp.2
    exact ⟨given_absent (k1.trans ((keys_point _ _ p).get (by decide))),
      given_absent (k2.trans ((keys_point _ _ p).get (by decide))), g1, g2⟩

theorem ortho_sound {o : OrthoOpts} {v v' : PhotoVars} {s : ProjSrc} (h : o.src E b v = some (v', s))
    (hs : s.Valid) (hk : ∀ k ∈ orthoKeys, get k es = get k (orthoEnts o))
    (h0 : ∀ k ∈ "MAX_LAT" :: rangesKeys, get k es = none) : ProjValues E b es := by
  obtain ⟨k1, k2, k3, k4, k5⟩ := ortho_keys hk
  simp only [OrthoOpts.src] at h
  generalize o.parts = ps at *
  obtain ⟨p, t, x, c⟩ := ps
  simp only at k1 k2 k3 k4 k5 h
  simp only [Option.bind_eq_bind, Option.bind_eq_some_iff] at h
  obtain ⟨sub, e1, tv, e2, km, e3, cc, e4, h⟩ := h
  have hkm : ∀ z, km = some z → Positive z := by
    rintro z rfl
    cases cc <;> simp only [Option.pure_def, Option.some.injEq, Prod.mk.injEq] at h <;>
      obtain ⟨-, rfl⟩ := h <;> exact hs
  clear h hs
  have g1 : Given "SUB_OBSERV_LAT" es (latitude E b "SUB_OBSERV_LAT" es) Any ∧
      Given "SUB_OBSERV_LON" es (longitude E b "SUB_OBSERV_LON" es) Any := by
    cases p with
    | none => exact ⟨given_absent k1, given_absent k2⟩
    | some p =>
      simp only [Grammar.optional, Option.map_eq_some_iff] at e1
      obtain ⟨w, hw, rfl⟩ := e1
      exact given_pt (by decide) hw k1 k2 trivial trivial
  have g2 : Given "POSITION_ANGLE" es (turn E es) Any := by
    cases t with
    | none => exact given_absent k3
    | some t =>
      simp only [Grammar.optional, Option.map_eq_some_iff] at e2
      obtain ⟨w, hw, rfl⟩ := e2
      exact given_some ((turn_of k3).trans hw) trivial
  have g3 := given_opt (P := Positive) k4 e3 hkm
  have g4 : Given "SAMPLE_CENTER" es (real E "SAMPLE_CENTER" es) Any ∧
      Given "LINE_CENTER" es (real E "LINE_CENTER" es) Any ∧
      Given "LAT_AT_CENTER" es (latitude E b "LAT_AT_CENTER" es) Any ∧
      Given "LON_AT_CENTER" es (longitude E b "LON_AT_CENTER" es) Any := by
    cases c with
    | none =>
      exact ⟨given_absent (k5 _ (by decide)), given_absent (k5 _ (by decide)),
        given_absent (k5 _ (by decide)), given_absent (k5 _ (by decide))⟩
    | some c =>
      simp only [Grammar.optional, Option.map_eq_some_iff] at e4
      obtain ⟨w, hw, rfl⟩ := e4
      exact center_sound k5 hw (by cases w <;> exact ⟨trivial, trivial⟩)
  constructor
  · simp only [List.forall_mem_cons]
    exact ⟨g4.1, g4.2.1, by simp⟩
  · simp only [List.forall_mem_cons]
    exact ⟨g1.1, g4.2.2.1, given_absent (h0 _ (by decide)), given_absent (h0 _ (by decide)),
      given_absent (h0 _ (by decide)), by simp⟩
  · simp only [List.forall_mem_cons]
    exact ⟨g1.2, g4.2.2.2, given_absent (h0 _ (by decide)), given_absent (h0 _ (by decide)), by simp⟩
  · exact g2
  · exact g3
  · intro x y hx
    rw [latitude_none (h0 _ (by decide))] at hx; simp at hx

theorem ranges_sound {r : Ranges} {lat lon : Option (Dbl × Dbl)} (h : r.value E b = some (lat, lon))
    (hl : ∀ lo hi, lat = some (lo, hi) → lo.lt hi = true)
    (hk : ∀ k ∈ rangesKeys, get k es = get k (rangesEnts r))
    (h0 : ∀ k ∈ "MAX_LAT" :: orthoKeys, get k es = none) : ProjValues E b es := by
  have hk' := hk
  simp only [rangesKeys, latRangeKeys, lonRangeKeys, List.cons_append, List.nil_append,
    List.forall_mem_cons] at hk
  obtain ⟨h1, h2, h3, h4, -⟩ := hk
  have kLat : ∀ {x : LatRange} {w : Dbl × Dbl}, x.value E b = some w →
      get "LO_LAT" es = get "LO_LAT" (latRangeEnts x) → get "HI_LAT" es = get "HI_LAT" (latRangeEnts x) →
      latitude E b "LO_LAT" es = some w.1 ∧ latitude E b "HI_LAT" es = some w.2 := by
    intro x w hw g1 g2
    cases x <;> simp [latRangeEnts, get_cons] at g1 g2 <;>
      simp [LatRange.value, Option.bind_eq_some_iff] at hw <;>
      obtain ⟨a, ha, c, hc, rfl⟩ := hw <;>
      exact ⟨by rw [latitude_of g1, ha], by rw [latitude_of g2, hc]⟩
  have kLon : ∀ {x : LonRange} {w : Dbl × Dbl}, x.value E b = some w →
      get "LO_LON" es = get "LO_LON" (lonRangeEnts x) → get "HI_LON" es = get "HI_LON" (lonRangeEnts x) →
      longitude E b "LO_LON" es = some w.1 ∧ longitude E b "HI_LON" es = some w.2 := by
    intro x w hw g1 g2
    cases x <;> simp [lonRangeEnts, get_cons] at g1 g2 <;>
      simp [LonRange.value, Option.bind_eq_some_iff] at hw <;>
      obtain ⟨a, ha, c, hc, rfl⟩ := hw <;>
      exact ⟨by rw [longitude_of g1, ha], by rw [longitude_of g2, hc]⟩
  have build : ∀ (a1 : Given "LO_LAT" es (latitude E b "LO_LAT" es) Any)
      (a2 : Given "HI_LAT" es (latitude E b "HI_LAT" es) Any)
      (a3 : Given "LO_LON" es (longitude E b "LO_LON" es) Any)
      (a4 : Given "HI_LON" es (longitude E b "HI_LON" es) Any)
      (a5 : ∀ x y, latitude E b "LO_LAT" es = some x → latitude E b "HI_LAT" es = some y →
        x.lt y = true), ProjValues E b es := by
    intro a1 a2 a3 a4 a5
    constructor
    · exact fun k hk => given_absent (h0 k (by revert k; decide))
    · simp only [List.forall_mem_cons]
      exact ⟨given_absent (h0 _ (by decide)), given_absent (h0 _ (by decide)),
        given_absent (h0 _ (by decide)), a1, a2, by simp⟩
    · simp only [List.forall_mem_cons]
      exact ⟨given_absent (h0 _ (by decide)), given_absent (h0 _ (by decide)), a3, a4, by simp⟩
    · exact given_absent (h0 _ (by decide))
    · exact given_absent (h0 _ (by decide))
    · exact a5
  cases r with
  | empty =>
    exact build (given_absent h1) (given_absent h2) (given_absent h3) (given_absent h4)
      (by intro x y hx; rw [latitude_none h1] at hx; simp at hx)
  | lat x =>
    simp [Ranges.value, Option.bind_eq_some_iff] at h
    obtain ⟨w1, w2, hw, rfl, rfl⟩ := h
    simp only [rangesEnts] at h1 h2 h3 h4
    rw [(keys_latRange x).get (by decide)] at h3 h4
    obtain ⟨i1, i2⟩ := kLat hw h1 h2
    exact build (given_some i1 trivial) (given_some i2 trivial) (given_absent h3) (given_absent h4)
      (by rw [i1, i2]; rintro _ _ ⟨⟩ ⟨⟩; exact hl _ _ rfl)
  | lon y =>
    simp [Ranges.value, Option.bind_eq_some_iff] at h
    obtain ⟨w1, w2, hw, rfl, rfl⟩ := h
    simp only [rangesEnts] at h1 h2 h3 h4
    rw [(keys_lonRange y).get (by decide)] at h1 h2
    obtain ⟨i1, i2⟩ := kLon hw h3 h4
    exact build (given_absent h1) (given_absent h2) (given_some i1 trivial) (given_some i2 trivial)
      (by intro x y hx; rw [latitude_none h1] at hx; simp at hx)
  | latLon x y | lonLat y x =>
    simp [Ranges.value, Option.bind_eq_some_iff] at h
    obtain ⟨w1, w2, hw, z1, z2, hz, rfl, rfl⟩ := h
    simp only [rangesEnts, get_append] at h1 h2 h3 h4
    rw [(keys_lonRange y).get (by decide)] at h1 h2
    rw [(keys_latRange x).get (by decide)] at h3 h4
    obtain ⟨i1, i2⟩ := kLat hw (by simpa using h1) (by simpa using h2)
    obtain ⟨i3, i4⟩ := kLon hz (by simpa using h3) (by simpa using h4)
    exact build (given_some i1 trivial) (given_some i2 trivial) (given_some i3 trivial)
      (given_some i4 trivial) (by rw [i1, i2]; rintro _ _ ⟨⟩ ⟨⟩; exact hl _ _ rfl)

theorem proj_sound {p : Projection} {v v' : PhotoVars} {s : ProjSrc} (h : p.src E b v = some (v', s))
    (hs : s.Valid) (hk : ∀ k ∈ projKeys, get k es = get k (projEnts p)) : ProjValues E b es := by
  have hsub : ∀ k ∈ "MAX_LAT" :: (orthoKeys ++ rangesKeys), k ∈ projKeys ∧ "MAP_TYPE" ≠ k ∧
      k ∉ optKeys ∧ "POLE" ≠ k ∧ "LATITUDE_TYPE" ≠ k := by decide
  rcases p with a | (_ | ⟨a, o⟩) | (_ | ⟨a, north, m⟩) | (_ | ⟨a, t, r⟩)
  · refine values_absent fun k hkm => ?_
    obtain ⟨h1, h2, h3, -⟩ := hsub k hkm
    rw [hk k h1]
    cases a <;> simp [projEnts, get_cons, h2, projOpts, get_opts h3]
  · refine values_absent fun k hkm => ?_
    obtain ⟨h1, h2, h3, -⟩ := hsub k hkm
    rw [hk k h1]
    simp [projEnts, get_cons, h2, projOpts]
  · refine ortho_sound h hs (fun k hko => ?_) fun k hkr => ?_
    · obtain ⟨h1, h2, h3, -⟩ := hsub k (by simp [hko])
      rw [hk k h1]
      simp [projEnts, get_cons, h2, projOpts, get_append, get_opts h3]
    · have h4 : k ∉ orthoKeys := by revert k; decide
      obtain ⟨h1, h2, h3, -⟩ := hsub k (by revert k; decide)
      rw [hk k h1]
      simp [projEnts, get_cons, h2, projOpts, get_append, get_opts h3, (keys_ortho o).get h4]
  · refine values_absent fun k hkm => ?_
    obtain ⟨h1, h2, h3, -⟩ := hsub k hkm
    rw [hk k h1]
    simp [projEnts, get_cons, h2, projOpts]
  · simp only [Projection.src, Option.pure_def, Option.bind_eq_bind, Option.bind_eq_some_iff,
      Option.some.injEq, Prod.mk.injEq] at h
    obtain ⟨mv, hmv, rfl, rfl⟩ := h
    have k1 := hk "MAX_LAT" (by decide)
    simp [projEnts, get_cons, projOpts, get_append, get_opts, optKeys] at k1
    have h0 : ∀ k ∈ orthoKeys ++ rangesKeys, get k es = none := by
      intro k hkm
      obtain ⟨h1, h2, h3, h4, -⟩ := hsub k (by simpa using .inr (by simpa using hkm))
      have h5 : "MAX_LAT" ≠ k := by revert k; decide
      rw [hk k h1]
      simp [projEnts, get_cons, h2, projOpts, get_append, get_opts h3, h4, h5]
    have g1 : Given "MAX_LAT" es (latitude E b "MAX_LAT" es) Any := by
      cases m with
      | none => exact given_absent (by simpa using k1)
      | some x =>
        simp only [Grammar.optional, Option.map_eq_some_iff] at hmv
        obtain ⟨w, hw, rfl⟩ := hmv
        exact given_lat (x := x) (by simpa using k1) hw trivial
    constructor
    · exact fun k hk => given_absent (h0 k (by revert k; decide))
    · simp only [List.forall_mem_cons]
      exact ⟨given_absent (h0 _ (by decide)), given_absent (h0 _ (by decide)), g1,
        given_absent (h0 _ (by decide)), given_absent (h0 _ (by decide)), by simp⟩
    · exact fun k hk => given_absent (h0 k (by revert k; decide))
    · exact given_absent (h0 _ (by decide))
    · exact given_absent (h0 _ (by decide))
    · intro x y hx
      rw [latitude_none (h0 _ (by decide))] at hx; simp at hx
  · refine values_absent fun k hkm => ?_
    obtain ⟨h1, h2, h3, -⟩ := hsub k hkm
    rw [hk k h1]
    simp [projEnts, get_cons, h2, projOpts]
  · simp only [Projection.src, Option.pure_def, Option.bind_eq_bind, Option.bind_eq_some_iff,
      Option.some.injEq, Prod.mk.injEq] at h
    obtain ⟨⟨lat, lon⟩, hr, rfl, rfl⟩ := h
    have ht : ∀ k, "LATITUDE_TYPE" ≠ k → get k (latTypeEnts t) = none := by
      intro k hne; cases t <;> simp [latTypeEnts, get_cons, hne]
    refine ranges_sound hr ?_ (fun k hko => ?_) fun k hko => ?_
    · rintro lo hi rfl
      exact hs
    · obtain ⟨h1, h2, h3, -, h4⟩ := hsub k (by simp [hko])
      rw [hk k h1]
      simp [projEnts, get_cons, h2, projOpts, get_append, get_opts h3, ht k h4]
    · have h5 : k ∉ rangesKeys := by revert k; decide
      obtain ⟨h1, h2, h3, -, h4⟩ := hsub k (by revert k; decide)
      rw [hk k h1]
      simp [projEnts, get_cons, h2, projOpts, get_append, get_opts h3, ht k h4, (keys_ranges r).get h5]

end MaRC.InputMeaning
