import Verif.Lemmas.InputAccepted

/-! # Clauses with valid values are accepted -/

namespace MaRC.InputMeaning

open MaRC.Calc (Tok)
open MaRC.Scan (Token kw)
open MaRC.Grammar
open MaRC.Parser (Averaging Hemisphere Side NibbleClause CenterClause ScaleClause PhotoSrc PhotoCmd
  Nibbles PhotoVars Inert RangeClause RadiiClause PlaneSrc PlaneKind PlaneCmd Globals ProjSrc Proj
  OrthoCenter IntervalClause GridClause clean)

variable {E : Env} {b : Body} {es : Part}

/-! ## Grids and ranges -/

theorem pos_not_le {x : Dbl} (h : Positive x) : x.le (.fin 0) = false := by
  cases x <;> simp_all [Positive, Dbl.lt, Dbl.le]

theorem intervals_ok {i : Intervals}
    (h : ∀ k ∈ ["GRID_INTERVAL", "LAT_GRID_INTERVAL", "LON_GRID_INTERVAL"],
      Given k es (real E k es) Positive)
    (hk : ∀ k ∈ intervalKeys, get k es = get k (intervalsEnts i)) :
    ∃ c, i.clause E = some c ∧ ¬ c.Bad := by
  simp only [intervalKeys, List.forall_mem_cons] at h hk
  obtain ⟨h1, h2, h3, -⟩ := h
  obtain ⟨k1, k2, k3, -⟩ := hk
  cases i <;> simp [intervalsEnts, get_cons] at k1 k2 k3
  · obtain ⟨x, hx, hp⟩ := op_ok h1 k1
    exact ⟨.both x, by simp [Intervals.clause, hx], by simp [IntervalClause.Bad, pos_not_le hp]⟩
  · obtain ⟨x, hx, hp⟩ := op_ok h2 k2
    exact ⟨.lat x, by simp [Intervals.clause, hx], by simp [IntervalClause.Bad, pos_not_le hp]⟩
  · obtain ⟨x, hx, hp⟩ := op_ok h3 k3
    exact ⟨.lon x, by simp [Intervals.clause, hx], by simp [IntervalClause.Bad, pos_not_le hp]⟩
  · obtain ⟨x, hx, hp⟩ := op_ok h2 k2
    obtain ⟨y, hy, hq⟩ := op_ok h3 k3
    exact ⟨.latLon x y, by simp [Intervals.clause, hx, hy],
      by simp [IntervalClause.Bad, pos_not_le hp, pos_not_le hq]⟩
  · obtain ⟨x, hx, hp⟩ := op_ok h2 k2
    obtain ⟨y, hy, hq⟩ := op_ok h3 k3
    exact ⟨.lonLat y x, by simp [Intervals.clause, hx, hy],
      by simp [IntervalClause.Bad, pos_not_le hp, pos_not_le hq]⟩

theorem grid_accepted {m : Map}
    (h : ∀ k ∈ ["GRID_INTERVAL", "LAT_GRID_INTERVAL", "LON_GRID_INTERVAL"],
      Given k (mapHead m) (real E k (mapHead m)) Positive) :
    ∃ c, m.grid.clause E = some c ∧ ¬ c.Bad := by
  have k : ∀ k ∈ intervalKeys, get k (mapHead m) = get k (gridEnts m.grid) := by
    simp only [intervalKeys, List.forall_mem_cons]
    refine ⟨?_, ?_, ?_, by simp⟩ <;> head_get
  cases hm : m.grid with
  | absent => exact ⟨.absent, rfl, id⟩
  | plain y => cases y <;> exact ⟨_, rfl, id⟩
  | intervals y i =>
    rw [hm] at k
    obtain ⟨c, hc, hb⟩ := intervals_ok (i := i) h (by
      intro j hj
      rw [k j hj]
      have : "GRID" ≠ j := by revert j; decide
      simp [gridEnts, get_cons, this])
    cases y
    · exact ⟨.noIntervals c, by simp [Grid.clause, hc], hb⟩
    · exact ⟨.yesIntervals c, by simp [Grid.clause, hc], hb⟩

theorem range_ok {r : Range} {ws : List Token} (hw : expr ws = [])
    (h : ∀ k ∈ ["DATA_MIN", "DATA_MAX"], Given k es (real E k es) Any)
    (ho : ∀ x y, real E "DATA_MIN" es = some x → real E "DATA_MAX" es = some y → x.lt y = true)
    (hk : ∀ k ∈ rangeKeys, get k es = get k (rangeEnts ws r)) :
    ∃ c, r.clause E = some c ∧ c.Ordered := by
  simp only [rangeKeys, List.forall_mem_cons] at h hk
  obtain ⟨h1, h2, -⟩ := h
  obtain ⟨k1, k2, -⟩ := hk
  have hr : ∀ {k : String} {x : Operand}, Given k es (real E k es) Any →
      get k es = some (x.yield ++ ws) → ∃ y, x.value E = some y ∧ real E k es = some y := by
    intro k x hg hk
    obtain ⟨y, hy, -⟩ := hg.at hk
    exact ⟨y, by rw [← hy, real_of hk hw], hy⟩
  have hr' : ∀ {k : String} {x : Operand}, Given k es (real E k es) Any →
      get k es = some x.yield → ∃ y, x.value E = some y ∧ real E k es = some y := by
    intro k x hg hk
    obtain ⟨y, hy, -⟩ := hg.at hk
    exact ⟨y, by rw [← hy, real_of' hk], hy⟩
  cases r <;> simp [rangeEnts, get_cons] at k1 k2
  · exact ⟨.empty, rfl, trivial⟩
  · obtain ⟨x, hx, -⟩ := hr h1 k1
    exact ⟨.min x, by simp [Range.clause, hx], trivial⟩
  · obtain ⟨x, hx, -⟩ := hr h2 k2
    exact ⟨.max x, by simp [Range.clause, hx], trivial⟩
  · obtain ⟨x, hx, ex⟩ := hr' h1 k1
    obtain ⟨y, hy, ey⟩ := hr h2 k2
    exact ⟨.minMax x y, by simp [Range.clause, hx, hy], ho x y ex ey⟩
  · obtain ⟨x, hx, ex⟩ := hr h1 k1
    obtain ⟨y, hy, ey⟩ := hr' h2 k2
    exact ⟨.maxMin y x, by simp [Range.clause, hx, hy], ho x y ex ey⟩

/-! ## Centers and projections -/

theorem center_ok {P Q : Dbl → Prop} {R S : Dbl → Prop} {c : Centers}
    (h1 : Given "SAMPLE_CENTER" es (real E "SAMPLE_CENTER" es) R)
    (h2 : Given "LINE_CENTER" es (real E "LINE_CENTER" es) S)
    (h3 : Given "LAT_AT_CENTER" es (latitude E b "LAT_AT_CENTER" es) P)
    (h4 : Given "LON_AT_CENTER" es (longitude E b "LON_AT_CENTER" es) Q)
    (h : ∀ k ∈ centerKeys, get k es = get k (centersEnts c)) :
    ∃ cc, c.clause E b = some cc ∧ match cc with
      | .pixel s l => R s ∧ S l
      | .latLon x y => P x ∧ Q y := by
  simp only [centerKeys, List.forall_mem_cons] at h
  obtain ⟨k1, k2, k3, k4, -⟩ := h
  cases c with
  | pixel p =>
    obtain ⟨v, hv, hp⟩ := pair_ok (by decide) h1 h2 k1 k2
    exact ⟨.pixel v.1 v.2, by simp [Centers.clause, hv], hp⟩
  | latLon p =>
    obtain ⟨v, hv, hp⟩ := point_ok (by decide) h3 h4 k3 k4
    exact ⟨.latLon v.1 v.2, by simp [Centers.clause, hv], hp⟩

theorem ortho_keys {o : OrthoOpts} (hk : ∀ k ∈ orthoKeys, get k es = get k (orthoEnts o)) :
    get "SUB_OBSERV_LAT" es = get "SUB_OBSERV_LAT" (o.parts.1.elim [] subEnts) ∧
    get "SUB_OBSERV_LON" es = get "SUB_OBSERV_LON" (o.parts.1.elim [] subEnts) ∧
    get "POSITION_ANGLE" es = o.parts.2.1.map turnVal ∧
    get "KM_PER_PIXEL" es = o.parts.2.2.1.map Operand.yield ∧
    ∀ k ∈ centerKeys, get k es = get k (o.parts.2.2.2.elim [] centersEnts) := by
  have hk' : ∀ k ∈ orthoKeys, get k es = ((get k (o.parts.1.elim [] subEnts)).or
      (get k (optEnt "POSITION_ANGLE" (o.parts.2.1.map turnVal)))).or
      ((get k (optEnt "KM_PER_PIXEL" (o.parts.2.2.1.map Operand.yield))).or
        (get k (o.parts.2.2.2.elim [] centersEnts))) := by
    intro k hkm
    rw [hk k hkm, orthoEnts, get_append, get_append, get_append]
  generalize o.parts = ps at hk'
  obtain ⟨s, t, x, c⟩ := ps
  have gs : ∀ k, k ∉ subKeys → get k (s.elim [] subEnts) = none := by
    intro k hk
    cases s with
    | none => rfl
    | some s => exact get_sub hk s
  have gc : ∀ k, k ∉ centerKeys → get k (c.elim [] centersEnts) = none := by
    intro k hk
    cases c with
    | none => rfl
    | some s => exact get_centers hk s
  refine ⟨?_, ?_, ?_, ?_, ?_⟩
  · rw [hk' _ (by decide)]; simp [gc "SUB_OBSERV_LAT" (by decide)]
  · rw [hk' _ (by decide)]; simp [gc "SUB_OBSERV_LON" (by decide)]
  · rw [hk' _ (by decide)]; simp [gc "POSITION_ANGLE" (by decide), gs "POSITION_ANGLE" (by decide)]
  · rw [hk' _ (by decide)]; simp [gc "KM_PER_PIXEL" (by decide), gs "KM_PER_PIXEL" (by decide)]
  · intro k hkm
    have h1 : k ∉ subKeys := by revert k; decide
    have h2 : "POSITION_ANGLE" ≠ k ∧ "KM_PER_PIXEL" ≠ k := by revert k; decide
    rw [hk' k (by simp [orthoKeys, hkm])]
    simp [gs k h1, h2.1, h2.2]

/-- Values of the options of projections. -/
structure ProjValues (E : Env) (b : Body) (es : Part) : Prop where
  numbers : ∀ k ∈ ["SAMPLE_CENTER", "LINE_CENTER"], Given k es (real E k es) Any
  latitudes : ∀ k ∈ ["SUB_OBSERV_LAT", "LAT_AT_CENTER", "MAX_LAT", "LO_LAT", "HI_LAT"],
    Given k es (latitude E b k es) Any
  longitudes : ∀ k ∈ ["SUB_OBSERV_LON", "LON_AT_CENTER", "LO_LON", "HI_LON"],
    Given k es (longitude E b k es) Any
  angle : Given "POSITION_ANGLE" es (turn E es) Any
  scale : Given "KM_PER_PIXEL" es (real E "KM_PER_PIXEL" es) Positive
  order : ∀ x y, latitude E b "LO_LAT" es = some x → latitude E b "HI_LAT" es = some y →
    x.lt y = true

theorem ortho_accepted {o : OrthoOpts} (v : PhotoVars) (h : ProjValues E b es)
    (hk : ∀ k ∈ orthoKeys, get k es = get k (orthoEnts o)) :
    ∃ v' s, o.src E b v = some (v', s) ∧ s.Valid := by
  obtain ⟨k1, k2, k3, k4, k5⟩ := ortho_keys hk
  simp only [OrthoOpts.src]
  generalize o.parts = ps at *
  obtain ⟨s, t, x, c⟩ := ps
  simp only at k1 k2 k3 k4 k5 ⊢
  have e1 : ∃ sub, Grammar.optional (Point.value E b) s = some sub := by
    cases s with
    | none => exact ⟨none, rfl⟩
    | some s =>
      obtain ⟨w, hw, -⟩ := point_ok (by decide) (h.latitudes _ (by decide))
        (h.longitudes _ (by decide)) k1 k2
      exact ⟨some w, by simp [Grammar.optional, hw]⟩
  have e2 : ∃ tv, Grammar.optional (Turn.value E) t = some tv := by
    cases t with
    | none => exact ⟨none, rfl⟩
    | some t =>
      obtain ⟨w, hw, -⟩ := turn_ok h.angle k3
      exact ⟨some w, by simp [Grammar.optional, hw]⟩
  obtain ⟨km, e3, p3⟩ := opt_ok h.scale k4
  have e4 : ∃ cc, Grammar.optional (Centers.clause E b) c = some cc := by
    cases c with
    | none => exact ⟨none, rfl⟩
    | some c =>
      obtain ⟨w, hw, -⟩ := center_ok (h.numbers _ (by decide)) (h.numbers _ (by decide))
        (h.latitudes _ (by decide)) (h.longitudes _ (by decide)) k5
      exact ⟨some w, by simp [Grammar.optional, hw]⟩
  obtain ⟨sub, e1⟩ := e1
  obtain ⟨tv, e2⟩ := e2
  obtain ⟨cc, e4⟩ := e4
  have hv : ∀ q, (ProjSrc.ortho sub tv km q).Valid := by
    intro q
    cases km with
    | none => trivial
    | some km => exact p3 km rfl
  cases cc with
  | none => exact ⟨v, .ortho sub tv km .default, by simp [e1, e2, e3, e4], hv _⟩
  | some cc =>
    exact ⟨(Parser.orthoCenters cc v).1, .ortho sub tv km (Parser.orthoCenters cc v).2,
      by simp [e1, e2, e3, e4], hv _⟩

theorem ranges_accepted {r : Ranges} (h : ProjValues E b es)
    (hk : ∀ k ∈ rangesKeys, get k es = get k (rangesEnts r)) :
    ∃ w, r.value E b = some w ∧ ∀ lo hi, w.1 = some (lo, hi) → lo.lt hi = true := by
  simp only [rangesKeys, latRangeKeys, lonRangeKeys, List.cons_append, List.nil_append,
    List.forall_mem_cons] at hk
  obtain ⟨h1, h2, h3, h4, -⟩ := hk
  have kLat : ∀ {x : LatRange},
      get "LO_LAT" es = get "LO_LAT" (latRangeEnts x) → get "HI_LAT" es = get "HI_LAT" (latRangeEnts x) →
      ∃ w, x.value E b = some w ∧ w.1.lt w.2 = true := by
    intro x g1 g2
    cases x with
    | loHi a c | hiLo c a =>
      simp [latRangeEnts, get_cons] at g1 g2
      obtain ⟨y, hy, -⟩ := lat_ok (h.latitudes _ (by decide)) g1
      obtain ⟨z, hz, -⟩ := lat_ok (h.latitudes _ (by decide)) g2
      exact ⟨(y, z), by simp [LatRange.value, hy, hz],
        h.order y z (by rw [latitude_of g1, hy]) (by rw [latitude_of g2, hz])⟩
  have kLon : ∀ {x : LonRange},
      get "LO_LON" es = get "LO_LON" (lonRangeEnts x) → get "HI_LON" es = get "HI_LON" (lonRangeEnts x) →
      ∃ w, x.value E b = some w := by
    intro x g1 g2
    cases x with
    | loHi a c | hiLo c a =>
      simp [lonRangeEnts, get_cons] at g1 g2
      obtain ⟨y, hy, -⟩ := lon_ok (h.longitudes _ (by decide)) g1
      obtain ⟨z, hz, -⟩ := lon_ok (h.longitudes _ (by decide)) g2
      exact ⟨(y, z), by simp [LonRange.value, hy, hz]⟩
  cases r with
  | empty => exact ⟨_, rfl, by simp⟩
  | lat x =>
    obtain ⟨w, hw, hl⟩ := kLat h1 h2
    exact ⟨(some w, none), by simp [Ranges.value, hw], by rintro lo hi ⟨⟩; exact hl⟩
  | lon y =>
    obtain ⟨w, hw⟩ := kLon h3 h4
    exact ⟨(none, some w), by simp [Ranges.value, hw], by simp⟩
  | latLon x y | lonLat y x =>
    simp only [rangesEnts, get_append] at h1 h2 h3 h4
    rw [(keys_lonRange y).get (by decide)] at h1 h2
    rw [(keys_latRange x).get (by decide)] at h3 h4
    obtain ⟨w, hw, hl⟩ := kLat (x := x) (by simpa using h1) (by simpa using h2)
    obtain ⟨z, hz⟩ := kLon (x := y) (by simpa using h3) (by simpa using h4)
    exact ⟨(some w, some z), by simp [Ranges.value, hw, hz], by rintro lo hi ⟨⟩; exact hl⟩

theorem proj_accepted {p : Projection} (v : PhotoVars) (h : ProjValues E b es)
    (hk : ∀ k ∈ projKeys, get k es = get k (projEnts p)) :
    ∃ v' s, p.src E b v = some (v', s) ∧ s.Valid := by
  rcases p with a | (_ | ⟨a, o⟩) | (_ | ⟨a, north, m⟩) | (_ | ⟨a, t, r⟩)
  · exact ⟨_, _, rfl, trivial⟩
  · exact ⟨_, _, rfl, trivial⟩
  · exact ortho_accepted v h (by
      intro k hko
      rw [hk k (by simp [projKeys, hko])]
      have h1 : "MAP_TYPE" ≠ k := by revert k; decide
      have h2 : k ∉ optKeys := by revert k; decide
      simp [projEnts, get_cons, h1, projOpts, get_append, get_opts h2])
  · exact ⟨_, _, rfl, trivial⟩
  · have k1 := hk "MAX_LAT" (by decide)
    simp [projEnts, get_cons, projOpts, get_append, get_opts, optKeys] at k1
    cases m with
    | none => exact ⟨_, _, rfl, trivial⟩
    | some x =>
      obtain ⟨y, hy, -⟩ := lat_ok (x := x) (h.latitudes "MAX_LAT" (by decide)) (by simpa using k1)
      exact ⟨v, .polar (some north) (some y), by simp [Projection.src, Grammar.optional, hy], trivial⟩
  · exact ⟨_, _, rfl, trivial⟩
  · obtain ⟨w, hw, hl⟩ := ranges_accepted (r := r) h (by
      intro k hkr
      rw [hk k (by simp [projKeys, hkr])]
      have h1 : "MAP_TYPE" ≠ k := by revert k; decide
      have h2 : k ∉ optKeys := by revert k; decide
      have h3 : "LATITUDE_TYPE" ≠ k := by revert k; decide
      have h4 : get k (latTypeEnts t) = none := by cases t <;> simp [latTypeEnts, get_cons, h3]
      simp [projEnts, get_cons, h1, projOpts, get_append, get_opts h2, h4])
    obtain ⟨lat, lon⟩ := w
    refine ⟨v, .simple t.clause lat lon, by simp [Projection.src, hw], ?_⟩
    rcases lat with _ | ⟨lo, hi⟩
    · trivial
    · exact hl lo hi rfl

/-! ## Photos -/

theorem sides_ok {kA kB : String} (hk : kA ≠ kB) {s : Sides} (h1 : Given kA es (int kA es) (0 ≤ ·))
    (h2 : Given kB es (int kB es) (0 ≤ ·)) (hA : get kA es = get kA (sidesEnts kA kB s))
    (hB : get kB es = get kB (sidesEnts kA kB s)) :
    ∃ v, s.value = some v ∧ (∀ n, v.1 = some n → 0 ≤ n) ∧ ∀ n, v.2 = some n → 0 ≤ n := by
  cases s <;> simp [sidesEnts, get_cons, hk, hk.symm] at hA hB
  · obtain ⟨x, hx, hp⟩ := int_ok h1 hA
    exact ⟨(some x, none), by simp [Sides.value, hx], by rintro n ⟨⟩; exact hp, by simp⟩
  · obtain ⟨x, hx, hp⟩ := int_ok h2 hB
    exact ⟨(none, some x), by simp [Sides.value, hx], by simp, by rintro n ⟨⟩; exact hp⟩
  all_goals
    obtain ⟨x, hx, hp⟩ := int_ok h1 hA
    obtain ⟨y, hy, hq⟩ := int_ok h2 hB
    exact ⟨(some x, some y), by simp [Sides.value, hx, hy], by rintro n ⟨⟩; exact hp,
      by rintro n ⟨⟩; exact hq⟩

theorem nibble_ok {n : Nibble}
    (hg : ∀ k ∈ ["NIBBLE", "NIBBLE_LEFT", "NIBBLE_RIGHT", "NIBBLE_TOP", "NIBBLE_BOTTOM"],
      Given k es (int k es) (0 ≤ ·))
    (h : ∀ k ∈ nibbleKeys, get k es = get k (nibbleEnts n)) :
    ∃ c, n.clause = some c ∧ ∀ k ∈ c.numbers, 0 ≤ k := by
  simp only [nibbleKeys, List.forall_mem_cons] at h hg
  obtain ⟨h0, h1, h2, h3, h4, -⟩ := h
  obtain ⟨g0, g1, g2, g3, g4, -⟩ := hg
  have key : ∀ l r t b : Option ℤ, (∀ n, l = some n → 0 ≤ n) → (∀ n, r = some n → 0 ≤ n) →
      (∀ n, t = some n → 0 ≤ n) → (∀ n, b = some n → 0 ≤ n) →
      ∀ k ∈ (NibbleClause.sides l r t b).numbers, 0 ≤ k := by
    intro l r t b h1 h2 h3 h4 k hk
    simp only [NibbleClause.numbers, List.mem_filterMap, List.mem_cons, List.not_mem_nil, or_false,
      id] at hk
    obtain ⟨a, ha, rfl⟩ := hk
    rcases ha with ha | ha | ha | ha
    · exact h1 k ha.symm
    · exact h2 k ha.symm
    · exact h3 k ha.symm
    · exact h4 k ha.symm
  cases n with
  | empty => exact ⟨.none, rfl, by simp [NibbleClause.numbers]⟩
  | all n =>
    simp [nibbleEnts, get_cons] at h0
    obtain ⟨x, hx, hp⟩ := int_ok g0 h0
    exact ⟨.all x, by simp [Nibble.clause, hx], by simpa [NibbleClause.numbers] using hp⟩
  | samples s =>
    obtain ⟨v, hv, p1, p2⟩ := sides_ok (by decide) g1 g2 h1 h2
    exact ⟨.sides v.1 v.2 none none, by simp [Nibble.clause, hv], key _ _ _ _ p1 p2 (by simp) (by simp)⟩
  | lines s =>
    obtain ⟨v, hv, p1, p2⟩ := sides_ok (by decide) g3 g4 h3 h4
    exact ⟨.sides none none v.1 v.2, by simp [Nibble.clause, hv], key _ _ _ _ (by simp) (by simp) p1 p2⟩
  | samplesLines s l =>
    simp only [nibbleEnts, get_append] at h0 h1 h2 h3 h4
    rw [(keys_lines l).get (by decide), Option.or_none] at h1 h2
    rw [(keys_samples s).get (by decide), Option.none_or] at h3 h4
    obtain ⟨v, hv, p1, p2⟩ := sides_ok (by decide) g1 g2 h1 h2
    obtain ⟨w, hw, q1, q2⟩ := sides_ok (by decide) g3 g4 h3 h4
    exact ⟨.sides v.1 v.2 w.1 w.2, by simp [Nibble.clause, hv, hw], key _ _ _ _ p1 p2 q1 q2⟩
  | linesSamples l s =>
    simp only [nibbleEnts, get_append] at h0 h1 h2 h3 h4
    rw [(keys_lines l).get (by decide), Option.none_or] at h1 h2
    rw [(keys_samples s).get (by decide), Option.or_none] at h3 h4
    obtain ⟨v, hv, p1, p2⟩ := sides_ok (by decide) g1 g2 h1 h2
    obtain ⟨w, hw, q1, q2⟩ := sides_ok (by decide) g3 g4 h3 h4
    exact ⟨.sides v.1 v.2 w.1 w.2, by simp [Nibble.clause, hv, hw], key _ _ _ _ p1 p2 q1 q2⟩

theorem scale_ok {s : Scale}
    (hg : ∀ k ∈ ["KM_PER_PIXEL", "ARCSEC_PER_PIX", "FOCAL_LENGTH", "PIXEL_SCALE"],
      Given k es (real E k es) Positive)
    (h : ∀ k ∈ scaleKeys, get k es = get k (scaleEnts s)) : ∃ c, s.clause E = some c ∧ c.Valid := by
  simp only [scaleKeys, List.forall_mem_cons] at h hg
  obtain ⟨h1, h2, h3, h4, -⟩ := h
  obtain ⟨g1, g2, g3, g4, -⟩ := hg
  cases s with
  | km x =>
    simp [scaleEnts, get_cons] at h1
    obtain ⟨y, hy, hp⟩ := op_ok g1 h1
    exact ⟨.km y, by simp [Scale.clause, hy], hp⟩
  | arcsec x =>
    simp [scaleEnts, get_cons] at h2
    obtain ⟨y, hy, hp⟩ := op_ok g2 h2
    exact ⟨.arcsec y, by simp [Scale.clause, hy], hp⟩
  | lens p =>
    obtain ⟨v, hv, hp⟩ := pair_ok (by decide) g3 g4 h3 h4
    exact ⟨.lens v.1 v.2, by simp [Scale.clause, hv], hp⟩

theorem photo_ok {p : Photo} (h : ValidPhoto E b (photoEnts p)) :
    ∃ s, p.src E b = some s ∧ s.Valid b.eqRad b.polRad := by
  obtain ⟨nib, e1, v1⟩ := nibble_ok (n := p.nibble) h.nibble (by
    simp only [nibbleKeys, List.forall_mem_cons]
    refine ⟨?_, ?_, ?_, ?_, ?_, by simp⟩ <;> photo_get)
  obtain ⟨cen, e2, v2⟩ := center_ok (c := p.centers) (h.positions "SAMPLE_CENTER" (by decide))
    (h.positions "LINE_CENTER" (by decide)) (h.latitudes "LAT_AT_CENTER" (by decide))
    (h.longitudes "LON_AT_CENTER" (by decide)) (by
      simp only [centerKeys, List.forall_mem_cons]
      refine ⟨?_, ?_, ?_, ?_, by simp⟩ <;> photo_get)
  have h3 : ∃ ax, Grammar.optional (Pair.value E) p.axis = some ax ∧
      ∀ s l, ax = some (s, l) → s ≠ .nan ∧ l ≠ .nan := by
    have g1 : get "SAMPLE_OA" (photoEnts p) =
        get "SAMPLE_OA" (p.axis.elim [] (pairEnts "SAMPLE_OA" "LINE_OA")) := by photo_get
    have g2 : get "LINE_OA" (photoEnts p) =
        get "LINE_OA" (p.axis.elim [] (pairEnts "SAMPLE_OA" "LINE_OA")) := by photo_get
    cases hx : p.axis with
    | none => exact ⟨none, rfl, by simp⟩
    | some x =>
      rw [hx] at g1 g2
      obtain ⟨v, hv, hp⟩ := pair_ok (by decide) (h.positions _ (by decide))
        (h.positions _ (by decide)) g1 g2
      exact ⟨some v, by simp [Grammar.optional, hv], by rintro s l ⟨⟩; exact hp⟩
  obtain ⟨ax, e3, v3⟩ := h3
  have h4 : ∃ mi, p.minnaert.clause E = some mi := by
    have g : get "MINNAERT" (photoEnts p) = minnaertVal p.minnaert := by photo_get
    cases hm : p.minnaert with
    | empty => exact ⟨_, rfl⟩
    | auto => exact ⟨_, rfl⟩
    | table => exact ⟨_, rfl⟩
    | exponent x =>
      rw [hm] at g
      have hc : choice "MINNAERT" (photoEnts p) = none := by
        simp [choice, g, minnaertVal]
      obtain ⟨y, hy, -⟩ := op_ok (h.minnaert hc) g
      exact ⟨_, by simp [Minnaert.clause, hy]; rfl⟩
  obtain ⟨mi, e4⟩ := h4
  obtain ⟨emi, e5, v5⟩ := opt_ok h.emission (x := p.emiAngLimit) (by photo_get)
  obtain ⟨sub, e6, v6⟩ := point_ok (p := p.subObserv) (by decide) (h.latitudes "SUB_OBSERV_LAT" (by decide))
    (h.longitudes "SUB_OBSERV_LON" (by decide)) (by change _ = get _ (subEnts _); photo_get)
    (by change _ = get _ (subEnts _); photo_get)
  obtain ⟨pa, e7, v7⟩ := turn_ok h.angle (x := p.turn) (by photo_get)
  obtain ⟨sun, e8, v8⟩ := point_ok (p := p.subSolar) (by decide) (h.latitudes "SUB_SOLAR_LAT" (by decide))
    (h.longitudes "SUB_SOLAR_LON" (by decide)) (by change _ = get _ (sunEnts _); photo_get)
    (by change _ = get _ (sunEnts _); photo_get)
  have hd : get "RANGE" (photoEnts p) = some (distVal p.distance) := by photo_get
  obtain ⟨km, e9, v9⟩ := h.range.at hd
  rw [distance_of hd] at e9
  simp only [Distance.value, Option.pure_def, Option.bind_eq_bind, Option.bind_eq_some_iff,
    Option.some.injEq] at e9
  obtain ⟨r, e9, rfl⟩ := e9
  obtain ⟨sc, e10, v10⟩ := scale_ok (s := p.scale) h.scale (by
    simp only [scaleKeys, List.forall_mem_cons]
    refine ⟨?_, ?_, ?_, ?_, by simp⟩ <;> photo_get)
  refine ⟨_, by simp only [Photo.src, e1, e2, e3, e4, e5, e6, e7, e8, e9, e10]; rfl,
    v1, v3, v5, v6, v7, v8, ?_, v10, ?_⟩
  · exact v9
  · cases cen <;> exact v2

end MaRC.InputMeaning
