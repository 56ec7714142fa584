import Verif.Lemmas.InputParams

/-! # Maps of an input file -/

namespace MaRC.InputMeaning

open MaRC.Calc (Tok)
open MaRC.Scan (Token kw)
open MaRC.Grammar
open MaRC.Parser (Averaging Nibbles PhotoVars Inert Globals clean)

variable {E : Env}

theorem entry_grid {c : Parser.GridClause} {g g' : Globals} {x : Bool}
    (h : Parser.grid c (Parser.mapEntry g) = .ok (g', x)) :
    g'.graphicLat = g.graphicLat ∧ g'.averaging = .weighted ∧ g'.ppMinimum = g.ppMinimum ∧
      g'.ppMaximum = g.ppMaximum := by
  obtain ⟨a, b, rfl⟩ := Parser.grid_ok h
  simp [Parser.mapEntry]

theorem intervals_vals {i : Parser.IntervalClause} {g g' : Globals}
    (h : Parser.intervals i g = .ok g') :
    (g'.latInterval, g'.lonInterval) = match i with
      | .both x => (x, x)
      | .lat x => (x, g.lonInterval)
      | .lon y => (g.latInterval, y)
      | .latLon x y => (x, y)
      | .lonLat y x => (x, y) := by
  cases i <;> simp only [Parser.intervals, Parser.latGrid, Parser.lonGrid] at h
  · split_ifs at h; simp at h; subst h; rfl
  · split_ifs at h; simp at h; subst h; rfl
  · split_ifs at h; simp at h; subst h; rfl
  · rename_i x y
    by_cases h1 : x.le (.fin 0) = true <;> by_cases h2 : y.le (.fin 0) = true <;>
      simp [h1, h2, Outcome.bind, Parser.lonGrid] at h
    subst h; rfl
  · rename_i x y
    by_cases h1 : x.le (.fin 0) = true <;> by_cases h2 : y.le (.fin 0) = true <;>
      simp [h1, h2, Outcome.bind, Parser.latGrid] at h
    subst h; rfl

theorem grid_of {m : Map} {c : Parser.GridClause} {g g' : Globals} {x : Bool} {n : Nibbles}
    (hc : m.grid.clause E = some c) (h : Parser.grid c (Parser.mapEntry g) = .ok (g', x)) :
    (if x then some (g'.latInterval, g'.lonInterval) else none) =
      grid E ⟨g.ppLatInterval, g.ppLonInterval, n⟩ (mapHead m) := by
  have k : ∀ k ∈ gridKeys, get k (mapHead m) = get k (gridEnts m.grid) := by
    simp only [gridKeys, intervalKeys, List.forall_mem_cons]
    refine ⟨?_, ?_, ?_, ?_, by simp⟩ <;> head_get
  simp only [gridKeys, intervalKeys, List.forall_mem_cons] at k
  obtain ⟨k1, k2, k3, k4, -⟩ := k
  cases hm : m.grid with
  | absent =>
    rw [hm] at hc k1
    simp only [Grid.clause, Option.some.injEq] at hc
    subst hc
    simp only [Parser.grid, Outcome.ok.injEq, Prod.mk.injEq] at h
    obtain ⟨rfl, rfl⟩ := h
    simp only [gridEnts, get_nil] at k1
    simp [grid, choice, k1]
  | plain y =>
    rw [hm] at hc k1 k2 k3 k4
    simp only [Grid.clause, Option.some.injEq] at hc
    subst hc
    simp only [gridEnts, get_cons, get_nil] at k1 k2 k3 k4
    cases y <;> simp only [Parser.grid, Parser.gridYes, Bool.false_eq_true, if_true, if_false,
      Outcome.ok.injEq, Prod.mk.injEq] at h <;> obtain ⟨rfl, rfl⟩ := h
    · simp [grid, choice, k1, yesWord]
    · simp [grid, choice, k1, yesWord, real_none k2, real_none k3, real_none k4, Parser.mapEntry]
  | intervals y i =>
    rw [hm] at hc k1 k2 k3 k4
    simp only [Grid.clause, Option.pure_def, Option.bind_eq_bind, Option.bind_eq_some_iff,
      Option.some.injEq] at hc
    obtain ⟨ic, hi, rfl⟩ := hc
    simp only [gridEnts, get_cons] at k1 k2 k3 k4
    cases y
    · simp only [Parser.grid, Bool.false_eq_true, if_false] at h
      cases hh : Parser.intervals ic (Parser.mapEntry g) with
      | throw e => rw [hh] at h; simp at h
      | ub => rw [hh] at h; simp at h
      | ok g1 =>
        rw [hh] at h
        simp only [Outcome.bind_ok, Outcome.ok.injEq, Prod.mk.injEq] at h
        obtain ⟨rfl, rfl⟩ := h
        simp [grid, choice, k1, yesWord]
    · simp only [Parser.grid, if_true] at h
      cases hh : Parser.intervals ic (Parser.gridYes (Parser.mapEntry g)) with
      | throw e => rw [hh] at h; simp at h
      | ub => rw [hh] at h; simp at h
      | ok g1 =>
        rw [hh] at h
        simp only [Outcome.bind_ok, Outcome.ok.injEq, Prod.mk.injEq] at h
        obtain ⟨rfl, rfl⟩ := h
        have hv := intervals_vals hh
        have hy : choice "GRID" (mapHead m) = some "YES" := by simp [choice, k1, yesWord]
        rw [grid, if_pos hy, if_pos rfl, hv]
        have hr := @real_of' E
        cases i <;> simp [Intervals.clause, Option.bind_eq_some_iff] at hi <;>
          simp [intervalsEnts, get_cons] at k2 k3 k4
        · obtain ⟨x, hx, rfl⟩ := hi
          simp [real_none k3, real_none k4, hr k2, hx]
        · obtain ⟨x, hx, rfl⟩ := hi
          simp [real_none k2, real_none k4, hr k3, hx, Parser.gridYes, Parser.mapEntry]
        · obtain ⟨x, hx, rfl⟩ := hi
          simp [real_none k2, real_none k3, hr k4, hx, Parser.gridYes, Parser.mapEntry]
        · obtain ⟨x, hx, y, hy, rfl⟩ := hi
          simp [real_none k2, hr k3, hr k4, hx, hy]
        · obtain ⟨x, hx, y, hy, rfl⟩ := hi
          simp [real_none k2, hr k3, hr k4, hx, hy]

theorem extent_some {s : List Char} {n : ℤ} (h : Parser.extent s = some n) :
    Parser.integer s = some n ∧ 0 < n := by
  simp only [Parser.extent] at h
  split at h
  · split at h
    · simp only [Option.some.injEq] at h
      subst h
      exact ⟨by assumption, by assumption⟩
    · simp at h
  · simp at h

theorem planes_length : ∀ {ss : List Parser.PlaneSrc} {g g' : Globals} {cs : List Parser.PlaneCmd},
    Parser.planes ss g = some (g', cs) → cs.length = ss.length
  | [], g, g', cs, h => by
    simp only [Parser.planes, Option.some.injEq, Prod.mk.injEq] at h
    simp [← h.2]
  | s :: ss, g, g', cs, h => by
    simp only [Parser.planes] at h
    split at h
    · simp at h
    · split at h
      · simp at h
      · rename_i hh
        simp only [Option.some.injEq, Prod.mk.injEq] at h
        rw [← h.2, List.length_cons, List.length_cons, planes_length hh]

theorem ArePlanes.length {E : Env} {b : Body} {a : Averaging} {d : Nibbles} {graphic : Bool}
    {ess : List Part} {is : List PlaneImage} (h : ArePlanes E b a d graphic ess is) :
    is.length = ess.length := by
  induction h with
  | nil => rfl
  | cons _ _ ih => simp [ih]

theorem count_of {n : Option ℤ} {g g' : Globals} (h : Parser.planesCount n g = some g')
    (hn : ∀ k, n = some k → k < 2 ^ 63) : (∀ k, n = some k → 0 < k ∧ (g'.numPlanes : ℤ) = k) := by
  rintro k rfl
  have := hn k rfl
  simp only [Parser.planesCount] at h
  split_ifs at h with h0
  simp only [Option.some.injEq] at h
  subst h
  refine ⟨h0, ?_⟩
  simp only [Parser.toSize]
  omega

/-- One map. -/
theorem map_of {m : Map} {s s' : State} {c : Command} {d : Nibbles} (hc : clean s.g)
    (hmin : s.g.ppMinimum = none) (hmax : s.g.ppMaximum = none) (hv : Inert d s.v)
    (h : m.run E s = .done (s', c)) :
    IsCommand E ⟨s.g.ppLatInterval, s.g.ppLonInterval, d⟩ s.g.graphicLat (mapEnts m) c ∧
      clean s'.g ∧ Parser.defaults s'.g = Parser.defaults s.g ∧ Inert d s'.v ∧
      s'.g.graphicLat = afterMap s.g.graphicLat (mapEnts m) := by
  simp only [Map.run] at h
  obtain ⟨b, hb, h⟩ := act_bind h
  obtain ⟨p, hp, h⟩ := act_bind h
  obtain ⟨gc, hg, h⟩ := act_bind h
  obtain ⟨⟨v1, pr⟩, hpr, h⟩ := act_bind h
  obtain ⟨n, hn, h⟩ := act_bind h
  obtain ⟨sa, hsa, h⟩ := act_bind h
  obtain ⟨li, hli, h⟩ := act_bind h
  obtain ⟨pl, hpl, h⟩ := act_bind h
  obtain ⟨⟨g', mc⟩, hm, h⟩ := act_bind h
  obtain ⟨_, -, h⟩ := act_bind h
  obtain ⟨⟨v2, is⟩, his, h⟩ := act_bind h
  have h := act_pure h
  simp only [Prod.mk.injEq] at h
  obtain ⟨rfl, rfl⟩ := h
  replace hg := act_option hg
  replace hpr := act_option hpr
  replace hn := act_option hn
  replace hsa := act_option hsa
  replace hli := act_option hli
  replace hpl := mapM_forall (act_option hpl)
  replace hm := act_eq hm
  obtain ⟨kc, kd⟩ := Parser.map_keeps hc hm
  obtain ⟨g1, x, g2, proj, g3, cs, h1, h2, h3, h4, h5, rfl⟩ := Parser.map_ok hm
  have hc1 := Parser.clean_entry hc h1
  obtain ⟨q1, q2⟩ := projection_wanted hc1 h2
  obtain ⟨w1, w2, w3⟩ := projection_of (es := mapHead m) (graphic := s.g.graphicLat) hv
    (get_head_proj m) (latType_head m) hpr
  obtain ⟨i1, i2, i3, i4⟩ := entry_grid h1
  obtain ⟨_, e2⟩ := Parser.projection_ok hc1 h2
  obtain ⟨_, e3⟩ := Parser.planesCount_ok h3
  obtain ⟨_, _, _, _, e4⟩ := Parser.planes_ok _ h4
  have ha : (Parser.averaging m.proj.averaging g1).averaging = averaging (mapHead m) := by
    rw [averaging_of (p := m.proj) (get_head_proj m _ (by decide))]
    cases hq : m.proj.averaging <;> simp [Parser.averaging, i2]
  have hga : (Parser.averaging m.proj.averaging g1).graphicLat = s.g.graphicLat ∧
      (Parser.averaging m.proj.averaging g1).ppMinimum = none ∧
      (Parser.averaging m.proj.averaging g1).ppMaximum = none ∧
      (Parser.averaging m.proj.averaging g1).latInterval = g1.latInterval ∧
      (Parser.averaging m.proj.averaging g1).lonInterval = g1.lonInterval := by
    cases hq : m.proj.averaging <;> simp [Parser.averaging, i1, i3, i4, hmin, hmax]
  obtain ⟨j1, j2, j3, j4, j5⟩ := hga
  have hg3 : g3.graphicLat = afterProjection s.g.graphicLat (mapHead m) := by
    rw [e3]
    change g2.graphicLat = _
    rw [q2, j1, w3]
  obtain ⟨r1, r2, r3⟩ := planes_of hpl (by rw [e3, e2]; exact j2) (by rw [e3, e2]; exact j3) w1 h4 his
  rw [hg3] at r1 r3
  have hav : g'.averaging = averaging (mapHead m) := by rw [e4, e3, e2]; exact ha
  rw [hav] at r1
  refine ⟨⟨?_, ?_, ?_, ?_, ?_, ?_, ?_, ?_, ?_⟩, kc, kd, r2, ?_⟩
  · rw [upTo_map]
    exact string_opt (some m.file) (by head_get)
  · rw [upTo_map, int_of (s := m.samples) (ws := []) (by head_get) rfl]
    exact extent_some hsa
  · rw [upTo_map, int_of (s := m.lines) (ws := []) (by head_get) rfl]
    exact extent_some hli
  · rw [upTo_map]
    exact params_of hp
  · rw [upTo_map]
    exact body_of hb
  · rw [upTo_map, w2, q1, j1]
  · rw [upTo_map, ← grid_of hg h1, e4, e3, e2]
    simp only [j4, j5]
  · rw [upTo_map]
    intro hh
    have hk : get "PLANES" (mapHead m) = m.planes.map fun s => [.ex (.num s)] := by head_get
    cases hq : m.planes with
    | none => rw [has, hk, hq] at hh; simp at hh
    | some t =>
      rw [hq] at hk hn
      simp only [Grammar.optional, Option.map_eq_some_iff] at hn
      obtain ⟨k, hk1, rfl⟩ := hn
      obtain ⟨l1, l2⟩ := count_of h3 (fun k' e => integer_lt (hk1.trans e)) k rfl
      have hnum : g'.numPlanes = g3.numPlanes := by rw [e4]
      have hl : is.length = cs.length := by
        rw [r1.length, planes_length h4, List.length_map, hpl.length_eq]
      rw [int_of (s := t) (ws := []) (by simpa using hk) rfl, hk1, hl]
      have : cs.length = g'.numPlanes := by
        by_contra hne
        exact h5 ⟨by omega, hne⟩
      rw [this, hnum, l2]
  · rw [upTo_map, parts_map]
    exact r1
  · rw [afterMap, upTo_map, parts_map]
    exact r3

/-- Variables that the maps and files before have put back. -/
structure Ready (s : State) : Prop where
  clean : clean s.g
  minimum : s.g.ppMinimum = none
  maximum : s.g.ppMaximum = none
  inert : Inert s.v.ppNibble s.v

theorem maps_of : ∀ {ms : List Map} {s s' : State} {cs : List Command}, Ready s →
    runMaps E ms s = .done (s', cs) →
    AreCommands E (defaultsOf s) s.g.graphicLat (ms.map mapEnts) cs ∧ Ready s' ∧
      defaultsOf s' = defaultsOf s ∧
      s'.g.graphicLat = (ms.map mapEnts).foldl afterMap s.g.graphicLat
  | [], s, s', cs, hr, h => by
    have := act_pure h
    simp only [Prod.mk.injEq] at this
    obtain ⟨rfl, rfl⟩ := this
    exact ⟨.nil, hr, rfl, rfl⟩
  | m :: ms, s, s', cs, hr, h => by
    simp only [runMaps] at h
    obtain ⟨⟨s1, c⟩, h1, h⟩ := act_bind h
    obtain ⟨⟨s2, cs'⟩, h2, h⟩ := act_bind h
    have := act_pure h
    simp only [Prod.mk.injEq] at this
    obtain ⟨rfl, rfl⟩ := this
    obtain ⟨k1, k2, k3, k4, k5⟩ := map_of hr.clean hr.minimum hr.maximum hr.inert h1
    simp only [Parser.defaults, Prod.mk.injEq] at k3
    have hd : defaultsOf s1 = defaultsOf s := by
      simp only [defaultsOf, k3.1.1, k3.1.2, k4.nibble]
    have hr1 : Ready s1 :=
      ⟨k2, k3.2.1.trans hr.minimum, k3.2.2.trans hr.maximum, k4.nibble ▸ k4⟩
    obtain ⟨l1, l2, l3, l4⟩ := maps_of hr1 h2
    rw [hd, k5] at l1
    exact ⟨.cons k1 l1, l2, l3.trans hd, by rw [List.map_cons, List.foldl_cons, ← k5]; exact l4⟩

theorem userNibbling_of {c : Parser.NibbleClause} {v v' : PhotoVars}
    (h : Parser.userNibbling c v = some v') :
    (Inert v.ppNibble v → Inert v'.ppNibble v') ∧
      ((∀ k ∈ c.numbers, k < 2 ^ 32) → v'.ppNibble = c.wanted v.ppNibble) := by
  constructor
  · simp only [Parser.userNibbling] at h
    split at h
    · simp at h
    · simp only [Option.some.injEq] at h
      subst h
      rintro ⟨h1, h2, h3, h4, h5, h6, -⟩
      exact ⟨h1, h2, h3, h4, h5, h6, rfl⟩
  · intro hk
    have h0 : ∀ k ∈ c.numbers, 0 ≤ k := by
      have hq : ∃ n, Parser.nibbling Parser.toUnsigned c v.ppNibble = some n := by
        simp only [Parser.userNibbling] at h
        split at h
        · simp at h
        · exact ⟨_, by assumption⟩
      obtain ⟨n, hq⟩ := hq
      cases c with
      | none => simp [Parser.NibbleClause.numbers]
      | all k =>
        simp only [Parser.nibbling] at hq
        split at hq
        · simpa [Parser.NibbleClause.numbers]
        · simp at hq
      | sides l r t b =>
        simp only [Parser.nibbling, Option.bind_eq_bind, Option.bind_eq_some_iff] at hq
        obtain ⟨_, q1, _, q2, _, q3, _, q4, -⟩ := hq
        have hs : ∀ {o x} {y : Option ℤ}, Parser.nibbleSide Parser.toUnsigned o y = some x →
            ∀ k, y = some k → 0 ≤ k := by
          rintro o x y hy k rfl
          simp only [Parser.nibbleSide] at hy
          split at hy
          · assumption
          · simp at hy
        intro k hk
        simp only [Parser.NibbleClause.numbers, List.mem_filterMap, List.mem_cons,
          List.not_mem_nil, or_false, id, exists_eq_or_imp, exists_eq_left] at hk
        rcases hk with hk | hk | hk | hk
        · exact hs q1 _ hk
        · exact hs q2 _ hk
        · exact hs q3 _ hk
        · exact hs q4 _ hk
    rw [Parser.C80_user_nibble_partial c v fun k hm => ⟨h0 k hm, hk k hm⟩] at h
    simp only [Option.some.injEq] at h
    rw [← h]

theorem userFile_graphic {i : Parser.IntervalClause} {r : Parser.RangeClause} {g g' : Globals}
    (h : Parser.userFile i r g = .ok (some g')) : g'.graphicLat = g.graphicLat := by
  simp only [Parser.userFile] at h
  cases hi : Parser.intervals i g with
  | throw e => rw [hi] at h; simp at h
  | ub => rw [hi] at h; simp at h
  | ok g1 =>
    rw [hi] at h
    simp only [Outcome.bind_ok] at h
    obtain ⟨a, b, rfl⟩ := Parser.intervals_ok hi
    cases hr : Parser.dataRange r { g with latInterval := a, lonInterval := b } with
    | none => rw [hr] at h; simp at h
    | some g2 =>
      rw [hr] at h
      obtain ⟨x, y, rfl⟩ := Parser.dataRange_ok hr
      simp only [Outcome.ok.injEq, Option.some.injEq] at h
      rw [← h]

theorem user_of {i : Intervals} {r : Range} {n : Nibble} {s s' : State} {cs : List Command}
    (hr : Ready s) (h : File.run E (.user i r n) s = .done (s', cs)) :
    cs = [] ∧ Ready s' ∧ AreDefaults E (fileEnts (.user i r n)) (defaultsOf s) (defaultsOf s') ∧
      s'.g.graphicLat = s.g.graphicLat := by
  simp only [File.run] at h
  obtain ⟨ic, h1, h⟩ := act_bind h
  obtain ⟨rc, h2, h⟩ := act_bind h
  obtain ⟨nc, h3, h⟩ := act_bind h
  obtain ⟨g, h4, h⟩ := act_bind h
  obtain ⟨v, h5, h⟩ := act_bind h
  have := act_pure h
  simp only [Prod.mk.injEq] at this
  obtain ⟨rfl, rfl⟩ := this
  replace h1 := act_option h1
  replace h3 := act_option h3
  replace h5 := act_option h5
  obtain ⟨g1, k1, k2, k3, k4, k5, k6⟩ := Parser.userFile_ok (act_eq h4)
  obtain ⟨l1, l2⟩ := userNibbling_of h5
  refine ⟨rfl, ⟨k4 hr.clean, k5 hr.minimum, k6 hr.maximum, l1 hr.inert⟩, ?_,
    userFile_graphic (act_eq h4)⟩
  have hv := intervals_vals k1
  have hi : ∀ k ∈ intervalKeys, get k (fileEnts (.user i r n)) = get k (intervalsEnts i) := by
    intro k hk
    rw [fileEnts, get_append, get_append, (keys_range _ r).get (k := k), (keys_nibble n).get (k := k)]
    · simp
    · revert k; decide
    · revert k; decide
  have hn : ∀ k ∈ nibbleKeys, get k (fileEnts (.user i r n)) = get k (nibbleEnts n) := by
    intro k hk
    rw [fileEnts, get_append, get_append, (keys_range _ r).get (k := k),
      (keys_intervals i).get (k := k)]
    · simp
    · revert k; decide
    · revert k; decide
  simp only [intervalKeys, List.forall_mem_cons] at hi
  obtain ⟨i1, i2, i3, -⟩ := hi
  have hvs : ∀ x y, (real E "LAT_GRID_INTERVAL" (fileEnts (.user i r n))).or
      (real E "GRID_INTERVAL" (fileEnts (.user i r n))) = x →
      (real E "LON_GRID_INTERVAL" (fileEnts (.user i r n))).or
      (real E "GRID_INTERVAL" (fileEnts (.user i r n))) = y →
      (∀ a, x = some a → g1.latInterval = a) ∧ ∀ a, y = some a → g1.lonInterval = a := by
    rintro _ _ rfl rfl
    have hr := @real_of' E
    cases i <;> simp [Intervals.clause, Option.bind_eq_some_iff] at h1 <;>
      simp [intervalsEnts, get_cons] at i1 i2 i3
    · obtain ⟨x, hx, rfl⟩ := h1
      simp [real_none i2, real_none i3, hr i1, hx] at hv ⊢
      exact hv
    · obtain ⟨x, hx, rfl⟩ := h1
      simp [real_none i1, real_none i3, hr i2, hx] at hv ⊢
      exact hv.1
    · obtain ⟨x, hx, rfl⟩ := h1
      simp [real_none i1, real_none i2, hr i3, hx] at hv ⊢
      exact hv.2
    · obtain ⟨x, hx, y, hy, rfl⟩ := h1
      simp [real_none i1, hr i2, hr i3, hx, hy] at hv ⊢
      exact hv
    · obtain ⟨x, hx, y, hy, rfl⟩ := h1
      simp [real_none i1, hr i2, hr i3, hx, hy] at hv ⊢
      exact hv
  obtain ⟨a1, a2⟩ := hvs _ _ rfl rfl
  obtain ⟨b1, b2⟩ := nibble_of hn h3
  refine ⟨fun x hx => k2.trans (a1 x hx), fun x hx => k3.trans (a2 x hx), fun hk => ?_⟩
  rw [b2] at hk
  rw [b1]
  exact l2 hk

end MaRC.InputMeaning
