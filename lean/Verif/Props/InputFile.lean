import Mathlib.Data.Nat.Digits.Defs
import Mathlib.Data.List.Forall2
import Mathlib.Tactic.Linarith
import Mathlib.Tactic.NormNum
import Verif.Model.Parser
import Verif.Lemmas.DblOrder
import Verif.Lemmas.MapType
import Verif.Props.MapFactory

/-! # Input file properties (C60, C61, C63-C67) -/

namespace MaRC.Parser

open Dbl

/-! ## C60 -/

/-- **C60** (order).  A range with both limits is accepted exactly when the
minimum is less than the maximum, in either order of the clauses; the limits
kept are the ones given.  NaN limits are rejected. -/
theorem C60_order (a b : Dbl) (g : Globals) :
    (dataRange (.minMax a b) g).isSome = a.lt b ∧
    (dataRange (.maxMin b a) g).isSome = a.lt b ∧
    ∀ c ∈ [RangeClause.minMax a b, .maxMin b a], ∀ g', dataRange c g = some g' →
      g'.minimum = some a ∧ g'.maximum = some b := by
  refine ⟨?_, ?_, ?_⟩
  · cases h : a.lt b <;> simp [dataRange, h]
  · cases h : a.lt b <;> simp [dataRange, h]
  · intro c hc g' h
    simp only [List.mem_cons, List.not_mem_nil, or_false] at hc
    rcases hc with rfl | rfl <;>
    · simp only [dataRange] at h
      split_ifs at h
      simp at h
      subst h
      exact ⟨rfl, rfl⟩

example : (dataRange (.minMax (.fin (1 / 2)) (.fin 3)) .start).isSome = true ∧
    (dataRange (.minMax (.fin 3) (.fin 3)) .start).isSome = false := by decide +kernel

/-- **C60** (limits).  For 8, 16 and 32 bit integer maps whole-numbered limits
within the data type's range are kept: every cell holds a datum that lies
between the limits, or the blank value. -/
theorem C60_whole_limits_partial {C : Type} (T : MapType) (hT : T.isIntegral = true)
    (h64 : T ≠ .i64) (plots : ℕ → ℕ → List (C × ℕ)) (read : ReadData C) (lo hi : ℤ)
    (hlo : T.intRange.1 ≤ lo) (hhi : hi ≤ T.intRange.2) (hle : lo < hi)
    (info info' : PlotInfo) (map : List Dbl)
    (hnodup : ((plots info.samples info.lines).map Prod.snd).Nodup)
    (h : MapFactory.makePlane T plots ⟨read, ⟨some (.fin lo), some (.fin hi)⟩⟩ info =
      .ok (map, info')) :
    (∀ c o v, (c, o) ∈ plots info.samples info.lines →
      Stores T (.fin lo) (.fin hi) read c v → map[o]? = some v) ∧
    (∀ o < map.length, (∀ c, (c, o) ∈ plots info.samples info.lines →
        ∀ v, ¬ Stores T (.fin lo) (.fin hi) read c v) →
      map[o]? = some (.fin (info.blank.getD 0))) := by
  obtain ⟨r1, r2⟩ := MapType.intRange_cast T hT
  have l1 : T.lowest ≤ lo := by rw [← r1]; exact_mod_cast hlo
  have l2 : (hi : ℚ) ≤ T.highest := by rw [← r2]; exact_mod_cast hhi
  have lh : (lo : ℚ) < hi := by exact_mod_cast hle
  have hmin : Extrema.validateMinimum T (.fin lo) = .ok (.fin lo) := by
    have : T.minimum (.fin lo) = T.cast (.fin lo) := by
      have e := MapType.toDouble_lowest T
      cases T <;> first
        | (simp [MapType.isIntegral] at hT; done)
        | (simp only [MapType.minimum]; rw [e]; simp [Dbl.lt, not_lt.mpr l1])
    simp only [Extrema.validateMinimum, Dbl.isNaN, this]
    have hr : T.lowest - 1 < ((lo : ℤ) : ℚ) ∧ ((lo : ℤ) : ℚ) < T.highest + 1 :=
      ⟨by linarith, by linarith⟩
    simp [MapType.cast_integral T hT, hr, truncQ_int]
  have hmax : Extrema.validateMaximum T (.fin hi) = .ok (.fin hi) := by
    have : T.maximum (.fin hi) = T.cast (.fin hi) := by
      have e := MapType.toDouble_highest T h64
      cases T <;> first
        | (simp [MapType.isIntegral] at hT; done)
        | (exact absurd rfl h64)
        | (simp only [MapType.maximum]; rw [e]; simp [Dbl.lt, not_lt.mpr l2])
    simp only [Extrema.validateMaximum, Dbl.isNaN, this]
    have hr : T.lowest - 1 < ((hi : ℤ) : ℚ) ∧ ((hi : ℤ) : ℚ) < T.highest + 1 :=
      ⟨by linarith, by linarith⟩
    simp [MapType.cast_integral T hT, hr, truncQ_int]
  have hconv : (Extrema.mk (some (.fin lo)) (some (.fin hi))).convert T =
      .ok ⟨some (.fin lo), some (.fin hi)⟩ := by
    simp [Extrema.convert, hmin, hmax]
  simp only [MapFactory.makePlane, hconv, Outcome.bind_ok] at h
  have hr : IsRange T ⟨some (.fin lo), some (.fin hi)⟩ := by
    have hv : ∀ n : ℤ, T.intRange.1 ≤ n → n ≤ T.intRange.2 → IsValue T (.fin n) := by
      intro n h1 h2
      cases T <;> first
        | exact ⟨n, rfl, h1, h2⟩
        | simp [MapType.isIntegral] at hT
    refine ⟨?_, ?_⟩
    · intro v hv'
      simp at hv'; subst hv'
      exact hv lo hlo (hle.le.trans hhi)
    · intro v hv'
      simp at hv'; subst hv'
      exact hv hi (hlo.trans hle.le) hhi
  have key := MapFactory.C06_cells_each_visited_once T h64 plots read _ hr info info' map hnodup h
  simpa [lowLimit, highLimit, hT] using key

/-- Non-vacuity: limits 1 and 3, data 2, 0.5 and 4 on an 8 bit map with blank
value 99. -/
example : (MapFactory.makePlane .u8
    (fun _ _ => [(.fin 2, 0), (.fin (1 / 2), 1), (.fin 4, 2)])
    ⟨fun c _ => .ok (true, c), ⟨some (.fin 1), some (.fin 3)⟩⟩ (.new 3 1 (some 99))).bind
      (fun r => .ok r.1) = .ok [.fin 2, .fin 99, .fin 99] := by decide +kernel

/-- Disagreement: fractional limits are truncated to the integer type, so data
outside the user's range are stored and data inside it are not: 0.2 with
minimum 0.5 is stored; -3.5 with minimum -3.7 and 9.5 with maximum 9.7 are
not. -/
theorem C60_violated :
    (MapFactory.makePlane .u8 (fun _ _ => [(.fin (1 / 5), 0)])
      ⟨fun c _ => .ok (true, c), ⟨some (.fin (1 / 2)), some (.fin 3)⟩⟩ (.new 1 1 (some 99))).bind
        (fun r => .ok r.1) = .ok [.fin 0] ∧
    (MapFactory.makePlane .i16 (fun _ _ => [(.fin (-7 / 2), 0), (.fin (19 / 2), 1)])
      ⟨fun c _ => .ok (true, c), ⟨some (.fin (-37 / 10)), some (.fin (97 / 10))⟩⟩
        (.new 2 1 (some 99))).bind
        (fun r => .ok r.1) = .ok [.fin 99, .fin 99] := by decide +kernel

/-! ## Histories of input files -/

/-- A file given to the program: a user defaults file, or a file with maps. -/
inductive InputFile where
  | defaults (i : IntervalClause) (r : RangeClause)
  | mapFile (ms : List MapSrc)

/-- The variables after a file was read successfully. -/
inductive Read : InputFile → Globals → Globals → Prop where
  | defaults {i r g g'} (h : userFile i r g = .ok (some g')) : Read (.defaults i r) g g'
  | mapFile {ms g g' cs} (h : maps ms g = .ok (some (g', cs))) : Read (.mapFile ms) g g'

/-- States in which the next file is read: any number of files since the
program started. -/
inductive Reachable : Globals → Prop where
  | start : Reachable .start
  | file {f g g'} : Reachable g → Read f g g' → Reachable g'

/-- The defaults a user can set. -/
def defaults (g : Globals) : (Dbl × Dbl) × (Option Dbl × Option Dbl) :=
  ((g.ppLatInterval, g.ppLonInterval), (g.ppMinimum, g.ppMaximum))

/-- Variables that each projection puts back after use. -/
def clean (g : Globals) : Prop :=
  g.maxLat = .nan ∧ g.northPole = true ∧ g.loLat = .fin (-90) ∧ g.hiLat = .fin 90 ∧
  g.loLon = .fin 0 ∧ g.hiLon = .fin 360 ∧ g.subLat = .fin 0 ∧ g.subLon = .fin 0 ∧
  g.positionAngle = .fin 0 ∧ g.kmPerPixel = .fin (-1) ∧ g.orthoCenter = .default

theorem intervals_ok {i : IntervalClause} {g g' : Globals} (h : intervals i g = .ok g') :
    ∃ a b, g' = { g with latInterval := a, lonInterval := b } := by
  cases i <;> simp only [intervals, latGrid, lonGrid] at h
  · split_ifs at h; simp at h; exact ⟨_, _, h.symm⟩
  · split_ifs at h; simp at h; exact ⟨_, _, h.symm⟩
  · split_ifs at h; simp at h; exact ⟨_, _, h.symm⟩
  · rename_i x y
    by_cases h1 : x.le (.fin 0) = true <;> by_cases h2 : y.le (.fin 0) = true <;>
      simp [h1, h2, Outcome.bind, lonGrid] at h
    exact ⟨_, _, h.symm⟩
  · rename_i x y
    by_cases h1 : x.le (.fin 0) = true <;> by_cases h2 : y.le (.fin 0) = true <;>
      simp [h1, h2, Outcome.bind, latGrid] at h
    exact ⟨_, _, h.symm⟩

theorem dataRange_ok {r : RangeClause} {g g' : Globals} (h : dataRange r g = some g') :
    ∃ a b, g' = { g with minimum := a, maximum := b } := by
  cases r <;> simp only [dataRange] at h
  · simp at h; exact ⟨_, _, h.symm⟩
  · simp at h; exact ⟨_, _, h.symm⟩
  · simp at h; exact ⟨_, _, h.symm⟩
  · split_ifs at h; simp at h; exact ⟨_, _, h.symm⟩
  · split_ifs at h; simp at h; exact ⟨_, _, h.symm⟩

theorem grid_ok {c : GridClause} {g g' : Globals} {d : Bool} (h : grid c g = .ok (g', d)) :
    ∃ a b, g' = { g with latInterval := a, lonInterval := b } := by
  cases c with
  | absent => simp [grid] at h; exact ⟨_, _, h.1.symm⟩
  | no => simp [grid] at h; exact ⟨_, _, h.1.symm⟩
  | yes => simp [grid, gridYes] at h; exact ⟨_, _, h.1.symm⟩
  | yesIntervals i =>
    simp only [grid] at h
    cases hi : intervals i (gridYes g) with
    | ok g1 =>
      rw [hi] at h
      simp at h
      obtain ⟨a, b, e⟩ := intervals_ok hi
      exact ⟨a, b, by rw [← h.1, e]; rfl⟩
    | throw e => rw [hi] at h; simp at h
    | ub => rw [hi] at h; simp at h
  | noIntervals i =>
    simp only [grid] at h
    cases hi : intervals i g with
    | ok g1 =>
      rw [hi] at h
      simp at h
      obtain ⟨a, b, e⟩ := intervals_ok hi
      exact ⟨a, b, by rw [← h.1, e]⟩
    | throw e => rw [hi] at h; simp at h
    | ub => rw [hi] at h; simp at h

/-- What a projection leaves behind. -/
theorem projection_ok {p : ProjSrc} {g g' : Globals} {q : Proj} (hc : clean g)
    (h : projection p g = some (g', q)) :
    ∃ b, g' = { g with graphicLat := b } := by
  obtain ⟨c1, c2, c3, c4, c5, c6, c7, c8, c9, c10, c11⟩ := hc
  cases p with
  | mercator => simp [projection] at h; exact ⟨g.graphicLat, h.1.symm⟩
  | ortho sub pa km c =>
    refine ⟨g.graphicLat, ?_⟩
    obtain ⟨⟩ := g
    simp only [projection, ortho, kmPerPixel] at h
    rcases km with _ | k
    · cases sub <;> cases pa <;> cases c <;> simp at h <;> rw [← h.1] <;> simp_all
    · by_cases hk : k.gt (.fin 0) = true
      · cases sub <;> cases pa <;> cases c <;> simp [hk] at h <;> rw [← h.1] <;> simp_all
      · cases sub <;> cases pa <;> simp [hk] at h
  | polar pole m =>
    refine ⟨g.graphicLat, ?_⟩
    obtain ⟨⟩ := g
    cases pole <;> cases m <;> simp [projection, polarS] at h <;> rw [← h.1] <;> simp_all
  | simple lt lat lon =>
    refine ⟨false, ?_⟩
    obtain ⟨⟩ := g
    cases lt <;> rcases lat with _ | ⟨l1, l2⟩ <;> rcases lon with _ | ⟨m1, m2⟩ <;>
      simp only [projection, simpleC, latRange, lonRange, latType] at h <;>
      (try split_ifs at h) <;> simp at h <;> rw [← h.1] <;> simp_all

theorem plane_ok {p : PlaneSrc} {g g' : Globals} {c : PlaneCmd} (h : plane p g = some (g', c)) :
    ∃ e mn mx b, g' = { g with expectedPlane := e, minimum := mn, maximum := mx, graphicLat := b } ∧
      c.minimum = mn ∧ c.maximum = mx := by
  obtain ⟨number, range, kind⟩ := p
  simp only [plane] at h
  cases hs : planeSize number g with
  | none => rw [hs] at h; simp at h
  | some g1 =>
    rw [hs] at h
    simp only at h
    have e1 : ∃ e, g1 = { g with expectedPlane := e, minimum := g.ppMinimum, maximum := g.ppMaximum } := by
      cases number <;> simp only [planeSize] at hs
      · simp at hs; exact ⟨_, hs.symm⟩
      · split_ifs at hs; simp at hs; exact ⟨_, hs.symm⟩
    obtain ⟨e, rfl⟩ := e1
    generalize hg1 : ({ g with expectedPlane := e, minimum := g.ppMinimum, maximum := g.ppMaximum } : Globals) = g1 at h
    cases hr : dataRange range g1 with
    | none => rw [hr] at h; simp at h
    | some g2 =>
      rw [hr] at h
      simp only [Option.some.injEq] at h
      obtain ⟨a, b, rfl⟩ := dataRange_ok hr
      subst hg1
      rcases kind with ⟨_ | t⟩ | _ <;> simp [planeType, latType] at h <;> obtain ⟨rfl, rfl⟩ := h <;>
        exact ⟨_, _, _, _, rfl, rfl, rfl⟩

theorem planes_ok : ∀ (ps : List PlaneSrc) {g g' : Globals} {cs : List PlaneCmd},
    planes ps g = some (g', cs) →
    ∃ e mn mx b, g' = { g with expectedPlane := e, minimum := mn, maximum := mx, graphicLat := b }
  | [], g, g', cs, h => by
    simp [planes] at h
    exact ⟨_, _, _, _, h.1.symm⟩
  | p :: ps, g, g', cs, h => by
    simp only [planes] at h
    cases hp : plane p g with
    | none => rw [hp] at h; simp at h
    | some r =>
      obtain ⟨g1, c⟩ := r
      rw [hp] at h
      simp only at h
      cases hps : planes ps g1 with
      | none => rw [hps] at h; simp at h
      | some r2 =>
        obtain ⟨g2, cs'⟩ := r2
        rw [hps] at h
        simp at h
        obtain ⟨_, _, _, _, e1, -, -⟩ := plane_ok hp
        obtain ⟨_, _, _, _, e2⟩ := planes_ok ps hps
        rw [← h.1, e2, e1]
        exact ⟨_, _, _, _, rfl⟩

/-- The stages of an accepted map. -/
theorem map_ok {m : MapSrc} {g g' : Globals} {c : MapCmd} (h : map m g = .ok (some (g', c))) :
    ∃ g1 d g2 proj g3 cs, grid m.grid (mapEntry g) = .ok (g1, d) ∧
      projection m.proj (averaging m.averaging g1) = some (g2, proj) ∧
      planesCount m.planesCount g2 = some g3 ∧ planes m.planes g3 = some (g', cs) ∧
      ¬ (0 < g'.numPlanes ∧ cs.length ≠ g'.numPlanes) ∧
      c = ⟨if d then some (g'.latInterval, g'.lonInterval) else none, g'.averaging, proj, cs⟩ := by
  simp only [map] at h
  cases hg : grid m.grid (mapEntry g) with
  | throw e => rw [hg] at h; simp at h
  | ub => rw [hg] at h; simp at h
  | ok r =>
    obtain ⟨g1, d⟩ := r
    rw [hg] at h
    simp only [Outcome.bind_ok, Outcome.ok.injEq, mapRest] at h
    cases hp : projection m.proj (averaging m.averaging g1) with
    | none => rw [hp] at h; simp at h
    | some r =>
      obtain ⟨g2, proj⟩ := r
      rw [hp] at h
      simp only at h
      cases hn : planesCount m.planesCount g2 with
      | none => rw [hn] at h; simp at h
      | some g3 =>
        rw [hn] at h
        simp only at h
        cases hs : planes m.planes g3 with
        | none => rw [hs] at h; simp at h
        | some r =>
          obtain ⟨g4, cs⟩ := r
          rw [hs] at h
          simp only at h
          split_ifs at h with hlen
          · simp only [Option.some.injEq, Prod.mk.injEq] at h
            obtain ⟨rfl, rfl⟩ := h
            exact ⟨g1, d, g2, proj, g3, cs, rfl, hp, hn, hs, hlen, by simp [*]⟩
          · simp only [Option.some.injEq, Prod.mk.injEq] at h
            obtain ⟨rfl, rfl⟩ := h
            exact ⟨g1, d, g2, proj, g3, cs, rfl, hp, hn, hs, hlen, by simp [*]⟩

theorem clean_entry {g : Globals} {m : MapSrc} {g1 : Globals} {d : Bool} (hc : clean g)
    (hg : grid m.grid (mapEntry g) = .ok (g1, d)) : clean (averaging m.averaging g1) := by
  obtain ⟨a, b, rfl⟩ := grid_ok hg
  cases hm : m.averaging <;> simpa [averaging, mapEntry, clean] using hc

theorem planesCount_ok {n : Option ℤ} {g g' : Globals} (h : planesCount n g = some g') :
    ∃ k, g' = { g with numPlanes := k } := by
  cases n <;> simp only [planesCount] at h
  · simp at h; exact ⟨_, h.symm⟩
  · split_ifs at h; simp at h; exact ⟨_, h.symm⟩

/-- A map changes neither the defaults nor the projections' variables. -/
theorem map_keeps {m : MapSrc} {g g' : Globals} {c : MapCmd} (hc : clean g)
    (h : map m g = .ok (some (g', c))) : clean g' ∧ defaults g' = defaults g := by
  obtain ⟨g1, d, g2, proj, g3, cs, hg, hp, hn, hs, -, -⟩ := map_ok h
  have hc1 := clean_entry hc hg
  obtain ⟨b, e2⟩ := projection_ok hc1 hp
  obtain ⟨k, e3⟩ := planesCount_ok hn
  obtain ⟨_, _, _, _, e4⟩ := planes_ok _ hs
  obtain ⟨_, _, e1⟩ := grid_ok hg
  rw [e4, e3, e2]
  refine ⟨hc1, ?_⟩
  rw [e1]
  cases hm : m.averaging <;> simp [averaging, mapEntry, defaults]

theorem maps_cons {m : MapSrc} {ms : List MapSrc} {g g' : Globals} {cs : List MapCmd}
    (h : maps (m :: ms) g = .ok (some (g', cs))) :
    ∃ g1 c cs', map m g = .ok (some (g1, c)) ∧ maps ms g1 = .ok (some (g', cs')) ∧
      cs = c :: cs' := by
  simp only [maps] at h
  cases hm : map m g with
  | throw e => rw [hm] at h; simp [Outcome.bind] at h
  | ub => rw [hm] at h; simp [Outcome.bind] at h
  | ok r =>
    rw [hm] at h
    rcases r with _ | ⟨g1, c⟩
    · simp [Outcome.bind] at h
    · simp only [Outcome.bind] at h
      cases hms : maps ms g1 with
      | throw e => rw [hms] at h; simp at h
      | ub => rw [hms] at h; simp at h
      | ok r =>
        rw [hms] at h
        rcases r with _ | ⟨g2, cs'⟩
        · simp at h
        · simp at h
          exact ⟨g1, c, cs', rfl, by rw [hms, h.1], h.2.symm⟩

theorem maps_keeps : ∀ (ms : List MapSrc) {g g' : Globals} {cs : List MapCmd}, clean g →
    maps ms g = .ok (some (g', cs)) → clean g' ∧ defaults g' = defaults g
  | [], g, g', cs, hc, h => by
    simp [maps] at h
    rw [← h.1]
    exact ⟨hc, rfl⟩
  | m :: ms, g, g', cs, hc, h => by
    obtain ⟨g1, c, cs', hm, hms, -⟩ := maps_cons h
    obtain ⟨hc1, e1⟩ := map_keeps hc hm
    obtain ⟨hc2, e2⟩ := maps_keeps ms hc1 hms
    exact ⟨hc2, e2.trans e1⟩

theorem userFile_ok {i : IntervalClause} {r : RangeClause} {g g' : Globals}
    (h : userFile i r g = .ok (some g')) :
    ∃ g1, intervals i g = .ok g1 ∧ g'.ppLatInterval = g1.latInterval ∧
      g'.ppLonInterval = g1.lonInterval ∧ (clean g → clean g') ∧
      (g.ppMinimum = none → g'.ppMinimum = none) ∧ (g.ppMaximum = none → g'.ppMaximum = none) := by
  simp only [userFile] at h
  cases hi : intervals i g with
  | throw e => rw [hi] at h; simp at h
  | ub => rw [hi] at h; simp at h
  | ok g1 =>
    rw [hi] at h
    simp only [Outcome.bind_ok] at h
    cases hr : dataRange r g1 with
    | none => rw [hr] at h; simp at h
    | some g2 =>
      rw [hr] at h
      simp only [Outcome.ok.injEq, Option.some.injEq] at h
      obtain ⟨a, b, e1⟩ := intervals_ok hi
      obtain ⟨c, d, e2⟩ := dataRange_ok hr
      refine ⟨g1, rfl, ?_, ?_, ?_, ?_, ?_⟩
      · rw [← h, e2]
      · rw [← h, e2]
      · intro hc
        rw [← h, e2, e1]
        exact hc
      · intro hm
        rw [← h, e2, e1]
        cases c <;> simp [hm]
      · intro hm
        rw [← h, e2, e1]
        cases d <;> simp [hm]

theorem reachable_clean {g : Globals} (h : Reachable g) :
    clean g ∧ g.ppMinimum = none ∧ g.ppMaximum = none := by
  induction h with
  | start => exact ⟨by simp [clean, Globals.start], rfl, rfl⟩
  | file hr hf ih =>
    obtain ⟨h1, h2, h3⟩ := ih
    cases hf with
    | defaults h =>
      obtain ⟨g1, -, -, -, h4, h5, h6⟩ := userFile_ok h
      exact ⟨h4 h1, h5 h2, h6 h3⟩
    | mapFile h =>
      obtain ⟨h4, h5⟩ := maps_keeps _ h1 h
      simp only [defaults, Prod.mk.injEq] at h5
      exact ⟨h4, h5.2.1.trans h2, h5.2.2.trans h3⟩

/-! ## C61 -/

/-- The limits a plane's own clause gives. -/
def ownLimits : RangeClause → Option Dbl × Option Dbl
  | .empty => (none, none)
  | .min a => (some a, none)
  | .max b => (none, some b)
  | .minMax a b => (some a, some b)
  | .maxMin b a => (some a, some b)

theorem planes_limits : ∀ (ps : List PlaneSrc) {g g' : Globals} {cs : List PlaneCmd},
    g.ppMinimum = none → g.ppMaximum = none → planes ps g = some (g', cs) →
    cs.map (fun c => (c.minimum, c.maximum)) = ps.map fun p => ownLimits p.range
  | [], g, g', cs, _, _, h => by
    simp [planes] at h
    simp [← h.2]
  | p :: ps, g, g', cs, h1, h2, h => by
    simp only [planes] at h
    cases hp : plane p g with
    | none => rw [hp] at h; simp at h
    | some r =>
      obtain ⟨g1, c⟩ := r
      rw [hp] at h
      simp only at h
      cases hps : planes ps g1 with
      | none => rw [hps] at h; simp at h
      | some r2 =>
        obtain ⟨g2, cs'⟩ := r2
        rw [hps] at h
        simp at h
        obtain ⟨_, _, _, _, e1, -, -⟩ := plane_ok hp
        have ih := planes_limits ps (by rw [e1]; exact h1) (by rw [e1]; exact h2) hps
        rw [← h.2]
        simp only [List.map_cons, List.cons.injEq]
        refine ⟨?_, ih⟩
        clear h ih hps e1
        obtain ⟨number, range, kind⟩ := p
        simp only [plane] at hp
        have hs : ∀ g3, planeSize number g = some g3 → g3.minimum = none ∧ g3.maximum = none := by
          intro g3 hs
          cases number <;> simp only [planeSize] at hs
          · simp at hs; rw [← hs]; exact ⟨h1, h2⟩
          · split_ifs at hs; simp at hs; rw [← hs]; exact ⟨h1, h2⟩
        cases hsz : planeSize number g with
        | none => rw [hsz] at hp; simp at hp
        | some g3 =>
          obtain ⟨a1, a2⟩ := hs g3 hsz
          rw [hsz] at hp
          simp only at hp
          have : ∀ g4, dataRange range g3 = some g4 → (g4.minimum, g4.maximum) = ownLimits range := by
            intro g4 hr
            cases range <;> simp only [dataRange] at hr
            · simp at hr; rw [← hr]; simp [ownLimits, a1, a2]
            · simp at hr; rw [← hr]; simp [ownLimits, a2]
            · simp at hr; rw [← hr]; simp [ownLimits, a1]
            · split_ifs at hr; simp at hr; rw [← hr]; simp [ownLimits]
            · split_ifs at hr; simp at hr; rw [← hr]; simp [ownLimits]
          cases hr : dataRange range g3 with
          | none => rw [hr] at hp; simp at hp
          | some g4 =>
            have hl := this g4 hr
            rw [hr] at hp
            simp only [Option.some.injEq] at hp
            rw [← hl]
            rcases kind with ⟨_ | t⟩ | _ <;> simp [planeType, latType] at hp <;> simp [← hp.2]

/-- **C61**, what the code does instead.  After any history of defaults files
and map files, each plane of a map file is plotted with the limits of its own
clause and with no others.  So a plane that gives both limits gets exactly
those, no limit leaks from one plane to another - and user defaults never
apply. -/
theorem C61_own_limits_partial {g g' : Globals} (h : Reachable g) (ms : List MapSrc)
    (cs : List MapCmd) (hm : maps ms g = .ok (some (g', cs))) :
    cs.map (fun c => c.planes.map fun p => (p.minimum, p.maximum)) =
      ms.map fun m => m.planes.map fun p => ownLimits p.range := by
  obtain ⟨hc, h1, h2⟩ := reachable_clean h
  clear h
  induction ms generalizing g cs with
  | nil => simp [maps] at hm; simp [← hm.2]
  | cons m ms ih =>
    obtain ⟨g1, c, cs', hmap, hms, rfl⟩ := maps_cons hm
    obtain ⟨hc1, hd⟩ := map_keeps hc hmap
    simp only [defaults, Prod.mk.injEq] at hd
    simp only [List.map_cons, List.cons.injEq]
    refine ⟨?_, ih cs' hms hc1 (hd.2.1.trans h1) (hd.2.2.trans h2)⟩
    obtain ⟨ga, d, gb, proj, gc, ps, hg, hp, hn, hs, -, rfl⟩ := map_ok hmap
    obtain ⟨b, e2⟩ := projection_ok (clean_entry hc hg) hp
    obtain ⟨k, e3⟩ := planesCount_ok hn
    obtain ⟨_, _, e1⟩ := grid_ok hg
    refine planes_limits _ ?_ ?_ hs <;> rw [e3, e2, e1] <;>
      cases m.averaging <;> simpa [averaging, mapEntry]

/-- A one plane map without any options. -/
def plainMap : MapSrc :=
  ⟨.absent, none, .mercator, none, [⟨none, .empty, .other⟩]⟩

/-- Disagreement with C61: a defaults file sets a data range of 1 to 2; the
next map's plane, which gives no range, is plotted without limits. -/
theorem C61_violated :
    ∃ g, Read (.defaults (.both (.fin 10)) (.minMax (.fin 1) (.fin 2))) .start g ∧
      ∃ g' c, maps [plainMap] g = .ok (some (g', [c])) ∧
        c.planes.map (fun p => (p.minimum, p.maximum)) = [(none, none)] := by
  refine ⟨{ Globals.start with
    latInterval := .fin 10, lonInterval := .fin 10, minimum := some (.fin 1),
    maximum := some (.fin 2) }, .defaults (by decide +kernel), ?_⟩
  refine ⟨{ Globals.start with
    latInterval := .fin 10, lonInterval := .fin 10, averaging := .weighted }, _, rfl, ?_⟩
  rfl

/-! ## C64 -/

/-- All latitude types are written out. -/
def MapSrc.explicit (m : MapSrc) : Prop :=
  (∀ lat lon, m.proj ≠ .simple none lat lon) ∧ ∀ p ∈ m.planes, p.kind ≠ .latitude none

/-- The state of a program that has the same defaults but has read no map. -/
def fresh (g : Globals) : Globals :=
  { Globals.start with
    ppLatInterval := g.ppLatInterval, ppLonInterval := g.ppLonInterval
    ppMinimum := g.ppMinimum, ppMaximum := g.ppMaximum }

/-- Forget what earlier maps may have left in the variables. -/
def erase (d : Bool) (g : Globals) : Globals :=
  { g with
    minimum := none, maximum := none, graphicLat := false
    latInterval := if d then g.latInterval else .fin 0
    lonInterval := if d then g.lonInterval else .fin 0 }

theorem erase_projection (d : Bool) (p : ProjSrc) (hp : ∀ lat lon, p ≠ .simple none lat lon)
    (g : Globals) :
    (projection p g).map (Prod.map (erase d) id) =
      (projection p (erase d g)).map (Prod.map (erase d) id) := by
  cases p with
  | mercator => cases d <;> simp [projection, erase]
  | ortho sub pa km c =>
    rcases sub with _ | ⟨s1, s2⟩ <;> cases pa <;> rcases km with _ | k <;> cases c <;>
      simp only [projection, ortho, kmPerPixel] <;>
      first
        | (cases d <;> simp [erase]; done)
        | (cases hk : k.gt (.fin 0) <;> cases d <;> simp [erase])
  | polar pole m =>
    cases pole <;> cases m <;> cases d <;> simp [projection, polarS, erase]
  | simple lt lat lon =>
    cases lt with
    | none => exact absurd rfl (hp lat lon)
    | some t =>
      rcases lat with _ | ⟨l1, l2⟩ <;> rcases lon with _ | ⟨m1, m2⟩ <;>
        simp only [projection, simpleC, latRange, lonRange, latType] <;>
        first
          | (cases d <;> simp [erase]; done)
          | (cases hk : l1.lt l2 <;> cases d <;> simp [erase])

theorem erase_planesCount (d : Bool) (n : Option ℤ) (g : Globals) :
    (planesCount n g).map (erase d) = (planesCount n (erase d g)).map (erase d) := by
  cases n with
  | none => cases d <;> simp [planesCount, erase]
  | some n =>
    simp only [planesCount]
    split_ifs <;> cases d <;> simp [erase]

theorem erase_plane (d : Bool) (p : PlaneSrc) (hp : p.kind ≠ .latitude none) (g : Globals) :
    (plane p g).map (Prod.map (erase d) id) = (plane p (erase d g)).map (Prod.map (erase d) id) := by
  obtain ⟨number, range, kind⟩ := p
  have key : ∀ g : Globals, ∀ r, planeSize number g = r →
      planeSize number (erase d g) = r.map fun h => { h with
        graphicLat := false
        latInterval := if d then h.latInterval else .fin 0
        lonInterval := if d then h.lonInterval else .fin 0 } := by
    intro g r hr
    subst hr
    cases number with
    | none => cases d <;> simp [planeSize, erase]
    | some n =>
      by_cases h0 : g.numPlanes = 0
      · simp [planeSize, erase, h0]
      · by_cases h1 : toSize n = g.expectedPlane
        · by_cases h2 : g.expectedPlane ≤ g.numPlanes <;> simp [planeSize, erase, h0, h1, h2]
        · simp [planeSize, erase, h0, h1]
  simp only [plane]
  rw [key g _ rfl]
  cases hs : planeSize number g with
  | none => simp
  | some g1 =>
    simp only [Option.map_some]
    have hr : dataRange range { g1 with
        graphicLat := false
        latInterval := if d then g1.latInterval else .fin 0
        lonInterval := if d then g1.lonInterval else .fin 0 } =
        (dataRange range g1).map fun h => { h with
          graphicLat := false
          latInterval := if d then h.latInterval else .fin 0
          lonInterval := if d then h.lonInterval else .fin 0 } := by
      cases range <;> simp only [dataRange] <;> (try split_ifs) <;> simp
    rw [hr]
    cases hr2 : dataRange range g1 with
    | none => simp
    | some g2 =>
      rcases kind with ⟨_ | t⟩ | _
      · exact absurd rfl hp
      · cases d <;> simp [planeType, latType, erase]
      · cases d <;> simp [planeType, erase]

theorem erase_planes (d : Bool) : ∀ (ps : List PlaneSrc), (∀ p ∈ ps, p.kind ≠ .latitude none) →
    ∀ g h : Globals, erase d g = erase d h →
    (planes ps g).map (Prod.map (erase d) id) = (planes ps h).map (Prod.map (erase d) id)
  | [], _, g, h, e => by simp [planes, e]
  | p :: ps, hp, g, h, e => by
    have h1 : (plane p g).map (Prod.map (erase d) id) = (plane p h).map (Prod.map (erase d) id) := by
      rw [erase_plane d p (hp p (by simp)) g, e, ← erase_plane d p (hp p (by simp)) h]
    simp only [planes]
    cases hg : plane p g with
    | none =>
      cases hh : plane p h with
      | none => rfl
      | some r => rw [hg, hh] at h1; simp at h1
    | some r =>
      cases hh : plane p h with
      | none => rw [hg, hh] at h1; simp at h1
      | some r' =>
        obtain ⟨g1, c⟩ := r
        obtain ⟨h1', c'⟩ := r'
        rw [hg, hh] at h1
        simp at h1
        obtain ⟨e1, rfl⟩ := h1
        have ih := erase_planes d ps (fun q hq => hp q (by simp [hq])) g1 h1' e1
        simp only
        cases hg2 : planes ps g1 with
        | none =>
          cases hh2 : planes ps h1' with
          | none => rfl
          | some r => rw [hg2, hh2] at ih; simp at ih
        | some r =>
          cases hh2 : planes ps h1' with
          | none => rw [hg2, hh2] at ih; simp at ih
          | some r' =>
            obtain ⟨ga, ca⟩ := r
            obtain ⟨gb, cb⟩ := r'
            rw [hg2, hh2] at ih
            simp only [Option.map_some, Prod.map, id, Option.some.injEq, Prod.mk.injEq] at ih ⊢
            exact ⟨ih.1, by rw [ih.2]⟩

theorem grid_isolated (c : GridClause) {g g1 : Globals} {d : Bool} (hc : clean g)
    (h : grid c (mapEntry g) = .ok (g1, d)) :
    ∃ h1, grid c (mapEntry (fresh g)) = .ok (h1, d) ∧ erase d g1 = erase d h1 := by
  obtain ⟨⟩ := g
  obtain ⟨c1, c2, c3, c4, c5, c6, c7, c8, c9, c10, c11⟩ := hc
  simp only at c1 c2 c3 c4 c5 c6 c7 c8 c9 c10 c11
  subst c1 c2 c3 c4 c5 c6 c7 c8 c9 c10 c11
  cases c with
  | absent =>
    simp only [grid, Outcome.ok.injEq, Prod.mk.injEq] at h
    obtain ⟨rfl, rfl⟩ := h
    exact ⟨_, rfl, rfl⟩
  | no =>
    simp only [grid, Outcome.ok.injEq, Prod.mk.injEq] at h
    obtain ⟨rfl, rfl⟩ := h
    exact ⟨_, rfl, rfl⟩
  | yes =>
    simp only [grid, Outcome.ok.injEq, Prod.mk.injEq] at h
    obtain ⟨rfl, rfl⟩ := h
    exact ⟨_, rfl, rfl⟩
  | yesIntervals i =>
    cases i with
    | both x | lat x | lon x =>
      cases hx : x.le (.fin 0) <;>
        simp [grid, intervals, latGrid, lonGrid, hx] at h
      obtain ⟨rfl, rfl⟩ := h
      simp [grid, intervals, latGrid, lonGrid, hx]
      rfl
    | latLon x y | lonLat x y =>
      cases hx : x.le (.fin 0) <;> cases hy : y.le (.fin 0) <;>
        simp [grid, intervals, latGrid, lonGrid, hx, hy, Outcome.bind] at h
      obtain ⟨rfl, rfl⟩ := h
      simp [grid, intervals, latGrid, lonGrid, hx, hy, Outcome.bind]
      rfl
  | noIntervals i =>
    cases i with
    | both x | lat x | lon x =>
      cases hx : x.le (.fin 0) <;>
        simp [grid, intervals, latGrid, lonGrid, hx] at h
      obtain ⟨rfl, rfl⟩ := h
      simp [grid, intervals, latGrid, lonGrid, hx]
      rfl
    | latLon x y | lonLat x y =>
      cases hx : x.le (.fin 0) <;> cases hy : y.le (.fin 0) <;>
        simp [grid, intervals, latGrid, lonGrid, hx, hy, Outcome.bind] at h
      obtain ⟨rfl, rfl⟩ := h
      simp [grid, intervals, latGrid, lonGrid, hx, hy, Outcome.bind]
      rfl

theorem some_of_map {α β : Type} {f : α → β} {x y : Option α} (h : x.map f = y.map f) {a : α}
    (hx : x = some a) : ∃ b, y = some b ∧ f a = f b := by
  cases y with
  | none => rw [hx] at h; simp at h
  | some b => rw [hx] at h; simp at h; exact ⟨b, rfl, h⟩

/-- A map whose latitude types are written out becomes the same command
whatever was left in the variables. -/
theorem map_isolated {m : MapSrc} (he : m.explicit) {g g' : Globals} {c : MapCmd} (hc : clean g)
    (h : map m g = .ok (some (g', c))) : ∃ g'', map m (fresh g) = .ok (some (g'', c)) := by
  obtain ⟨g1, d, g2, proj, g3, cs, hg, hp, hn, hs, hlen, rfl⟩ := map_ok h
  obtain ⟨h1, eg, e1⟩ := grid_isolated m.grid hc hg
  have e1' : erase d (averaging m.averaging g1) = erase d (averaging m.averaging h1) := by
    cases m.averaging with
    | none => exact e1
    | some a =>
      have : ∀ x : Globals, erase d { x with averaging := a } =
          { erase d x with averaging := a } := fun _ => rfl
      simp only [averaging, this, e1]
  obtain ⟨⟨h2, proj'⟩, ep, e2⟩ := some_of_map
    ((erase_projection d m.proj he.1 _).trans
      ((congrArg (fun x => (projection m.proj x).map (Prod.map (erase d) id)) e1').trans
        (erase_projection d m.proj he.1 _).symm)) hp
  simp only [Prod.map, Prod.mk.injEq, id] at e2
  obtain ⟨e2, rfl⟩ := e2
  obtain ⟨h3, en, e3⟩ := some_of_map
    ((erase_planesCount d m.planesCount _).trans
      ((congrArg (fun x => (planesCount m.planesCount x).map (erase d)) e2).trans
        (erase_planesCount d m.planesCount _).symm)) hn
  obtain ⟨⟨h4, cs'⟩, es, e4⟩ := some_of_map (erase_planes d m.planes he.2 g3 h3 e3) hs
  simp only [Prod.map, Prod.mk.injEq, id] at e4
  obtain ⟨e4, rfl⟩ := e4
  have n4 := congrArg Globals.numPlanes e4
  have a4 := congrArg Globals.averaging e4
  simp only [erase] at n4 a4
  have l4 := congrArg Globals.latInterval e4
  have m4 := congrArg Globals.lonInterval e4
  simp only [erase] at l4 m4
  refine ⟨h4, ?_⟩
  simp only [map, eg, Outcome.bind_ok, mapRest, ep, en, es]
  rw [n4] at hlen
  rw [if_neg hlen, a4]
  cases d <;> simp_all

/-- **C64**, for files in which every latitude type is written out.  The
command made from a map is the one the map would become as the first map read
with the same user defaults: nothing leaks from earlier maps or planes. -/
theorem C64_explicit_partial {g g' : Globals} (h : Reachable g) (ms : List MapSrc)
    (he : ∀ m ∈ ms, m.explicit) (cs : List MapCmd) (hm : maps ms g = .ok (some (g', cs))) :
    List.Forall₂ (fun m c => ∃ g'', map m (fresh g) = .ok (some (g'', c))) ms cs := by
  obtain ⟨hc, -, -⟩ := reachable_clean h
  clear h
  have key : ∀ (ms : List MapSrc) (g0 g g' : Globals) (cs : List MapCmd),
      (∀ m ∈ ms, m.explicit) → clean g → defaults g = defaults g0 →
      maps ms g = .ok (some (g', cs)) →
      List.Forall₂ (fun m c => ∃ g'', map m (fresh g0) = .ok (some (g'', c))) ms cs := by
    intro ms
    induction ms with
    | nil => intro g0 g g' cs _ _ _ h; simp [maps] at h; simp [← h.2]
    | cons m ms ih =>
      intro g0 g g' cs he hc hd h
      obtain ⟨g1, c, cs', hmap, hms, rfl⟩ := maps_cons h
      obtain ⟨hc1, hd1⟩ := map_keeps hc hmap
      have hf : fresh g = fresh g0 := by
        simp only [defaults, Prod.mk.injEq] at hd
        obtain ⟨⟨a, b⟩, c, d⟩ := hd
        simp [fresh, a, b, c, d]
      refine .cons ?_ (ih g0 g1 g' cs' (fun m hm => he m (by simp [hm])) hc1 (hd1.trans hd) hms)
      rw [← hf]
      exact map_isolated (he m (by simp)) hc hmap
  exact key ms g g g' cs he hc rfl hm

/-- Two latitude planes, the first with planetographic latitudes. -/
def latMap (t : Option Bool) : MapSrc :=
  ⟨.absent, none, .mercator, none, [⟨none, .empty, .latitude t⟩]⟩

/-- Non-vacuity: an explicit map after another one. -/
example : (latMap (some true)).explicit ∧
    ∃ g' cs, maps [latMap (some true), latMap (some false)] .start = .ok (some (g', cs)) := by
  refine ⟨⟨by simp [latMap], by simp [latMap]⟩, _, _, rfl⟩

/-- Disagreement with C64: a latitude plane that does not say which latitudes
it shows has planetocentric ones in a file of its own, but planetographic ones
after a map (or plane) that asked for those. -/
theorem C64_violated :
    (∃ g c, maps [latMap none] .start = .ok (some (g, [c])) ∧
      c.planes.map PlaneCmd.graphic = [some false]) ∧
    (∃ g c d, maps [latMap (some true), latMap none] .start = .ok (some (g, [c, d])) ∧
      d.planes.map PlaneCmd.graphic = [some true]) :=
  ⟨⟨_, _, rfl, rfl⟩, ⟨_, _, _, rfl, rfl⟩⟩

/-- The same leak reaches the latitude type of a later simple cylindrical
map. -/
theorem C64_projection_violated :
    ∃ g c d, maps [latMap (some true),
        ⟨.absent, none, .simple none none none, none, [⟨none, .empty, .other⟩]⟩] .start =
      .ok (some (g, [c, d])) ∧
      d.proj = .simple (.fin (-90)) (.fin 90) (.fin 0) (.fin 360) true :=
  ⟨_, _, _, rfl, rfl⟩

/-! ## C65 -/

/-- Grid intervals (latitude, longitude) a clause asks for, starting from the
ones in effect. -/
def IntervalClause.apply (c : IntervalClause) (d : Dbl × Dbl) : Dbl × Dbl :=
  match c with
  | .both x => (x, x)
  | .lat x => (x, d.2)
  | .lon x => (d.1, x)
  | .latLon x y => (x, y)
  | .lonLat x y => (y, x)

/-- The grid a map asks for, given the default intervals. -/
def GridClause.wanted (c : GridClause) (d : Dbl × Dbl) : Option (Dbl × Dbl) :=
  match c with
  | .absent | .no | .noIntervals _ => none
  | .yes => some d
  | .yesIntervals i => some (i.apply d)

theorem intervals_apply {i : IntervalClause} {g g' : Globals} (h : intervals i g = .ok g') :
    (g'.latInterval, g'.lonInterval) = i.apply (g.latInterval, g.lonInterval) := by
  cases i with
  | both x | lat x | lon x =>
    cases hx : x.le (.fin 0) <;> simp [intervals, latGrid, lonGrid, hx] at h
    simp [← h, IntervalClause.apply]
  | latLon x y | lonLat x y =>
    cases hx : x.le (.fin 0) <;> cases hy : y.le (.fin 0) <;>
      simp [intervals, latGrid, lonGrid, hx, hy, Outcome.bind] at h
    simp [← h, IntervalClause.apply]

theorem grid_wanted {c : GridClause} {g g' : Globals} {d : Bool} (h : grid c g = .ok (g', d)) :
    (if d then some (g'.latInterval, g'.lonInterval) else none) =
      c.wanted (g.ppLatInterval, g.ppLonInterval) := by
  cases c with
  | absent | no | yes =>
    simp only [grid, Outcome.ok.injEq, Prod.mk.injEq] at h
    obtain ⟨rfl, rfl⟩ := h
    rfl
  | yesIntervals i =>
    simp only [grid] at h
    cases hi : intervals i (gridYes g) with
    | throw e => rw [hi] at h; simp at h
    | ub => rw [hi] at h; simp at h
    | ok g1 =>
      rw [hi] at h
      simp only [Outcome.bind_ok, Outcome.ok.injEq, Prod.mk.injEq] at h
      obtain ⟨rfl, rfl⟩ := h
      simp [GridClause.wanted, intervals_apply hi, gridYes]
  | noIntervals i =>
    simp only [grid] at h
    cases hi : intervals i g with
    | throw e => rw [hi] at h; simp at h
    | ub => rw [hi] at h; simp at h
    | ok g1 =>
      rw [hi] at h
      simp only [Outcome.bind_ok, Outcome.ok.injEq, Prod.mk.injEq] at h
      obtain ⟨rfl, rfl⟩ := h
      simp [GridClause.wanted]

/-- **C65** (use).  After any history, each map of a file is drawn with
exactly the grid it asks for: none, the user's default intervals, or its own
intervals in place of those. -/
theorem C65_grids {g g' : Globals} (h : Reachable g) (ms : List MapSrc)
    (cs : List MapCmd) (hm : maps ms g = .ok (some (g', cs))) :
    cs.map MapCmd.grid = ms.map fun m => m.grid.wanted (g.ppLatInterval, g.ppLonInterval) := by
  obtain ⟨hc, -, -⟩ := reachable_clean h
  clear h
  induction ms generalizing g cs with
  | nil => simp [maps] at hm; simp [← hm.2]
  | cons m ms ih =>
    obtain ⟨g1, c, cs', hmap, hms, rfl⟩ := maps_cons hm
    obtain ⟨hc1, hd⟩ := map_keeps hc hmap
    simp only [defaults, Prod.mk.injEq] at hd
    simp only [List.map_cons, List.cons.injEq]
    refine ⟨?_, ?_⟩
    · obtain ⟨ga, d, gb, proj, gc, ps, hg, hp, hn, hs, -, rfl⟩ := map_ok hmap
      obtain ⟨b, e2⟩ := projection_ok (clean_entry hc hg) hp
      obtain ⟨k, e3⟩ := planesCount_ok hn
      obtain ⟨_, _, _, _, e4⟩ := planes_ok _ hs
      have hw := grid_wanted hg
      have e5 : g1.latInterval = ga.latInterval ∧ g1.lonInterval = ga.lonInterval := by
        rw [e4, e3, e2]; cases m.averaging <;> exact ⟨rfl, rfl⟩
      simp only [e5]
      exact hw
    · rw [ih cs' hms hc1, hd.1.1, hd.1.2]

/-- **C65** (set).  A defaults file that gives both intervals makes them the
defaults. -/
theorem C65_both_partial {i : IntervalClause} {r : RangeClause} {g g' : Globals}
    (hi : ∀ x, i ≠ .lat x ∧ i ≠ .lon x) (h : userFile i r g = .ok (some g')) (d : Dbl × Dbl) :
    (g'.ppLatInterval, g'.ppLonInterval) = i.apply d := by
  obtain ⟨g1, h1, h2, h3, -⟩ := userFile_ok h
  rw [h2, h3, intervals_apply h1]
  cases i with
  | lat x => exact absurd rfl (hi x).1
  | lon x => exact absurd rfl (hi x).2
  | both x | latLon x y | lonLat x y => rfl

/-- Disagreement with C65: a defaults file that gives one interval does not
leave the other at its default of 10 degrees: it becomes zero when nothing was
read before, since the variable it is taken from starts at zero. -/
theorem C65_violated (x : Dbl) (hx : x.le (.fin 0) = false) :
    (∃ g, userFile (.lon x) .empty .start = .ok (some g) ∧
      (g.ppLatInterval, g.ppLonInterval) = (.fin 0, x)) ∧
    (∃ g, userFile (.lat x) .empty .start = .ok (some g) ∧
      (g.ppLatInterval, g.ppLonInterval) = (x, .fin 0)) ∧
    (Globals.start.ppLatInterval, Globals.start.ppLonInterval) = (.fin 10, .fin 10) := by
  refine ⟨?_, ?_, rfl⟩ <;>
    simp [userFile, intervals, latGrid, lonGrid, hx, dataRange, Globals.start]

/-- Non-vacuity. -/
example : (Dbl.fin 5).le (.fin 0) = false ∧
    (∃ g, userFile (.latLon (.fin 5) (.fin 15)) .empty .start = .ok (some g) ∧
      (g.ppLatInterval, g.ppLonInterval) = (.fin 5, .fin 15)) :=
  ⟨by decide +kernel, _, rfl, rfl⟩

/-! ## C66 -/

theorem planes_numbers : ∀ (ps : List PlaneSrc) {g g' : Globals} {cs : List PlaneCmd},
    g.numPlanes < 2 ^ 64 - 1 → planes ps g = some (g', cs) →
    ∃ k, (ps.filterMap PlaneSrc.number).map toSize = List.range' g.expectedPlane k ∧
      cs.length = ps.length ∧ (0 < k → g.expectedPlane + k ≤ g.numPlanes + 1) := by
  intro ps
  induction ps with
  | nil => intro g g' cs _ h; simp [planes] at h; exact ⟨0, by simp [← h.2]⟩
  | cons p ps ih =>
    intro g g' cs hb h
    simp only [planes] at h
    cases hp : plane p g with
    | none => rw [hp] at h; simp at h
    | some r =>
      obtain ⟨g1, c⟩ := r
      rw [hp] at h
      simp only at h
      cases hps : planes ps g1 with
      | none => rw [hps] at h; simp at h
      | some r2 =>
        obtain ⟨g2, cs'⟩ := r2
        rw [hps] at h
        simp at h
        have e1 : g1.numPlanes = g.numPlanes := by
          obtain ⟨_, _, _, _, e1, -, -⟩ := plane_ok hp; rw [e1]
        obtain ⟨k, hk1, hk2, hk3⟩ := ih (by omega) hps
        have hexp : match p.number with
            | none => g1.expectedPlane = g.expectedPlane
            | some n => toSize n = g.expectedPlane ∧ g.expectedPlane ≤ g.numPlanes ∧
                g1.expectedPlane = g.expectedPlane + 1 := by
          obtain ⟨number, range, kind⟩ := p
          simp only [plane] at hp
          have tail : ∀ ga, planeSize number g = some ga → g1.expectedPlane = ga.expectedPlane := by
            intro ga hga
            rw [hga] at hp
            simp only at hp
            cases hr : dataRange range ga with
            | none => rw [hr] at hp; simp at hp
            | some gb =>
              obtain ⟨a, b, rfl⟩ := dataRange_ok hr
              rw [hr] at hp
              simp only [Option.some.injEq] at hp
              rcases kind with ⟨_ | t⟩ | _ <;> simp [planeType, latType] at hp <;> simp [← hp.1]
          cases number with
          | none =>
            simp only
            rw [tail _ rfl]
          | some n =>
            simp only
            cases hs : planeSize (some n) g with
            | none => rw [hs] at hp; simp at hp
            | some ga =>
              have := tail ga hs
              simp only [planeSize] at hs
              split_ifs at hs with a1 a2 a3
              simp only [Option.some.injEq] at hs
              refine ⟨a2, by omega, ?_⟩
              rw [this, ← hs]
              simp only [szAdd, szMod]
              rw [Nat.mod_eq_of_lt]
              omega
        cases hn : p.number with
        | none =>
          rw [hn] at hexp
          simp only at hexp
          refine ⟨k, ?_, by simp [← h.2, hk2], ?_⟩
          · rw [List.filterMap_cons_none hn, hk1, hexp]
          · rw [← hexp, ← e1]; exact hk3
        | some n =>
          rw [hn] at hexp
          simp only at hexp
          obtain ⟨a1, a2, a3⟩ := hexp
          refine ⟨k + 1, ?_, by simp [← h.2, hk2], ?_⟩
          · rw [List.filterMap_cons_some hn, List.map_cons, hk1, a1, a3, List.range'_succ]
          · intro _
            by_cases h0 : 0 < k
            · have := hk3 h0; omega
            · omega

/-- The planes of an accepted map are numbered properly: those that carry a
number are numbered 1, 2, 3, ... in the order in which they appear, no number
exceeds the number of planes given, and that number is the number of planes
present.  A map that does not give the number of planes has no numbered
plane. -/
def MapSrc.Numbered (m : MapSrc) : Prop :=
  ∃ k : ℕ, m.planes.filterMap PlaneSrc.number = (List.range' 1 k).map Int.ofNat ∧
    match m.planesCount with
    | none => k = 0
    | some n => (k : ℤ) ≤ n ∧ n = m.planes.length

/-- Integers of the input file fit 64 bits. -/
def MapSrc.Fits (m : MapSrc) : Prop :=
  (∀ n, m.planesCount = some n → n < 2 ^ 63) ∧
  ∀ p ∈ m.planes, ∀ n, p.number = some n → -(2 ^ 63) ≤ n ∧ n < 2 ^ 63

theorem map_numbered {m : MapSrc} {g g' : Globals} {c : MapCmd} (hm : clean g)
    (hf : m.Fits) (h : map m g = .ok (some (g', c))) :
    c.planes.length = m.planes.length ∧ m.Numbered := by
  obtain ⟨hc, hr⟩ := hf
  obtain ⟨ga, d, gb, proj, gc, ps, hg, hp, hn, hs, hlen, rfl⟩ := map_ok h
  obtain ⟨b, e2⟩ := projection_ok (clean_entry hm hg) hp
  obtain ⟨_, _, e1⟩ := grid_ok hg
  have hent : gb.numPlanes = 0 ∧ gb.expectedPlane = 1 := by
    rw [e2, e1]; cases m.averaging <;> exact ⟨rfl, rfl⟩
  have hcnt : gc.expectedPlane = 1 ∧ (match m.planesCount with
      | none => gc.numPlanes = 0
      | some n => 0 < n ∧ gc.numPlanes = n.toNat) ∧ gc.numPlanes < 2 ^ 63 := by
    cases hpc : m.planesCount with
    | none =>
      rw [hpc] at hn
      simp [planesCount] at hn
      rw [← hn]
      exact ⟨hent.2, hent.1, by rw [hent.1]; norm_num⟩
    | some n =>
      rw [hpc] at hn
      simp only [planesCount] at hn
      have := hc n hpc
      split_ifs at hn with h0
      simp only [Option.some.injEq] at hn
      have e : toSize n = n.toNat := by
        rw [toSize, Int.emod_eq_of_lt] <;> omega
      rw [← hn]
      refine ⟨hent.2, ⟨h0, e⟩, ?_⟩
      simp only [e]
      omega
  obtain ⟨x1, x2, x3⟩ := hcnt
  obtain ⟨k, hk1, hk2, hk3⟩ := planes_numbers m.planes (by omega) hs
  have hnum : g'.numPlanes = gc.numPlanes := by
    obtain ⟨_, _, _, _, e4⟩ := planes_ok _ hs
    rw [e4]
  rw [x1] at hk1 hk3
  refine ⟨hk2, k, ?_, ?_⟩
  · have hk : k < 2 ^ 63 + 1 := by
      by_cases h0 : 0 < k
      · have := hk3 h0; omega
      · omega
    have hall : ∀ n ∈ m.planes.filterMap PlaneSrc.number, -(2 ^ 63) ≤ n ∧ n < 2 ^ 63 := by
      intro n hn'
      obtain ⟨p, hp1, hp2⟩ := List.mem_filterMap.mp hn'
      exact hr p hp1 n hp2
    have hlt : ∀ n ∈ m.planes.filterMap PlaneSrc.number, toSize n < 2 ^ 63 ∧ (n = (toSize n : ℤ)) := by
      intro n hn'
      have hmem : toSize n ∈ List.range' 1 k := by
        rw [← hk1]; exact List.mem_map_of_mem hn'
      rw [List.mem_range'_1] at hmem
      obtain ⟨y1, y2⟩ := hall n hn'
      have hbound : toSize n < 2 ^ 63 := by
        have h0 : 0 < k := by omega
        have := hk3 h0
        omega
      refine ⟨hbound, ?_⟩
      simp only [toSize] at hbound ⊢
      by_cases hneg : n < 0
      · have : n % 2 ^ 64 = n + 2 ^ 64 := by
          rw [← Int.add_emod_right, Int.emod_eq_of_lt] <;> omega
        rw [this] at hbound
        omega
      · rw [Int.emod_eq_of_lt] <;> omega
    rw [← hk1, List.map_map]
    symm
    conv_rhs => rw [← List.map_id (m.planes.filterMap PlaneSrc.number)]
    apply List.map_congr_left
    intro n hn'
    have := (hlt n hn').2
    simp only [Function.comp, id]
    exact this.symm
  · cases hpc : m.planesCount with
    | none =>
      rw [hpc] at x2
      simp only at x2 ⊢
      by_contra h0
      have := hk3 (by omega)
      omega
    | some n =>
      rw [hpc] at x2
      simp only at x2 ⊢
      obtain ⟨y1, y2⟩ := x2
      have : ps.length = gc.numPlanes := by
        by_contra hne
        exact hlen ⟨by rw [hnum]; omega, by rw [hnum]; exact hne⟩
      refine ⟨?_, by omega⟩
      by_cases h0 : 0 < k
      · have := hk3 h0; omega
      · omega

/-- **C66**.  After any history, each map of an accepted file has properly
numbered planes, and its command has one plane for each. -/
theorem C66_numbers {g g' : Globals} (h : Reachable g) (ms : List MapSrc)
    (hf : ∀ m ∈ ms, m.Fits) (cs : List MapCmd) (hm : maps ms g = .ok (some (g', cs))) :
    List.Forall₂ (fun m c => c.planes.length = m.planes.length ∧ m.Numbered) ms cs := by
  obtain ⟨hc, -, -⟩ := reachable_clean h
  clear h
  induction ms generalizing g cs with
  | nil => simp [maps] at hm; simp [← hm.2]
  | cons m ms ih =>
    obtain ⟨g1, c, cs', hmap, hms, rfl⟩ := maps_cons hm
    obtain ⟨hc1, -⟩ := map_keeps hc hmap
    exact .cons (map_numbered hc (hf m (by simp)) hmap)
      (ih (fun m hm => hf m (by simp [hm])) cs' hms hc1)

/-- A range clause that is in order. -/
def RangeClause.Ordered : RangeClause → Prop
  | .minMax a b => a.lt b = true
  | .maxMin b a => a.lt b = true
  | _ => True

theorem planes_accepted : ∀ (ps : List PlaneSrc) (g : Globals) (k : ℕ),
    (∀ p ∈ ps, p.range.Ordered) → g.numPlanes < 2 ^ 63 → 0 < g.expectedPlane →
    ps.filterMap PlaneSrc.number = (List.range' g.expectedPlane k).map Int.ofNat →
    (0 < k → g.expectedPlane + k ≤ g.numPlanes + 1) →
    ∃ g' cs, planes ps g = some (g', cs) := by
  intro ps
  induction ps with
  | nil => intro g k _ _ _ _ _; exact ⟨_, _, rfl⟩
  | cons p ps ih =>
    intro g k hr hn hpos hnum hk
    obtain ⟨number, range, kind⟩ := p
    have hrange : ∀ g : Globals, ∃ a b, dataRange range g =
        some { g with minimum := a, maximum := b } := by
      intro g
      have := hr ⟨number, range, kind⟩ (by simp)
      cases range <;> simp only [RangeClause.Ordered] at this <;>
        simp only [dataRange, this, if_true] <;> exact ⟨_, _, rfl⟩
    have htype : ∀ g : Globals, ∃ b c, planeType kind g = ({ g with graphicLat := b }, c) := by
      intro g
      rcases kind with ⟨_ | t⟩ | _ <;> exact ⟨_, _, rfl⟩
    have step : ∀ e, planeSize number g =
        some { g with expectedPlane := e, minimum := g.ppMinimum, maximum := g.ppMaximum } →
        ∃ a b t c, plane ⟨number, range, kind⟩ g =
          some ({ g with expectedPlane := e, minimum := a, maximum := b, graphicLat := t }, c) := by
      intro e he
      obtain ⟨a, b, h1⟩ := hrange
        { g with expectedPlane := e, minimum := g.ppMinimum, maximum := g.ppMaximum }
      obtain ⟨t, c, h2⟩ := htype { g with expectedPlane := e, minimum := a, maximum := b }
      exact ⟨a, b, t, c, by simp only [plane, he, h1, h2]⟩
    have finish : ∀ e k', planeSize number g =
        some { g with expectedPlane := e, minimum := g.ppMinimum, maximum := g.ppMaximum } →
        0 < e → ps.filterMap PlaneSrc.number = (List.range' e k').map Int.ofNat →
        (0 < k' → e + k' ≤ g.numPlanes + 1) →
        ∃ g' cs, planes (⟨number, range, kind⟩ :: ps) g = some (g', cs) := by
      intro e k' he hpe hn' hk'
      obtain ⟨a, b, t, c, h1⟩ := step e he
      obtain ⟨g', cs, h2⟩ := ih
        { g with expectedPlane := e, minimum := a, maximum := b, graphicLat := t } k'
        (fun p hp => hr p (by simp [hp])) hn hpe hn' hk'
      exact ⟨g', c :: cs, by simp only [planes, h1, h2]⟩
    cases number with
    | none =>
      rw [List.filterMap_cons_none rfl] at hnum
      exact finish g.expectedPlane k rfl hpos hnum hk
    | some n =>
      rw [List.filterMap_cons_some (f := PlaneSrc.number) (b := n) rfl] at hnum
      cases k with
      | zero => simp at hnum
      | succ k =>
        rw [List.range'_succ, List.map_cons, List.cons.injEq] at hnum
        obtain ⟨hn1, hn2⟩ := hnum
        have hk0 := hk (by omega)
        have e1 : toSize n = g.expectedPlane := by
          rw [hn1, toSize, Int.emod_eq_of_lt] <;> simp <;> omega
        refine finish (g.expectedPlane + 1) k ?_ (by omega) hn2 (fun _ => by omega)
        have hsz : szAdd g.expectedPlane 1 = g.expectedPlane + 1 := by
          simp only [szAdd, szMod]
          rw [Nat.mod_eq_of_lt]
          omega
        have h0 : g.numPlanes ≠ 0 := by omega
        have h1 : g.expectedPlane ≤ g.numPlanes := by omega
        simp [planeSize, e1, h0, h1, hsz]

/-- **C66** (converse).  Properly numbered planes with ordered ranges are
accepted, here in a map without other options. -/
theorem C66_accepted (g : Globals) (n : ℤ) (hn : 0 < n ∧ n < 2 ^ 63) (ps : List PlaneSrc)
    (hr : ∀ p ∈ ps, p.range.Ordered)
    (h : (MapSrc.mk .absent none .mercator (some n) ps).Numbered) :
    ∃ g' c, map ⟨.absent, none, .mercator, some n, ps⟩ g = .ok (some (g', c)) := by
  obtain ⟨k, h1, h2, h3⟩ := h
  simp only at h1 h2 h3
  have e : toSize n = n.toNat := by
    rw [toSize, Int.emod_eq_of_lt] <;> omega
  obtain ⟨g', cs, hp⟩ := planes_accepted ps { mapEntry g with numPlanes := toSize n } k hr
    (by simp only [e]; omega) (by simp [mapEntry]) (by simpa [mapEntry] using h1)
    (by intro _; simp only [e, mapEntry]; omega)
  have hlen : cs.length = ps.length := by
    obtain ⟨-, -, h4, -⟩ := planes_numbers ps (by simp only [e]; omega) hp
    exact h4
  have hnum : g'.numPlanes = toSize n := by
    obtain ⟨_, _, _, _, e4⟩ := planes_ok _ hp
    rw [e4]
  refine ⟨g', ⟨none, g'.averaging, .mercator, cs⟩, ?_⟩
  have hnot : ¬ (0 < g'.numPlanes ∧ cs.length ≠ g'.numPlanes) := by
    rw [hnum, e]; omega
  simp [map, grid, mapRest, projection, averaging, planesCount, hn.1, hp, hnot]

/-- Non-vacuity: three planes, the last of which has no number; and a map in
which plane 2 comes first, which is rejected. -/
example :
    (∃ g c, map ⟨.absent, none, .mercator, some 3,
      [⟨some 1, .empty, .other⟩, ⟨some 2, .empty, .other⟩, ⟨none, .empty, .other⟩]⟩ .start =
        .ok (some (g, c))) ∧
    map ⟨.absent, none, .mercator, some 2,
      [⟨some 2, .empty, .other⟩, ⟨some 1, .empty, .other⟩]⟩ .start = .ok none :=
  ⟨⟨_, _, rfl⟩, rfl⟩

/-! ## C63 -/

/-- Value of a decimal digit. -/
def digit (c : Char) : ℕ := c.toNat - '0'.toNat

/-- The number a string of digits denotes. -/
def decimal (ds : List Char) : ℕ := Nat.ofDigits 10 (ds.reverse.map digit)

theorem digitsVal_eq (ds : List Char) : digitsVal ds = decimal ds := by
  induction ds using List.reverseRecOn with
  | nil => rfl
  | append_singleton l c ih =>
    simp only [digitsVal, List.foldl_append, List.foldl_cons, List.foldl_nil] at ih ⊢
    rw [ih]
    simp only [decimal, List.reverse_append, List.reverse_cons, List.reverse_nil, List.nil_append,
      List.cons_append, List.map_cons, Nat.ofDigits_cons, digit]
    have : '0'.toNat = 48 := rfl
    rw [this]
    simp [Nat.add_comm]

theorem strtollDigits_of (sign ds rest : List Char) (hs : sign = [] ∨ sign = ['-'] ∨ sign = ['+'])
    (hd : ∀ c ∈ ds, c.isDigit = true) (hne : ds ≠ [])
    (hr : ∀ c, rest.head? = some c → c.isDigit = false) :
    strtollDigits (sign ++ ds ++ rest) = ds := by
  have htake : (ds ++ rest).takeWhile Char.isDigit = ds := by
    rw [List.takeWhile_append_of_pos (by simpa using hd)]
    cases rest with
    | nil => simp
    | cons c cs => rw [List.takeWhile_cons_of_neg (by simpa using hr c rfl)]; simp
  obtain ⟨c, cs, rfl⟩ := List.exists_cons_of_ne_nil hne
  have hc : c ≠ '-' ∧ c ≠ '+' := by
    have := hd c (by simp)
    refine ⟨?_, ?_⟩ <;> (rintro rfl; revert this; decide)
  rcases hs with rfl | rfl | rfl
  · simp only [strtollDigits, List.nil_append]
    have : Calc.signLen (c :: cs ++ rest) = 0 := by
      simp [Calc.signLen, hc.1, hc.2]
    rw [this]
    exact htake
  · exact htake
  · exact htake

/-- **C63** (whole numbers).  A whole number written with an optional sign and
decimal digits is used as written, or rejected when it does not fit 64 bits. -/
theorem C63_whole_partial (sign ds : List Char) (hs : sign = [] ∨ sign = ['-'] ∨ sign = ['+'])
    (hd : ∀ c ∈ ds, c.isDigit = true) (hne : ds ≠ []) :
    integer (sign ++ ds) =
      let n : ℤ := if sign = ['-'] then -(decimal ds) else decimal ds
      if -(2 ^ 63) ≤ n ∧ n < 2 ^ 63 then some n else none := by
  have h := strtollDigits_of sign ds [] hs hd hne (by simp)
  rw [List.append_nil] at h
  have hv : strtoll (sign ++ ds) = if sign = ['-'] then -(decimal ds : ℤ) else decimal ds := by
    rw [strtoll, h, digitsVal_eq]
    obtain ⟨c, cs, rfl⟩ := List.exists_cons_of_ne_nil hne
    have hc : c ≠ '-' := by
      have := hd c (by simp)
      rintro rfl
      revert this; decide
    rcases hs with rfl | rfl | rfl
    · simp [hc]
    · simp
    · simp
  simp only [integer, h, hv, hne, if_false]

/-- Disagreement with C63, general form: whatever follows the leading digits -
a fraction, an exponent - is ignored, and the number is accepted. -/
theorem C63_rest_ignored (sign ds rest : List Char)
    (hs : sign = [] ∨ sign = ['-'] ∨ sign = ['+'])
    (hd : ∀ c ∈ ds, c.isDigit = true) (hne : ds ≠ [])
    (hr : ∀ c, rest.head? = some c → c.isDigit = false) :
    integer (sign ++ ds ++ rest) = integer (sign ++ ds) := by
  have h1 := strtollDigits_of sign ds rest hs hd hne hr
  have h2 := strtollDigits_of sign ds [] hs hd hne (by simp)
  rw [List.append_nil] at h2
  have hh : (sign ++ ds ++ rest).head? = (sign ++ ds).head? := by
    obtain ⟨c, cs, rfl⟩ := List.exists_cons_of_ne_nil hne
    rcases hs with rfl | rfl | rfl <;> rfl
  simp only [integer, strtoll, h1, h2, hh]

/-- Disagreement with C63: `SAMPLES: 1E3` and `LINES: 3.7`. -/
theorem C63_violated : extent "1E3".toList = some 1 ∧ extent "3.7".toList = some 3 := by
  decide +kernel

/-- Non-vacuity. -/
example : integer "-1024".toList = some (-1024) ∧ integer "9223372036854775808".toList = none := by
  decide +kernel

/-- **C63** (extents).  Numbers of samples and lines that are not positive are
rejected. -/
theorem C63_extent (s : List Char) (n : ℤ) (h : extent s = some n) : integer s = some n ∧ 0 < n := by
  simp only [extent] at h
  cases hi : integer s with
  | none => rw [hi] at h; simp at h
  | some k =>
    rw [hi] at h
    simp only at h
    split_ifs at h with h0
    simp at h
    subst h
    exact ⟨rfl, h0⟩

/-! ## C67 -/

/-- The map type of a `BITPIX` value. -/
def typeOfBitpix (bitpix : ℤ) : Option MapType :=
  if bitpix = 8 then some .u8 else if bitpix = 16 then some .i16
  else if bitpix = 32 then some .i32 else if bitpix = 64 then some .i64 else none

/-- **C67**.  The blank value of an input file is accepted exactly when the
map's data type is an integer type and holds the value; the map is then created
with that value as its blank value. -/
theorem C67_blank (bitpix : ℤ) (s : List Char) (b : ℤ) :
    dataBlank bitpix s = .ok (some b) ↔
      integer s = some b ∧ ∃ T, typeOfBitpix bitpix = some T ∧ T.intRange.1 ≤ b ∧ b ≤ T.intRange.2 := by
  have hrange : ∀ n, integer s = some n → -(2 ^ 63) ≤ n ∧ n < 2 ^ 63 := by
    intro n h
    simp only [integer] at h
    split_ifs at h with h1 h2
    simp at h
    rw [← h]; exact h2
  cases hi : integer s with
  | none => simp [dataBlank, hi]
  | some n =>
    have hr := hrange n hi
    have key : (verifyBlank bitpix n = true ↔
        ∃ T, typeOfBitpix bitpix = some T ∧ T.intRange.1 ≤ n ∧ n ≤ T.intRange.2) := by
      simp only [verifyBlank, typeOfBitpix]
      split_ifs with h1 h2 h3 h4
      · simp [MapType.intRange]
      · simp [MapType.intRange]
      · simp [MapType.intRange]
      · simp only [Option.some.injEq, exists_eq_left', MapType.intRange, true_iff]
        omega
      · simp
    have hneg : bitpix ≤ 0 → typeOfBitpix bitpix = none := by
      intro h
      simp only [typeOfBitpix]
      split_ifs <;> first | omega | rfl
    simp only [dataBlank, hi]
    by_cases h0 : bitpix = 0
    · simp [h0]
      rintro rfl
      simp [h0 ▸ hneg (le_of_eq h0)]
    · by_cases h1 : bitpix < 0
      · simp [h0, h1, hneg h1.le]
      · by_cases hv : verifyBlank bitpix n = true
        · simp only [h0, h1, hv, if_true, if_false, Outcome.ok.injEq, Option.some.injEq]
          constructor
          · rintro rfl; exact ⟨rfl, key.mp hv⟩
          · exact fun h => h.1
        · simp only [h0, h1, hv, if_false, Outcome.ok.injEq, Option.some.injEq]
          constructor
          · intro h; simp at h
          · rintro ⟨rfl, h⟩; exact absurd (key.mpr h) hv

/-- **C67** (use).  A blank value accepted for a type does not make map
creation fail. -/
theorem C67_usable (bitpix : ℤ) (s : List Char) (b : ℤ) (T : MapType)
    (h : dataBlank bitpix s = .ok (some b)) (hT : typeOfBitpix bitpix = some T) :
    MapFactory.blankValue T (some b) = .ok (.fin b) := by
  obtain ⟨-, T', hT', h1, h2⟩ := (C67_blank bitpix s b).mp h
  rw [hT] at hT'
  simp at hT'
  subst hT'
  have hi : T.isIntegral = true := by
    simp only [typeOfBitpix] at hT
    split_ifs at hT <;> simp at hT <;> subst hT <;> rfl
  have : ¬ (b < T.intRange.1 ∨ b > T.intRange.2) := by omega
  simp [MapFactory.blankValue, hi, this]

example : dataBlank 8 "255".toList = .ok (some 255) ∧ dataBlank 8 "256".toList = .ok none ∧
    dataBlank (-32) "1".toList = .throw .invalidArgument := by decide +kernel

/-- Disagreement: the parser means to warn and go on when a blank value comes
without a data type, but the query it makes first throws. -/
theorem C67_no_type_violated (s : List Char) (n : ℤ) (h : integer s = some n) :
    dataBlank 0 s = .throw .runtimeError := by
  simp [dataBlank, h]

end MaRC.Parser
