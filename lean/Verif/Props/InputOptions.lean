import Verif.Props.InputFile

/-! # Options of an input file reach the map (C78) -/

namespace MaRC.Parser

open Dbl

/-! ## Specification -/

/-- The projection a `MAP_TYPE` clause asks for.  Options that are left out have
these values: an orthographic map is seen from latitude and longitude 0, with north
up, at a scale chosen by the program (-1) and with the body in the middle; a polar
stereographic map shows the north pole out to a latitude chosen by the program
(NaN); a simple cylindrical map shows the whole body in planetocentric latitudes. -/
def ProjSrc.wanted : ProjSrc → Proj
  | .mercator => .mercator
  | .ortho sub pa km c =>
    .ortho (sub.getD (.fin 0, .fin 0)).1 (sub.getD (.fin 0, .fin 0)).2 (pa.getD (.fin 0))
      (km.getD (.fin (-1))) c
  | .polar pole m => .polar (m.getD .nan) (pole.getD true)
  | .simple t lat lon =>
    .simple (lat.getD (.fin (-90), .fin 90)).1 (lat.getD (.fin (-90), .fin 90)).2
      (lon.getD (.fin 0, .fin 360)).1 (lon.getD (.fin 0, .fin 360)).2 (t.getD false)

/-- Options in order: a positive scale, and the lower latitude first. -/
def ProjSrc.Valid : ProjSrc → Prop
  | .ortho _ _ (some km) _ => (Dbl.fin 0).lt km = true
  | .simple _ (some (lo, hi)) _ => lo.lt hi = true
  | _ => True

/-- Intervals of a grid that are not numbers above zero.  (NaN is not rejected.) -/
def IntervalClause.Bad : IntervalClause → Prop
  | .both x | .lat x | .lon x => x.le (.fin 0) = true
  | .latLon x y | .lonLat x y => x.le (.fin 0) = true ∨ y.le (.fin 0) = true

/-- The intervals a grid clause gives, if any, are bad. -/
def GridClause.Bad : GridClause → Prop
  | .yesIntervals i | .noIntervals i => i.Bad
  | _ => False

/-- A map whose clauses are all in order. -/
structure MapSrc.Valid (m : MapSrc) : Prop where
  grid : ¬ m.grid.Bad
  proj : m.proj.Valid
  count : ∀ n, m.planesCount = some n → 0 < n
  numbered : m.Numbered
  ranges : ∀ p ∈ m.planes, p.range.Ordered

/-! ## Projections -/

theorem projection_eq {p : ProjSrc} {g : Globals} (hc : clean g) (hv : p.Valid)
    (hp : (∀ lat lon, p ≠ .simple none lat lon) ∨ g.graphicLat = false) :
    ∃ g', projection p g = some (g', p.wanted) := by
  obtain ⟨c1, c2, c3, c4, c5, c6, c7, c8, c9, c10, c11⟩ := hc
  cases p with
  | mercator => exact ⟨_, rfl⟩
  | ortho sub pa km c =>
    rcases km with _ | k
    · rcases sub with _ | ⟨a, b⟩ <;> cases pa <;> cases c <;>
        exact ⟨_, by simp [projection, ortho, kmPerPixel, ProjSrc.wanted, *]; rfl⟩
    · have hk : Dbl.gt k (.fin 0) = true := hv
      rcases sub with _ | ⟨a, b⟩ <;> cases pa <;> cases c <;>
        exact ⟨_, by simp [projection, ortho, kmPerPixel, ProjSrc.wanted, *]; rfl⟩
  | polar pole m =>
    cases pole <;> cases m <;> exact ⟨_, by simp [projection, polarS, ProjSrc.wanted, *]; rfl⟩
  | simple lt lat lon =>
    have hl : lt = none → g.graphicLat = false := by
      rintro rfl
      exact hp.resolve_left fun h => h _ _ rfl
    rcases lt with _ | t <;> rcases lat with _ | ⟨l1, l2⟩ <;> rcases lon with _ | ⟨m1, m2⟩ <;>
      simp only [ProjSrc.Valid] at hv <;>
      exact ⟨_, by simp [projection, simpleC, latRange, lonRange, latType, ProjSrc.wanted, *]; rfl⟩

theorem projection_valid {p : ProjSrc} {g g' : Globals} {q : Proj}
    (h : projection p g = some (g', q)) : p.Valid := by
  cases p with
  | mercator => trivial
  | polar => trivial
  | ortho sub pa km c =>
    rcases km with _ | k
    · trivial
    · by_contra hn
      have hk : Dbl.gt k (.fin 0) = false := by simpa [ProjSrc.Valid, Dbl.gt] using hn
      cases sub <;> cases pa <;> simp [projection, ortho, kmPerPixel, hk] at h
  | simple lt lat lon =>
    rcases lat with _ | ⟨l1, l2⟩
    · trivial
    · by_contra hn
      have hk : l1.lt l2 = false := by simpa [ProjSrc.Valid] using hn
      cases lt <;> simp [projection, simpleC, latRange, hk] at h

/-- **C78** (options).  After any history, each map of an accepted file has the
projection its clause asks for, with the values given and defaults for the others,
and overlapping photos are averaged as the map says, weighted if it says nothing.
Missing: simple cylindrical maps that leave the latitude type out, which take it from
an earlier latitude plane (`C64_projection_violated`); all their other options are
covered by `C78_cylindrical`. -/
theorem C78_projection_partial {g g' : Globals} (h : Reachable g) (ms : List MapSrc)
    (hl : ∀ m ∈ ms, ∀ lat lon, m.proj ≠ .simple none lat lon)
    (cs : List MapCmd) (hm : maps ms g = .ok (some (g', cs))) :
    cs.map (fun c => (c.proj, c.averaging)) =
      ms.map fun m => (m.proj.wanted, m.averaging.getD .weighted) := by
  obtain ⟨hc, -, -⟩ := reachable_clean h
  clear h
  induction ms generalizing g cs with
  | nil => simp [maps] at hm; simp [← hm.2]
  | cons m ms ih =>
    obtain ⟨g1, c, cs', hmap, hms, rfl⟩ := maps_cons hm
    obtain ⟨hc1, -⟩ := map_keeps hc hmap
    simp only [List.map_cons, List.cons.injEq]
    refine ⟨?_, ih (fun m hm => hl m (by simp [hm])) cs' hms hc1⟩
    obtain ⟨ga, d, gb, proj, gc, ps, hg, hp, hn, hs, -, rfl⟩ := map_ok hmap
    have hca := clean_entry hc hg
    obtain ⟨g2, he⟩ := projection_eq hca (projection_valid hp) (.inl (hl m (by simp)))
    rw [he] at hp
    simp only [Option.some.injEq, Prod.mk.injEq] at hp
    obtain ⟨b, e2⟩ := projection_ok hca he
    obtain ⟨k, e3⟩ := planesCount_ok hn
    obtain ⟨_, _, _, _, e4⟩ := planes_ok _ hs
    obtain ⟨_, _, e1⟩ := grid_ok hg
    rw [← hp.2]
    simp only [Prod.mk.injEq, true_and]
    rw [e4, e3, ← hp.1, e2, e1]
    cases m.averaging <;> rfl

/-- **C78** (simple cylindrical maps).  Whatever the latitude type, the limits of a
simple cylindrical map are the ones given. -/
theorem C78_cylindrical {g g' : Globals} (h : Reachable g) (m : MapSrc) (t : Option Bool)
    (lat lon : Option (Dbl × Dbl)) (hp : m.proj = .simple t lat lon)
    (c : MapCmd) (hm : maps [m] g = .ok (some (g', [c]))) :
    ∃ b, (t = none ∨ t = some b) ∧ c.proj = (ProjSrc.simple (some b) lat lon).wanted := by
  obtain ⟨hc, -, -⟩ := reachable_clean h
  obtain ⟨g1, c', cs', hmap, hms, he⟩ := maps_cons hm
  simp only [List.cons.injEq] at he
  obtain ⟨rfl, rfl⟩ := he
  obtain ⟨ga, d, gb, proj, gc, ps, hg, hpr, -, -, -, rfl⟩ := map_ok hmap
  have hca := clean_entry hc hg
  generalize averaging m.averaging ga = gx at hpr hca
  rw [hp] at hpr
  rcases t with _ | t
  · refine ⟨gx.graphicLat, .inl rfl, ?_⟩
    have hv := projection_valid hpr
    have hv' : (ProjSrc.simple (some gx.graphicLat) lat lon).Valid := by
      cases lat <;> exact hv
    obtain ⟨g2, he⟩ := projection_eq hca hv' (.inl (by simp))
    have : projection (.simple none lat lon) gx =
        projection (.simple (some gx.graphicLat) lat lon) gx := by
      simp [projection, simpleC, latType]
    rw [this, he] at hpr
    simp only [Option.some.injEq, Prod.mk.injEq] at hpr
    exact hpr.2.symm
  · refine ⟨t, .inr rfl, ?_⟩
    obtain ⟨g2, he⟩ := projection_eq hca (projection_valid hpr) (.inl (by simp))
    rw [he] at hpr
    simp only [Option.some.injEq, Prod.mk.injEq] at hpr
    exact hpr.2.symm

/-- Non-vacuity: an orthographic map and a simple cylindrical one in one file. -/
example : ∃ g' c1 c2, maps
    [⟨.absent, some .none, .ortho (some (.fin 10, .fin 20)) none (some (.fin 5)) .default, none,
      [⟨none, .empty, .other⟩]⟩,
     ⟨.yes, none, .simple (some true) (some (.fin (-30), .fin 40)) none, none,
      [⟨none, .min (.fin 3), .other⟩]⟩] .start = .ok (some (g', [c1, c2])) ∧
    c1.proj = .ortho (.fin 10) (.fin 20) (.fin 0) (.fin 5) .default ∧
    c2.proj = .simple (.fin (-30)) (.fin 40) (.fin 0) (.fin 360) true :=
  ⟨_, _, _, rfl, rfl, rfl⟩

/-! ## Acceptance -/

theorem intervals_iff (i : IntervalClause) (g : Globals) :
    (i.Bad ∧ intervals i g = .throw .invalidArgument) ∨ (¬ i.Bad ∧ ∃ g', intervals i g = .ok g') := by
  cases i with
  | both x => by_cases h : x.le (.fin 0) = true <;> simp [IntervalClause.Bad, intervals, h]
  | lat x => by_cases h : x.le (.fin 0) = true <;> simp [IntervalClause.Bad, intervals, latGrid, h]
  | lon x => by_cases h : x.le (.fin 0) = true <;> simp [IntervalClause.Bad, intervals, lonGrid, h]
  | latLon x y =>
    by_cases h : x.le (.fin 0) = true <;> by_cases h' : y.le (.fin 0) = true <;>
      simp [IntervalClause.Bad, intervals, latGrid, lonGrid, h, h', Outcome.bind]
  | lonLat x y =>
    by_cases h : x.le (.fin 0) = true <;> by_cases h' : y.le (.fin 0) = true <;>
      simp [IntervalClause.Bad, intervals, latGrid, lonGrid, h, h', Outcome.bind]

theorem grid_iff (c : GridClause) (g : Globals) :
    (c.Bad ∧ grid c g = .throw .invalidArgument) ∨
      (¬ c.Bad ∧ ∃ r, grid c g = .ok r) := by
  cases c with
  | absent => exact .inr ⟨id, _, rfl⟩
  | no => exact .inr ⟨id, _, rfl⟩
  | yes => exact .inr ⟨id, _, rfl⟩
  | yesIntervals i =>
    rcases intervals_iff i (gridYes g) with ⟨h1, h2⟩ | ⟨h1, g', h2⟩
    · exact .inl ⟨h1, by simp [grid, h2]⟩
    · exact .inr ⟨h1, _, by simp only [grid, h2, Outcome.bind_ok]; rfl⟩
  | noIntervals i =>
    rcases intervals_iff i g with ⟨h1, h2⟩ | ⟨h1, g', h2⟩
    · exact .inl ⟨h1, by simp [grid, h2]⟩
    · exact .inr ⟨h1, _, by simp only [grid, h2, Outcome.bind_ok]; rfl⟩

theorem planes_ordered : ∀ (ps : List PlaneSrc) {g g' : Globals} {cs : List PlaneCmd},
    planes ps g = some (g', cs) → ∀ p ∈ ps, p.range.Ordered
  | [], _, _, _, _, p, hp => by simp at hp
  | q :: ps, g, g', cs, h, p, hp => by
    simp only [planes] at h
    cases hq : plane q g with
    | none => rw [hq] at h; simp at h
    | some r =>
      rw [hq] at h
      simp only at h
      cases hps : planes ps r.1 with
      | none => rw [hps] at h; simp at h
      | some r2 =>
        rcases List.mem_cons.mp hp with rfl | hp
        · simp only [plane] at hq
          split at hq
          · simp at hq
          · rename_i g1 _
            cases hr : dataRange p.range g1 with
            | none => rw [hr] at hq; simp at hq
            | some g2 =>
              cases hrg : p.range <;> simp only [RangeClause.Ordered]
              all_goals
                rw [hrg] at hr
                simp only [dataRange] at hr
                by_contra hn
                simp [hn] at hr
        · exact planes_ordered ps hps p hp

theorem map_valid {g : Globals} (hc : clean g) {m : MapSrc} (hf : m.Fits) {r : Globals × MapCmd}
    (hr : map m g = .ok (some r)) : m.Valid := by
  obtain ⟨-, hnum⟩ := map_numbered hc hf hr
  obtain ⟨ga, d, gb, proj, gc, ps, hg, hpr, hn, hs, -, -⟩ := map_ok hr
  refine ⟨?_, projection_valid hpr, ?_, hnum, planes_ordered _ hs⟩
  · rcases grid_iff m.grid (mapEntry g) with ⟨h1, h2⟩ | ⟨h1, -⟩
    · rw [h2] at hg; simp at hg
    · exact h1
  · intro n hn'
    rw [hn'] at hn
    simp only [planesCount] at hn
    by_contra h0
    simp [h0] at hn

theorem map_accepted {g : Globals} (hc : clean g) {m : MapSrc} (hf : m.Fits) (hv : m.Valid) :
    ∃ r, map m g = .ok (some r) := by
  rcases grid_iff m.grid (mapEntry g) with ⟨h1, -⟩ | ⟨-, ⟨ga, d⟩, hg⟩
  · exact absurd h1 hv.grid
  have hca := clean_entry hc hg
  have hproj : ∃ g2 q, projection m.proj (averaging m.averaging ga) = some (g2, q) := by
    by_cases hs : ∃ lat lon, m.proj = .simple none lat lon
    · obtain ⟨lat, lon, hs⟩ := hs
      have hv' : (ProjSrc.simple (some (averaging m.averaging ga).graphicLat) lat lon).Valid := by
        have := hv.proj
        rw [hs] at this
        cases lat <;> exact this
      obtain ⟨g2, he⟩ := projection_eq hca hv' (.inl (by simp))
      refine ⟨g2, _, Eq.trans ?_ he⟩
      rw [hs]
      simp [projection, simpleC, latType]
    · push Not at hs
      obtain ⟨g2, he⟩ := projection_eq hca hv.proj (.inl hs)
      exact ⟨g2, _, he⟩
  obtain ⟨g2, q, hp⟩ := hproj
  obtain ⟨b, e2⟩ := projection_ok hca hp
  obtain ⟨x, y, e1⟩ := grid_ok hg
  have hent : g2.numPlanes = 0 ∧ g2.expectedPlane = 1 := by
    rw [e2, e1]; cases m.averaging <;> exact ⟨rfl, rfl⟩
  obtain ⟨k, hk1, hk2⟩ := hv.numbered
  have hcnt : ∃ g3, planesCount m.planesCount g2 = some g3 ∧ g3.expectedPlane = 1 ∧
      (match m.planesCount with
        | none => g3.numPlanes = 0
        | some n => 0 < n ∧ g3.numPlanes = n.toNat) := by
    cases hpc : m.planesCount with
    | none => exact ⟨g2, rfl, hent.2, hent.1⟩
    | some n =>
      have h0 := hv.count n hpc
      have h1 := hf.1 n hpc
      have e : toSize n = n.toNat := by rw [toSize, Int.emod_eq_of_lt] <;> omega
      exact ⟨{ g2 with numPlanes := toSize n }, by simp [planesCount, h0], hent.2, h0, e⟩
  obtain ⟨g3, hn, hn1, hn2⟩ := hcnt
  have hlt : g3.numPlanes < 2 ^ 63 := by
    cases hpc : m.planesCount with
    | none => rw [hpc] at hn2; simp only at hn2; omega
    | some n =>
      rw [hpc] at hn2; simp only at hn2
      have h1 := hf.1 n hpc
      omega
  have hkle : 0 < k → g3.expectedPlane + k ≤ g3.numPlanes + 1 := by
    intro h0
    cases hpc : m.planesCount with
    | none => rw [hpc] at hk2; simp only at hk2; omega
    | some n => rw [hpc] at hk2 hn2; simp only at hk2 hn2; omega
  obtain ⟨g4, cs, hs⟩ := planes_accepted m.planes g3 k hv.ranges hlt (by omega)
    (by rw [hn1]; exact hk1) hkle
  obtain ⟨-, -, hlen, -⟩ := planes_numbers m.planes (by omega) hs
  have hnum : g4.numPlanes = g3.numPlanes := by
    obtain ⟨_, _, _, _, e4⟩ := planes_ok _ hs
    rw [e4]
  have hnot : ¬ (0 < g4.numPlanes ∧ cs.length ≠ g4.numPlanes) := by
    rw [hnum, hlen]
    cases hpc : m.planesCount with
    | none => rw [hpc] at hn2; simp only at hn2; omega
    | some n => rw [hpc] at hk2 hn2; simp only at hk2 hn2; omega
  exact ⟨_, by simp only [map, hg, Outcome.bind_ok, mapRest, hp, hn, hs, if_neg hnot]; rfl⟩

open Classical in
/-- **C78** (acceptance).  After any history, a map is accepted exactly if all its
clauses are in order; a bad grid interval ends the program with an exception, and any
other fault is reported as a parse error. -/
theorem C78_accepted {g : Globals} (h : Reachable g) (m : MapSrc) (hf : m.Fits) :
    (m.Valid ↔ ∃ g' c, maps [m] g = .ok (some (g', [c]))) ∧
    (¬ m.Valid → maps [m] g = if m.grid.Bad then .throw .invalidArgument else .ok none) := by
  obtain ⟨hc, -, -⟩ := reachable_clean h
  have hone : ∀ r, map m g = .ok (some r) → maps [m] g = .ok (some (r.1, [r.2])) := by
    intro r hr
    simp [maps, hr, Outcome.bind]
  refine ⟨⟨fun hv => ?_, fun ⟨g', c, hm⟩ => ?_⟩, fun hv => ?_⟩
  · obtain ⟨r, hr⟩ := map_accepted hc hf hv
    exact ⟨_, _, hone r hr⟩
  · obtain ⟨g1, c', cs', hmap, -, -⟩ := maps_cons hm
    exact map_valid hc hf hmap
  · rcases grid_iff m.grid (mapEntry g) with ⟨h1, h2⟩ | ⟨h1, ⟨ga, d⟩, hg⟩
    · rw [if_pos h1]
      simp [maps, map, h2, Outcome.bind]
    · rw [if_neg h1]
      have hmap : map m g = .ok (mapRest m d ga) := by simp [map, hg]
      cases hr : mapRest m d ga with
      | some r => exact absurd (map_valid hc hf (r := r) (by rw [hmap, hr])) hv
      | none => simp [maps, hmap, hr, Outcome.bind]

/-- Non-vacuity: a valid map, and maps with a fault. -/
example :
    (MapSrc.mk .yes none (.simple none (some (.fin 1, .fin 2)) none) (some 1)
      [⟨some 1, .minMax (.fin 0) (.fin 1), .other⟩]).Valid ∧
    ¬ (MapSrc.mk (.yesIntervals (.both (.fin 0))) none .mercator none
      [⟨none, .empty, .other⟩]).Valid ∧
    ¬ (MapSrc.mk .no none (.simple none (some (.fin 2, .fin 2)) none) none
      [⟨none, .empty, .other⟩]).Valid := by
  refine ⟨⟨id, ?_, ?_, ⟨1, rfl, ?_⟩, ?_⟩, fun h => h.grid ?_, fun h => ?_⟩
  · show Dbl.lt _ _ = true; decide +kernel
  · intro n hn; simp at hn; omega
  · simp
  · intro p hp
    simp at hp
    subst hp
    show Dbl.lt _ _ = true
    decide +kernel
  · show Dbl.le _ _ = true; decide +kernel
  · have : Dbl.lt (.fin 2) (.fin 2) = true := h.proj
    revert this; decide +kernel

end MaRC.Parser
