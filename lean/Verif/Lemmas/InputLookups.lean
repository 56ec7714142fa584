import Verif.Lemmas.InputTrees

/-! # Lookups in the entries of trees -/

namespace MaRC.InputMeaning

open MaRC.Calc (Tok)
open MaRC.Scan (Token kw)
open MaRC.Grammar
open MaRC.Parser (Averaging Hemisphere Side NibbleClause CenterClause ScaleClause)

/-! ## Keys -/

/-- All keywords are among the given ones. -/
def Keys (ks : List String) (es : Part) : Prop := ∀ e ∈ es, e.1 ∈ ks

theorem Keys.get {ks : List String} {es : Part} (h : Keys ks es) {k : String} (hk : k ∉ ks) :
    get k es = none := by
  refine get_none fun hm => ?_
  obtain ⟨e, he, rfl⟩ := List.mem_map.mp hm
  exact hk (h e he)

theorem Keys.nil (ks : List String) : Keys ks [] := by simp [Keys]

theorem Keys.append {ks : List String} {a b : Part} (ha : Keys ks a) (hb : Keys ks b) :
    Keys ks (a ++ b) := by
  intro e he
  rcases List.mem_append.mp he with h | h
  · exact ha e h
  · exact hb e h

theorem Keys.cons {ks : List String} {k : String} {v : List Token} {b : Part} (hk : k ∈ ks)
    (hb : Keys ks b) : Keys ks ((k, v) :: b) := by
  intro e he
  rcases List.mem_cons.mp he with rfl | h
  · exact hk
  · exact hb e h

theorem Keys.mono {ks ks' : List String} {a : Part} (h : Keys ks a) (hs : ∀ k ∈ ks, k ∈ ks') :
    Keys ks' a := fun e he => hs _ (h e he)

theorem Keys.flatMap {α : Type} {ks : List String} {f : α → Part} {l : List α}
    (h : ∀ x ∈ l, Keys ks (f x)) : Keys ks (l.flatMap f) := by
  intro e he
  obtain ⟨x, hx, hm⟩ := List.mem_flatMap.mp he
  exact h x hx e hm

theorem Keys.optEnt {ks : List String} {k : String} {o : Option (List Token)} (hk : k ∈ ks) :
    Keys ks (optEnt k o) := by
  cases o
  · exact .nil _
  · exact .cons hk (.nil _)

@[simp] theorem get_optEnt (k k' : String) (o : Option (List Token)) :
    get k (optEnt k' o) = if k' = k then o else none := by
  cases o <;> simp [optEnt, get_cons]

def radiiKeys : List String := ["EQ_RAD", "POL_RAD", "FLATTENING"]

theorem keys_radii (r : Radii) : Keys radiiKeys (radiiEnts r) := by
  cases r <;> simp [Keys, radiiEnts, radiiKeys]

def intervalKeys : List String := ["GRID_INTERVAL", "LAT_GRID_INTERVAL", "LON_GRID_INTERVAL"]

theorem keys_intervals (i : Intervals) : Keys intervalKeys (intervalsEnts i) := by
  cases i <;> simp [Keys, intervalsEnts, intervalKeys]

def gridKeys : List String := "GRID" :: intervalKeys

theorem keys_grid (g : Grid) : Keys gridKeys (gridEnts g) := by
  cases g with
  | absent => exact .nil _
  | plain b => exact .cons (by simp [gridKeys]) (.nil _)
  | intervals b i =>
    exact .cons (by simp [gridKeys]) ((keys_intervals i).mono fun _ h => by simp [gridKeys, h])

def rangeKeys : List String := ["DATA_MIN", "DATA_MAX"]

theorem keys_range (ws : List Token) (r : Range) : Keys rangeKeys (rangeEnts ws r) := by
  cases r <;> simp [Keys, rangeEnts, rangeKeys]

theorem keys_point (kA kB : String) (p : Point) : Keys [kA, kB] (ptEnts kA kB p) := by
  cases p <;> simp [Keys, ptEnts]

theorem keys_pair (kA kB : String) (p : Pair) : Keys [kA, kB] (pairEnts kA kB p) := by
  cases p <;> simp [Keys, pairEnts]

def centerKeys : List String := ["SAMPLE_CENTER", "LINE_CENTER", "LAT_AT_CENTER", "LON_AT_CENTER"]

theorem keys_centers (c : Centers) : Keys centerKeys (centersEnts c) := by
  cases c with
  | pixel p => exact (keys_pair _ _ p).mono (by simp [centerKeys])
  | latLon p => exact (keys_point _ _ p).mono (by simp [centerKeys])

def subKeys : List String := ["SUB_OBSERV_LAT", "SUB_OBSERV_LON"]

def sunKeys : List String := ["SUB_SOLAR_LAT", "SUB_SOLAR_LON"]

theorem keys_sub (p : Point) : Keys subKeys (subEnts p) := keys_point _ _ p

theorem keys_sun (p : Point) : Keys sunKeys (sunEnts p) := keys_point _ _ p

def optKeys : List String := ["OPTIONS", "AVERAGING"]

theorem keys_opts (a : Option Averaging) (ws : List Token) : Keys optKeys (optsEnts a ws) := by
  cases a <;> simp [Keys, optsEnts, optKeys]

def orthoKeys : List String := subKeys ++ (["POSITION_ANGLE", "KM_PER_PIXEL"] ++ centerKeys)

theorem keys_ortho (o : OrthoOpts) : Keys orthoKeys (orthoEnts o) := by
  refine .append (.append ?_ (.optEnt (by simp [orthoKeys]))) (.append (.optEnt (by simp [orthoKeys])) ?_)
  · cases o.parts.1 with
    | none => exact .nil _
    | some s => exact (keys_sub s).mono (by simp [orthoKeys, subKeys])
  · cases o.parts.2.2.2 with
    | none => exact .nil _
    | some s => exact (keys_centers s).mono (by simp [orthoKeys, centerKeys])

def latRangeKeys : List String := ["LO_LAT", "HI_LAT"]

def lonRangeKeys : List String := ["LO_LON", "HI_LON"]

theorem keys_latRange (r : LatRange) : Keys latRangeKeys (latRangeEnts r) := by
  cases r <;> simp [Keys, latRangeEnts, latRangeKeys]

theorem keys_lonRange (r : LonRange) : Keys lonRangeKeys (lonRangeEnts r) := by
  cases r <;> simp [Keys, lonRangeEnts, lonRangeKeys]

def rangesKeys : List String := latRangeKeys ++ lonRangeKeys

theorem keys_ranges (r : Ranges) : Keys rangesKeys (rangesEnts r) := by
  have h1 := fun a => (keys_latRange a).mono (ks' := rangesKeys) (by simp [rangesKeys, latRangeKeys])
  have h2 := fun a => (keys_lonRange a).mono (ks' := rangesKeys) (by simp [rangesKeys, lonRangeKeys])
  cases r with
  | empty => exact .nil _
  | lat a => exact h1 a
  | lon b => exact h2 b
  | latLon a b => exact (h1 a).append (h2 b)
  | lonLat b a => exact (h2 b).append (h1 a)

def projKeys : List String :=
  ["MAP_TYPE", "POLE", "MAX_LAT", "LATITUDE_TYPE"] ++ (optKeys ++ (orthoKeys ++ rangesKeys))

theorem keys_proj (p : Projection) : Keys projKeys (projEnts p) := by
  refine .cons (by simp [projKeys]) ?_
  have h1 := fun a ws => (keys_opts a ws).mono (ks' := projKeys) (by simp [projKeys, optKeys])
  rcases p with (_ | a) | (_ | ⟨a, o⟩) | (_ | ⟨a, north, m⟩) | (_ | ⟨a, t, r⟩)
  · exact .nil _
  · exact h1 a _
  · exact .nil _
  · refine (h1 a _).append ((keys_ortho o).mono ?_)
    intro k hk
    simp only [projKeys, List.mem_append]
    exact .inr (.inr (.inl hk))
  · exact .nil _
  · exact (h1 a _).append (.cons (by simp [projKeys]) (.optEnt (by simp [projKeys])))
  · exact .nil _
  · refine (h1 a _).append (.append ?_ ((keys_ranges r).mono ?_))
    · cases t
      · exact .nil _
      · exact .cons (by simp [projKeys]) (.nil _)
      · exact .nil _
    · intro k hk
      simp only [projKeys, List.mem_append]
      exact .inr (.inr (.inr hk))

def nibbleKeys : List String :=
  ["NIBBLE", "NIBBLE_LEFT", "NIBBLE_RIGHT", "NIBBLE_TOP", "NIBBLE_BOTTOM"]

theorem keys_sides (kA kB : String) (s : Sides) : Keys [kA, kB] (sidesEnts kA kB s) := by
  cases s <;> simp [Keys, sidesEnts]

def samplesKeys : List String := ["NIBBLE_LEFT", "NIBBLE_RIGHT"]

def linesKeys : List String := ["NIBBLE_TOP", "NIBBLE_BOTTOM"]

theorem keys_samples (s : Sides) : Keys samplesKeys (samplesEnts s) := keys_sides _ _ s

theorem keys_lines (s : Sides) : Keys linesKeys (linesEnts s) := keys_sides _ _ s

theorem keys_nibble (n : Nibble) : Keys nibbleKeys (nibbleEnts n) := by
  have h1 := fun s => (keys_samples s).mono (ks' := nibbleKeys) (by simp [nibbleKeys, samplesKeys])
  have h2 := fun s => (keys_lines s).mono (ks' := nibbleKeys) (by simp [nibbleKeys, linesKeys])
  cases n with
  | empty => exact .nil _
  | all n => exact .cons (by simp [nibbleKeys]) (.nil _)
  | samples s => exact h1 s
  | lines s => exact h2 s
  | samplesLines s l => exact (h1 s).append (h2 l)
  | linesSamples l s => exact (h2 l).append (h1 s)

def scaleKeys : List String := ["KM_PER_PIXEL", "ARCSEC_PER_PIX", "FOCAL_LENGTH", "PIXEL_SCALE"]

theorem keys_scale (s : Scale) : Keys scaleKeys (scaleEnts s) := by
  cases s with
  | km x => exact .cons (by simp [scaleKeys]) (.nil _)
  | arcsec x => exact .cons (by simp [scaleKeys]) (.nil _)
  | lens p => exact (keys_pair _ _ p).mono (by simp [scaleKeys])

def axisKeys : List String := ["SAMPLE_OA", "LINE_OA"]

theorem keys_axis (o : Option Pair) : Keys axisKeys (o.elim [] (pairEnts "SAMPLE_OA" "LINE_OA")) := by
  cases o with
  | none => exact .nil _
  | some p => exact keys_pair _ _ p

def photoKeys : List String :=
  ["INVERT", "INTERPOLATE", "REMOVE_SKY", "FLAT_FIELD", "MINNAERT", "GEOM_CORRECT",
   "EMI_ANG_LIMIT", "TERMINATOR", "POSITION_ANGLE", "RANGE"] ++
    (nibbleKeys ++ (centerKeys ++ (axisKeys ++ (subKeys ++ (sunKeys ++ scaleKeys)))))

theorem keys_photoRest (p : Photo) : Keys photoKeys (photoRest p) := by
  have hm : ∀ {a : Part} {ks : List String}, Keys ks a → (∀ k ∈ ks, k ∈ photoKeys) →
      Keys photoKeys a := fun h hs => h.mono hs
  refine .append (hm (keys_nibble _) (by simp [photoKeys, nibbleKeys])) (.append (.optEnt (by simp [photoKeys]))
    (.append (.optEnt (by simp [photoKeys])) (.append (.optEnt (by simp [photoKeys]))
    (.append (hm (keys_centers _) (by simp [photoKeys, centerKeys]))
    (.append (hm (keys_axis _) (by simp [photoKeys, axisKeys])) (.append (.optEnt (by simp [photoKeys]))
    (.append (.optEnt (by simp [photoKeys])) (.append (.optEnt (by simp [photoKeys]))
    (.append (.optEnt (by simp [photoKeys])) (.append (.optEnt (by simp [photoKeys]))
    (.append (hm (keys_sub _) (by simp [photoKeys, subKeys])) (.cons (by simp [photoKeys])
    (.append (hm (keys_sun _) (by simp [photoKeys, sunKeys])) (.cons (by simp [photoKeys])
    (hm (keys_scale _) (by simp [photoKeys, scaleKeys]))))))))))))))))

def typeKeys : List String :=
  ["IMAGE", "MU", "MU0", "PHASE", "LATITUDE", "LATITUDE_TYPE", "RANGE"] ++ photoKeys

theorem keys_type (t : PlaneType) : Keys typeKeys (typeEnts t) := by
  have h1 := fun p => (keys_sub p).mono (ks' := typeKeys) (by simp [typeKeys, photoKeys, subKeys])
  have h2 := fun p => (keys_sun p).mono (ks' := typeKeys) (by simp [typeKeys, photoKeys, sunKeys])
  have hr : "RANGE" ∈ typeKeys := by simp [typeKeys]
  cases t with
  | photos p ps =>
    refine Keys.flatMap fun x _ => .cons (by simp [typeKeys]) ((keys_photoRest x).mono ?_)
    intro k hk
    exact List.mem_append.mpr (.inr hk)
  | mu s d => exact .cons (by simp [typeKeys]) ((h1 s).append (.cons hr (.nil _)))
  | muFull s d u => exact .cons (by simp [typeKeys]) ((h1 s).append (.cons hr (h2 u)))
  | mu0 u => exact .cons (by simp [typeKeys]) (h2 u)
  | mu0Full s d u => exact .cons (by simp [typeKeys]) ((h1 s).append (.cons hr (h2 u)))
  | phase s d u => exact .cons (by simp [typeKeys]) ((h1 s).append (.cons hr (h2 u)))
  | latitude t =>
    refine .cons (by simp [typeKeys]) ?_
    cases t
    · exact .nil _
    · exact .cons (by simp [typeKeys]) (.nil _)
    · exact .nil _
  | longitude => exact .nil _

def planeKeys : List String := rangeKeys ++ typeKeys

theorem keys_planeRest (p : Plane) : Keys planeKeys (planeRest p) :=
  .append ((keys_range _ _).mono fun _ h => List.mem_append.mpr (.inl h))
    ((keys_type _).mono fun _ h => List.mem_append.mpr (.inr h))

theorem keys_texts (k : String) (l : List (List Char)) :
    Keys [k] (l.map fun s => (k, [Token.str s])) := by
  intro e he
  obtain ⟨s, -, rfl⟩ := List.mem_map.mp he
  simp

def headKeys : List String :=
  ["AUTHOR", "ORIGIN", "COMMENT", "XCOMMENT", "BODY", "ROTATION", "DATA_OFFSET", "DATA_SCALE",
   "DATA_TYPE", "DATA_BLANK", "PLANES", "SAMPLES", "LINES"] ++ (radiiKeys ++ (gridKeys ++ projKeys))

theorem keys_mapRest (m : Map) : Keys headKeys (mapRest m) := by
  have hp : ∀ k ∈ projKeys, k ∈ headKeys := by
    intro k hk
    simp only [headKeys, List.mem_append]
    exact .inr (.inr (.inr hk))
  exact .append (.optEnt (by simp [headKeys])) (.append (.optEnt (by simp [headKeys]))
    (.append ((keys_texts _ _).mono (by simp [headKeys])) (.append ((keys_texts _ _).mono (by simp [headKeys]))
    (.cons (by simp [headKeys]) (.append ((keys_radii _).mono (by simp [headKeys, radiiKeys]))
    (.cons (by simp [headKeys]) (.append (.optEnt (by simp [headKeys])) (.append (.optEnt (by simp [headKeys]))
    (.append (.optEnt (by simp [headKeys])) (.append (.optEnt (by simp [headKeys]))
    (.append ((keys_grid _).mono (by simp [headKeys, gridKeys, intervalKeys]))
    (.append ((keys_proj _).mono hp) (.append (.optEnt (by simp [headKeys]))
    (.cons (by simp [headKeys]) (.cons (by simp [headKeys]) (.nil _))))))))))))))))

/-! ## Parts -/

theorem upTo_append {k : String} {ks : List String} {a : Part} (h : Keys ks a) (hk : k ∉ ks)
    (b : Part) : upTo k (a ++ b) = a ++ upTo k b := by
  refine List.takeWhile_append_of_pos ?_
  intro e he
  simp only [ne_eq, decide_eq_true_eq]
  rintro rfl
  exact hk (h e he)

theorem parts_append {k : String} {ks : List String} {a : Part} (h : Keys ks a) (hk : k ∉ ks)
    (b : Part) : parts k (a ++ b) = parts k b := by
  induction a with
  | nil => rfl
  | cons e a ih =>
    have he : e.1 ≠ k := by rintro rfl; exact hk (h e (by simp))
    rw [List.cons_append, parts, if_neg he, ih fun x hx => h x (by simp [hx])]

/-- Entries that begin with `k` and have no other `k`. -/
def Block (k : String) (es : Part) : Prop := ∃ v r ks, es = (k, v) :: r ∧ Keys ks r ∧ k ∉ ks

theorem upTo_blocks {α : Type} {k : String} {f : α → Part} {l : List α}
    (h : ∀ x ∈ l, Block k (f x)) : upTo k (l.flatMap f) = [] := by
  cases l with
  | nil => rfl
  | cons x l =>
    obtain ⟨v, r, ks, e, -, -⟩ := h x (by simp)
    simp [List.flatMap_cons, e, upTo]

theorem parts_blocks {α : Type} {k : String} {f : α → Part} {l : List α}
    (h : ∀ x ∈ l, Block k (f x)) : parts k (l.flatMap f) = l.map f := by
  induction l with
  | nil => rfl
  | cons x l ih =>
    obtain ⟨v, r, ks, e, h1, h2⟩ := h x (by simp)
    have hl : ∀ y ∈ l, Block k (f y) := fun y hy => h y (by simp [hy])
    rw [List.flatMap_cons, List.map_cons, e, List.cons_append, parts, if_pos rfl,
      upTo_append h1 h2, upTo_blocks hl, parts_append h1 h2, ih hl, List.append_nil]

theorem block_photo (p : Photo) : Block "IMAGE" (photoEnts p) :=
  ⟨_, _, _, rfl, keys_photoRest p, by decide⟩

theorem block_plane (p : Plane) : Block "PLANE" (planeEnts p) :=
  ⟨_, _, _, rfl, keys_planeRest p, by decide⟩

theorem keys_planes (m : Map) : Keys ("PLANE" :: planeKeys) (mapPlanes m) :=
  .flatMap fun p _ => .cons (by simp) ((keys_planeRest p).mono fun _ h => by simp [h])

theorem block_map (m : Map) : Block "MAP" (mapEnts m) :=
  ⟨_, mapRest m ++ mapPlanes m, headKeys ++ ("PLANE" :: planeKeys), rfl,
    .append ((keys_mapRest m).mono fun _ h => List.mem_append.mpr (.inl h))
      ((keys_planes m).mono fun _ h => List.mem_append.mpr (.inr h)), by decide⟩

theorem keys_head (m : Map) : Keys ("MAP" :: headKeys) (mapHead m) :=
  .cons (by simp) ((keys_mapRest m).mono fun _ h => by simp [h])

theorem upTo_map (m : Map) : upTo "PLANE" (mapEnts m) = mapHead m := by
  rw [mapEnts, upTo_append (keys_head m) (by decide), mapPlanes, upTo_blocks fun p _ => block_plane p,
    List.append_nil]

theorem parts_map (m : Map) : parts "PLANE" (mapEnts m) = (m.plane :: m.more).map planeEnts := by
  rw [mapEnts, parts_append (keys_head m) (by decide), mapPlanes, parts_blocks fun p _ => block_plane p]

theorem parts_maps (m : Map) (ms : List Map) :
    parts "MAP" (fileEnts (.maps m ms)) = (m :: ms).map mapEnts :=
  parts_blocks fun x _ => block_map x

theorem parts_user (i : Intervals) (r : Range) (n : Nibble) :
    parts "MAP" (fileEnts (.user i r n)) = [] := by
  have := parts_append (k := "MAP") (b := []) (ks := intervalKeys ++ (rangeKeys ++ nibbleKeys))
    (a := fileEnts (.user i r n)) (.append ((keys_intervals i).mono fun _ h => by simp [h])
      (.append ((keys_range _ r).mono fun _ h => by simp [h]) ((keys_nibble n).mono fun _ h => by simp [h])))
    (by decide)
  rw [List.append_nil] at this
  exact this

theorem parts_photos (n : Option (List Char)) (r : Range) (p : Photo) (ps : List Photo) :
    parts "IMAGE" (planeEnts ⟨n, r, .photos p ps⟩) = (p :: ps).map photoEnts := by
  have e : planeEnts ⟨n, r, .photos p ps⟩ =
      ("PLANE", planeVal ⟨n, r, .photos p ps⟩) :: rangeEnts [] r ++ (p :: ps).flatMap photoEnts := rfl
  rw [e, parts_append (ks := "PLANE" :: rangeKeys) (.cons (by simp)
    ((keys_range _ r).mono fun _ h => by simp [h])) (by decide),
    parts_blocks fun x _ => block_photo x]

end MaRC.InputMeaning
