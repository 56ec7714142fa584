import Verif.Lemmas.InputMeaning

/-! # Entries of the trees of input files -/

namespace MaRC.InputMeaning

open MaRC.Calc (Tok)
open MaRC.Scan (Token kw)
open MaRC.Grammar
open MaRC.Parser (Averaging Hemisphere Side)

/-! ## Entries -/

/-- An entry that may be left out. -/
def optEnt (k : String) : Option (List Token) → Part
  | none => []
  | some v => [(k, v)]

def ptEnts (kLat kLon : String) : Point → Part
  | .latLon a b => [(kLat, a.yield), (kLon, b.yield)]
  | .lonLat b a => [(kLon, b.yield), (kLat, a.yield)]

def pairEnts (kA kB : String) : Pair → Part
  | .fst a b => [(kA, a.yield), (kB, b.yield)]
  | .snd b a => [(kB, b.yield), (kA, a.yield)]

def radiiEnts : Radii → Part
  | .eqPol e p => [("EQ_RAD", e.yield), ("POL_RAD", p.yield)]
  | .polEq p e => [("POL_RAD", p.yield), ("EQ_RAD", e.yield)]
  | .eqFlat e f => [("EQ_RAD", e.yield), ("FLATTENING", f.yield)]
  | .flatEq f e => [("FLATTENING", f.yield), ("EQ_RAD", e.yield)]
  | .polFlat p f => [("POL_RAD", p.yield), ("FLATTENING", f.yield)]
  | .flatPol f p => [("FLATTENING", f.yield), ("POL_RAD", p.yield)]

def intervalsEnts : Intervals → Part
  | .both x => [("GRID_INTERVAL", x.yield)]
  | .lat x => [("LAT_GRID_INTERVAL", x.yield)]
  | .lon y => [("LON_GRID_INTERVAL", y.yield)]
  | .latLon x y => [("LAT_GRID_INTERVAL", x.yield), ("LON_GRID_INTERVAL", y.yield)]
  | .lonLat y x => [("LON_GRID_INTERVAL", y.yield), ("LAT_GRID_INTERVAL", x.yield)]

/-- `YES` or `NO`. -/
def yesWord (b : Bool) : List Token := [kw (if b then "YES" else "NO")]

def gridEnts : Grid → Part
  | .absent => []
  | .plain b => [("GRID", yesWord b)]
  | .intervals b i => ("GRID", yesWord b) :: intervalsEnts i

/-- Entries of a data range, the last of which is followed by `ws`. -/
def rangeEnts (ws : List Token) : Range → Part
  | .empty => []
  | .min a => [("DATA_MIN", a.yield ++ ws)]
  | .max b => [("DATA_MAX", b.yield ++ ws)]
  | .minMax a b => [("DATA_MIN", a.yield), ("DATA_MAX", b.yield ++ ws)]
  | .maxMin b a => [("DATA_MAX", b.yield), ("DATA_MIN", a.yield ++ ws)]

def avgWord : Averaging → String
  | .none => "NONE"
  | .unweighted => "UNWEIGHTED"
  | .weighted => "WEIGHTED"

/-- `OPTIONS` with the averaging, followed by `ws`. -/
def optsEnts (a : Option Averaging) (ws : List Token) : Part :=
  match a with
  | none => [("OPTIONS", ws)]
  | some a => [("OPTIONS", []), ("AVERAGING", kw (avgWord a) :: ws)]

def centersEnts : Centers → Part
  | .pixel p => pairEnts "SAMPLE_CENTER" "LINE_CENTER" p
  | .latLon p => ptEnts "LAT_AT_CENTER" "LON_AT_CENTER" p

def turnVal (t : Turn) : List Token :=
  t.x.yield ++ (match t.cw with | none => [] | some true => [kw "CW"] | some false => [kw "CCW"])

def subEnts (s : Point) : Part := ptEnts "SUB_OBSERV_LAT" "SUB_OBSERV_LON" s

def sunEnts (s : Point) : Part := ptEnts "SUB_SOLAR_LAT" "SUB_SOLAR_LON" s

def orthoEnts (o : OrthoOpts) : Part :=
  (o.parts.1.elim [] subEnts ++ optEnt "POSITION_ANGLE" (o.parts.2.1.map turnVal)) ++
    (optEnt "KM_PER_PIXEL" (o.parts.2.2.1.map Operand.yield) ++ o.parts.2.2.2.elim [] centersEnts)

def latRangeEnts : LatRange → Part
  | .loHi a b => [("LO_LAT", a.yield), ("HI_LAT", b.yield)]
  | .hiLo b a => [("HI_LAT", b.yield), ("LO_LAT", a.yield)]

def lonRangeEnts : LonRange → Part
  | .loHi a b => [("LO_LON", a.yield), ("HI_LON", b.yield)]
  | .hiLo b a => [("HI_LON", b.yield), ("LO_LON", a.yield)]

def rangesEnts : Ranges → Part
  | .empty => []
  | .lat a => latRangeEnts a
  | .lon b => lonRangeEnts b
  | .latLon a b => latRangeEnts a ++ lonRangeEnts b
  | .lonLat b a => lonRangeEnts b ++ latRangeEnts a

def graphicWord (b : Bool) : Token := kw (if b then "GRAPHIC" else "CENTRIC")

/-- What a bare latitude type adds to the entry before it. -/
def LatTypeBare : LatType → List Token
  | .bare b => [graphicWord b]
  | _ => []

def latTypeEnts : LatType → Part
  | .typed b => [("LATITUDE_TYPE", [graphicWord b])]
  | _ => []

def projOpts : Projection → Part
  | .mercator none => []
  | .mercator (some a) => optsEnts a []
  | .ortho none => []
  | .ortho (some (a, o)) => optsEnts a [] ++ orthoEnts o
  | .polar none => []
  | .polar (some (a, north, m)) => optsEnts a [] ++
      ("POLE", [kw (if north then "N" else "S")]) :: optEnt "MAX_LAT" (m.map Lat.yield)
  | .simple none => []
  | .simple (some (a, t, r)) => optsEnts a (LatTypeBare t) ++ (latTypeEnts t ++ rangesEnts r)

def projEnts (p : Projection) : Part := ("MAP_TYPE", [kw p.name]) :: projOpts p

def sidesEnts (kA kB : String) : Sides → Part
  | .fst a => [(kA, [.ex (.num a)])]
  | .snd b => [(kB, [.ex (.num b)])]
  | .fstSnd a b => [(kA, [.ex (.num a)]), (kB, [.ex (.num b)])]
  | .sndFst b a => [(kB, [.ex (.num b)]), (kA, [.ex (.num a)])]

def samplesEnts (s : Sides) : Part := sidesEnts "NIBBLE_LEFT" "NIBBLE_RIGHT" s

def linesEnts (s : Sides) : Part := sidesEnts "NIBBLE_TOP" "NIBBLE_BOTTOM" s

def nibbleEnts : Nibble → Part
  | .empty => []
  | .all n => [("NIBBLE", [.ex (.num n)])]
  | .samples s => samplesEnts s
  | .lines l => linesEnts l
  | .samplesLines s l => samplesEnts s ++ linesEnts l
  | .linesSamples l s => linesEnts l ++ samplesEnts s

def invertWord : Inversion → String
  | .vertical => "VERTICAL"
  | .horizontal => "HORIZONTAL"
  | .both => "BOTH"

def minnaertVal : Minnaert → Option (List Token)
  | .empty => none
  | .exponent x => some x.yield
  | .auto => some [kw "AUTO"]
  | .table => some [kw "TABLE"]

def distVal (d : Distance) : List Token :=
  d.x.yield ++ (match d.au with | none => [] | some false => [kw "KM"] | some true => [kw "AU"])

def scaleEnts : Scale → Part
  | .km x => [("KM_PER_PIXEL", x.yield)]
  | .arcsec x => [("ARCSEC_PER_PIX", x.yield)]
  | .lens p => pairEnts "FOCAL_LENGTH" "PIXEL_SCALE" p

/-- The entries of a photo after its file. -/
def photoRest (p : Photo) : Part :=
  nibbleEnts p.nibble ++ (optEnt "INVERT" (p.invert.map fun i => [kw (invertWord i)]) ++
    (optEnt "INTERPOLATE" (p.interpolate.map yesWord) ++
    (optEnt "REMOVE_SKY" (p.removeSky.map yesWord) ++ (centersEnts p.centers ++
    (p.axis.elim [] (pairEnts "SAMPLE_OA" "LINE_OA") ++
    (optEnt "FLAT_FIELD" (p.flatField.map fun s => [.str s]) ++
    (optEnt "MINNAERT" (minnaertVal p.minnaert) ++
    (optEnt "GEOM_CORRECT" (p.geomCorrect.map yesWord) ++
    (optEnt "EMI_ANG_LIMIT" (p.emiAngLimit.map Operand.yield) ++
    (optEnt "TERMINATOR" (p.terminator.map yesWord) ++ (subEnts p.subObserv ++
    (("POSITION_ANGLE", turnVal p.turn) :: (sunEnts p.subSolar ++
    (("RANGE", distVal p.distance) :: scaleEnts p.scale))))))))))))))

def photoEnts (p : Photo) : Part := ("IMAGE", [.str p.file]) :: photoRest p

/-- What a plane's type adds to the entry before it. -/
def bareType : PlaneType → List Token
  | .longitude => [kw "LONGITUDE"]
  | _ => []

def typeEnts : PlaneType → Part
  | .photos p ps => (p :: ps).flatMap photoEnts
  | .mu s d => ("MU", []) :: (subEnts s ++ [("RANGE", distVal d)])
  | .muFull s d u => ("MU", []) :: (subEnts s ++ ("RANGE", distVal d) :: sunEnts u)
  | .mu0 u => ("MU0", []) :: sunEnts u
  | .mu0Full s d u => ("MU0", []) :: (subEnts s ++ ("RANGE", distVal d) :: sunEnts u)
  | .phase s d u => ("PHASE", []) :: (subEnts s ++ ("RANGE", distVal d) :: sunEnts u)
  | .latitude t => ("LATITUDE", LatTypeBare t) :: latTypeEnts t
  | .longitude => []

def numVal (n : Option (List Char)) : List Token :=
  match n with
  | none => []
  | some n => [.ex (.num n)]

/-- The value of `PLANE`. -/
def planeVal (p : Plane) : List Token :=
  numVal p.number ++ (match p.range with | .empty => bareType p.type | _ => [])

/-- The entries of a plane after `PLANE`. -/
def planeRest (p : Plane) : Part := rangeEnts (bareType p.type) p.range ++ typeEnts p.type

def planeEnts (p : Plane) : Part := ("PLANE", planeVal p) :: planeRest p

/-- The entries of a map after its file and before its planes. -/
def mapRest (m : Map) : Part :=
  optEnt "AUTHOR" (m.author.map fun s => [.str s]) ++
    (optEnt "ORIGIN" (m.origin.map fun s => [.str s]) ++
    ((m.comments.map fun s => ("COMMENT", [.str s])) ++
    ((m.xcomments.map fun s => ("XCOMMENT", [.str s])) ++
    (("BODY", [.str m.body]) :: (radiiEnts m.radii ++
    (("ROTATION", [kw (if m.prograde then "PROGRADE" else "RETROGRADE")]) ::
    (optEnt "DATA_OFFSET" (m.offset.map Operand.yield) ++
    (optEnt "DATA_SCALE" (m.scale.map Operand.yield) ++
    (optEnt "DATA_TYPE" (m.type.map fun t => [t.token]) ++
    (optEnt "DATA_BLANK" (m.blank.map fun s => [.ex (.num s)]) ++ (gridEnts m.grid ++
    (projEnts m.proj ++ (optEnt "PLANES" (m.planes.map fun s => [.ex (.num s)]) ++
    (("SAMPLES", [.ex (.num m.samples)]) :: [("LINES", [.ex (.num m.lines)])]))))))))))))))

def mapHead (m : Map) : Part := ("MAP", [.str m.file]) :: mapRest m

def mapPlanes (m : Map) : Part := (m.plane :: m.more).flatMap planeEnts

def mapEnts (m : Map) : Part := mapHead m ++ mapPlanes m

def fileEnts : File → Part
  | .maps m ms => (m :: ms).flatMap mapEnts
  | .user i r n => intervalsEnts i ++ (rangeEnts [] r ++ nibbleEnts n)

/-! ## Tokens and entries -/

theorem Seg.optEnt {k : String} {o : Option (List Token)} {ts : List Token}
    (h : ts = match o with | none => [] | some v => Grammar.key k v)
    (hp : ∀ v, o = some v → Plain v) : Seg ts (optEnt k o) := by
  subst h
  cases o with
  | none => exact .nil
  | some v => exact .key (hp v rfl)

theorem seg_optStr (k : String) (o : Option (List Char)) :
    Seg (optStr k o) (optEnt k (o.map fun s => [.str s])) :=
  .optEnt (by cases o <;> rfl) (by cases o <;> simp [Plain])

theorem seg_optNum (k : String) (o : Option (List Char)) :
    Seg (optNum k o) (optEnt k (o.map fun s => [.ex (.num s)])) :=
  .optEnt (by cases o <;> rfl) (by cases o <;> simp [Plain])

theorem seg_optYes (k : String) (o : Option Bool) :
    Seg (optYes k o) (optEnt k (o.map yesWord)) :=
  .optEnt (by cases o <;> rfl) (by cases o <;> simp [Plain, yesWord, kw])

theorem seg_optExpr (k : String) (o : Option Operand) :
    Seg (optExpr k o) (optEnt k (o.map Operand.yield)) :=
  .optEnt (by cases o <;> rfl) (by cases o <;> simp [plain_op])

theorem Seg.one {k : String} {v : List Token} (h : Plain v) : Seg (Grammar.key k v) [(k, v)] :=
  .key h

theorem Seg.two {k l : String} {v w : List Token} (h : Plain v) (h' : Plain w) :
    Seg (Grammar.key k v ++ Grammar.key l w) [(k, v), (l, w)] := (Seg.key h).append (.key h')

theorem seg_point (kA kB : String) (p : Point) : Seg (p.yield kA kB) (ptEnts kA kB p) := by
  cases p
  · exact .two (plain_lat _) (plain_lon _)
  · exact .two (plain_lon _) (plain_lat _)

theorem seg_pair (kA kB : String) (p : Pair) : Seg (p.yield kA kB) (pairEnts kA kB p) := by
  cases p <;> exact .two (plain_op _) (plain_op _)

theorem seg_radii (p : Radii) : Seg p.yield (radiiEnts p) := by
  cases p <;> exact .two (plain_op _) (plain_op _)

theorem seg_intervals (i : Intervals) : Seg i.yield (intervalsEnts i) := by
  cases i
  · exact .one (plain_op _)
  · exact .one (plain_op _)
  · exact .one (plain_op _)
  · exact .two (plain_op _) (plain_op _)
  · exact .two (plain_op _) (plain_op _)

theorem seg_grid (g : Grid) : Seg g.yield (gridEnts g) := by
  cases g with
  | absent => exact .nil
  | plain b => exact .one (plain_kw _)
  | intervals b i => exact (Seg.key (plain_kw _)).append (seg_intervals i)

theorem seg_range (ws : List Token) (hw : Plain ws) (r : Range) (hr : r ≠ .empty) :
    Seg (r.yield ++ ws) (rangeEnts ws r) := by
  have h : ∀ k (x : Operand), Seg (Grammar.key k x.yield ++ ws) [(k, x.yield ++ ws)] := by
    intro k x
    have := Seg.key (k := k) ((plain_op x).append hw)
    simpa [Grammar.key] using this
  cases r with
  | empty => exact absurd rfl hr
  | min a => exact h _ a
  | max b => exact h _ b
  | minMax a b =>
    rw [Range.yield, List.append_assoc]
    exact (Seg.key (plain_op a)).append (h _ b)
  | maxMin b a =>
    rw [Range.yield, List.append_assoc]
    exact (Seg.key (plain_op b)).append (h _ a)

theorem seg_range_nil (r : Range) : Seg r.yield (rangeEnts [] r) := by
  by_cases h : r = .empty
  · subst h; exact .nil
  · simpa using seg_range [] plain_nil r h

theorem seg_opts (a : Option Averaging) (ws : List Token) (hw : Plain ws) :
    Seg (options a ws) (optsEnts a ws) := by
  cases a with
  | none => exact .key hw
  | some a =>
    have : options (some a) ws = Grammar.key "OPTIONS" [] ++
        Grammar.key "AVERAGING" (kw (avgWord a) :: ws) := by cases a <;> rfl
    rw [this]
    refine .two plain_nil ?_
    exact Plain.append (plain_kw _) hw

theorem options_append (a : Option Averaging) (t u : List Token) :
    options a (t ++ u) = options a t ++ u := by
  simp [options, Grammar.key]

theorem seg_centers (c : Centers) : Seg c.yield (centersEnts c) := by
  cases c
  · exact seg_pair _ _ _
  · exact seg_point _ _ _

theorem plain_turn (t : Turn) : Plain (turnVal t) := by
  refine (plain_op _).append ?_
  rcases t.cw with _ | _ | _ <;> simp [Plain, kw]

theorem seg_turn (t : Turn) : Seg t.yield [("POSITION_ANGLE", turnVal t)] := by
  have : t.yield = Grammar.key "POSITION_ANGLE" (turnVal t) := by
    rcases t with ⟨x, _ | _ | _⟩ <;> rfl
  rw [this]
  exact .key (plain_turn t)

theorem plain_dist (d : Distance) : Plain (distVal d) := by
  refine (plain_op _).append ?_
  rcases d.au with _ | _ | _ <;> simp [Plain, kw]

theorem seg_dist (d : Distance) : Seg d.yield [("RANGE", distVal d)] := by
  have : d.yield = Grammar.key "RANGE" (distVal d) := by
    rcases d with ⟨x, _ | _ | _⟩ <;> rfl
  rw [this]
  exact .key (plain_dist d)

theorem seg_sub (s : Point) : Seg (subObserv s) (subEnts s) := seg_point _ _ _

theorem seg_sun (s : Point) : Seg (subSolar s) (sunEnts s) := seg_point _ _ _

theorem seg_ortho (o : OrthoOpts) : Seg o.yield (orthoEnts o) := by
  have hkm : ∀ x : Operand, Seg (Grammar.key "KM_PER_PIXEL" x.yield) [("KM_PER_PIXEL", x.yield)] :=
    fun x => .key (plain_op x)
  cases o with
  | empty => exact .nil
  | sub s => simpa [orthoEnts, OrthoOpts.parts, InputMeaning.optEnt, OrthoOpts.yield] using seg_sub s
  | turn t => simpa [orthoEnts, OrthoOpts.parts, InputMeaning.optEnt, OrthoOpts.yield] using seg_turn t
  | km x => simpa [orthoEnts, OrthoOpts.parts, InputMeaning.optEnt, OrthoOpts.yield] using hkm x
  | centers c => simpa [orthoEnts, OrthoOpts.parts, InputMeaning.optEnt, OrthoOpts.yield] using seg_centers c
  | subTurn s t =>
    simpa [orthoEnts, OrthoOpts.parts, InputMeaning.optEnt, OrthoOpts.yield] using (seg_sub s).append (seg_turn t)
  | subTurnKm s t x =>
    simpa [orthoEnts, OrthoOpts.parts, InputMeaning.optEnt, OrthoOpts.yield] using
      (seg_sub s).append ((seg_turn t).append (hkm x))
  | subTurnKmCenters s t x c =>
    simpa [orthoEnts, OrthoOpts.parts, InputMeaning.optEnt, OrthoOpts.yield] using
      (seg_sub s).append ((seg_turn t).append ((hkm x).append (seg_centers c)))

theorem seg_latRange (r : LatRange) : Seg r.yield (latRangeEnts r) := by
  cases r <;> exact .two (plain_lat _) (plain_lat _)

theorem seg_lonRange (r : LonRange) : Seg r.yield (lonRangeEnts r) := by
  cases r <;> exact .two (plain_lon _) (plain_lon _)

theorem seg_ranges (r : Ranges) : Seg r.yield (rangesEnts r) := by
  cases r with
  | empty => exact .nil
  | lat a => exact seg_latRange a
  | lon b => exact seg_lonRange b
  | latLon a b => exact (seg_latRange a).append (seg_lonRange b)
  | lonLat b a => exact (seg_lonRange b).append (seg_latRange a)

theorem seg_projOpts (p : Projection) : Seg p.opts (projOpts p) := by
  rcases p with (_ | a) | (_ | ⟨a, o⟩) | (_ | ⟨a, north, m⟩) | (_ | ⟨a, t, r⟩)
  · exact .nil
  · exact seg_opts a [] plain_nil
  · exact .nil
  · have := options_append a [] o.yield
    rw [List.nil_append] at this
    simp only [Projection.opts, this]
    exact (seg_opts a [] plain_nil).append (seg_ortho o)
  · exact .nil
  · have := options_append a [] (pole north ++ maxLatitude m)
    rw [List.nil_append] at this
    simp only [Projection.opts, this]
    refine (seg_opts a [] plain_nil).append ((Seg.key (plain_kw _)).append (.optEnt ?_ ?_))
    · cases m <;> rfl
    · cases m <;> simp [plain_lat]
  · exact .nil
  · simp only [Projection.opts, projOpts]
    cases t with
    | empty =>
      have := options_append a [] r.yield
      rw [List.nil_append] at this
      simp only [LatType.yield, List.nil_append, this]
      exact (seg_opts a [] plain_nil).append (seg_ranges r)
    | typed b =>
      have := options_append a [] ((LatType.typed b).yield ++ r.yield)
      rw [List.nil_append] at this
      rw [this]
      exact (seg_opts a [] plain_nil).append ((Seg.key (plain_kw _)).append (seg_ranges r))
    | bare b =>
      rw [options_append]
      exact (seg_opts a _ (plain_kw _)).append (seg_ranges r)

theorem seg_proj (p : Projection) : Seg p.yield (projEnts p) := by
  have : p.yield = Grammar.key "MAP_TYPE" [kw p.name] ++ p.opts := rfl
  rw [this]
  exact (Seg.key (plain_kw _)).append (seg_projOpts p)

theorem plain_num (s : List Char) : Plain [.ex (.num s)] := by simp [Plain]

theorem plain_str (s : List Char) : Plain [.str s] := by simp [Plain]

theorem seg_sides (kA kB : String) (s : Sides) : Seg (s.yield kA kB) (sidesEnts kA kB s) := by
  cases s
  · exact .one (plain_num _)
  · exact .one (plain_num _)
  · exact .two (plain_num _) (plain_num _)
  · exact .two (plain_num _) (plain_num _)

theorem seg_nibble (n : Nibble) : Seg n.yield (nibbleEnts n) := by
  cases n with
  | empty => exact .nil
  | all n => exact .one (plain_num _)
  | samples s => exact seg_sides _ _ s
  | lines s => exact seg_sides _ _ s
  | samplesLines s l => exact (seg_sides _ _ s).append (seg_sides _ _ l)
  | linesSamples l s => exact (seg_sides _ _ l).append (seg_sides _ _ s)

theorem seg_scale (s : Scale) : Seg s.yield (scaleEnts s) := by
  cases s with
  | km x => exact .one (plain_op _)
  | arcsec x => exact .one (plain_op _)
  | lens p => exact seg_pair _ _ p

theorem seg_photo (p : Photo) : Seg p.yield (photoEnts p) := by
  refine (Seg.key (plain_str p.file)).append ((seg_nibble _).append (Seg.append ?_
    ((seg_optYes _ _).append ((seg_optYes _ _).append ((seg_centers _).append (Seg.append ?_
    ((seg_optStr _ _).append (Seg.append ?_ ((seg_optYes _ _).append ((seg_optExpr _ _).append
    ((seg_optYes _ _).append ((seg_sub _).append ((seg_turn _).append ((seg_sun _).append
    ((seg_dist _).append (seg_scale _))))))))))))))))
  · refine .optEnt ?_ ?_
    · rcases p.invert with _ | _ | _ | _ <;> rfl
    · rcases p.invert with _ | i <;> simp [plain_kw]
  · rcases p.axis with _ | a
    · exact .nil
    · exact seg_pair _ _ a
  · refine .optEnt ?_ ?_
    · cases p.minnaert <;> rfl
    · cases p.minnaert <;> simp [minnaertVal, plain_kw, plain_op]

theorem seg_type (t : PlaneType) (h : t ≠ .longitude) : Seg t.yield (typeEnts t) := by
  have hk : ∀ k (ts : List Token), Grammar.key k ts = Grammar.key k [] ++ ts := fun _ _ => rfl
  cases t with
  | photos p ps => exact Seg.flatMap (p :: ps) fun x _ => seg_photo x
  | mu s d =>
    rw [PlaneType.yield, hk]
    exact (Seg.key plain_nil).append ((seg_sub s).append (seg_dist d))
  | muFull s d u =>
    rw [PlaneType.yield, hk]
    exact (Seg.key plain_nil).append ((seg_sub s).append ((seg_dist d).append (seg_sun u)))
  | mu0 u =>
    rw [PlaneType.yield, hk]
    exact (Seg.key plain_nil).append (seg_sun u)
  | mu0Full s d u =>
    rw [PlaneType.yield, hk]
    exact (Seg.key plain_nil).append ((seg_sub s).append ((seg_dist d).append (seg_sun u)))
  | phase s d u =>
    rw [PlaneType.yield, hk]
    exact (Seg.key plain_nil).append ((seg_sub s).append ((seg_dist d).append (seg_sun u)))
  | latitude t =>
    cases t with
    | empty => exact .key plain_nil
    | bare b => exact .key (plain_kw _)
    | typed b => exact .two plain_nil (plain_kw _)
  | longitude => exact absurd rfl h

theorem plain_numVal (n : Option (List Char)) : Plain (numVal n) := by
  cases n
  · exact plain_nil
  · exact plain_num _

theorem seg_plane (p : Plane) : Seg p.yield (planeEnts p) := by
  obtain ⟨n, r, t⟩ := p
  have e : (Plane.mk n r t).yield = Grammar.key "PLANE" (numVal n ++ (r.yield ++ t.yield)) := rfl
  have hk : ∀ u v : List Token, Grammar.key "PLANE" (u ++ v) = Grammar.key "PLANE" u ++ v :=
    fun _ _ => rfl
  rw [e]
  by_cases ht : t = .longitude
  · subst ht
    have hl : Plain [kw "LONGITUDE"] := plain_kw _
    by_cases hr : r = .empty
    · subst hr
      have := Seg.key (k := "PLANE") ((plain_numVal n).append hl)
      simpa [planeEnts, planeRest, planeVal, rangeEnts, typeEnts, bareType, Range.yield,
        PlaneType.yield] using this
    · have h1 : planeVal ⟨n, r, .longitude⟩ = numVal n := by
        cases r <;> first | exact absurd rfl hr | simp [planeVal]
      have h2 := seg_range _ hl r hr
      rw [hk]
      have := (Seg.key (k := "PLANE") (plain_numVal n)).append h2
      simpa [planeEnts, h1, planeRest, typeEnts, bareType, PlaneType.yield] using this
  · have hb : bareType t = [] := by cases t <;> first | rfl | exact absurd rfl ht
    have h1 : planeVal ⟨n, r, t⟩ = numVal n := by
      cases r <;> simp [planeVal, hb]
    rw [hk]
    have := (Seg.key (k := "PLANE") (plain_numVal n)).append
      ((seg_range_nil r).append (seg_type t ht))
    simpa [planeEnts, h1, planeRest, hb] using this

theorem seg_map (m : Map) : Seg m.yield (mapEnts m) := by
  have key : Seg m.yield (("MAP", [.str m.file]) :: (optEnt "AUTHOR" (m.author.map fun s => [.str s]) ++
    (optEnt "ORIGIN" (m.origin.map fun s => [.str s]) ++
    ((m.comments.flatMap fun s => [("COMMENT", [.str s])]) ++
    ((m.xcomments.flatMap fun s => [("XCOMMENT", [.str s])]) ++
    (("BODY", [.str m.body]) :: (radiiEnts m.radii ++
    (("ROTATION", [kw (if m.prograde then "PROGRADE" else "RETROGRADE")]) ::
    (optEnt "DATA_OFFSET" (m.offset.map Operand.yield) ++
    (optEnt "DATA_SCALE" (m.scale.map Operand.yield) ++
    (optEnt "DATA_TYPE" (m.type.map fun t => [t.token]) ++
    (optEnt "DATA_BLANK" (m.blank.map fun s => [.ex (.num s)]) ++ (gridEnts m.grid ++
    (projEnts m.proj ++ (optEnt "PLANES" (m.planes.map fun s => [.ex (.num s)]) ++
    (("SAMPLES", [.ex (.num m.samples)]) :: ("LINES", [.ex (.num m.lines)]) ::
    mapPlanes m)))))))))))))))) := by
    refine (Seg.key (plain_str m.file)).append ((seg_optStr _ _).append ((seg_optStr _ _).append
      ((Seg.flatMap _ fun s _ => .key (plain_str s)).append
      ((Seg.flatMap _ fun s _ => .key (plain_str s)).append ((Seg.key (plain_str m.body)).append
      ((seg_radii _).append ((Seg.key (plain_kw _)).append ((seg_optExpr _ _).append
      ((seg_optExpr _ _).append (Seg.append (.optEnt ?_ ?_) ((seg_optNum _ _).append
      ((seg_grid _).append ((seg_proj _).append ((seg_optNum _ _).append
      ((Seg.key (plain_num _)).append ((Seg.key (plain_num _)).append
      (Seg.flatMap (m.plane :: m.more) fun p _ => seg_plane p)))))))))))))))))
    · cases m.type <;> rfl
    · rcases m.type with _ | t
      · simp
      · cases t <;> simp [DataType.token, plain_kw]
  have e : ∀ (k : String) (l : List (List Char)),
      (l.flatMap fun s => [(k, [Token.str s])]) = l.map fun s => (k, [Token.str s]) := by
    intro k l; induction l <;> simp_all
  rw [e, e] at key
  simpa [mapEnts, mapHead, mapRest] using key

theorem seg_file (f : File) : Seg f.yield (fileEnts f) := by
  cases f with
  | maps m ms => exact Seg.flatMap (m :: ms) fun x _ => seg_map x
  | user i r n => exact (seg_intervals i).append ((seg_range_nil r).append (seg_nibble n))

end MaRC.InputMeaning
