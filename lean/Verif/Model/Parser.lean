import Verif.Model.Num
import Verif.Model.Calc

/-!
# Input file settings

Models the semantic actions of `src/parse.yy` for numbers, angles, radii, data
ranges, grids, projections and planes, with the file-scope variables they
share, and `src/parse_scan.cpp`.  Syntax is not modelled here: a clause of the
input file is given by its parsed operands (see `Calc` for expressions).
`none` stands for `YYERROR`.
-/

namespace MaRC.Parser

/-! ## Radii -/

/-- `Radii` (`src/parse_scan.h` 142-170). -/
structure Radii where
  eqRad : Dbl
  polRad : Dbl
  flattening : Dbl
  deriving DecidableEq, Repr

/-- Number of valid characteristics (`src/parse_scan.cpp` 45-64). -/
def Radii.count (r : Radii) : ℕ :=
  (if Dbl.gt r.eqRad (.fin 0) then 1 else 0) + (if Dbl.gt r.polRad (.fin 0) then 1 else 0) +
    (if Dbl.ge r.flattening (.fin 0) && Dbl.lt r.flattening (.fin 1) then 1 else 0)

/-- Fill in the missing radius (`src/parse_scan.cpp` 82-86). -/
def Radii.fill (F : Fp) (r : Radii) : Radii :=
  if Dbl.lt r.eqRad (.fin 0) then
    { r with eqRad := F.div r.polRad (F.sub (.fin 1) r.flattening) }
  else if Dbl.lt r.polRad (.fin 0) then
    { r with polRad := F.mul r.eqRad (F.sub (.fin 1) r.flattening) }
  else r

/-- `Radii::validate` (`src/parse_scan.cpp` 42-97). -/
def Radii.validate (F : Fp) (r : Radii) : Outcome Radii :=
  if r.count < 2 then .throw .invalidArgument
  else
    let r := r.fill F
    if Dbl.lt r.eqRad r.polRad then .throw .invalidArgument else .ok r

/-- The `radii` clause (`src/parse.yy` 901-937): two of the three
characteristics, in either order. -/
inductive RadiiClause where
  | eqPol (e p : Dbl)
  | eqFlat (e f : Dbl)
  | polFlat (p f : Dbl)

/-- The values the clause stores; the missing one is -1. -/
def RadiiClause.radii : RadiiClause → Radii
  | .eqPol e p => ⟨e, p, .fin (-1)⟩
  | .eqFlat e f => ⟨e, .fin (-1), f⟩
  | .polFlat p f => ⟨.fin (-1), p, f⟩

/-! ## Angles -/

/-- `std::fmod(angle, 360)`: exact for finite operands, NaN for an infinity. -/
def fmod360 : Dbl → Dbl
  | .fin q => .fin (q - 360 * truncQ (q / 360))
  | _ => .nan

/-- `circle_angle` (`src/parse.yy` 104-117). -/
def circleAngle (F : Fp) (angle : Dbl) : Dbl :=
  let angle := fmod360 angle
  if Dbl.ge angle (.fin 0) then angle else F.add angle (.fin 360)

/-- The letter after a longitude. -/
inductive Side where
  | plain | east | west
  deriving DecidableEq, Repr

/-- `longitude` (`src/parse.yy` 2096-2127). -/
def longitude (F : Fp) (prograde : Bool) (side : Side) (x : Dbl) : Option Dbl :=
  if Dbl.gt x.abs (.fin 360) then none
  else
    let c := circleAngle F x
    match side with
    | .plain => some c
    | .east => some (if prograde then F.sub (.fin 360) c else c)
    | .west => some (if prograde then c else F.sub (.fin 360) c)

/-- The letter after a latitude. -/
inductive Hemisphere where
  | plain | north | south
  deriving DecidableEq, Repr

/-- `latitude_sub` (`src/parse.yy` 2069-2094). -/
def latitudeSub (h : Hemisphere) (x : Dbl) : Option Dbl :=
  match h with
  | .plain => if Dbl.le x.abs (.fin 90) then some x else none
  | .north => if Dbl.ge x (.fin 0) && Dbl.le x (.fin 90) then some x else none
  | .south => if Dbl.ge x (.fin 0) && Dbl.le x (.fin 90) then some x.neg else none

/-- `position_angle` (`src/parse.yy` 1723-1753); `cw` when followed by
`CW`. -/
def positionAngle (F : Fp) (cw : Bool) (x : Dbl) : Option Dbl :=
  if Dbl.gt x.abs (.fin 360) then none
  else some (if cw then F.sub (.fin 360) (circleAngle F x) else circleAngle F x)

/-! ## Integers -/

/-- Value of decimal digits. -/
def digitsVal (ds : List Char) : ℕ :=
  ds.foldl (fun n c => 10 * n + (c.toNat - 48)) 0

/-- The leading digits after the sign. -/
def strtollDigits (s : List Char) : List Char :=
  (s.drop (Calc.signLen s)).takeWhile Char.isDigit

/-- The value `strtoll(s, &end, 10)` reads: the sign and the leading digits;
what follows them is ignored.  (The scanner hands over no leading blanks.) -/
def strtoll (s : List Char) : ℤ :=
  if s.head? = some '-' then -(digitsVal (strtollDigits s)) else digitsVal (strtollDigits s)

/-- `integer` (`src/parse.yy` 868-872) with `from_string<long long>`
(232-313): an error when there are no digits or the number does not fit. -/
def integer (s : List Char) : Option ℤ :=
  if strtollDigits s = [] then none
  else if -(2 ^ 63) ≤ strtoll s ∧ strtoll s < 2 ^ 63 then some (strtoll s)
  else none

/-- `SAMPLES` and `LINES` (`src/parse.yy` 847-867). -/
def extent (s : List Char) : Option ℤ :=
  match integer s with
  | some n => if 0 < n then some n else none
  | none => none

/-- Range of the integer map data types by `BITPIX` (`blank_verifier`,
`src/parse.yy` 128-195). -/
def verifyBlank (bitpix blank : ℤ) : Bool :=
  if bitpix = 8 then decide (0 ≤ blank ∧ blank ≤ 255)
  else if bitpix = 16 then decide (-(2 ^ 15) ≤ blank ∧ blank ≤ 2 ^ 15 - 1)
  else if bitpix = 32 then decide (-(2 ^ 31) ≤ blank ∧ blank ≤ 2 ^ 31 - 1)
  else if bitpix = 64 then true
  else false

/-- `data_blank` (`src/parse.yy` 707-742): the value stored.  `bitpix` is what
the data type clause set, zero when there is none, for which
`map_parameters::bitpix()` throws (`src/map_parameters.cpp` 103-111). -/
def dataBlank (bitpix : ℤ) (s : List Char) : Outcome (Option ℤ) :=
  match integer s with
  | none => .ok none
  | some n =>
    if bitpix = 0 then .throw .runtimeError
    else if bitpix < 0 then .throw .invalidArgument
    else .ok (if verifyBlank bitpix n then some n else none)

/-! ## State shared by the actions -/

/-- `OrthographicCenter` as the parser fills it. -/
inductive OrthoCenter where
  | default
  | center (sample line : Dbl)
  | latLon (lat lon : Dbl)
  deriving DecidableEq, Repr

/-- How overlapping images are averaged. -/
inductive Averaging where
  | none | unweighted | weighted
  deriving DecidableEq, Repr

/-- File-scope variables of the parser (`src/parse.yy` 328-385) and the user
defaults in `ParseParameter` (`src/parse_scan.cpp` 19-32).  Only the ones the
modelled actions read are listed. -/
structure Globals where
  latInterval : Dbl
  lonInterval : Dbl
  minimum : Option Dbl
  maximum : Option Dbl
  averaging : Averaging
  numPlanes : ℕ
  expectedPlane : ℕ
  graphicLat : Bool
  maxLat : Dbl
  northPole : Bool
  loLat : Dbl
  hiLat : Dbl
  loLon : Dbl
  hiLon : Dbl
  subLat : Dbl
  subLon : Dbl
  positionAngle : Dbl
  kmPerPixel : Dbl
  orthoCenter : OrthoCenter
  ppLatInterval : Dbl
  ppLonInterval : Dbl
  ppMinimum : Option Dbl
  ppMaximum : Option Dbl
  deriving DecidableEq, Repr

/-- Values at program start: the intervals are file-scope `double`s without an
initializer, hence zero. -/
def Globals.start : Globals where
  latInterval := .fin 0
  lonInterval := .fin 0
  minimum := none
  maximum := none
  averaging := .none
  numPlanes := 0
  expectedPlane := 1
  graphicLat := false
  maxLat := .nan
  northPole := true
  loLat := .fin (-90)
  hiLat := .fin 90
  loLon := .fin 0
  hiLon := .fin 360
  subLat := .fin 0
  subLon := .fin 0
  positionAngle := .fin 0
  kmPerPixel := .fin (-1)
  orthoCenter := .default
  ppLatInterval := .fin 10
  ppLonInterval := .fin 10
  ppMinimum := none
  ppMaximum := none

/-! ## Data ranges -/

/-- The `plane_data_range` clause (`src/parse.yy` 1024-1060). -/
inductive RangeClause where
  | empty
  | min (a : Dbl)
  | max (b : Dbl)
  | minMax (a b : Dbl)
  | maxMin (b a : Dbl)
  deriving DecidableEq, Repr

/-- `plane_data_range` (`src/parse.yy` 1024-1060). -/
def dataRange (c : RangeClause) (g : Globals) : Option Globals :=
  match c with
  | .empty => some g
  | .min a => some { g with minimum := some a }
  | .max b => some { g with maximum := some b }
  | .minMax a b =>
    if Dbl.lt a b then some { g with minimum := some a, maximum := some b } else none
  | .maxMin b a =>
    if Dbl.lt a b then some { g with minimum := some a, maximum := some b } else none

/-! ## Grids -/

/-- The `grid_intervals` clause (`src/parse.yy` 759-765). -/
inductive IntervalClause where
  | both (x : Dbl)
  | lat (x : Dbl)
  | lon (x : Dbl)
  | latLon (x y : Dbl)
  | lonLat (x y : Dbl)
  deriving DecidableEq, Repr

/-- `lat_grid_interval` (`src/parse.yy` 784-795). -/
def latGrid (x : Dbl) (g : Globals) : Outcome Globals :=
  if Dbl.le x (.fin 0) then .throw .invalidArgument else .ok { g with latInterval := x }

/-- `lon_grid_interval` (`src/parse.yy` 797-808). -/
def lonGrid (x : Dbl) (g : Globals) : Outcome Globals :=
  if Dbl.le x (.fin 0) then .throw .invalidArgument else .ok { g with lonInterval := x }

/-- `grid_intervals` (`src/parse.yy` 759-808). -/
def intervals (c : IntervalClause) (g : Globals) : Outcome Globals :=
  match c with
  | .both x =>
    if Dbl.le x (.fin 0) then .throw .invalidArgument
    else .ok { g with latInterval := x, lonInterval := x }
  | .lat x => latGrid x g
  | .lon x => lonGrid x g
  | .latLon x y => (latGrid x g).bind (lonGrid y)
  | .lonLat x y => (lonGrid x g).bind (latGrid y)

/-- The `grid` clause of a map (`src/parse.yy` 744-759). -/
inductive GridClause where
  | absent
  | no
  | yes
  | yesIntervals (c : IntervalClause)
  | noIntervals (c : IntervalClause)
  deriving DecidableEq, Repr

/-- `grid_yes_or_no` with `YES` (`src/parse.yy` 751-757). -/
def gridYes (g : Globals) : Globals :=
  { g with latInterval := g.ppLatInterval, lonInterval := g.ppLonInterval }

/-- `grid`: the variables and the intervals of the grid to draw
(`src/parse.yy` 744-759; `create_grid` is false since `map_entry`, 624). -/
def grid (c : GridClause) (g : Globals) : Outcome (Globals × Bool) :=
  match c with
  | .absent => .ok (g, false)
  | .no => .ok (g, false)
  | .yes => .ok (gridYes g, true)
  | .yesIntervals i => do
    let g ← intervals i (gridYes g)
    .ok (g, true)
  | .noIntervals i => do
    let g ← intervals i g
    .ok (g, false)

/-- `user_file_parse` (`src/parse.yy` 542-555), nibbling left out. -/
def userFile (i : IntervalClause) (r : RangeClause) (g : Globals) : Outcome (Option Globals) := do
  let g ← intervals i g
  match dataRange r g with
  | none => .ok none
  | some g =>
    .ok (some { g with
      ppLatInterval := g.latInterval
      ppLonInterval := g.lonInterval
      ppMinimum := if g.minimum.isNone then g.minimum else g.ppMinimum
      ppMaximum := if g.maximum.isNone then g.maximum else g.ppMaximum })

/-! ## Planes -/

/-- What a plane shows (`plane_type`, `src/parse.yy` 1062-1083): a latitude
plane has a latitude type clause, all others are alike here. -/
inductive PlaneKind where
  | latitude (graphic : Option Bool)
  | other
  deriving DecidableEq, Repr

/-- A plane of the input file: its number if given, its range and its kind. -/
structure PlaneSrc where
  number : Option ℤ
  range : RangeClause
  kind : PlaneKind
  deriving DecidableEq, Repr

/-- What the parser hands on for a plane: the data range given to its image
factory and, for a latitude plane, whether latitudes are planetographic. -/
structure PlaneCmd where
  minimum : Option Dbl
  maximum : Option Dbl
  graphic : Option Bool
  deriving DecidableEq, Repr

/-- `static_cast<std::size_t>` of a `long long`. -/
def toSize (n : ℤ) : ℕ := (n % 2 ^ 64).toNat

/-- `plane_size` (`src/parse.yy` 970-1022). -/
def planeSize (number : Option ℤ) (g : Globals) : Option Globals :=
  match number with
  | none => some { g with minimum := g.ppMinimum, maximum := g.ppMaximum }
  | some n =>
    if g.numPlanes = 0 then none
    else if toSize n = g.expectedPlane then
      if toSize n ≤ g.numPlanes then
        some { g with
          expectedPlane := szAdd g.expectedPlane 1
          minimum := g.ppMinimum
          maximum := g.ppMaximum }
      else none
    else none

/-- `lat_type` (`src/parse.yy` 1903-1913). -/
def latType (c : Option Bool) (g : Globals) : Globals :=
  match c with
  | none => g
  | some b => { g with graphicLat := b }

/-- `plane_type` and the end of `plane_setup` (`src/parse.yy` 955-968,
1374-1381). -/
def planeType (k : PlaneKind) (g : Globals) : Globals × PlaneCmd :=
  match k with
  | .latitude c =>
    let g := latType c g
    (g, ⟨g.minimum, g.maximum, some g.graphicLat⟩)
  | .other => (g, ⟨g.minimum, g.maximum, none⟩)

/-- `plane_setup` (`src/parse.yy` 955-968). -/
def plane (p : PlaneSrc) (g : Globals) : Option (Globals × PlaneCmd) :=
  match planeSize p.number g with
  | none => none
  | some g =>
    match dataRange p.range g with
    | none => none
    | some g => some (planeType p.kind g)

/-- `plane` (`src/parse.yy` 951-953). -/
def planes : List PlaneSrc → Globals → Option (Globals × List PlaneCmd)
  | [], g => some (g, [])
  | p :: ps, g =>
    match plane p g with
    | none => none
    | some (g, c) =>
      match planes ps g with
      | none => none
      | some (g, cs) => some (g, c :: cs)

/-! ## Projections -/

/-- The `projection_type` clause with its options (`src/parse.yy` 810-826,
1596-1963).  The orthographic options are independent here; the grammar
accepts only some combinations. -/
inductive ProjSrc where
  | mercator
  | ortho (sub : Option (Dbl × Dbl)) (pa km : Option Dbl) (center : OrthoCenter)
  | polar (pole : Option Bool) (maxLat : Option Dbl)
  | simple (latType : Option Bool) (lat lon : Option (Dbl × Dbl))
  deriving DecidableEq, Repr

/-- The projection handed to the map command. -/
inductive Proj where
  | mercator
  | ortho (lat lon pa km : Dbl) (center : OrthoCenter)
  | polar (maxLat : Dbl) (north : Bool)
  | simple (loLat hiLat loLon hiLon : Dbl) (graphic : Bool)
  deriving DecidableEq, Repr

/-- `lat_range` (`src/parse.yy` 1923-1950). -/
def latRange (r : Option (Dbl × Dbl)) (g : Globals) : Option Globals :=
  match r with
  | none => some g
  | some (lo, hi) => if Dbl.lt lo hi then some { g with loLat := lo, hiLat := hi } else none

/-- `lon_range` (`src/parse.yy` 1952-1963). -/
def lonRange (r : Option (Dbl × Dbl)) (g : Globals) : Globals :=
  match r with
  | none => g
  | some (lo, hi) => { g with loLon := lo, hiLon := hi }

/-- `simple_c` (`src/parse.yy` 1877-1921). -/
def simpleC (lt : Option Bool) (lat lon : Option (Dbl × Dbl)) (g : Globals) :
    Option (Globals × Proj) :=
  match latRange lat (latType lt g) with
  | none => none
  | some g =>
    let g := lonRange lon g
    some ({ g with
      loLat := .fin (-90), hiLat := .fin 90, loLon := .fin 0, hiLon := .fin 360
      graphicLat := false }, .simple g.loLat g.hiLat g.loLon g.hiLon g.graphicLat)

/-- `p_stereo` (`src/parse.yy` 1856-1875). -/
def polarS (pole : Option Bool) (maxLat : Option Dbl) (g : Globals) : Globals × Proj :=
  let g := match pole with | none => g | some b => { g with northPole := b }
  let g := match maxLat with | none => g | some x => { g with maxLat := x }
  ({ g with maxLat := .nan, northPole := true }, .polar g.maxLat g.northPole)

/-- `km_per_pixel` (`src/parse.yy` 1755-1767). -/
def kmPerPixel (km : Option Dbl) (g : Globals) : Option Globals :=
  match km with
  | none => some g
  | some x => if Dbl.gt x (.fin 0) then some { g with kmPerPixel := x } else none

/-- `ortho` (`src/parse.yy` 1613-1690). -/
def ortho (sub : Option (Dbl × Dbl)) (pa km : Option Dbl) (center : OrthoCenter) (g : Globals) :
    Option (Globals × Proj) :=
  let g := match sub with | none => g | some (a, b) => { g with subLat := a, subLon := b }
  let g := match pa with | none => g | some a => { g with positionAngle := a }
  match kmPerPixel km g with
  | none => none
  | some g =>
    let g := match center with | .default => g | c => { g with orthoCenter := c }
    some ({ g with
      subLat := .fin 0, subLon := .fin 0, kmPerPixel := .fin (-1), positionAngle := .fin 0
      orthoCenter := .default },
      .ortho g.subLat g.subLon g.positionAngle g.kmPerPixel g.orthoCenter)

/-- `projection_type` (`src/parse.yy` 810-826). -/
def projection (p : ProjSrc) (g : Globals) : Option (Globals × Proj) :=
  match p with
  | .mercator => some (g, .mercator)
  | .ortho sub pa km c => ortho sub pa km c g
  | .polar pole m => some (polarS pole m g)
  | .simple lt lat lon => simpleC lt lat lon g

/-! ## Maps -/

/-- A map of an input file. -/
structure MapSrc where
  grid : GridClause
  averaging : Option Averaging
  proj : ProjSrc
  planesCount : Option ℤ
  planes : List PlaneSrc
  deriving DecidableEq, Repr

/-- The command a map of the input file becomes. -/
structure MapCmd where
  /-- Latitude and longitude interval of the grid, if one is drawn. -/
  grid : Option (Dbl × Dbl)
  averaging : Averaging
  proj : Proj
  planes : List PlaneCmd
  deriving DecidableEq, Repr

/-- `planes` (`src/parse.yy` 828-845). -/
def planesCount (c : Option ℤ) (g : Globals) : Option Globals :=
  match c with
  | none => some g
  | some n => if 0 < n then some { g with numPlanes := toSize n } else none

/-- `map_entry` (`src/parse.yy` 614-633). -/
def mapEntry (g : Globals) : Globals :=
  { g with averaging := .weighted, numPlanes := 0, expectedPlane := 1 }

/-- `averaging` (`src/parse.yy` 1996-2004). -/
def averaging (a : Option Averaging) (g : Globals) : Globals :=
  match a with
  | none => g
  | some a => { g with averaging := a }

/-- What follows the grid clause in `map_setup` (`src/parse.yy` 567-612): the
projection, the number of planes, the planes and the command. -/
def mapRest (m : MapSrc) (drawGrid : Bool) (g : Globals) : Option (Globals × MapCmd) :=
  match projection m.proj (averaging m.averaging g) with
  | none => none
  | some (g, proj) =>
    match planesCount m.planesCount g with
    | none => none
    | some g =>
      match planes m.planes g with
      | none => none
      | some (g, cs) =>
        if 0 < g.numPlanes ∧ cs.length ≠ g.numPlanes then none
        else some (g, ⟨if drawGrid then some (g.latInterval, g.lonInterval) else none,
          g.averaging, proj, cs⟩)

/-- `map_setup` (`src/parse.yy` 561-612), without the clauses for author,
origin, comments, body and data type. -/
def map (m : MapSrc) (g : Globals) : Outcome (Option (Globals × MapCmd)) := do
  let (g, drawGrid) ← grid m.grid (mapEntry g)
  .ok (mapRest m drawGrid g)

/-- `map_parse` (`src/parse.yy` 557-559): the commands of a file's maps. -/
def maps : List MapSrc → Globals → Outcome (Option (Globals × List MapCmd))
  | [], g => .ok (some (g, []))
  | m :: ms, g =>
    (map m g).bind fun
      | none => .ok none
      | some (g, c) => (maps ms g).bind fun
        | none => .ok none
        | some (g, cs) => .ok (some (g, c :: cs))

end MaRC.Parser
