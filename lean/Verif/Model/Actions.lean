import Verif.Model.Grammar
import Verif.Model.PhotoClauses
import Verif.Model.MapParameters
import Verif.Model.OblateSpheroid

/-!
# From parse trees to map commands

Models the semantic actions of `src/parse.yy` 537-2127 on the trees of
`Verif.Model.Grammar`: what an input file leaves in the parser's variables and the
map commands it adds (`ParseParameter::push_command`, `src/parse_scan.cpp` 34-38).
The actions of the single clauses are those of `Verif.Model.Parser` and
`Verif.Model.PhotoClauses`.

Simplifications.  The body, the map parameters, the file name, the extents and the
image factories are variables of the parser that every map sets before it uses them;
they are local here.  The operands of a map are evaluated before its clauses take
effect.  This only decides which of several errors ends the parse: after an error no
command is kept (`src/marc.cpp` 200-217).
-/

namespace MaRC.Grammar

open MaRC.Parser (Hemisphere Side Averaging ProjSrc Proj Globals PhotoVars PhotoSrc PhotoCmd
  OrthoCenter CenterClause RadiiClause RangeClause IntervalClause GridClause NibbleClause
  ScaleClause PlaneSrc PlaneKind PlaneCmd PlanePhotos)

/-- How the actions end: with a value, with `YYERROR` or with an exception
(`src/parse.yy` 537-2127, `src/marc.cpp` 232-243). -/
def Act (α : Type) : Type := Outcome (Option α)

namespace Act

/-- A value (`src/parse.yy` 537-2127). -/
def done {α : Type} (a : α) : Act α := Outcome.ok (some a)

/-- `YYERROR` (`src/parse.yy` 537-2127). -/
def error {α : Type} : Act α := Outcome.ok none

/-- One action after the other; an error or an exception ends the parse
(`src/parse.yy` 537-2127). -/
def bind {α β : Type} (x : Act α) (f : α → Act β) : Act β :=
  Outcome.bind x fun
    | none => error
    | some a => f a

instance : Monad Act where
  pure := done
  bind := bind

/-- Actions that cannot throw (`src/parse.yy` 537-2127). -/
def ofOption {α : Type} : Option α → Act α
  | none => error
  | some a => done a

/-- Functions that may throw (`src/parse.yy` 537-2127). -/
def ofOutcome {α : Type} (x : Outcome α) : Act α := Outcome.bind x done

end Act

/-- The body of a map: direction of rotation and radii (`src/parse.yy` 877-890,
lib/marc/OblateSpheroid.h). -/
structure Body where
  prograde : Bool
  eqRad : Dbl
  polRad : Dbl
  deriving DecidableEq, Repr

/-- Floating point arithmetic, the C library, and how the constructor of a projection
ends (lib/marc/Orthographic.cpp, lib/marc/PolarStereographic.cpp,
lib/marc/SimpleCylindrical.cpp, lib/marc/Mercator.cpp; see `Verif.Model.Projection`
and others for what the constructors do). -/
structure Env where
  F : Fp
  L : Calc.Lib
  project : Body → Proj → Outcome Unit

/-! ## Operands -/

/-- An optional operand: `none` if it has no value (`src/parse.yy` 537-2127). -/
def optional {α β : Type} (f : α → Option β) : Option α → Option (Option β)
  | none => some none
  | some x => (f x).map some

/-- `expr` (`src/parse.yy` 2131-2156). -/
def Operand.value (E : Env) (x : Operand) : Option Dbl :=
  (Calc.run (Calc.actions E.F E.L) [] none x.toks).map Prod.fst

/-- `centric_latitude($1 * C::degree) / C::degree` (`src/parse.yy` 2063-2066,
lib/marc/OblateSpheroid.cpp:97-110). -/
def Body.centric (E : Env) (b : Body) (x : Dbl) : Dbl :=
  E.F.div (E.L.fn "atan" (E.F.mul (E.L.pow (E.F.div b.polRad b.eqRad) (.fin 2))
    (E.L.fn "tan" (E.F.mul x cDegree)))) cDegree

/-- `latitude` (`src/parse.yy` 2060-2094). -/
def Lat.value (E : Env) (b : Body) (l : Lat) : Option Dbl := do
  let x ← l.x.value E
  let x ← Parser.latitudeSub l.side x
  return if l.graphic = some true then b.centric E x else x

/-- `longitude` (`src/parse.yy` 2096-2127). -/
def Lon.value (E : Env) (b : Body) (l : Lon) : Option Dbl := do
  let x ← l.x.value E
  Parser.longitude E.F b.prograde l.side x

/-- `position_angle` (`src/parse.yy` 1723-1754). -/
def Turn.value (E : Env) (t : Turn) : Option Dbl := do
  let x ← t.x.value E
  Parser.positionAngle E.F (t.cw = some true) x

/-- Latitude and longitude of a point (`src/parse.yy` 1703-1721, 1788-1813). -/
def Point.value (E : Env) (b : Body) (p : Point) : Option (Dbl × Dbl) :=
  match p with
  | .latLon lat lon | .lonLat lon lat => do return (← lat.value E b, ← lon.value E b)

/-- A pair of expressions (`src/parse.yy` 1462-1475, 1775-1786, 1815-1821). -/
def Pair.value (E : Env) (p : Pair) : Option (Dbl × Dbl) :=
  match p with
  | .fst x y | .snd y x => do return (← x.value E, ← y.value E)

/-! ## Body and data -/

/-- `radii` (`src/parse.yy` 901-949). -/
def Radii.clause (E : Env) (r : Radii) : Option RadiiClause :=
  match r with
  | .eqPol e p | .polEq p e => do return .eqPol (← e.value E) (← p.value E)
  | .eqFlat e f | .flatEq f e => do return .eqFlat (← e.value E) (← f.value E)
  | .polFlat p f | .flatPol f p => do return .polFlat (← p.value E) (← f.value E)

/-- `body` (`src/parse.yy` 877-890). -/
def Map.makeBody (E : Env) (m : Map) : Act Body := do
  let c ← Act.ofOption (m.radii.clause E)
  let r ← Act.ofOutcome (c.radii.validate E.F)
  let (e, p) ← Act.ofOutcome (makeSpheroid r.eqRad r.polRad)
  return ⟨m.prograde, e, p⟩

/-- The values of `BITPIX` (`src/parse.yy` 697-705; `BYTE_IMG` and the others are 8,
16, 32, 64, -32 and -64 in fitsio.h). -/
def DataType.bitpix : DataType → ℤ
  | .byte => 8
  | .short => 16
  | .long => 32
  | .longlong => 64
  | .float => -32
  | .double => -64

/-- `author`, `origin`, `comments`, `object` and `data_info` (`src/parse.yy` 635-742,
880-881): the parameters given by the user. -/
def Map.params (E : Env) (m : Map) : Act MapParams.Params := do
  let p := MapParams.fresh 0
  let p := m.author.elim p fun s => MapParams.setStr p .author (String.ofList s)
  let p := m.origin.elim p fun s => MapParams.setStr p .origin (String.ofList s)
  let p := m.comments.foldl (fun p s => MapParams.pushComment p (String.ofList s)) p
  let p := m.xcomments.foldl (fun p s => MapParams.pushXcomment p (String.ofList s)) p
  let p := MapParams.setStr p .object (String.ofList m.body)
  let offset ← Act.ofOption (optional (Operand.value E) m.offset)
  let p := offset.elim p fun x => MapParams.setReal p .bzero (some x)
  let scale ← Act.ofOption (optional (Operand.value E) m.scale)
  let p := scale.elim p fun x => MapParams.setReal p .bscale (some x)
  let p ← m.type.elim (Act.done p) fun t => Act.ofOutcome (MapParams.setBitpix p t.bitpix)
  match m.blank with
  | none => return p
  | some s => do
    let n ← (show Act ℤ from Parser.dataBlank p.bitpix s)
    return MapParams.setBlank p (some n)

/-! ## Grids and data ranges -/

/-- `grid_intervals` (`src/parse.yy` 759-808). -/
def Intervals.clause (E : Env) (i : Intervals) : Option IntervalClause :=
  match i with
  | .both x => do return .both (← x.value E)
  | .lat x => do return .lat (← x.value E)
  | .lon y => do return .lon (← y.value E)
  | .latLon x y => do return .latLon (← x.value E) (← y.value E)
  | .lonLat y x => do return .lonLat (← y.value E) (← x.value E)

/-- `grid` (`src/parse.yy` 744-757). -/
def Grid.clause (E : Env) (g : Grid) : Option GridClause :=
  match g with
  | .absent => some .absent
  | .plain yes => some (if yes then .yes else .no)
  | .intervals yes i => do
    let i ← i.clause E
    return if yes then .yesIntervals i else .noIntervals i

/-- `plane_data_range` (`src/parse.yy` 1024-1060). -/
def Range.clause (E : Env) (r : Range) : Option RangeClause :=
  match r with
  | .empty => some .empty
  | .min a => do return .min (← a.value E)
  | .max b => do return .max (← b.value E)
  | .minMax a b => do return .minMax (← a.value E) (← b.value E)
  | .maxMin b a => do return .maxMin (← b.value E) (← a.value E)

/-! ## Projections -/

/-- `lat_type` (`src/parse.yy` 1903-1913). -/
def LatType.clause : LatType → Option Bool
  | .empty => none
  | .typed b | .bare b => some b

/-- `centers` (`src/parse.yy` 1770-1813). -/
def Centers.clause (E : Env) (b : Body) (c : Centers) : Option CenterClause :=
  match c with
  | .pixel p => do
    let (s, l) ← p.value E
    return .pixel s l
  | .latLon p => do
    let (lat, lon) ← p.value E b
    return .latLon lat lon

/-- Latitudes of `lat_range` (`src/parse.yy` 1923-1950). -/
def LatRange.value (E : Env) (b : Body) (r : LatRange) : Option (Dbl × Dbl) :=
  match r with
  | .loHi lo hi | .hiLo hi lo => do return (← lo.value E b, ← hi.value E b)

/-- Longitudes of `lon_range` (`src/parse.yy` 1952-1963). -/
def LonRange.value (E : Env) (b : Body) (r : LonRange) : Option (Dbl × Dbl) :=
  match r with
  | .loHi lo hi | .hiLo hi lo => do return (← lo.value E b, ← hi.value E b)

/-- `simple_c_latlonrange` (`src/parse.yy` 1915-1921). -/
def Ranges.value (E : Env) (b : Body) (r : Ranges) :
    Option (Option (Dbl × Dbl) × Option (Dbl × Dbl)) :=
  match r with
  | .empty => some (none, none)
  | .lat x => do return (some (← x.value E b), none)
  | .lon y => do return (none, some (← y.value E b))
  | .latLon x y | .lonLat y x => do return (some (← x.value E b), some (← y.value E b))

/-- The clauses of `ortho_optsub` (`src/parse.yy` 1638-1699). -/
def OrthoOpts.parts : OrthoOpts → Option Point × Option Turn × Option Operand × Option Centers
  | .empty => (none, none, none, none)
  | .sub s => (some s, none, none, none)
  | .turn t => (none, some t, none, none)
  | .km x => (none, none, some x, none)
  | .centers c => (none, none, none, some c)
  | .subTurn s t => (some s, some t, none, none)
  | .subTurnKm s t x => (some s, some t, some x, none)
  | .subTurnKmCenters s t x c => (some s, some t, some x, some c)

/-- `ortho_optsub` (`src/parse.yy` 1638-1699): the variables and the options. -/
def OrthoOpts.src (E : Env) (b : Body) (o : OrthoOpts) (v : PhotoVars) :
    Option (PhotoVars × ProjSrc) := do
  let sub ← optional (Point.value E b) o.parts.1
  let turn ← optional (Turn.value E) o.parts.2.1
  let km ← optional (Operand.value E) o.parts.2.2.1
  let c ← optional (Centers.clause E b) o.parts.2.2.2
  match c with
  | none => return (v, .ortho sub turn km .default)
  | some c =>
    let r := Parser.orthoCenters c v
    return (r.1, .ortho sub turn km r.2)

/-- `projection_type` (`src/parse.yy` 810-826, 1599-1640, 1856-1901). -/
def Projection.src (E : Env) (b : Body) (p : Projection) (v : PhotoVars) :
    Option (PhotoVars × ProjSrc) :=
  match p with
  | .mercator _ => some (v, .mercator)
  | .ortho none => OrthoOpts.src E b .empty v
  | .ortho (some (_, o)) => o.src E b v
  | .polar none => some (v, .polar none none)
  | .polar (some (_, north, m)) => do
    let m ← optional (Lat.value E b) m
    return (v, .polar (some north) m)
  | .simple none => some (v, .simple none none none)
  | .simple (some (_, t, r)) => do
    let (lat, lon) ← r.value E b
    return (v, .simple t.clause lat lon)

/-- `averaging` (`src/parse.yy` 1996-2004) among the options of a projection. -/
def Projection.averaging : Projection → Option Averaging
  | .mercator (some a) => a
  | .ortho (some (a, _)) => a
  | .polar (some (a, _)) => a
  | .simple (some (a, _)) => a
  | _ => none

/-! ## Photos -/

/-- `nibble_samples` and `nibble_lines` (`src/parse.yy` 1212-1225). -/
def Sides.value (s : Sides) : Option (Option ℤ × Option ℤ) :=
  match s with
  | .fst a => do return (some (← Parser.integer a), none)
  | .snd b => do return (none, some (← Parser.integer b))
  | .fstSnd a b | .sndFst b a => do return (some (← Parser.integer a), some (← Parser.integer b))

/-- `nibbling` (`src/parse.yy` 1180-1293). -/
def Nibble.clause (n : Nibble) : Option NibbleClause :=
  match n with
  | .empty => some .none
  | .all n => do return .all (← Parser.integer n)
  | .samples s => do
    let (l, r) ← s.value
    return .sides l r none none
  | .lines s => do
    let (t, b) ← s.value
    return .sides none none t b
  | .samplesLines s l | .linesSamples l s => do
    let x ← s.value
    let y ← l.value
    return .sides x.1 x.2 y.1 y.2

/-- `inversion` (`src/parse.yy` 1295-1300): vertical, horizontal. -/
def Inversion.value : Inversion → Bool × Bool
  | .vertical => (true, false)
  | .horizontal => (false, true)
  | .both => (true, true)

/-- `photo_correct` (`src/parse.yy` 1400-1407). -/
def Minnaert.clause (E : Env) (m : Minnaert) : Option Parser.Minnaert :=
  match m with
  | .empty => some .none
  | .exponent x => do return .exponent (← x.value E)
  | .auto => some .auto
  | .table => some .table

/-- `image_geometry` (`src/parse.yy` 1442-1475). -/
def Scale.clause (E : Env) (s : Scale) : Option ScaleClause :=
  match s with
  | .km x => do return .km (← x.value E)
  | .arcsec x => do return .arcsec (← x.value E)
  | .lens p => do
    let (f, s) ← p.value E
    return .lens f s

/-- The operands of `image_setup` (`src/parse.yy` 1087-1178). -/
def Photo.src (E : Env) (b : Body) (p : Photo) : Option PhotoSrc := do
  return {
    file := String.ofList p.file
    nibble := ← p.nibble.clause
    invert := p.invert.map Inversion.value
    interpolate := p.interpolate
    removeSky := p.removeSky
    center := ← p.centers.clause E b
    opticalAxis := ← optional (Pair.value E) p.axis
    flatField := p.flatField.map String.ofList
    minnaert := ← p.minnaert.clause E
    geomCorrect := p.geomCorrect
    emiAngLimit := ← optional (Operand.value E) p.emiAngLimit
    terminator := p.terminator
    subObserv := ← p.subObserv.value E b
    positionAngle := ← p.turn.value E
    subSolar := ← p.subSolar.value E b
    rangeAu := p.distance.au = some true
    range := ← p.distance.x.value E
    scale := ← p.scale.clause E }

/-! ## Planes -/

/-- `range` (`src/parse.yy` 1433-1440). -/
def Distance.value (E : Env) (d : Distance) : Option Dbl := do
  return Parser.range (d.au = some true) (← d.x.value E)

/-- The image factory of a plane with the arguments of its constructor
(`src/parse.yy` 1062-1085, 1315-1390). -/
inductive Source where
  | photos (p : PlanePhotos)
  | mu (lat lon range : Dbl)
  | mu0 (lat lon : Dbl)
  | phase (lat lon sunLat sunLon range : Dbl)
  | latitude (graphic : Bool)
  | longitude
  deriving DecidableEq

/-- What the clause model of a plane needs to know of its type (`src/parse.yy`
1374-1381). -/
def PlaneType.kind : PlaneType → PlaneKind
  | .latitude t => .latitude t.clause
  | _ => .other

/-- The operands of `plane_setup` (`src/parse.yy` 955-1022). -/
def Plane.src (E : Env) (p : Plane) : Option PlaneSrc := do
  return ⟨← optional Parser.integer p.number, ← p.range.clause E, p.type.kind⟩

/-- `plane_type` (`src/parse.yy` 1062-1085, 1315-1390): the variables and the image
factory; `graphic` is the type of latitudes of a latitude plane. -/
def PlaneType.source (E : Env) (b : Body) (a : Averaging) (graphic : Option Bool)
    (t : PlaneType) (v : PhotoVars) : Act (PhotoVars × Source) :=
  match t with
  | .photos p ps => do
    let ps ← Act.ofOption ((p :: ps).mapM (Photo.src E b))
    let (v, cs) ←
      (show Act _ from Parser.images (E.L.fn "cos") b.eqRad b.polRad ps v)
    return (v, .photos (Parser.planePhotos a cs))
  | .mu s d => do
    let s ← Act.ofOption (s.value E b)
    let r ← Act.ofOption (d.value E)
    return (v, .mu s.1 s.2 r)
  | .muFull s d u => do
    let s ← Act.ofOption (s.value E b)
    let r ← Act.ofOption (d.value E)
    let _ ← Act.ofOption (u.value E b)
    return (v, .mu s.1 s.2 r)
  | .mu0 u => do
    let u ← Act.ofOption (u.value E b)
    return (v, .mu0 u.1 u.2)
  | .mu0Full s d u => do
    let _ ← Act.ofOption (s.value E b)
    let _ ← Act.ofOption (d.value E)
    let u ← Act.ofOption (u.value E b)
    return (v, .mu0 u.1 u.2)
  | .phase s d u => do
    let s ← Act.ofOption (s.value E b)
    let r ← Act.ofOption (d.value E)
    let u ← Act.ofOption (u.value E b)
    return (v, .phase s.1 s.2 u.1 u.2 r)
  | .latitude _ => return (v, .latitude (graphic.getD false))
  | .longitude => return (v, .longitude)

/-- A plane of a map command: its image factory with the data range set in
`plane_setup` (`src/parse.yy` 955-968). -/
structure PlaneImage where
  minimum : Option Dbl
  maximum : Option Dbl
  source : Source
  deriving DecidableEq

/-- The image factories of a map (`plane`, `src/parse.yy` 951-968), given the ranges
and latitude types the clause model hands on. -/
def planeImages (E : Env) (b : Body) (a : Averaging) :
    List (Plane × PlaneCmd) → PhotoVars → Act (PhotoVars × List PlaneImage)
  | [], v => return (v, [])
  | (p, c) :: ps, v => do
    let (v, s) ← p.type.source E b a c.graphic v
    let (v, ss) ← planeImages E b a ps v
    return (v, ⟨c.minimum, c.maximum, s⟩ :: ss)

/-! ## Maps -/

/-- A `MapCommand` as the parser sets it up (`src/parse.yy` 595-610,
src/MapCommand.cpp). -/
structure Command where
  file : String
  samples : ℤ
  lines : ℤ
  params : MapParams.Params
  body : Body
  proj : Proj
  grid : Option (Dbl × Dbl)
  planes : List PlaneImage

/-- The parser's variables (`src/parse.yy` 328-385) with the user's defaults
(`src/parse_scan.h` 69-102).  `km_per_pixel_val` is one variable there; both halves
use it and reset it to -1, see `Globals` and `PhotoVars`. -/
structure State where
  g : Globals
  v : PhotoVars

/-- The state at program start (`src/parse.yy` 328-385, `src/parse_scan.cpp` 17-32). -/
def State.start : State := ⟨.start, .start⟩

/-- `map_setup` (`src/parse.yy` 562-612). -/
def Map.run (E : Env) (m : Map) (s : State) : Act (State × Command) := do
  let b ← m.makeBody E
  let params ← m.params E
  let grid ← Act.ofOption (m.grid.clause E)
  let (v, proj) ← Act.ofOption (m.proj.src E b s.v)
  let count ← Act.ofOption (optional Parser.integer m.planes)
  let samples ← Act.ofOption (Parser.extent m.samples)
  let lines ← Act.ofOption (Parser.extent m.lines)
  let planes ← Act.ofOption ((m.plane :: m.more).mapM (Plane.src E))
  let (g, c) ← (show Act _ from Parser.map ⟨grid, m.proj.averaging, proj, count, planes⟩ s.g)
  Act.ofOutcome (E.project b c.proj)
  let (v, images) ← planeImages E b c.averaging ((m.plane :: m.more).zip c.planes) v
  return (⟨g, v⟩, ⟨String.ofList m.file, samples, lines, params, b, c.proj, c.grid, images⟩)

/-- `map_parse` (`src/parse.yy` 557-560): the commands in the order they are
pushed. -/
def runMaps (E : Env) : List Map → State → Act (State × List Command)
  | [], s => return (s, [])
  | m :: ms, s => do
    let (s, c) ← m.run E s
    let (s, cs) ← runMaps E ms s
    return (s, c :: cs)

/-- The actions of an input file (`src/parse.yy` 537-560): the variables and the
commands. -/
def File.run (E : Env) (f : File) (s : State) : Act (State × List Command) :=
  match f with
  | .maps m ms => runMaps E (m :: ms) s
  | .user i r n => do
    let i ← Act.ofOption (i.clause E)
    let r ← Act.ofOption (r.clause E)
    let n ← Act.ofOption n.clause
    let g ← (show Act _ from Parser.userFile i r s.g)
    let v ← Act.ofOption (Parser.userNibbling n s.v)
    return (⟨g, v⟩, [])

end MaRC.Grammar
