import Verif.Model.Parser
import Verif.Model.Scanner

/-!
# The grammar of input files

Models the context-free grammar of `src/parse.yy` 537-2127: for each
nonterminal the type of its parse trees, with one constructor per production,
and the tokens a tree stands for.  The parser Bison generates accepts the token
lists that have a tree and runs the actions of this tree; that it does so is
trusted.  Expressions are those the shift/reduce parser of `Verif.Model.Calc`
accepts.

Simplifications.  Optional clauses are `Option`s and left or right recursive
lists are `List`s.  A nonterminal that only names another one (`size`, `options`,
`options_common`, `plane_type`'s nonterminals, ...) has no type of its own.
-/

namespace MaRC.Grammar

open MaRC.Calc (Tok)
open MaRC.Scan (Token kw)
open MaRC.Parser (Hemisphere Side Averaging)

/-- Actions that only check the syntax of an expression (`src/parse.yy`
2131-2156). -/
def syntaxOnly : Calc.Actions Unit where
  num _ := some ()
  fn _ _ := some ()
  bin _ _ _ := some ()
  neg _ := some ()

/-- `expr` (`src/parse.yy` 2131-2156): tokens the parser reads as an
expression. -/
structure Operand where
  toks : List Tok
  ok : Calc.run syntaxOnly [] none toks = some ((), [])

/-- Tokens of an expression (`src/parse.yy` 2131-2156). -/
def Operand.yield (x : Operand) : List Token := x.toks.map .ex

/-- `KEYWORD ':'` and what follows (throughout `src/parse.yy` 537-2127). -/
def key (k : String) (ts : List Token) : List Token := kw k :: .colon :: ts

/-- `%empty | KEYWORD ':' expr` (`src/parse.yy` 687-695, 1422-1425). -/
def optExpr (k : String) : Option Operand → List Token
  | none => []
  | some x => key k x.yield

/-- `KEYWORD ':' _STRING` (`src/parse.yy` 614-678, 877, 1157). -/
def keyStr (k : String) (s : List Char) : List Token := key k [.str s]

/-- `%empty | KEYWORD ':' _STRING` (`src/parse.yy` 635-649, 1392-1398). -/
def optStr (k : String) : Option (List Char) → List Token
  | none => []
  | some s => keyStr k s

/-- `KEYWORD ':' integer` (`integer: NUM`, `src/parse.yy` 868-875). -/
def keyNum (k : String) (s : List Char) : List Token := key k [.ex (.num s)]

/-- `%empty | KEYWORD ':' integer` (`src/parse.yy` 707-742, 828-845). -/
def optNum (k : String) : Option (List Char) → List Token
  | none => []
  | some s => keyNum k s

/-- `KEYWORD ':' YES | KEYWORD ':' NO` (`src/parse.yy` 744-757, 1302-1313,
1409-1431). -/
def keyYes (k : String) (b : Bool) : List Token := key k [kw (if b then "YES" else "NO")]

/-- `%empty | KEYWORD ':' YES | KEYWORD ':' NO` (`src/parse.yy` 1302-1313,
1409-1431). -/
def optYes (k : String) : Option Bool → List Token
  | none => []
  | some b => keyYes k b

/-! ## Angles -/

/-- `latitude` and `latitude_sub` (`src/parse.yy` 2060-2094): the third
component is `true` for the letter `G`, `false` for `C`. -/
structure Lat where
  x : Operand
  side : Hemisphere
  graphic : Option Bool

/-- The tokens of a tree (`src/parse.yy` 2060-2094). -/
def Lat.yield (l : Lat) : List Token :=
  l.x.yield ++
    ((match l.side with | .plain => [] | .north => [kw "N"] | .south => [kw "S"]) ++
      (match l.graphic with | none => [] | some false => [kw "C"] | some true => [kw "G"]))

/-- `longitude` (`src/parse.yy` 2096-2127). -/
structure Lon where
  x : Operand
  side : Side

/-- The tokens of a tree (`src/parse.yy` 2096-2127). -/
def Lon.yield (l : Lon) : List Token :=
  l.x.yield ++ (match l.side with | .plain => [] | .east => [kw "E"] | .west => [kw "W"])

/-- `position_angle` (`src/parse.yy` 1723-1754): `some true` for `CW`. -/
structure Turn where
  x : Operand
  cw : Option Bool

/-- The tokens of a tree (`src/parse.yy` 1723-1754). -/
def Turn.yield (p : Turn) : List Token :=
  key "POSITION_ANGLE" (p.x.yield ++
    (match p.cw with | none => [] | some true => [kw "CW"] | some false => [kw "CCW"]))

/-- A latitude and a longitude in either order: `sub_observ`, `sub_solar` and
`lat_lon_given` (`src/parse.yy` 1703-1721, 1788-1813). -/
inductive Point where
  | latLon (lat : Lat) (lon : Lon)
  | lonLat (lon : Lon) (lat : Lat)

/-- The tokens of a tree (`src/parse.yy` 1703-1721, 1788-1813). -/
def Point.yield (kLat kLon : String) : Point → List Token
  | .latLon a b => key kLat a.yield ++ key kLon b.yield
  | .lonLat b a => key kLon b.yield ++ key kLat a.yield

/-- Two expressions in either order (`src/parse.yy` 1462-1475, 1775-1786,
1815-1821). -/
inductive Pair where
  | fst (a b : Operand)
  | snd (b a : Operand)

/-- The tokens of a tree (`src/parse.yy` 1462-1475, 1775-1786, 1815-1821). -/
def Pair.yield (kA kB : String) : Pair → List Token
  | .fst a b => key kA a.yield ++ key kB b.yield
  | .snd b a => key kB b.yield ++ key kA a.yield

/-! ## Body and data -/

/-- `radii` (`src/parse.yy` 901-949). -/
inductive Radii where
  | eqPol (e p : Operand)
  | polEq (p e : Operand)
  | eqFlat (e f : Operand)
  | flatEq (f e : Operand)
  | polFlat (p f : Operand)
  | flatPol (f p : Operand)

/-- The tokens of a tree (`src/parse.yy` 901-949). -/
def Radii.yield : Radii → List Token
  | .eqPol e p => key "EQ_RAD" e.yield ++ key "POL_RAD" p.yield
  | .polEq p e => key "POL_RAD" p.yield ++ key "EQ_RAD" e.yield
  | .eqFlat e f => key "EQ_RAD" e.yield ++ key "FLATTENING" f.yield
  | .flatEq f e => key "FLATTENING" f.yield ++ key "EQ_RAD" e.yield
  | .polFlat p f => key "POL_RAD" p.yield ++ key "FLATTENING" f.yield
  | .flatPol f p => key "FLATTENING" f.yield ++ key "POL_RAD" p.yield

/-- `rotation` (`src/parse.yy` 892-899). -/
def rotation (prograde : Bool) : List Token :=
  key "ROTATION" [kw (if prograde then "PROGRADE" else "RETROGRADE")]

/-- The data types of `data_type` (`src/parse.yy` 697-705). -/
inductive DataType where
  | byte | short | long | longlong | float | double
  deriving DecidableEq, Repr

/-- The tokens of a tree (`src/parse.yy` 697-705). -/
def DataType.token : DataType → Token
  | .byte => kw "BYTE_DATA"
  | .short => kw "SHORT_DATA"
  | .long => kw "LONG_DATA"
  | .longlong => kw "LONGLONG_DATA"
  | .float => kw "FLOAT_DATA"
  | .double => kw "DOUBLE_DATA"

/-- `data_type` (`src/parse.yy` 697-705). -/
def dataType : Option DataType → List Token
  | none => []
  | some t => key "DATA_TYPE" [t.token]

/-! ## Grids and data ranges -/

/-- `grid_intervals` (`src/parse.yy` 759-808). -/
inductive Intervals where
  | both (x : Operand)
  | lat (x : Operand)
  | lon (y : Operand)
  | latLon (x y : Operand)
  | lonLat (y x : Operand)

/-- The tokens of a tree (`src/parse.yy` 759-808). -/
def Intervals.yield : Intervals → List Token
  | .both x => key "GRID_INTERVAL" x.yield
  | .lat x => key "LAT_GRID_INTERVAL" x.yield
  | .lon y => key "LON_GRID_INTERVAL" y.yield
  | .latLon x y => key "LAT_GRID_INTERVAL" x.yield ++ key "LON_GRID_INTERVAL" y.yield
  | .lonLat y x => key "LON_GRID_INTERVAL" y.yield ++ key "LAT_GRID_INTERVAL" x.yield

/-- `grid` (`src/parse.yy` 744-757). -/
inductive Grid where
  | absent
  | plain (yes : Bool)
  | intervals (yes : Bool) (i : Intervals)

/-- The tokens of a tree (`src/parse.yy` 744-757). -/
def Grid.yield : Grid → List Token
  | .absent => []
  | .plain b => keyYes "GRID" b
  | .intervals b i => keyYes "GRID" b ++ i.yield

/-- `plane_data_range` (`src/parse.yy` 1024-1060). -/
inductive Range where
  | empty
  | min (a : Operand)
  | max (b : Operand)
  | minMax (a b : Operand)
  | maxMin (b a : Operand)

/-- The tokens of a tree (`src/parse.yy` 1024-1060). -/
def Range.yield : Range → List Token
  | .empty => []
  | .min a => key "DATA_MIN" a.yield
  | .max b => key "DATA_MAX" b.yield
  | .minMax a b => key "DATA_MIN" a.yield ++ key "DATA_MAX" b.yield
  | .maxMin b a => key "DATA_MAX" b.yield ++ key "DATA_MIN" a.yield

/-! ## Projections -/

/-- `averaging` (`src/parse.yy` 1996-2004). -/
def averaging : Option Averaging → List Token
  | none => []
  | some .none => key "AVERAGING" [kw "NONE"]
  | some .unweighted => key "AVERAGING" [kw "UNWEIGHTED"]
  | some .weighted => key "AVERAGING" [kw "WEIGHTED"]

/-- `options` (`src/parse.yy` 1983-1994) before further options. -/
def options (a : Option Averaging) (ts : List Token) : List Token :=
  key "OPTIONS" (averaging a ++ ts)

/-- `lat_type` (`src/parse.yy` 1903-1913): `true` for planetographic. -/
inductive LatType where
  | empty
  | typed (graphic : Bool)
  | bare (graphic : Bool)

/-- The tokens of a tree (`src/parse.yy` 1903-1913). -/
def LatType.yield : LatType → List Token
  | .empty => []
  | .typed b => key "LATITUDE_TYPE" [kw (if b then "GRAPHIC" else "CENTRIC")]
  | .bare b => [kw (if b then "GRAPHIC" else "CENTRIC")]

/-- `centers` (`src/parse.yy` 1770-1813). -/
inductive Centers where
  | pixel (p : Pair)
  | latLon (p : Point)

/-- The tokens of a tree (`src/parse.yy` 1770-1813). -/
def Centers.yield : Centers → List Token
  | .pixel p => p.yield "SAMPLE_CENTER" "LINE_CENTER"
  | .latLon p => p.yield "LAT_AT_CENTER" "LON_AT_CENTER"

/-- `ortho_optsub` (`src/parse.yy` 1638-1699). -/
inductive OrthoOpts where
  | empty
  | sub (s : Point)
  | turn (t : Turn)
  | km (x : Operand)
  | centers (c : Centers)
  | subTurn (s : Point) (t : Turn)
  | subTurnKm (s : Point) (t : Turn) (x : Operand)
  | subTurnKmCenters (s : Point) (t : Turn) (x : Operand) (c : Centers)

/-- `sub_observ` (`src/parse.yy` 1703-1714). -/
def subObserv (s : Point) : List Token := s.yield "SUB_OBSERV_LAT" "SUB_OBSERV_LON"

/-- `sub_solar` (`src/parse.yy` 1716-1721). -/
def subSolar (s : Point) : List Token := s.yield "SUB_SOLAR_LAT" "SUB_SOLAR_LON"

/-- The tokens of a tree (`src/parse.yy` 1638-1699). -/
def OrthoOpts.yield : OrthoOpts → List Token
  | .empty => []
  | .sub s => subObserv s
  | .turn t => t.yield
  | .km x => key "KM_PER_PIXEL" x.yield
  | .centers c => c.yield
  | .subTurn s t => subObserv s ++ t.yield
  | .subTurnKm s t x => subObserv s ++ (t.yield ++ key "KM_PER_PIXEL" x.yield)
  | .subTurnKmCenters s t x c =>
    subObserv s ++ (t.yield ++ (key "KM_PER_PIXEL" x.yield ++ c.yield))

/-- `lat_range` (`src/parse.yy` 1923-1950). -/
inductive LatRange where
  | loHi (lo hi : Lat)
  | hiLo (hi lo : Lat)

/-- The tokens of a tree (`src/parse.yy` 1923-1950). -/
def LatRange.yield : LatRange → List Token
  | .loHi a b => key "LO_LAT" a.yield ++ key "HI_LAT" b.yield
  | .hiLo b a => key "HI_LAT" b.yield ++ key "LO_LAT" a.yield

/-- `lon_range` (`src/parse.yy` 1952-1963). -/
inductive LonRange where
  | loHi (lo hi : Lon)
  | hiLo (hi lo : Lon)

/-- The tokens of a tree (`src/parse.yy` 1952-1963). -/
def LonRange.yield : LonRange → List Token
  | .loHi a b => key "LO_LON" a.yield ++ key "HI_LON" b.yield
  | .hiLo b a => key "HI_LON" b.yield ++ key "LO_LON" a.yield

/-- `simple_c_latlonrange` (`src/parse.yy` 1915-1921). -/
inductive Ranges where
  | empty
  | lat (a : LatRange)
  | lon (b : LonRange)
  | latLon (a : LatRange) (b : LonRange)
  | lonLat (b : LonRange) (a : LatRange)

/-- The tokens of a tree (`src/parse.yy` 1915-1921). -/
def Ranges.yield : Ranges → List Token
  | .empty => []
  | .lat a => a.yield
  | .lon b => b.yield
  | .latLon a b => a.yield ++ b.yield
  | .lonLat b a => b.yield ++ a.yield

/-- `pole` (`src/parse.yy` 2056-2058). -/
def pole (north : Bool) : List Token := key "POLE" [kw (if north then "N" else "S")]

/-- `max_latitude` (`src/parse.yy` 2051-2054). -/
def maxLatitude : Option Lat → List Token
  | none => []
  | some l => key "MAX_LAT" l.yield

/-- `projection_type` with the options of each projection (`src/parse.yy`
810-826, 1599-1640, 1856-1901): the first component of the options is the
averaging. -/
inductive Projection where
  | mercator (o : Option (Option Averaging))
  | ortho (o : Option (Option Averaging × OrthoOpts))
  | polar (o : Option (Option Averaging × Bool × Option Lat))
  | simple (o : Option (Option Averaging × LatType × Ranges))

/-- The options of a projection (`src/parse.yy` 1599-1640, 1856-1901,
2006-2058). -/
def Projection.opts : Projection → List Token
  | .mercator none => []
  | .mercator (some a) => options a []
  | .ortho none => []
  | .ortho (some (a, o)) => options a o.yield
  | .polar none => []
  | .polar (some (a, north, m)) => options a (pole north ++ maxLatitude m)
  | .simple none => []
  | .simple (some (a, t, r)) => options a (t.yield ++ r.yield)

/-- The name of a projection (`src/parse.yy` 1599-1604, 1856-1862). -/
def Projection.name : Projection → String
  | .mercator _ => "MERCATOR"
  | .ortho _ => "ORTHO"
  | .polar _ => "P_STEREO"
  | .simple _ => "SIMPLE_C"

/-- The tokens of a tree (`src/parse.yy` 810-826, 1599-1640, 1856-1901). -/
def Projection.yield (p : Projection) : List Token := key "MAP_TYPE" (kw p.name :: p.opts)

/-! ## Photos -/

/-- `nibble_samples` and `nibble_lines` (`src/parse.yy` 1212-1225): one side,
the other, or both in either order. -/
inductive Sides where
  | fst (a : List Char)
  | snd (b : List Char)
  | fstSnd (a b : List Char)
  | sndFst (b a : List Char)

/-- The tokens of a tree (`src/parse.yy` 1212-1225). -/
def Sides.yield (kA kB : String) : Sides → List Token
  | .fst a => keyNum kA a
  | .snd b => keyNum kB b
  | .fstSnd a b => keyNum kA a ++ keyNum kB b
  | .sndFst b a => keyNum kB b ++ keyNum kA a

/-- `nibbling` (`src/parse.yy` 1180-1293). -/
inductive Nibble where
  | empty
  | all (n : List Char)
  | samples (s : Sides)
  | lines (l : Sides)
  | samplesLines (s l : Sides)
  | linesSamples (l s : Sides)

/-- `nibble_samples` (`src/parse.yy` 1212-1218). -/
def nibbleSamples (s : Sides) : List Token := s.yield "NIBBLE_LEFT" "NIBBLE_RIGHT"

/-- `nibble_lines` (`src/parse.yy` 1220-1225). -/
def nibbleLines (s : Sides) : List Token := s.yield "NIBBLE_TOP" "NIBBLE_BOTTOM"

/-- The tokens of a tree (`src/parse.yy` 1180-1293). -/
def Nibble.yield : Nibble → List Token
  | .empty => []
  | .all n => keyNum "NIBBLE" n
  | .samples s => nibbleSamples s
  | .lines l => nibbleLines l
  | .samplesLines s l => nibbleSamples s ++ nibbleLines l
  | .linesSamples l s => nibbleLines l ++ nibbleSamples s

/-- The words of `inversion` (`src/parse.yy` 1295-1300). -/
inductive Inversion where
  | vertical | horizontal | both
  deriving DecidableEq, Repr

/-- `inversion` (`src/parse.yy` 1295-1300). -/
def inversion : Option Inversion → List Token
  | none => []
  | some .vertical => key "INVERT" [kw "VERTICAL"]
  | some .horizontal => key "INVERT" [kw "HORIZONTAL"]
  | some .both => key "INVERT" [kw "BOTH"]

/-- `optical_axis` (`src/parse.yy` 1815-1821). -/
def opticalAxis : Option Pair → List Token
  | none => []
  | some p => p.yield "SAMPLE_OA" "LINE_OA"

/-- `photo_correct` (`src/parse.yy` 1400-1407). -/
inductive Minnaert where
  | empty
  | exponent (x : Operand)
  | auto
  | table

/-- The tokens of a tree (`src/parse.yy` 1400-1407). -/
def Minnaert.yield : Minnaert → List Token
  | .empty => []
  | .exponent x => key "MINNAERT" x.yield
  | .auto => key "MINNAERT" [kw "AUTO"]
  | .table => key "MINNAERT" [kw "TABLE"]

/-- `range` (`src/parse.yy` 1433-1440): `some true` for `AU`. -/
structure Distance where
  x : Operand
  au : Option Bool

/-- The tokens of a tree (`src/parse.yy` 1433-1440). -/
def Distance.yield (d : Distance) : List Token :=
  key "RANGE" (d.x.yield ++
    (match d.au with | none => [] | some false => [kw "KM"] | some true => [kw "AU"]))

/-- `image_geometry` (`src/parse.yy` 1442-1475, 1756). -/
inductive Scale where
  | km (x : Operand)
  | arcsec (x : Operand)
  | lens (p : Pair)

/-- The tokens of a tree (`src/parse.yy` 1442-1475, 1756). -/
def Scale.yield : Scale → List Token
  | .km x => key "KM_PER_PIXEL" x.yield
  | .arcsec x => key "ARCSEC_PER_PIX" x.yield
  | .lens p => p.yield "FOCAL_LENGTH" "PIXEL_SCALE"

/-- `image_setup` (`src/parse.yy` 1087-1178, 1302-1313, 1392-1431). -/
structure Photo where
  file : List Char
  nibble : Nibble
  invert : Option Inversion
  interpolate : Option Bool
  removeSky : Option Bool
  centers : Centers
  axis : Option Pair
  flatField : Option (List Char)
  minnaert : Minnaert
  geomCorrect : Option Bool
  emiAngLimit : Option Operand
  terminator : Option Bool
  subObserv : Point
  turn : Turn
  subSolar : Point
  distance : Distance
  scale : Scale

/-- The tokens of a tree (`src/parse.yy` 1087-1178, 1302-1313, 1392-1431). -/
def Photo.yield (p : Photo) : List Token :=
  keyStr "IMAGE" p.file ++ (p.nibble.yield ++ (inversion p.invert ++
    (optYes "INTERPOLATE" p.interpolate ++ (optYes "REMOVE_SKY" p.removeSky ++
    (p.centers.yield ++ (opticalAxis p.axis ++ (optStr "FLAT_FIELD" p.flatField ++
    (p.minnaert.yield ++ (optYes "GEOM_CORRECT" p.geomCorrect ++
    (optExpr "EMI_ANG_LIMIT" p.emiAngLimit ++ (optYes "TERMINATOR" p.terminator ++
    (Grammar.subObserv p.subObserv ++ (p.turn.yield ++ (Grammar.subSolar p.subSolar ++
    (p.distance.yield ++ p.scale.yield)))))))))))))))

/-! ## Planes and maps -/

/-- `plane_type` (`src/parse.yy` 1062-1085, 1315-1390). -/
inductive PlaneType where
  | photos (p : Photo) (ps : List Photo)
  | mu (s : Point) (d : Distance)
  | muFull (s : Point) (d : Distance) (sun : Point)
  | mu0 (sun : Point)
  | mu0Full (s : Point) (d : Distance) (sun : Point)
  | phase (s : Point) (d : Distance) (sun : Point)
  | latitude (t : LatType)
  | longitude

/-- The tokens of a tree (`src/parse.yy` 1062-1085, 1315-1390). -/
def PlaneType.yield : PlaneType → List Token
  | .photos p ps => p.yield ++ ps.flatMap Photo.yield
  | .mu s d => key "MU" (subObserv s ++ d.yield)
  | .muFull s d u => key "MU" (subObserv s ++ (d.yield ++ subSolar u))
  | .mu0 u => key "MU0" (subSolar u)
  | .mu0Full s d u => key "MU0" (subObserv s ++ (d.yield ++ subSolar u))
  | .phase s d u => key "PHASE" (subObserv s ++ (d.yield ++ subSolar u))
  | .latitude t => key "LATITUDE" t.yield
  | .longitude => [kw "LONGITUDE"]

/-- `plane_setup` (`src/parse.yy` 955-1022). -/
structure Plane where
  number : Option (List Char)
  range : Range
  type : PlaneType

/-- The tokens of a tree (`src/parse.yy` 955-1022). -/
def Plane.yield (p : Plane) : List Token :=
  key "PLANE" ((match p.number with | none => [] | some n => [.ex (.num n)]) ++
    (p.range.yield ++ p.type.yield))

/-- `map_setup` (`src/parse.yy` 562-890). -/
structure Map where
  file : List Char
  author : Option (List Char)
  origin : Option (List Char)
  comments : List (List Char)
  xcomments : List (List Char)
  body : List Char
  radii : Radii
  prograde : Bool
  offset : Option Operand
  scale : Option Operand
  type : Option DataType
  blank : Option (List Char)
  grid : Grid
  proj : Projection
  planes : Option (List Char)
  samples : List Char
  lines : List Char
  plane : Plane
  more : List Plane

/-- The tokens of a tree (`src/parse.yy` 562-890). -/
def Map.yield (m : Map) : List Token :=
  keyStr "MAP" m.file ++ (optStr "AUTHOR" m.author ++ (optStr "ORIGIN" m.origin ++
    (m.comments.flatMap (keyStr "COMMENT") ++ (m.xcomments.flatMap (keyStr "XCOMMENT") ++
    (keyStr "BODY" m.body ++ (m.radii.yield ++ (rotation m.prograde ++
    (optExpr "DATA_OFFSET" m.offset ++ (optExpr "DATA_SCALE" m.scale ++ (dataType m.type ++
    (optNum "DATA_BLANK" m.blank ++ (m.grid.yield ++ (m.proj.yield ++
    (optNum "PLANES" m.planes ++ (keyNum "SAMPLES" m.samples ++ (keyNum "LINES" m.lines ++
    (m.plane.yield ++ m.more.flatMap Plane.yield)))))))))))))))))

/-- `map` (`src/parse.yy` 537-560): the maps of an input file or the user's
defaults. -/
inductive File where
  | maps (m : Map) (ms : List Map)
  | user (i : Intervals) (r : Range) (n : Nibble)

/-- The tokens of a tree (`src/parse.yy` 537-560). -/
def File.yield : File → List Token
  | .maps m ms => m.yield ++ ms.flatMap Map.yield
  | .user i r n => i.yield ++ (r.yield ++ n.yield)

/-- A tree of the tokens of an input file (`src/parse.yy` 537-560). -/
def Parses (ts : List Token) (f : File) : Prop := f.yield = ts

end MaRC.Grammar
