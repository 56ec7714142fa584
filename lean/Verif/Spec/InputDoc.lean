import Verif.Spec.InputFile

/-!
# The order of the entries of input files

Which entries an input file has and in which order, written as sequences,
options, alternatives and repetitions of entries (`doc/MaRC_input.texi`
283-2345).  Nothing here refers to the grammar.
-/

namespace MaRC.InputDoc

open MaRC.Calc (Tok)
open MaRC.InputFile (Item)

/-- A set of lists of entries. -/
abbrev Form := List Item → Prop

/-- One form after the other. -/
def seq (a b : Form) : Form := fun l => ∃ x y, l = x ++ y ∧ a x ∧ b y

@[inherit_doc] infixr:67 " ⋆ " => seq

/-- One of two forms. -/
def alt (a b : Form) : Form := fun l => a l ∨ b l

@[inherit_doc] infixr:65 " ⋎ " => alt

/-- A form that may be left out. -/
def opt (a : Form) : Form := fun l => l = [] ∨ a l

/-- Any number of times. -/
def many (a : Form) : Form := fun l => ∃ ls : List (List Item), l = ls.flatten ∧ ∀ x ∈ ls, a x

/-- At least once. -/
def some' (a : Form) : Form := a ⋆ many a

/-- Both, in either order. -/
def both (a b : Form) : Form := (a ⋆ b) ⋎ (b ⋆ a)

/-- One entry. -/
def one (p : Item → Prop) : Form := fun l => ∃ i, l = [i] ∧ p i

/-- A mathematical expression. -/
def IsExpr (ts : List Tok) : Prop := ∃ e, ExprSpec.Derives .sum ts e

/-- `KEYWORD: expression`. -/
def val (k : String) : Form := one fun i => ∃ ts, IsExpr ts ∧ i = .expr k ts

/-- `KEYWORD: number`. -/
def num (k : String) : Form := one fun i => ∃ s, i = .expr k [.num s]

/-- `KEYWORD:` an expression and one of the given units or none. -/
def withUnit (k : String) (us : List String) : Form :=
  one fun i => ∃ ts u, IsExpr ts ∧ (u = [] ∨ ∃ w ∈ us, u = [.kw w]) ∧ i = .expr k (ts ++ u)

/-- A latitude: an expression, perhaps `N` or `S`, perhaps `C` or `G`. -/
def lat (k : String) : Form :=
  one fun i => ∃ ts u v, IsExpr ts ∧ (u = [] ∨ u = [.kw "N"] ∨ u = [.kw "S"]) ∧
    (v = [] ∨ v = [.kw "C"] ∨ v = [.kw "G"]) ∧ i = .expr k (ts ++ (u ++ v))

/-- A longitude: an expression, perhaps `E` or `W`. -/
def lon (k : String) : Form := withUnit k ["E", "W"]

/-- `KEYWORD: name` (nothing is said about the name here). -/
def name (k : String) : Form := one fun i => ∃ s, i = .name k s

/-- `KEYWORD:text`. -/
def text (k : String) : Form := one fun i => ∃ s, i = .text k s

/-- `KEYWORD:` without a value. -/
def mark (k : String) : Form := one fun i => i = .mark k

/-- One of several words. -/
def word (ws : List String) : Form := one fun i => ∃ w ∈ ws, i = .word w

/-- `KEYWORD:` one of several words. -/
def choice (k : String) (ws : List String) : Form := mark k ⋆ word ws

/-- `KEYWORD: YES` or `KEYWORD: NO`. -/
def yesNo (k : String) : Form := choice k ["YES", "Y", "NO", "N"]

/-! ## Clauses -/

/-- Two of the three quantities that give the shape of the body, in either
order. -/
def radii : Form :=
  both (val "EQ_RAD") (val "POL_RAD") ⋎ both (val "EQ_RAD") (val "FLATTENING") ⋎
    both (val "POL_RAD") (val "FLATTENING")

/-- Grid intervals: one for both directions, or one of them, or both. -/
def intervals : Form :=
  val "GRID_INTERVAL" ⋎ val "LAT_GRID_INTERVAL" ⋎ val "LON_GRID_INTERVAL" ⋎
    both (val "LAT_GRID_INTERVAL") (val "LON_GRID_INTERVAL")

/-- Whether there is a grid, and perhaps its intervals. -/
def grid : Form := opt (yesNo "GRID" ⋆ opt intervals)

/-- The range of valid data. -/
def range : Form :=
  opt (val "DATA_MIN" ⋎ val "DATA_MAX" ⋎ both (val "DATA_MIN") (val "DATA_MAX"))

/-- Samples to cut off: none, one of the sides, or both. -/
def sides (a b : String) : Form := num a ⋎ num b ⋎ both (num a) (num b)

/-- Nibbling. -/
def nibble : Form :=
  opt (num "NIBBLE" ⋎ sides "NIBBLE_LEFT" "NIBBLE_RIGHT" ⋎ sides "NIBBLE_TOP" "NIBBLE_BOTTOM" ⋎
    both (sides "NIBBLE_LEFT" "NIBBLE_RIGHT") (sides "NIBBLE_TOP" "NIBBLE_BOTTOM"))

/-- The body's center. -/
def centers : Form :=
  both (val "SAMPLE_CENTER") (val "LINE_CENTER") ⋎ both (lat "LAT_AT_CENTER") (lon "LON_AT_CENTER")

/-- The point below the observer. -/
def subObserv : Form := both (lat "SUB_OBSERV_LAT") (lon "SUB_OBSERV_LON")

/-- The point below the sun. -/
def subSolar : Form := both (lat "SUB_SOLAR_LAT") (lon "SUB_SOLAR_LON")

/-- The position angle. -/
def turn : Form := withUnit "POSITION_ANGLE" ["CW", "CCW"]

/-- The distance. -/
def distance : Form := withUnit "RANGE" ["KM", "AU"]

/-- The kind of latitudes. -/
def latType : Form :=
  opt (choice "LATITUDE_TYPE" ["CENTRIC", "CENTRIC_LAT", "GRAPHIC", "GRAPHIC_LAT"] ⋎
    word ["CENTRIC", "CENTRIC_LAT", "GRAPHIC", "GRAPHIC_LAT"])

/-- Ranges of latitudes and longitudes. -/
def ranges : Form :=
  opt (both (lat "LO_LAT") (lat "HI_LAT") ⋎ both (lon "LO_LON") (lon "HI_LON") ⋎
    both (both (lat "LO_LAT") (lat "HI_LAT")) (both (lon "LO_LON") (lon "HI_LON")))

/-- The options all projections have. -/
def options : Form :=
  mark "OPTIONS" ⋆ opt (choice "AVERAGING" ["UNWEIGHTED", "WEIGHTED", "NONE"])

/-- The options of an orthographic projection.  Of the four clauses of the
manual all, the first three, the first two, one or none are given. -/
def ortho : Form :=
  opt (subObserv ⋎ turn ⋎ val "KM_PER_PIXEL" ⋎ centers ⋎ (subObserv ⋆ turn) ⋎
    (subObserv ⋆ turn ⋆ val "KM_PER_PIXEL") ⋎ (subObserv ⋆ turn ⋆ val "KM_PER_PIXEL" ⋆ centers))

/-- The pole at the center. -/
def pole : Form := one fun i => ∃ b, i = .pole b

/-- The keyword before the name of a projection. -/
def typeKey : Form := mark "TYPE" ⋎ mark "PROJECTION"

/-- The projection. -/
def projection : Form :=
  (typeKey ⋆ word ["MERCATOR"] ⋆ opt options) ⋎
  (typeKey ⋆ word ["ORTHO"] ⋆ opt (options ⋆ ortho)) ⋎
  (typeKey ⋆ word ["P_STEREO"] ⋆ opt (options ⋆ pole ⋆ opt (lat "MAX_LAT"))) ⋎
  (typeKey ⋆ word ["SIMPLE_C"] ⋆ opt (options ⋆ latType ⋆ ranges))

/-- The correction of limb darkening. -/
def minnaert : Form :=
  opt (val "MINNAERT" ⋎ one fun i => i = .auto "MINNAERT" "AUTO" ∨ i = .auto "MINNAERT" "TABLE")

/-- The resolution of a photo. -/
def scale : Form :=
  val "KM_PER_PIXEL" ⋎ val "ARCSEC_PER_PIX" ⋎ both (val "FOCAL_LENGTH") (val "PIXEL_SCALE")

/-- A photo. -/
def photo : Form :=
  name "IMAGE" ⋆ nibble ⋆ opt (choice "INVERT" ["VERTICAL", "HORIZONTAL", "BOTH"]) ⋆
    opt (yesNo "INTERPOLATE") ⋆ opt (yesNo "REMOVE_SKY") ⋆ centers ⋆
    opt (both (val "SAMPLE_OA") (val "LINE_OA")) ⋆ opt (name "FLAT_FIELD") ⋆ minnaert ⋆
    opt (yesNo "GEOM_CORRECT") ⋆ opt (val "EMI_ANG_LIMIT") ⋆ opt (yesNo "TERMINATOR") ⋆
    subObserv ⋆ turn ⋆ subSolar ⋆ distance ⋆ scale

/-- What a plane shows. -/
def planeType : Form :=
  some' photo ⋎
  (mark "MU" ⋆ subObserv ⋆ distance) ⋎
  (mark "MU" ⋆ subObserv ⋆ distance ⋆ subSolar) ⋎
  (mark "MU0" ⋆ subSolar) ⋎
  (mark "MU0" ⋆ subObserv ⋆ distance ⋆ subSolar) ⋎
  (mark "PHASE" ⋆ subObserv ⋆ distance ⋆ subSolar) ⋎
  (mark "LATITUDE" ⋆ latType) ⋎
  word ["LONGITUDE"]

/-- A plane: its number may be left out. -/
def plane : Form :=
  (one fun i => i = .expr "PLANE" [] ∨ ∃ s, i = .expr "PLANE" [.num s]) ⋆ range ⋆ planeType

/-- The entries of a map before its projection. -/
def header : Form :=
  name "MAP" ⋆ opt (text "AUTHOR") ⋆ opt (text "ORIGIN") ⋆ many (text "COMMENT") ⋆
    many (text "XCOMMENT") ⋆ name "BODY" ⋆ radii ⋆ choice "ROTATION" ["PROGRADE", "RETROGRADE"] ⋆
    opt (val "DATA_OFFSET") ⋆ opt (val "DATA_SCALE") ⋆
    opt (choice "DATA_TYPE" ["BYTE", "SHORT", "LONG", "LONGLONG", "FLOAT", "DOUBLE"]) ⋆
    opt (num "DATA_BLANK") ⋆ grid

/-- A map. -/
def map : Form :=
  header ⋆ projection ⋆ opt (num "PLANES") ⋆ num "SAMPLES" ⋆ num "LINES" ⋆ some' plane

/-- The user's defaults. -/
def user : Form := intervals ⋆ range ⋆ nibble

/-- What is accepted. -/
def accepted : Form := some' map ⋎ user

/-! ## What the manual says and the program does not do -/

/-- The user's defaults according to the manual (2319-2337): all entries are
optional. -/
def userManual : Form := opt intervals ⋆ range ⋆ nibble

/-- The options of an orthographic projection according to the manual
(940-1083): the body's center may be given without the resolution, and each has
a default. -/
def orthoManual : Form := options ⋆ opt subObserv ⋆ opt turn ⋆ opt (val "KM_PER_PIXEL") ⋆ opt centers

/-- The options of a polar stereographic projection according to the manual
(822-846): the pole and the maximum latitude are options. -/
def polarManual : Form := options ⋆ opt pole ⋆ opt (lat "MAX_LAT")

end MaRC.InputDoc
