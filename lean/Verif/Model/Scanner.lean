import Verif.Model.Calc

/-!
# The scanner of input files

Models all of `src/lexer.ll`: its start conditions, its rules in file order and
Flex's choice among them.  The rules of the `expression` condition are those of
`Verif.Model.Calc`.

Not modelled: texts with a NUL byte (which `strdup` would cut), what the default rule echoes on the standard
output, and bytes that are not characters of their own.
-/

namespace MaRC.Scan

open MaRC.Calc (Tok Table litLen)

/-- Start conditions (`src/lexer.ll` 62-67 and Flex's `INITIAL`). -/
inductive Cond where
  | initial | commentInit | comment | keyword | expression | string | pole
  deriving DecidableEq, Repr

/-- Conditions declared with `%s` (`src/lexer.ll` 62, 64, 66, 67) and
`INITIAL`: rules without a condition are active in them.  `comment` and
`expression` are declared with `%x` (63, 65). -/
def Cond.inclusive : Cond → Bool
  | .comment => false
  | .expression => false
  | _ => true

/-- Tokens of the parser.  Keywords, the letters `C G N S E W`, numbers,
functions, operators and `UNMATCHED` are those of the calculator; a keyword is
named as in the parser without leading underscore. -/
inductive Token where
  | colon
  | str (s : List Char)
  | ex (t : Tok)
  deriving DecidableEq, Repr

/-- The token of a keyword. -/
def kw (w : String) : Token := .ex (.kw w)

/-- One rule: the conditions it is active in, the length of its longest match,
the token it returns for the matched text, if any, and the condition it begins,
if any. -/
structure Rule where
  on : Cond → Bool
  len : List Char → ℕ
  act : List Char → Option Token
  next : Option Cond

/-- A rule of the `expression` condition (`src/lexer.ll` 95-156). -/
def ofExpr (r : Calc.Rule) : Rule :=
  match r.act with
  | .skip => ⟨(· == .expression), r.len, fun _ => none, none⟩
  | .tok f => ⟨(· == .expression), r.len, fun s => some (.ex (f s)), none⟩
  | .last t => ⟨(· == .expression), r.len, fun _ => some (.ex t), some .initial⟩
  | .stop => ⟨(· == .expression), r.len, fun _ => none, some .initial⟩

/-- Keywords without a condition in file order (`src/lexer.ll` 158-265): text,
token and condition begun. -/
def keywords : List (String × String × Option Cond) :=
  [ ("ALBEQV1", "ALBEQV1", none), ("ALBEQV2", "ALBEQV2", none), ("IDENTITY", "IDENTITY", none),
    ("LAMCNF1", "LAMCNF1", none), ("LAMCNF2", "LAMCNF2", none), ("LAMCYLEQ", "LAMCYLEQ", none),
    ("LAMPOLEQ", "LAMPOLEQ", none), ("MERCATOR", "MERCATOR", none), ("ORTHO", "ORTHO", none),
    ("P_STEREO", "P_STEREO", none), ("PERSPECTIVE", "PERSPECTIVE", none),
    ("SIMPLE_C", "SIMPLE_C", none), ("SINUSOID", "SINUSOID", none), ("MAP", "MAP", some .string),
    ("AUTHOR", "AUTHOR", some .commentInit), ("ORIGIN", "ORIGIN", some .commentInit),
    ("COMMENT", "COMMENT", some .commentInit), ("XCOMMENT", "XCOMMENT", some .commentInit),
    ("DATA_OFFSET", "DATA_OFFSET", none), ("DATA_SCALE", "DATA_SCALE", none),
    ("DATA_TYPE", "DATA_TYPE", some .keyword), ("DATA_BLANK", "DATA_BLANK", none),
    ("GRID", "GRID", some .keyword), ("GRID_INTERVAL", "GRID_INTERVAL", none),
    ("LAT_GRID_INTERVAL", "LAT_GRID_INTERVAL", none),
    ("LON_GRID_INTERVAL", "LON_GRID_INTERVAL", none), ("TYPE", "MAP_TYPE", some .keyword),
    ("PROJECTION", "MAP_TYPE", some .keyword), ("SAMPLES", "SAMPLES", none),
    ("LINES", "LINES", none), ("BODY", "BODY", some .string),
    ("AVERAGING", "AVERAGING", some .keyword), ("NONE", "NONE", none),
    ("WEIGHTED", "WEIGHTED", none), ("UNWEIGHTED", "UNWEIGHTED", none),
    ("PLANES", "PLANES", none), ("PROGRADE", "PROGRADE", none),
    ("RETROGRADE", "RETROGRADE", none), ("FLATTENING", "FLATTENING", none),
    ("OPTIONS", "OPTIONS", some .keyword), ("EQ_RAD", "EQ_RAD", none),
    ("POL_RAD", "POL_RAD", none), ("ROTATION", "ROTATION", some .keyword),
    ("IMAGE", "IMAGE", some .string), ("PHOTO", "PHOTO", none), ("MU", "MU", some .keyword),
    ("MU0", "MU0", some .keyword), ("PHASE", "PHASE", some .keyword), ("PLANE", "PLANE", none),
    ("DATA_MIN", "DATA_MIN", none), ("DATA_MAX", "DATA_MAX", none), ("LO_LAT", "LO_LAT", none),
    ("HI_LAT", "HI_LAT", none), ("LO_LON", "LO_LON", none), ("HI_LON", "HI_LON", none),
    ("LATITUDE_TYPE", "LATITUDE_TYPE", some .keyword), ("CENTRIC_LAT", "CENTRIC", none),
    ("CENTRIC", "CENTRIC", none), ("GRAPHIC_LAT", "GRAPHIC", none), ("GRAPHIC", "GRAPHIC", none),
    ("LATITUDE", "LATITUDE", some .keyword), ("LONGITUDE", "LONGITUDE", none),
    ("POLE", "POLE", some .pole), ("MAX_LAT", "MAX_LAT", none), ("STD_LAT", "STD_LAT", none),
    ("STD_LAT_1", "STD_LAT_1", none), ("STD_LAT_2", "STD_LAT_2", none),
    ("INTERPOLATE", "INTERPOLATE", some .keyword), ("REMOVE_SKY", "REMOVE_SKY", some .keyword),
    ("NIBBLE", "NIBBLE", none), ("NIBBLE_LEFT", "NIBBLE_LEFT", none),
    ("NIBBLE_RIGHT", "NIBBLE_RIGHT", none), ("NIBBLE_TOP", "NIBBLE_TOP", none),
    ("NIBBLE_BOTTOM", "NIBBLE_BOTTOM", none), ("INVERT", "INVERT", some .keyword),
    ("VERTICAL", "VERTICAL", none), ("HORIZONTAL", "HORIZONTAL", none), ("BOTH", "BOTH", none),
    ("SAMPLE_CENTER", "SAMPLE_CENTER", none), ("LINE_CENTER", "LINE_CENTER", none),
    ("LAT_AT_CENTER", "LAT_AT_CENTER", none), ("LON_AT_CENTER", "LON_AT_CENTER", none),
    ("SAMPLE_OA", "SAMPLE_OA", none), ("LINE_OA", "LINE_OA", none),
    ("FLAT_FIELD", "FLAT_FIELD", some .string), ("MINNAERT", "MINNAERT", none),
    ("AUTO", "AUTO", none), ("TABLE", "TABLE", none),
    ("GEOM_CORRECT", "GEOM_CORRECT", some .keyword), ("EMI_ANG_LIMIT", "EMI_ANG_LIMIT", none),
    ("TERMINATOR", "TERMINATOR", some .keyword), ("SUB_OBSERV_LAT", "SUB_OBSERV_LAT", none),
    ("SUB_OBSERV_LON", "SUB_OBSERV_LON", none), ("POSITION_ANGLE", "POSITION_ANGLE", none),
    ("SUB_SOLAR_LAT", "SUB_SOLAR_LAT", none), ("SUB_SOLAR_LON", "SUB_SOLAR_LON", none),
    ("RANGE", "RANGE", none), ("FOCAL_LENGTH", "FOCAL_LENGTH", none),
    ("PIXEL_SCALE", "PIXEL_SCALE", none), ("ARCSEC_PER_PIX", "ARCSEC_PER_PIX", none),
    ("KM_PER_PIXEL", "KM_PER_PIXEL", none), ("BYTE", "BYTE_DATA", none),
    ("SHORT", "SHORT_DATA", none), ("LONG", "LONG_DATA", none),
    ("LONGLONG", "LONGLONG_DATA", none), ("FLOAT", "FLOAT_DATA", none),
    ("DOUBLE", "DOUBLE_DATA", none), ("YES", "YES", none), ("Y", "YES", none),
    ("NO", "NO", none), ("N", "NO", none) ]

/-- A rule for a keyword (`src/lexer.ll` 158-265); the scanner ignores case
(55). -/
def ofKeyword (k : String × String × Option Cond) : Rule :=
  ⟨Cond.inclusive, litLen k.1.toList, fun _ => some (kw k.2.1), k.2.2⟩

/-- `[[:graph:]]` in the C locale. -/
def isGraph (c : Char) : Bool := decide (33 ≤ c.toNat) && decide (c.toNat ≤ 126)

/-- The rules before those of the `expression` condition (`src/lexer.ll`
70-94). -/
def firstRules : List Rule :=
  [ ⟨(· == .commentInit), litLen [':'], fun _ => some .colon, some .comment⟩,
    ⟨(· == .comment), fun cs => (cs.takeWhile (· ≠ '\n')).length, fun s => some (.str s),
      some .initial⟩,
    ⟨(· == .keyword), litLen [':'], fun _ => some .colon, some .initial⟩,
    ⟨(· == .string), litLen [':'], fun _ => some .colon, none⟩,
    ⟨(· == .string), fun cs => (cs.takeWhile isGraph).length, fun s => some (.str s),
      some .initial⟩,
    ⟨(· == .pole), litLen [':'], fun _ => some .colon, none⟩,
    ⟨(· == .pole), litLen ['N'], fun _ => some (kw "N"), some .initial⟩,
    ⟨(· == .pole), litLen "NORTH".toList, fun _ => some (kw "N"), some .initial⟩,
    ⟨(· == .pole), litLen ['S'], fun _ => some (kw "S"), some .initial⟩,
    ⟨(· == .pole), litLen "SOUTH".toList, fun _ => some (kw "S"), some .initial⟩,
    ⟨Cond.inclusive, litLen [':'], fun _ => some .colon, some .expression⟩ ]

/-- The rules after the keywords (`src/lexer.ll` 266-268) and Flex's default
rule, which matches any character in every condition and echoes it. -/
def lastRules : List Rule :=
  [ ⟨Cond.inclusive,
      fun cs => if cs.head? = some '#' then (cs.takeWhile (· ≠ '\n')).length else 0,
      fun _ => none, none⟩,
    ⟨Cond.inclusive, fun cs => (cs.takeWhile fun c => c = ' ' ∨ c = '\t' ∨ c = '\n').length,
      fun _ => none, none⟩,
    ⟨fun _ => true, fun cs => if cs.head? = some '\n' then 0 else 1,
      fun _ => some (.ex .unmatched), none⟩,
    ⟨fun _ => true, fun _ => 1, fun _ => none, none⟩ ]

/-- All rules in file order (`src/lexer.ll` 70-268). -/
def rules (tab : Table) : List Rule :=
  firstRules ++ (Calc.rules tab).map ofExpr ++ keywords.map ofKeyword ++ lastRules

/-- Flex picks the longest match and, among equals, the first rule. -/
def pick (cs : List Char) : List Rule → ℕ × (List Char → Option Token) × Option Cond
  | [] => (0, fun _ => none, none)
  | r :: rs => if (pick cs rs).1 ≤ r.len cs then (r.len cs, r.act, r.next) else pick cs rs

/-- The rules active in a condition. -/
def active (tab : Table) (c : Cond) : List Rule := (rules tab).filter (·.on c)

/-- Scan at most `n` matches of the text in the given condition, up to the end
of the input. -/
def scanN (tab : Table) : ℕ → Cond → List Char → List Token
  | 0, _, _ => []
  | _ + 1, _, [] => []
  | n + 1, c, x :: r =>
    let p := pick (x :: r) (active tab c)
    (p.2.1 ((x :: r).take p.1)).toList ++
      scanN tab n (p.2.2.getD c) ((x :: r).drop p.1)

/-- Tokens of an input file: `yylex` until the end of the input, from the
condition `INITIAL` (`src/marc.cpp` 117-130).  A match takes at least one
character. -/
def scan (tab : Table) (cs : List Char) : List Token := scanN tab cs.length .initial cs

end MaRC.Scan
