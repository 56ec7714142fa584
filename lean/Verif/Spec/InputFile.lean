import Verif.Model.Scanner
import Verif.Spec.Expr

/-!
# How input files are written

Entries of input files, the tokens they stand for and the ways they may be laid
out: letter case, blanks, line breaks and comments.  Nothing here refers to the
rules of the scanner; only its token type is used.
-/

namespace MaRC.InputFile

open MaRC.Calc (Tok)
open MaRC.Scan (Token)

/-- Keywords followed by a name. -/
def nameKeys : List String := ["MAP", "BODY", "IMAGE", "FLAT_FIELD"]

/-- Keywords followed by a text up to the end of the line. -/
def textKeys : List String := ["AUTHOR", "ORIGIN", "COMMENT", "XCOMMENT"]

/-- Keywords followed by words or by further entries. -/
def markKeys : List String :=
  ["DATA_TYPE", "GRID", "TYPE", "PROJECTION", "AVERAGING", "OPTIONS", "ROTATION", "MU", "MU0",
   "PHASE", "LATITUDE_TYPE", "LATITUDE", "INTERPOLATE", "REMOVE_SKY", "INVERT", "GEOM_CORRECT",
   "TERMINATOR"]

/-- Keywords followed by an expression up to the end of the line. -/
def exprKeys : List String :=
  ["DATA_OFFSET", "DATA_SCALE", "DATA_BLANK", "GRID_INTERVAL", "LAT_GRID_INTERVAL",
   "LON_GRID_INTERVAL", "SAMPLES", "LINES", "PLANES", "FLATTENING", "EQ_RAD", "POL_RAD", "PLANE",
   "DATA_MIN", "DATA_MAX", "LO_LAT", "HI_LAT", "LO_LON", "HI_LON", "MAX_LAT", "STD_LAT",
   "STD_LAT_1", "STD_LAT_2", "NIBBLE", "NIBBLE_LEFT", "NIBBLE_RIGHT", "NIBBLE_TOP",
   "NIBBLE_BOTTOM", "SAMPLE_CENTER", "LINE_CENTER", "LAT_AT_CENTER", "LON_AT_CENTER",
   "SAMPLE_OA", "LINE_OA", "MINNAERT", "EMI_ANG_LIMIT", "SUB_OBSERV_LAT", "SUB_OBSERV_LON",
   "POSITION_ANGLE", "SUB_SOLAR_LAT", "SUB_SOLAR_LON", "RANGE", "FOCAL_LENGTH", "PIXEL_SCALE",
   "ARCSEC_PER_PIX", "KM_PER_PIXEL"]

/-- Words. -/
def words : List String :=
  ["MERCATOR", "ORTHO", "P_STEREO", "SIMPLE_C", "NONE", "WEIGHTED", "UNWEIGHTED", "PROGRADE",
   "RETROGRADE", "CENTRIC_LAT", "CENTRIC", "GRAPHIC_LAT", "GRAPHIC", "LONGITUDE", "VERTICAL",
   "HORIZONTAL", "BOTH", "BYTE", "SHORT", "LONG", "LONGLONG", "FLOAT", "DOUBLE", "YES", "Y",
   "NO", "N", "AUTO", "TABLE"]

/-- Letters and words that may follow an expression. -/
def units : List String := ["C", "G", "N", "S", "E", "W", "AU", "KM", "CW", "CCW"]

/-- The token a keyword or word stands for: synonyms share one. -/
def tokenName : String → String
  | "TYPE" => "MAP_TYPE"
  | "PROJECTION" => "MAP_TYPE"
  | "CENTRIC_LAT" => "CENTRIC"
  | "GRAPHIC_LAT" => "GRAPHIC"
  | "BYTE" => "BYTE_DATA"
  | "SHORT" => "SHORT_DATA"
  | "LONG" => "LONG_DATA"
  | "LONGLONG" => "LONGLONG_DATA"
  | "FLOAT" => "FLOAT_DATA"
  | "DOUBLE" => "DOUBLE_DATA"
  | "Y" => "YES"
  | "N" => "NO"
  | w => w

/-- One entry of an input file. -/
inductive Item where
  /-- `KEYWORD: expression`, perhaps with units, or with nothing. -/
  | expr (k : String) (ts : List Tok)
  /-- `KEYWORD: AUTO` or `KEYWORD: TABLE` on one line. -/
  | auto (k w : String)
  /-- `KEYWORD:` before a word or before further entries. -/
  | mark (k : String)
  /-- A word. -/
  | word (w : String)
  /-- `KEYWORD: name`. -/
  | name (k : String) (s : List Char)
  /-- `KEYWORD:text`. -/
  | text (k : String) (s : List Char)
  /-- `POLE: N` or `POLE: S`. -/
  | pole (north : Bool)
  deriving DecidableEq, Repr

/-- The token of a keyword or word. -/
def tokenOf (w : String) : Token := .ex (.kw (tokenName w))

/-- The tokens an entry stands for. -/
def Item.tokens : Item → List Token
  | .expr k ts => tokenOf k :: .colon :: ts.map .ex
  | .auto k w => [tokenOf k, .colon, tokenOf w]
  | .mark k => [tokenOf k, .colon]
  | .word w => [tokenOf w]
  | .name k s => [tokenOf k, .colon, .str s]
  | .text k s => [tokenOf k, .colon, .str s]
  | .pole north => [tokenOf "POLE", .colon, .ex (.kw (if north then "N" else "S"))]

/-- The same word but for the case of its letters. -/
def SameWord (w : String) (s : List Char) : Prop := w.toList.map Char.toLower = s.map Char.toLower

instance (w : String) (s : List Char) : Decidable (SameWord w s) :=
  inferInstanceAs (Decidable (_ = _))

/-- Blanks within a line. -/
def Blanks (b : List Char) : Prop := ∀ c ∈ b, c = ' ' ∨ c = '\t'

instance (b : List Char) : Decidable (Blanks b) :=
  inferInstanceAs (Decidable (∀ c ∈ b, c = ' ' ∨ c = '\t'))

/-- What may stand between entries: blanks, line breaks and comments, which
reach from `#` to the end of the line. -/
inductive Gap : List Char → Prop where
  | nil : Gap []
  | blank {c g} : (c = ' ' ∨ c = '\t' ∨ c = '\n') → Gap g → Gap (c :: g)
  | note {s g} : '\n' ∉ s → Gap g → Gap ('#' :: s ++ '\n' :: g)

/-- What may stand before a name: blanks, line breaks and comments that have
several words. -/
inductive NameGap : List Char → Prop where
  | nil : NameGap []
  | blank {c g} : (c = ' ' ∨ c = '\t' ∨ c = '\n') → NameGap g → NameGap (c :: g)
  | note {s g} : '\n' ∉ s → (' ' ∈ s ∨ '\t' ∈ s) → NameGap g → NameGap ('#' :: s ++ '\n' :: g)

/-- A real number: perhaps a sign, digits with perhaps a point among, before or
after them, and perhaps an exponent of one to three digits. -/
def isReal (s : List Char) : Prop :=
  ∃ sign a b c, s = sign ++ a ++ b ++ c ∧ (sign = [] ∨ sign = ['+'] ∨ sign = ['-']) ∧
    (∀ x ∈ a, x.isDigit = true) ∧
    (b = [] ∨ ∃ d, b = '.' :: d ∧ (∀ x ∈ d, x.isDigit = true) ∧ a ++ d ≠ []) ∧ a ++ b ≠ [] ∧
    (c = [] ∨ ExprSpec.isExponent c)

/-- How a token of an expression is written: numbers as they are, functions in
lower case, units in any case. -/
def Spells : Tok → List Char → Prop
  | .num s, w => w = s ∧ isReal s
  | .fnct f, w => (f, String.ofList w) ∈ [("sin", "sin"), ("cos", "cos"), ("tan", "tan"),
      ("asin", "asin"), ("acos", "acos"), ("atan", "atan"), ("log", "ln"), ("exp", "exp"),
      ("sqrt", "sqrt")]
  | .kw u, w => u ∈ units ∧ SameWord u w
  | .plus, w => w = ['+']
  | .minus, w => w = ['-']
  | .times, w => w = ['*']
  | .divide, w => w = ['/']
  | .caret, w => w = ['^']
  | .lpar, w => w = ['(']
  | .rpar, w => w = [')']
  | _, _ => False

/-- Tokens of an expression that may be written without a blank between them.
Not among them are a number after a sign (the sign would be the number's), two
words or numbers, and a unit and anything. -/
def touch : Tok → Tok → Prop
  | .times, _ | .divide, _ | .caret, _ | .lpar, _ | .rpar, _ => True
  | .plus, .num s | .minus, .num s => s.head? = some '+' ∨ s.head? = some '-'
  | .plus, .kw _ | .minus, .kw _ => False
  | .plus, _ | .minus, _ => True
  | .kw _, _ => False
  | _, .num s => s.head? = some '+' ∨ s.head? = some '-'
  | _, .kw _ => False
  | _, .fnct _ => False
  | _, _ => True

/-- What may follow a token of an expression: the end, a blank, a comment or a
token it may touch. -/
def Apart (t : Tok) (ts : List Tok) (l : List Char) : Prop :=
  l = [] ∨ (∃ c r, l = c :: r ∧ (c = ' ' ∨ c = '\t' ∨ c = '#')) ∨
    ∃ u, ts.head? = some u ∧ touch t u

/-- The rest of a line that holds the tokens of an expression, with blanks and
a comment at the end. -/
inductive Line : List Tok → List Char → Prop where
  | nil {b c} : Blanks b → (c = [] ∨ ∃ s, c = '#' :: s ∧ '\n' ∉ s) → Line [] (b ++ c)
  | cons {t ts b w l} : Blanks b → Spells t w → Line ts l → Apart t ts l →
      Line (t :: ts) (b ++ w ++ l)

/-- How an entry is written. -/
inductive Entry : Item → List Char → Prop where
  | expr {k ts s g l} : k ∈ exprKeys → SameWord k s → Gap g → Line ts l →
      Entry (.expr k ts) (s ++ g ++ ':' :: l)
  | auto {k w s g b s'} : k ∈ exprKeys → w = "AUTO" ∨ w = "TABLE" → SameWord k s → Gap g →
      Blanks b → SameWord w s' → Entry (.auto k w) (s ++ g ++ ':' :: (b ++ s'))
  | mark {k s g} : k ∈ markKeys → SameWord k s → Gap g → Entry (.mark k) (s ++ g ++ [':'])
  | word {w s} : w ∈ words → SameWord w s → Entry (.word w) s
  | name {k f s g c g'} : k ∈ nameKeys → SameWord k s → NameGap g →
      (c = ' ' ∨ c = '\t' ∨ c = '\n') → NameGap g' →
      f ≠ [] → (∀ x ∈ f, 33 ≤ x.toNat ∧ x.toNat ≤ 126) →
      f.head? ≠ some '#' → f.head? ≠ some ':' →
      Entry (.name k f) (s ++ g ++ ':' :: c :: (g' ++ f))
  | text {k t s g} : k ∈ textKeys → SameWord k s → Gap g → t ≠ [] → '\n' ∉ t →
      Entry (.text k t) (s ++ g ++ ':' :: t)
  | pole {north w s g g' s'} : SameWord "POLE" s → Gap g → Gap g' →
      (w ∈ if north then ["N", "NORTH"] else ["S", "SOUTH"]) → SameWord w s' →
      Entry (.pole north) (s ++ g ++ ':' :: (g' ++ s'))

/-- What may come after an entry: after an expression or a text the end of the
line, after a name a blank or the end of the line, after a word these or a
comment. -/
def Follows : Item → List Char → Prop
  | .expr _ _, r | .text _ _, r => ∀ c, r.head? = some c → c = '\n'
  | .name _ _, r => ∀ c, r.head? = some c → c = ' ' ∨ c = '\t' ∨ c = '\n'
  | .mark _, _ => True
  | _, r => ∀ c, r.head? = some c → c = ' ' ∨ c = '\t' ∨ c = '\n' ∨ c = '#'

/-- The text of an input file with the given entries. -/
inductive Written : List Item → List Char → Prop where
  | nil {g c} : Gap g → (c = [] ∨ ∃ s, c = '#' :: s ∧ '\n' ∉ s) → Written [] (g ++ c)
  | cons {i is g s r} : Gap g → Entry i s → Follows i r → Written is r →
      Written (i :: is) (g ++ s ++ r)

end MaRC.InputFile
