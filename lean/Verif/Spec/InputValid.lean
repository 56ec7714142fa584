import Verif.Spec.InputMeaning

/-!
# Input files with values in their ranges

What the manual says of the values in an input file: the ranges of angles, which
numbers have to be positive, how planes are numbered.  Values are looked up by their
keywords as in `Verif.Spec.InputMeaning`.
-/

namespace MaRC.InputMeaning

open MaRC.Grammar (Env Body)

/-- If keyword `k` is there, it has a value `x` as described by `P`. -/
def Given {α : Type} (k : String) (es : Part) (x : Option α) (P : α → Prop) : Prop :=
  has k es = true → ∃ y, x = some y ∧ P y

/-- Any value will do. -/
def Any {α : Type} (_ : α) : Prop := True

/-- A number above zero. -/
def Positive (x : Dbl) : Prop := (Dbl.fin 0).lt x = true

/-- Values of the integer data types. -/
def BlankFor (bitpix n : ℤ) : Prop :=
  bitpix = 8 ∧ 0 ≤ n ∧ n ≤ 255 ∨
  bitpix = 16 ∧ -32768 ≤ n ∧ n ≤ 32767 ∨
  bitpix = 32 ∧ -2147483648 ≤ n ∧ n ≤ 2147483647 ∨
  bitpix = 64

/-- The entries of a map with body `b` and `n` planes, before its planes. -/
structure ValidHead (E : Env) (b : Body) (graphic : Bool) (n : ℕ) (es : Part) : Prop where
  body : HasBody E es b
  radii : Positive b.polRad ∧ b.polRad.le b.eqRad = true
  flattening : Given "FLATTENING" es (real E "FLATTENING" es) fun f =>
    (Dbl.fin 0).le f = true ∧ f.lt (.fin 1) = true
  numbers : ∀ k ∈ ["DATA_OFFSET", "DATA_SCALE", "SAMPLE_CENTER", "LINE_CENTER"],
    Given k es (real E k es) Any
  blank : Given "DATA_BLANK" es (int "DATA_BLANK" es) (BlankFor (bitpix es))
  grid : ∀ k ∈ ["GRID_INTERVAL", "LAT_GRID_INTERVAL", "LON_GRID_INTERVAL"],
    Given k es (real E k es) Positive
  latitudes : ∀ k ∈ ["SUB_OBSERV_LAT", "LAT_AT_CENTER", "MAX_LAT", "LO_LAT", "HI_LAT"],
    Given k es (latitude E b k es) Any
  longitudes : ∀ k ∈ ["SUB_OBSERV_LON", "LON_AT_CENTER", "LO_LON", "HI_LON"],
    Given k es (longitude E b k es) Any
  angle : Given "POSITION_ANGLE" es (turn E es) Any
  scale : Given "KM_PER_PIXEL" es (real E "KM_PER_PIXEL" es) Positive
  order : ∀ x y, latitude E b "LO_LAT" es = some x → latitude E b "HI_LAT" es = some y →
    x.lt y = true
  projection : ∀ q, projection E b graphic es = some q → E.project b q = .ok ()
  planes : Given "PLANES" es (int "PLANES" es) (· = n)
  samples : ∃ k, int "SAMPLES" es = some k ∧ 0 < k
  lines : ∃ k, int "LINES" es = some k ∧ 0 < k

/-- The entries of a photo of body `b`. -/
structure ValidPhoto (E : Env) (b : Body) (es : Part) : Prop where
  nibble : ∀ k ∈ ["NIBBLE", "NIBBLE_LEFT", "NIBBLE_RIGHT", "NIBBLE_TOP", "NIBBLE_BOTTOM"],
    Given k es (int k es) (0 ≤ ·)
  positions : ∀ k ∈ ["SAMPLE_OA", "LINE_OA", "SAMPLE_CENTER", "LINE_CENTER"],
    Given k es (real E k es) (· ≠ .nan)
  minnaert : choice "MINNAERT" es = none →
    Given "MINNAERT" es (real E "MINNAERT" es) Any
  emission : Given "EMI_ANG_LIMIT" es (real E "EMI_ANG_LIMIT" es) (NumberWithin 90)
  latitudes : ∀ k ∈ ["SUB_OBSERV_LAT", "SUB_SOLAR_LAT", "LAT_AT_CENTER"],
    Given k es (latitude E b k es) (NumberWithin 90)
  longitudes : ∀ k ∈ ["SUB_OBSERV_LON", "SUB_SOLAR_LON", "LON_AT_CENTER"],
    Given k es (longitude E b k es) (NumberWithin 360)
  angle : Given "POSITION_ANGLE" es (turn E es) (NumberWithin 360)
  range : Given "RANGE" es (distance E es) fun r =>
    (b.eqRad.lt r = true ∨ b.polRad.lt r = true) ∧ r.lt (.fin (2 ^ 512 - 2 ^ 459)) = true
  scale : ∀ k ∈ ["KM_PER_PIXEL", "ARCSEC_PER_PIX", "FOCAL_LENGTH", "PIXEL_SCALE"],
    Given k es (real E k es) Positive

/-- The entries of a plane of a map of body `b`. -/
structure ValidPlane (E : Env) (b : Body) (es : Part) : Prop where
  number : (get "PLANE" es).map expr ≠ some [] → ∃ n, int "PLANE" es = some n
  limits : ∀ k ∈ ["DATA_MIN", "DATA_MAX"], Given k es (real E k es) Any
  order : ∀ x y, real E "DATA_MIN" es = some x → real E "DATA_MAX" es = some y → x.lt y = true
  photos : ∀ p ∈ parts "IMAGE" es, ValidPhoto E b p
  latitudes : ∀ k ∈ ["SUB_OBSERV_LAT", "SUB_SOLAR_LAT"],
    Given k (upTo "IMAGE" es) (latitude E b k es) Any
  longitudes : ∀ k ∈ ["SUB_OBSERV_LON", "SUB_SOLAR_LON"],
    Given k (upTo "IMAGE" es) (longitude E b k es) Any
  distance : Given "RANGE" (upTo "IMAGE" es) (distance E es) Any

/-- The planes that carry a number are numbered 1, 2, 3 and so on; there are none if the
number of planes is not given. -/
def Numbered (head : Part) (planes : List Part) : Prop :=
  ∃ k : ℕ, planes.filterMap (int "PLANE") = (List.range' 1 k).map Int.ofNat ∧
    (has "PLANES" head = false → k = 0)

/-- The entries of a map. -/
def ValidMap (E : Env) (graphic : Bool) (es : Part) : Prop :=
  ∃ b, ValidHead E b graphic (parts "PLANE" es).length (upTo "PLANE" es) ∧
    Numbered (upTo "PLANE" es) (parts "PLANE" es) ∧ ∀ p ∈ parts "PLANE" es, ValidPlane E b p

/-- The maps of an input file; `graphic` is the kind of latitudes that earlier maps
left behind (C64). -/
inductive ValidMaps (E : Env) : Bool → List Part → Prop where
  | nil {graphic} : ValidMaps E graphic []
  | cons {graphic es ess} : ValidMap E graphic es → ValidMaps E (afterMap graphic es) ess →
      ValidMaps E graphic (es :: ess)

/-- The entries of a user configuration file. -/
structure ValidUser (E : Env) (es : Part) : Prop where
  grid : ∀ k ∈ ["GRID_INTERVAL", "LAT_GRID_INTERVAL", "LON_GRID_INTERVAL"],
    Given k es (real E k es) Positive
  limits : ∀ k ∈ ["DATA_MIN", "DATA_MAX"], Given k es (real E k es) Any
  order : ∀ x y, real E "DATA_MIN" es = some x → real E "DATA_MAX" es = some y → x.lt y = true
  nibble : ∀ k ∈ ["NIBBLE", "NIBBLE_LEFT", "NIBBLE_RIGHT", "NIBBLE_TOP", "NIBBLE_BOTTOM"],
    Given k es (int k es) (0 ≤ ·)

/-- The entries of an input file. -/
def ValidFile (E : Env) (graphic : Bool) (es : Part) : Prop :=
  ValidMaps E graphic (parts "MAP" es) ∧ (parts "MAP" es = [] → ValidUser E es)

/-! ## Values that are not checked -/

/-- A photo's values that the parser takes as they are: its lens, and numbers that are not
a number where it compares with limits. -/
structure CheckedPhoto (E : Env) (b : Body) (es : Part) : Prop where
  lens : ∀ k ∈ ["FOCAL_LENGTH", "PIXEL_SCALE"], ∀ x, real E k es = some x → Positive x
  numbers : ∀ k ∈ ["SAMPLE_CENTER", "LINE_CENTER", "EMI_ANG_LIMIT"], real E k es ≠ some .nan
  latitude : latitude E b "LAT_AT_CENTER" es ≠ some .nan
  longitude : longitude E b "LON_AT_CENTER" es ≠ some .nan
  distance : distance E es ≠ some .nan

/-- Intervals of the grid are compared with zero. -/
def CheckedGrid (E : Env) (es : Part) : Prop :=
  ∀ k ∈ ["GRID_INTERVAL", "LAT_GRID_INTERVAL", "LON_GRID_INTERVAL"], real E k es ≠ some .nan

/-- Such values of a map. -/
structure CheckedMap (E : Env) (es : Part) : Prop where
  grid : CheckedGrid E (upTo "PLANE" es)
  photos : ∀ b, HasBody E (upTo "PLANE" es) b → ∀ p ∈ parts "PLANE" es, ∀ q ∈ parts "IMAGE" p,
    CheckedPhoto E b q

/-- Such values of an input file. -/
def CheckedFile (E : Env) (es : Part) : Prop :=
  (∀ m ∈ parts "MAP" es, CheckedMap E m) ∧ (parts "MAP" es = [] → CheckedGrid E es)

end MaRC.InputMeaning
