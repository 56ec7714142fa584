import Verif.Model.Actions
import Verif.Spec.InputFile
import Verif.Props.PhotoClauses

/-!
# What the entries of an input file mean

The map commands that the entries of an input file ask for.  A value is looked up by
its keyword in the part of the file it belongs to: before the first plane, in a plane,
or in a photo.  Nothing here refers to the grammar or to the order of entries.
-/

namespace MaRC.InputMeaning

open MaRC.Calc (Tok)
open MaRC.Scan (Token)
open MaRC.InputFile (Item tokenOf tokenName)
open MaRC.Grammar (Env Body Source PlaneImage Command)
open MaRC.Parser (Averaging Hemisphere Side Proj OrthoCenter PhotoSrc PhotoCmd CenterClause
  ScaleClause NibbleClause Nibbles)

/-! ## Entries -/

/-- A part of an input file: keywords and what follows each. -/
abbrev Part := List (String × List Token)

/-- The words an entry is followed by. -/
def wordsAhead : List Item → List Token
  | .word w :: l => tokenOf w :: wordsAhead l
  | _ => []

/-- The keywords of an input file, each with what follows it up to the next
keyword. -/
def entries : List Item → Part
  | [] => []
  | .word _ :: l => entries l
  | .expr k ts :: l => (tokenName k, ts.map .ex ++ wordsAhead l) :: entries l
  | .auto k w :: l => (tokenName k, tokenOf w :: wordsAhead l) :: entries l
  | .mark k :: l => (tokenName k, wordsAhead l) :: entries l
  | .name k s :: l | .text k s :: l => (tokenName k, .str s :: wordsAhead l) :: entries l
  | .pole north :: l =>
    ("POLE", .ex (.kw (if north then "N" else "S")) :: wordsAhead l) :: entries l

/-- The entries before the first one with keyword `k`. -/
def upTo (k : String) (es : Part) : Part := es.takeWhile (fun e => e.1 ≠ k)

/-- The parts that begin with keyword `k`. -/
def parts (k : String) : Part → List Part
  | [] => []
  | e :: es => if e.1 = k then (e :: upTo k es) :: parts k es else parts k es

/-- What follows keyword `k`. -/
def get (k : String) (es : Part) : Option (List Token) := (es.find? (·.1 = k)).map (·.2)

/-- Whether keyword `k` is there. -/
def has (k : String) (es : Part) : Bool := (get k es).isSome

/-- The mathematical expression among the tokens after a keyword. -/
def expr (v : List Token) : List Tok :=
  v.filterMap fun
    | .ex (.kw _) => none
    | .ex t => some t
    | _ => none

/-- The words among the tokens after a keyword. -/
def words (v : List Token) : List String :=
  v.filterMap fun
    | .ex (.kw w) => some w
    | _ => none

/-- The text among the tokens after a keyword. -/
def text (v : List Token) : Option String :=
  v.findSome? fun
    | .str s => some (String.ofList s)
    | _ => none

/-! ## Values -/

open Classical in
/-- The value of a mathematical expression, if it is one and has a value. -/
noncomputable def valueOf (E : Env) (ts : List Tok) : Option Dbl :=
  if h : ∃ e, ExprSpec.Derives .sum ts e then h.choose.value E.F E.L.strtod E.L.pow E.L.fn
  else none

/-- A real number. -/
noncomputable def real (E : Env) (k : String) (es : Part) : Option Dbl :=
  (get k es).bind fun v => valueOf E (expr v)

/-- An integer (see C63 for how it is read). -/
def int (k : String) (es : Part) : Option ℤ :=
  (get k es).bind fun v => match expr v with
    | [.num s] => Parser.integer s
    | _ => none

/-- A name or a text. -/
def string (k : String) (es : Part) : Option String := (get k es).bind text

/-- All texts with the same keyword. -/
def strings (k : String) (es : Part) : List String :=
  es.filterMap fun e => if e.1 = k then text e.2 else none

/-- The word after a keyword. -/
def choice (k : String) (es : Part) : Option String := (get k es).bind fun v => (words v).head?

/-- `YES` or `NO`. -/
def yes (k : String) (es : Part) : Option Bool := (choice k es).map (· = "YES")

/-- Degrees of latitude with the letter `N` or `S`, or with a sign. -/
def signedLatitude (letters : List String) (x : Dbl) : Option Dbl :=
  if "N" ∈ letters ∨ "S" ∈ letters then
    if (Dbl.fin 0).le x = true ∧ x.le (.fin 90) = true then
      some (if "N" ∈ letters then x else x.neg)
    else none
  else if x.abs.le (.fin 90) = true then some x else none

/-- The planetocentric latitude of a planetographic one, in degrees: the arc tangent of
`(polRad / eqRad)^2 tan x`. -/
def madeCentric (E : Env) (b : Body) (x : Dbl) : Dbl :=
  let t := E.L.fn "tan" (E.F.mul x cDegree)
  let ratio := E.L.pow (E.F.div b.polRad b.eqRad) (.fin 2)
  E.F.div (E.L.fn "atan" (E.F.mul ratio t)) cDegree

/-- A latitude: degrees, planetographic ones made planetocentric. -/
noncomputable def latitude (E : Env) (b : Body) (k : String) (es : Part) : Option Dbl :=
  (get k es).bind fun v => do
    let x ← valueOf E (expr v)
    let x ← signedLatitude (words v) x
    return if "G" ∈ words v then madeCentric E b x else x

/-- A longitude in degrees (see C52 for `circleAngle`): they grow against the rotation of the
body, and those with the letter of the other direction are turned over. -/
noncomputable def longitude (E : Env) (b : Body) (k : String) (es : Part) : Option Dbl :=
  (get k es).bind fun v => do
    let x ← valueOf E (expr v)
    if x.abs.gt (.fin 360) = true then none
    else
      let c := Parser.circleAngle E.F x
      return if ("E" ∈ words v ∧ b.prograde = true) ∨ ("W" ∈ words v ∧ b.prograde = false) then
        E.F.sub (.fin 360) c else c

/-- The position angle in degrees (see C52 for `circleAngle`), measured clockwise with the
word `CW`. -/
noncomputable def turn (E : Env) (es : Part) : Option Dbl :=
  (get "POSITION_ANGLE" es).bind fun v => do
    let x ← valueOf E (expr v)
    if x.abs.gt (.fin 360) = true then none
    else
      let c := Parser.circleAngle E.F x
      return if "CW" ∈ words v then E.F.sub (.fin 360) c else c

/-- Whether the distance is given in astronomical units. -/
def inAu (es : Part) : Bool := ((get "RANGE" es).map fun v => decide ("AU" ∈ words v)).getD false

/-- The distance in kilometers. -/
noncomputable def distance (E : Env) (es : Part) : Option Dbl :=
  (real E "RANGE" es).map fun x =>
    if inAu es then Fp.ieee.div (Fp.ieee.mul x (Fp.ieee.rnd 149597870700)) (.fin 1000) else x

/-- Both of two values. -/
def both {α β : Type} (x : Option α) (y : Option β) : Option (α × β) := do return (← x, ← y)

/-- The kind of latitudes, if given: whether they are planetographic. -/
def latType (es : Part) : Option Bool :=
  if "GRAPHIC" ∈ es.flatMap (words ·.2) then some true
  else if "CENTRIC" ∈ es.flatMap (words ·.2) then some false
  else none

/-! ## Maps -/

/-- The user's defaults: grid intervals and pixels to leave out of photos. -/
structure Defaults where
  lat : Dbl
  lon : Dbl
  nibble : Nibbles

/-- `BITPIX` for the data type; zero if there is none. -/
def bitpix (es : Part) : ℤ :=
  match choice "DATA_TYPE" es with
  | some "BYTE_DATA" => 8
  | some "SHORT_DATA" => 16
  | some "LONG_DATA" => 32
  | some "LONGLONG_DATA" => 64
  | some "FLOAT_DATA" => -32
  | some "DOUBLE_DATA" => -64
  | _ => 0

/-- The parameters given by the user; those are locked. -/
noncomputable def params (E : Env) (es : Part) : MapParams.Params where
  locked
    | .str .author => has "AUTHOR" es
    | .str .origin => has "ORIGIN" es
    | .str .object => true
    | .real .bzero => has "DATA_OFFSET" es
    | .real .bscale => has "DATA_SCALE" es
    | .blank => has "DATA_BLANK" es
    | .comment => has "COMMENT" es
    | .xcomment => has "XCOMMENT" es
    | _ => false
  plane := 0
  bitpix := bitpix es
  str
    | .author => (string "AUTHOR" es).getD ""
    | .origin => (string "ORIGIN" es).getD ""
    | .object => (string "BODY" es).getD ""
    | _ => ""
  real
    | .bzero => real E "DATA_OFFSET" es
    | .bscale => real E "DATA_SCALE" es
    | _ => none
  blank := int "DATA_BLANK" es
  comments := strings "COMMENT" es
  xcomments := strings "XCOMMENT" es
  histories := []

/-- The body: two of the three quantities are given. -/
def HasBody (E : Env) (es : Part) (b : Body) : Prop :=
  (choice "ROTATION" es = some "PROGRADE" ∧ b.prograde = true ∨
    choice "ROTATION" es = some "RETROGRADE" ∧ b.prograde = false) ∧
  (real E "EQ_RAD" es = some b.eqRad ∧ real E "POL_RAD" es = some b.polRad ∨
    (∃ f, real E "FLATTENING" es = some f ∧ real E "EQ_RAD" es = some b.eqRad ∧
      b.polRad = E.F.mul b.eqRad (E.F.sub (.fin 1) f)) ∨
    ∃ f, real E "FLATTENING" es = some f ∧ real E "POL_RAD" es = some b.polRad ∧
      b.eqRad = E.F.div b.polRad (E.F.sub (.fin 1) f))

/-- The grid to draw: the intervals given, and defaults for those left out. -/
noncomputable def grid (E : Env) (d : Defaults) (es : Part) : Option (Dbl × Dbl) :=
  if choice "GRID" es = some "YES" then
    some (((real E "LAT_GRID_INTERVAL" es).or (real E "GRID_INTERVAL" es)).getD d.lat,
      ((real E "LON_GRID_INTERVAL" es).or (real E "GRID_INTERVAL" es)).getD d.lon)
  else none

/-- How overlapping photos are averaged. -/
def averaging (es : Part) : Averaging :=
  match choice "AVERAGING" es with
  | some "NONE" => .none
  | some "UNWEIGHTED" => .unweighted
  | _ => .weighted

open Classical in
/-- The point of the body in the middle of an orthographic map; what is not a number
counts as not given. -/
noncomputable def mapCenter (E : Env) (b : Body) (es : Part) : OrthoCenter :=
  match both (real E "SAMPLE_CENTER" es) (real E "LINE_CENTER" es) with
  | some (s, l) => if s ≠ .nan ∧ l ≠ .nan then .center s l else .default
  | none =>
    match both (latitude E b "LAT_AT_CENTER" es) (longitude E b "LON_AT_CENTER" es) with
    | some (x, y) => if x ≠ .nan ∧ y ≠ .nan then .latLon x y else .default
    | none => .default

/-- The projection, with defaults for the options left out; `graphic` is the kind of
latitudes if none is given. -/
noncomputable def projection (E : Env) (b : Body) (graphic : Bool) (es : Part) : Option Proj :=
  match choice "MAP_TYPE" es with
  | some "MERCATOR" => some .mercator
  | some "ORTHO" => some (.ortho ((latitude E b "SUB_OBSERV_LAT" es).getD (.fin 0))
      ((longitude E b "SUB_OBSERV_LON" es).getD (.fin 0)) ((turn E es).getD (.fin 0))
      ((real E "KM_PER_PIXEL" es).getD (.fin (-1))) (mapCenter E b es))
  | some "P_STEREO" => some (.polar ((latitude E b "MAX_LAT" es).getD .nan)
      (choice "POLE" es ≠ some "S"))
  | some "SIMPLE_C" => some (.simple ((latitude E b "LO_LAT" es).getD (.fin (-90)))
      ((latitude E b "HI_LAT" es).getD (.fin 90)) ((longitude E b "LO_LON" es).getD (.fin 0))
      ((longitude E b "HI_LON" es).getD (.fin 360)) ((latType es).getD graphic))
  | _ => none

/-! ## Photos -/

/-- The pixels to leave out. -/
def nibble (es : Part) : NibbleClause :=
  match int "NIBBLE" es with
  | some n => .all n
  | none => .sides (int "NIBBLE_LEFT" es) (int "NIBBLE_RIGHT" es) (int "NIBBLE_TOP" es)
      (int "NIBBLE_BOTTOM" es)

/-- Where the middle of the body is in a photo, or what is in the middle. -/
noncomputable def center (E : Env) (b : Body) (es : Part) : Option CenterClause :=
  ((both (real E "SAMPLE_CENTER" es) (real E "LINE_CENTER" es)).map fun p => .pixel p.1 p.2).or
    ((both (latitude E b "LAT_AT_CENTER" es) (longitude E b "LON_AT_CENTER" es)).map
      fun p => .latLon p.1 p.2)

/-- The resolution of a photo. -/
noncomputable def scale (E : Env) (es : Part) : Option ScaleClause :=
  (((real E "KM_PER_PIXEL" es).map .km).or ((real E "ARCSEC_PER_PIX" es).map .arcsec)).or
    ((both (real E "FOCAL_LENGTH" es) (real E "PIXEL_SCALE" es)).map fun p => .lens p.1 p.2)

/-- The photo described by the entries from `IMAGE` on.  (The correction of limb
darkening has no effect, see C80.) -/
noncomputable def photo (E : Env) (b : Body) (es : Part) : Option PhotoSrc := do
  return {
    file := ← string "IMAGE" es
    nibble := nibble es
    invert := match choice "INVERT" es with
      | some "VERTICAL" => some (true, false)
      | some "HORIZONTAL" => some (false, true)
      | some "BOTH" => some (true, true)
      | _ => none
    interpolate := yes "INTERPOLATE" es
    removeSky := yes "REMOVE_SKY" es
    center := ← center E b es
    opticalAxis := both (real E "SAMPLE_OA" es) (real E "LINE_OA" es)
    flatField := string "FLAT_FIELD" es
    minnaert := .none
    geomCorrect := yes "GEOM_CORRECT" es
    emiAngLimit := real E "EMI_ANG_LIMIT" es
    terminator := yes "TERMINATOR" es
    subObserv := ← both (latitude E b "SUB_OBSERV_LAT" es) (longitude E b "SUB_OBSERV_LON" es)
    positionAngle := ← turn E es
    subSolar := ← both (latitude E b "SUB_SOLAR_LAT" es) (longitude E b "SUB_SOLAR_LON" es)
    rangeAu := inAu es
    range := ← real E "RANGE" es
    scale := ← scale E es }

/-- The numbers the program does not check: a lens and the center of the body. -/
def Checked (p : PhotoSrc) : Prop :=
  (∀ f s, p.scale = .lens f s → (Dbl.fin 0).lt f = true ∧ (Dbl.fin 0).lt s = true) ∧
    ∀ x y, p.center = .pixel x y ∨ p.center = .latLon x y → x ≠ .nan ∧ y ≠ .nan

/-- The photo of a command is the one described (see C80 for what `wanted` says); numbers
that are not checked only make a difference to the view. -/
def IsPhoto (E : Env) (b : Body) (d : Nibbles) (es : Part) (c : PhotoCmd) : Prop :=
  ∃ p, photo E b es = some p ∧
    { c with view := p.view (E.L.fn "cos") b.eqRad b.polRad } =
      p.wanted (E.L.fn "cos") b.eqRad b.polRad d ∧
    (Checked p → c = p.wanted (E.L.fn "cos") b.eqRad b.polRad d)

/-! ## Planes -/

/-- What a plane shows: photos if there are any, and otherwise a computed image; `graphic` is the
kind of latitudes if none is given. -/
inductive Shows (E : Env) (b : Body) (a : Averaging) (d : Nibbles) (graphic : Bool) (es : Part) :
    Source → Prop where
  | photo {p c} : parts "IMAGE" es = [p] → IsPhoto E b d p c →
      Shows E b a d graphic es (.photos (.single c))
  | photos {cs} : 1 < cs.length → List.Forall₂ (IsPhoto E b d) (parts "IMAGE" es) cs →
      Shows E b a d graphic es (.photos (.mosaic cs a))
  | mu {lat lon r} : has "MU" es → latitude E b "SUB_OBSERV_LAT" es = some lat →
      longitude E b "SUB_OBSERV_LON" es = some lon → distance E es = some r →
      has "IMAGE" es = false → Shows E b a d graphic es (.mu lat lon r)
  | mu0 {lat lon} : has "MU0" es → latitude E b "SUB_SOLAR_LAT" es = some lat →
      longitude E b "SUB_SOLAR_LON" es = some lon → has "IMAGE" es = false →
      Shows E b a d graphic es (.mu0 lat lon)
  | phase {lat lon sLat sLon r} : has "PHASE" es → latitude E b "SUB_OBSERV_LAT" es = some lat →
      longitude E b "SUB_OBSERV_LON" es = some lon → latitude E b "SUB_SOLAR_LAT" es = some sLat →
      longitude E b "SUB_SOLAR_LON" es = some sLon → distance E es = some r →
      has "IMAGE" es = false → Shows E b a d graphic es (.phase lat lon sLat sLon r)
  | latitude : has "LATITUDE" es → has "IMAGE" es = false →
      Shows E b a d graphic es (.latitude ((latType es).getD graphic))
  | longitude : "LONGITUDE" ∈ es.flatMap (words ·.2) → has "IMAGE" es = false →
      Shows E b a d graphic es .longitude

/-- A plane of a command: what it shows and the range of its data. -/
structure IsPlane (E : Env) (b : Body) (a : Averaging) (d : Nibbles) (graphic : Bool) (es : Part)
    (p : PlaneImage) : Prop where
  minimum : p.minimum = real E "DATA_MIN" es
  maximum : p.maximum = real E "DATA_MAX" es
  ordered : ∀ x y, p.minimum = some x → p.maximum = some y → x.lt y = true
  source : Shows E b a d graphic es p.source

/-- The kind of latitudes after a plane: a latitude plane may change it. -/
def afterPlane (graphic : Bool) (es : Part) : Bool :=
  if has "LATITUDE" es then (latType es).getD graphic else graphic

/-- The planes of a command. -/
inductive ArePlanes (E : Env) (b : Body) (a : Averaging) (d : Nibbles) :
    Bool → List Part → List PlaneImage → Prop where
  | nil {graphic} : ArePlanes E b a d graphic [] []
  | cons {graphic es ess p ps} : IsPlane E b a d graphic es p →
      ArePlanes E b a d (afterPlane graphic es) ess ps →
      ArePlanes E b a d graphic (es :: ess) (p :: ps)

/-! ## Commands -/

/-- The kind of latitudes after the projection of a map: simple cylindrical ones put it
back to planetocentric. -/
def afterProjection (graphic : Bool) (es : Part) : Bool :=
  if choice "MAP_TYPE" es = some "SIMPLE_C" then false else graphic

/-- A map command; `graphic` is the kind of latitudes that earlier maps left behind
(C64). -/
structure IsCommand (E : Env) (d : Defaults) (graphic : Bool) (es : Part) (c : Command) :
    Prop where
  file : string "MAP" (upTo "PLANE" es) = some c.file
  samples : int "SAMPLES" (upTo "PLANE" es) = some c.samples ∧ 0 < c.samples
  lines : int "LINES" (upTo "PLANE" es) = some c.lines ∧ 0 < c.lines
  params : c.params = params E (upTo "PLANE" es)
  body : HasBody E (upTo "PLANE" es) c.body
  proj : projection E c.body graphic (upTo "PLANE" es) = some c.proj
  grid : c.grid = grid E d (upTo "PLANE" es)
  count : has "PLANES" (upTo "PLANE" es) = true →
    int "PLANES" (upTo "PLANE" es) = some (c.planes.length : ℤ)
  planes : ArePlanes E c.body (averaging (upTo "PLANE" es)) d.nibble
    (afterProjection graphic (upTo "PLANE" es)) (parts "PLANE" es) c.planes

/-- The kind of latitudes after a map. -/
def afterMap (graphic : Bool) (es : Part) : Bool :=
  (parts "PLANE" es).foldl afterPlane (afterProjection graphic (upTo "PLANE" es))

/-- The commands of an input file, one for each of its maps. -/
inductive AreCommands (E : Env) (d : Defaults) : Bool → List Part → List Command → Prop where
  | nil {graphic} : AreCommands E d graphic [] []
  | cons {graphic es ess c cs} : IsCommand E d graphic es c →
      AreCommands E d (afterMap graphic es) ess cs →
      AreCommands E d graphic (es :: ess) (c :: cs)

/-! ## Defaults -/

/-- The defaults that the parser holds. -/
def defaultsOf (s : Grammar.State) : Defaults :=
  ⟨s.g.ppLatInterval, s.g.ppLonInterval, s.v.ppNibble⟩

/-- The defaults after a user configuration file with entries `es`: the intervals and
nibble values given. -/
structure AreDefaults (E : Env) (es : Part) (d d' : Defaults) : Prop where
  lat : ∀ x, (real E "LAT_GRID_INTERVAL" es).or (real E "GRID_INTERVAL" es) = some x → d'.lat = x
  lon : ∀ x, (real E "LON_GRID_INTERVAL" es).or (real E "GRID_INTERVAL" es) = some x → d'.lon = x
  nibble : (∀ n ∈ (nibble es).numbers, n < 2 ^ 32) → d'.nibble = (nibble es).wanted d.nibble

end MaRC.InputMeaning
