import Verif.Model.Parser
import Verif.Model.ViewSettings

/-!
# Photo clauses of an input file (`image_setup`, `src/parse.yy` 1086-1150)

Operands are given by their parsed values (see `Calc` for expressions and `Parser`
for latitudes, longitudes and position angles).
-/

namespace MaRC.Parser

/-- How many pixels to leave out at each side of a photo. -/
structure Nibbles where
  left : ℕ
  right : ℕ
  top : ℕ
  bottom : ℕ
  deriving DecidableEq, Repr

/-- File-scope variables the photo clauses use (`src/parse.yy` 362-370) and the user's
nibble defaults (`src/parse_scan.h` 91-101). -/
structure PhotoVars where
  sampleCenter : Dbl
  lineCenter : Dbl
  latAtCenter : Dbl
  lonAtCenter : Dbl
  kmPerPixel : Dbl
  arcsecPerPix : Dbl
  focalLength : Dbl
  pixelScale : Dbl
  ppNibble : Nibbles
  deriving DecidableEq, Repr

/-- Values at program start (`src/parse.yy` 362-370, `src/parse_scan.cpp` 24-27). -/
def PhotoVars.start : PhotoVars where
  sampleCenter := .nan
  lineCenter := .nan
  latAtCenter := .nan
  lonAtCenter := .nan
  kmPerPixel := .fin (-1)
  arcsecPerPix := .fin (-1)
  focalLength := .fin (-1)
  pixelScale := .fin (-1)
  ppNibble := ⟨0, 0, 0, 0⟩

/-! ## Nibbling -/

/-- `nibbling` (`src/parse.yy` 1181-1293).  The order of the sides is not kept: it
only decides which of several errors is reported. -/
inductive NibbleClause where
  | none
  | all (n : ℤ)
  | sides (left right top bottom : Option ℤ)
  deriving DecidableEq, Repr

/-- One of `NIBBLE_LEFT`, ..., `NIBBLE_BOTTOM` (`src/parse.yy` 1228-1293): `store` is
the conversion to the type of the variable assigned; `none` is `YYERROR`. -/
def nibbleSide (store : ℤ → ℕ) (old : ℕ) : Option ℤ → Option ℕ
  | .none => some old
  | some n => if 0 ≤ n then some (store n) else .none

/-- The `nibbling` actions. -/
def nibbling (store : ℤ → ℕ) (c : NibbleClause) (old : Nibbles) : Option Nibbles :=
  match c with
  | .none => some old
  | .all n =>
    if 0 ≤ n then some ⟨store n, store n, store n, store n⟩ else Option.none
  | .sides l r t b => do
    let l ← nibbleSide store old.left l
    let r ← nibbleSide store old.right r
    let t ← nibbleSide store old.top t
    let b ← nibbleSide store old.bottom b
    some ⟨l, r, t, b⟩

/-- Conversion of a `long long` to `unsigned int`, the type of the user's defaults
(`src/parse_scan.h` 91-101). -/
def toUnsigned (n : ℤ) : ℕ := (n % 2 ^ 32).toNat

/-- The `nibbling` of a user file (`src/parse.yy` 541-543): without a photo the values
become the user's defaults. -/
def userNibbling (c : NibbleClause) (g : PhotoVars) : Option PhotoVars :=
  match nibbling toUnsigned c g.ppNibble with
  | Option.none => Option.none
  | some n => some { g with ppNibble := n }

/-! ## Clauses -/

/-- `centers` (`src/parse.yy` 1770-1813). -/
inductive CenterClause where
  | pixel (sample line : Dbl)
  | latLon (lat lon : Dbl)
  deriving DecidableEq, Repr

/-- `centers` actions. -/
def centers (c : CenterClause) (g : PhotoVars) : PhotoVars :=
  match c with
  | .pixel s l => { g with sampleCenter := s, lineCenter := l }
  | .latLon a b => { g with latAtCenter := a, lonAtCenter := b }

/-- `image_geometry` (`src/parse.yy` 1441-1473). -/
inductive ScaleClause where
  | km (x : Dbl)
  | arcsec (x : Dbl)
  | lens (focalLength pixelScale : Dbl)
  deriving DecidableEq, Repr

/-- `image_geometry` actions (`src/parse.yy` 1441-1473, 1756-1768). -/
def imageGeometry (c : ScaleClause) (g : PhotoVars) : Option PhotoVars :=
  match c with
  | .km x => if Dbl.gt x (.fin 0) then some { g with kmPerPixel := x } else none
  | .arcsec x => if Dbl.gt x (.fin 0) then some { g with arcsecPerPix := x } else none
  | .lens f p => some { g with focalLength := f, pixelScale := p }

/-- `C::astronomical_unit` (lib/marc/Constants.h:497); `C::metre` is 1. -/
def astronomicalUnit : Dbl := Fp.ieee.rnd 149597870700

/-- `range` (`src/parse.yy` 1432-1439); `au` when followed by `AU`. -/
def range (au : Bool) (x : Dbl) : Dbl :=
  if au then Fp.ieee.div (Fp.ieee.mul x astronomicalUnit) (.fin 1000) else x

/-- `photo_correct` (`src/parse.yy` 1397-1404). -/
inductive Minnaert where
  | none | exponent (x : Dbl) | auto | table
  deriving DecidableEq, Repr

/-- The clauses of one photo. -/
structure PhotoSrc where
  file : String
  nibble : NibbleClause
  /-- vertical, horizontal -/
  invert : Option (Bool × Bool)
  interpolate : Option Bool
  removeSky : Option Bool
  center : CenterClause
  /-- sample, line -/
  opticalAxis : Option (Dbl × Dbl)
  flatField : Option String
  minnaert : Minnaert
  geomCorrect : Option Bool
  emiAngLimit : Option Dbl
  terminator : Option Bool
  /-- latitude, longitude -/
  subObserv : Dbl × Dbl
  positionAngle : Dbl
  /-- latitude, longitude -/
  subSolar : Dbl × Dbl
  rangeAu : Bool
  range : Dbl
  scale : ScaleClause
  deriving DecidableEq, Repr

/-- A `PhotoImageFactory` set up by the parser, with its `PhotoImageParameters` and
`ViewingGeometry` (src/PhotoImageFactory.cpp:38-50,
lib/marc/PhotoImageParameters.cpp:26-38); `flatField` is empty without a flat
field. -/
structure PhotoCmd where
  file : String
  flatField : String
  geomCorrect : Bool
  interpolate : Bool
  invertV : Bool
  invertH : Bool
  nibble : Nibbles
  removeSky : Bool
  view : ViewSettings
  deriving DecidableEq

/-! ## A photo -/

/-- Call a setter of the viewing geometry.  An exception is not caught before
`main` (src/marc.cpp:232-243). -/
def set (r : ViewSettings.Result) : Outcome ViewSettings :=
  match r with
  | (v, none) => .ok v
  | (_, some e) => .throw e

/-- `optical_axis` (`src/parse.yy` 1815-1821). -/
def opticalAxis (c : Option (Dbl × Dbl)) (v : ViewSettings) : Outcome ViewSettings :=
  match c with
  | none => .ok v
  | some (s, l) => set (v.setOpticalAxis s l)

/-- `emi_ang_limit` (`src/parse.yy` 1422-1425). -/
def emiAngLimit (cos : Dbl → Dbl) (c : Option Dbl) (v : ViewSettings) : Outcome ViewSettings :=
  match c with
  | none => .ok v
  | some x => set (v.setEmiAngLimit cos x)

/-- `terminator` (`src/parse.yy` 1427-1431). -/
def terminator (c : Option Bool) (v : ViewSettings) : Outcome ViewSettings :=
  match c with
  | none => .ok v
  | some b => set (v.setUseTerminator b)

/-- One of the four `if (x > 0) { ...; x = -1; }` of `image_setup` (`src/parse.yy`
1108-1126); gives the variable and the geometry. -/
def usePositive (x : Dbl) (f : ViewSettings → Dbl → ViewSettings.Result) (v : ViewSettings) :
    Outcome (Dbl × ViewSettings) :=
  if Dbl.gt x (.fin 0) then do
    let v ← set (f v x)
    .ok (.fin (-1), v)
  else .ok (x, v)

/-- One of the two `if (!isnan(x) && !isnan(y)) { ... }` of `image_setup`
(`src/parse.yy` 1128-1143). -/
def useNumbers (x y : Dbl) (f : ViewSettings → Dbl → Dbl → ViewSettings.Result)
    (v : ViewSettings) : Outcome ((Dbl × Dbl) × ViewSettings) :=
  if !x.isNaN && !y.isNaN then do
    let v ← set (f v x y)
    .ok ((.nan, .nan), v)
  else .ok ((x, y), v)

/-- The action at the end of `image_setup` (`src/parse.yy` 1103-1143). -/
def finishView (p : PhotoSrc) (g : PhotoVars) (v : ViewSettings) :
    Outcome (PhotoVars × ViewSettings) := do
  let v ← set (v.setSubObserv p.subObserv.1 p.subObserv.2)
  let v ← set (v.setPositionAngle p.positionAngle)
  let v ← set (v.setSubSolar p.subSolar.1 p.subSolar.2)
  let v ← set (v.setRange (Parser.range p.rangeAu p.range))
  let (km, v) ← usePositive g.kmPerPixel ViewSettings.setKmPerPixel v
  let (arcsec, v) ← usePositive g.arcsecPerPix ViewSettings.setArcsecPerPixel v
  let (focal, v) ← usePositive g.focalLength ViewSettings.setFocalLength v
  let (scale, v) ← usePositive g.pixelScale ViewSettings.setScale v
  let ((s, l), v) ← useNumbers g.sampleCenter g.lineCenter ViewSettings.setBodyCenter v
  let ((lat, lon), v) ← useNumbers g.latAtCenter g.lonAtCenter ViewSettings.setLatLonCenter v
  .ok ({ g with
    kmPerPixel := km, arcsecPerPix := arcsec, focalLength := focal, pixelScale := scale
    sampleCenter := s, lineCenter := l, latAtCenter := lat, lonAtCenter := lon }, v)

/-- `image_setup` (`src/parse.yy` 1086-1179) for a body with the radii given: the
variables afterwards and the photo, `none` for a syntax error.  `cos` stands for
`std::cos`. -/
def imageSetup (cos : Dbl → Dbl) (eqRad polRad : Dbl) (p : PhotoSrc) (g : PhotoVars) :
    Outcome (Option (PhotoVars × PhotoCmd)) :=
  match nibbling toSize p.nibble g.ppNibble with
  | none => .ok none
  | some nibble => do
    let g := centers p.center g
    let v ← opticalAxis p.opticalAxis { eqRad := eqRad, polRad := polRad }
    let v ← emiAngLimit cos p.emiAngLimit v
    let v ← terminator p.terminator v
    match imageGeometry p.scale g with
    | none => .ok none
    | some g => do
      let (g, v) ← finishView p g v
      .ok (some (g,
        { file := p.file
          flatField := p.flatField.getD ""
          geomCorrect := p.geomCorrect.getD false
          interpolate := p.interpolate.getD false
          invertV := (p.invert.getD (false, false)).1
          invertH := (p.invert.getD (false, false)).2
          nibble := nibble
          removeSky := p.removeSky.getD false
          view := v }))

/-- `image` (`src/parse.yy` 1081-1084): the photos of a plane, in order. -/
def images (cos : Dbl → Dbl) (eqRad polRad : Dbl) :
    List PhotoSrc → PhotoVars → Outcome (Option (PhotoVars × List PhotoCmd))
  | [], g => .ok (some (g, []))
  | p :: ps, g => do
    match ← imageSetup cos eqRad polRad p g with
    | none => .ok none
    | some (g, c) =>
      match ← images cos eqRad polRad ps g with
      | none => .ok none
      | some (g, cs) => .ok (some (g, c :: cs))

/-- The image factory of a plane of photos (`plane_type`, `src/parse.yy`
1062-1076). -/
inductive PlanePhotos where
  | single (c : PhotoCmd)
  | mosaic (cs : List PhotoCmd) (a : Averaging)
  deriving DecidableEq

/-- `plane_type: image` (`src/parse.yy` 1062-1076). -/
def planePhotos (a : Averaging) (cs : List PhotoCmd) : PlanePhotos :=
  match cs with
  | [c] => .single c
  | cs => .mosaic cs a

/-! ## Centers of orthographic maps -/

/-- The `centers` option of an orthographic map (`src/parse.yy` 1645-1664,
1675-1694): the center given to the projection. -/
def orthoCenters (c : CenterClause) (g : PhotoVars) : PhotoVars × OrthoCenter :=
  let g := centers c g
  if !g.sampleCenter.isNaN && !g.lineCenter.isNaN then
    ({ g with sampleCenter := .nan, lineCenter := .nan }, .center g.sampleCenter g.lineCenter)
  else if !g.latAtCenter.isNaN && !g.lonAtCenter.isNaN then
    ({ g with latAtCenter := .nan, lonAtCenter := .nan }, .latLon g.latAtCenter g.lonAtCenter)
  else (g, .default)

/-- The scale of an orthographic map (`src/parse.yy` 1613-1631, 1756-1768): used and
reset. -/
def orthoScale (km : Dbl) (g : PhotoVars) : Option (PhotoVars × Dbl) :=
  if Dbl.gt km (.fin 0) then
    let g := { g with kmPerPixel := km }
    some ({ g with kmPerPixel := .fin (-1) }, g.kmPerPixel)
  else none

end MaRC.Parser
