import Verif.Model.MuImage

/-!
# Sky removal in floating point: `body_mask` and `pix2latlon` of
`lib/marc/ViewingGeometry.cpp` and what they call

`Verif.Model.ViewingGeometry` and `Verif.Model.OblateSpheroid` have the same functions
for real numbers; here the coordinates may be NaN, as those of a body center that was
not given are.  Products and sums are not contracted.
-/

namespace MaRC

namespace Sky

/-- Three coordinates. -/
abbrev Triple := Dbl × Dbl × Dbl

/-- `sgn` (lib/marc/Mathematics.h:148-152), 0 for NaN. -/
def sgn (x : Dbl) : Dbl :=
  .fin ((if Dbl.ge x (.fin 0) then 1 else 0) - (if Dbl.lt x (.fin 0) then 1 else 0))

/-- `quadratic_roots` (lib/marc/Mathematics.h:178-201): the roots if it returns
true.  `sqrt` stands for `std::sqrt`. -/
def quadraticRoots (F : Fp) (sqrt : Dbl → Dbl) (a b c : Dbl) : Option (Dbl × Dbl) :=
  let discriminant := F.sub (F.mul b b) (F.mul (F.mul (.fin 4) a) c)
  if Dbl.lt discriminant (.fin 0) then none
  else
    let q := F.div (F.add b (F.mul (sgn b) (sqrt discriminant))).neg (.fin 2)
    some (F.div q a, F.div c q)

/-- One pass of the loop of `ellipse_intersection`
(lib/marc/OblateSpheroid.cpp:270-276), for a semi axis and coordinates along it. -/
def addTerm (F : Fp) (semi v d : Dbl) (s : Triple) : Triple :=
  let m1 := F.div d semi
  let m2 := F.div v semi
  (F.add s.1 (F.mul m1 m1), F.add s.2.1 (F.mul (F.mul (.fin 2) m1) m2),
    F.add s.2.2 (F.mul m2 m2))

/-- `ellipse_intersection` (lib/marc/OblateSpheroid.cpp:226-319): what it returns,
without the latitude and longitude.  `asserts` tells whether assertions are compiled
in; a failed one is the outcome `ub`. -/
def ellipseIntersection (F : Fp) (sqrt : Dbl → Dbl) (asserts : Bool) (eqRad polRad : Dbl)
    (vec dvec : Triple) : Outcome ℤ :=
  let s := addTerm F polRad vec.2.2 dvec.2.2 (addTerm F eqRad vec.2.1 dvec.2.1
    (addTerm F eqRad vec.1 dvec.1 (.fin 0, .fin 0, .fin (-1))))
  if Dbl.le s.1 (.fin 0) then .ok (-1)
  else
    match quadraticRoots F sqrt s.1 s.2.1 s.2.2 with
    | none => .ok 1
    | some k => if asserts && !Dbl.lt k.2 k.1 then .ub else .ok 0

/-- One row of the product of a matrix and a vector (lib/marc/Matrix.h:414-416). -/
def rowProduct (F : Fp) (row v : Triple) : Dbl :=
  F.add (F.add (F.add (.fin 0) (F.mul row.1 v.1)) (F.mul row.2.1 v.2.1)) (F.mul row.2.2 v.2.2)

/-- The members of a `ViewingGeometry` that `pix2latlon` reads
(lib/marc/ViewingGeometry.h), with the rows of `observ2body_`.  `lens` stands for
`image_to_object` of the geometric correction. -/
structure View where
  eqRad : Dbl
  polRad : Dbl
  sampleCenter : Dbl
  lineCenter : Dbl
  rows : Triple × Triple × Triple
  kmPerPixel : Dbl
  rangeB : Triple
  lens : Dbl × Dbl → Dbl × Dbl

variable (F : Fp) (sqrt : Dbl → Dbl) (asserts : Bool)

/-- One coordinate of the vector from the observer to a point of the image
(lib/marc/ViewingGeometry.cpp:921-930). -/
def toImage (km : Dbl) (row coord : Triple) (range : Dbl) : Dbl :=
  F.sub (F.mul (rowProduct F row coord) km) range

/-- `pix2latlon` (lib/marc/ViewingGeometry.cpp:904-951): whether it returns true. -/
def View.pix2latlon (v : View) (sample line : Dbl) : Outcome Bool :=
  let object := v.lens (F.sub sample v.sampleCenter, F.sub v.lineCenter line)
  let coord : Triple := (object.1, .fin 0, object.2)
  match ellipseIntersection F sqrt asserts v.eqRad v.polRad v.rangeB
      (toImage F v.kmPerPixel v.rows.1 coord v.rangeB.1,
       toImage F v.kmPerPixel v.rows.2.1 coord v.rangeB.2.1,
       toImage F v.kmPerPixel v.rows.2.2 coord v.rangeB.2.2) with
  | .ok success => if asserts && success == -1 then .ub else .ok (success == 0)
  | .throw e => .throw e
  | .ub => .ub

/-- Collect the results of a loop. -/
def collect {α : Type} : List (Outcome α) → Outcome (List α)
  | [] => .ok []
  | x :: xs => do
    let a ← x
    let as ← collect xs
    .ok (a :: as)

/-- `body_mask` (lib/marc/ViewingGeometry.cpp:953-982).  Coordinates of pixels are
rounded to `double`. -/
def View.bodyMask (v : View) (samples lines : ℕ) : Outcome (List Bool) :=
  collect ((List.range lines).flatMap fun (k : ℕ) =>
    (List.range samples).map fun (i : ℕ) => v.pix2latlon F sqrt asserts (F.rnd i) (F.rnd k))

/-- `image_to_object` of the Galileo correction
(lib/marc/GLLGeometricCorrection.cpp:40-83) as `pix2latlon` calls it: the first
coordinate is the sample, which takes the place of the line (916).  `hypot` and
`radius` stand for `std::hypot` and for the object space radius of an image space
radius (65-73). -/
def gllLens (hypot : Dbl → Dbl → Dbl) (radius : Dbl → Dbl) (summation : Bool) (p : Dbl × Dbl) :
    Dbl × Dbl :=
  let axis (c : Dbl) := F.sub (if summation then F.mul c (.fin 2) else c) (.fin 400)
  let back (c : Dbl) := if summation then F.div c (.fin 2) else c
  let y := axis p.1
  let x := axis p.2
  let isRad := hypot x y
  if Dbl.eq isRad (.fin 0) then p
  else
    (back (F.add (F.div (F.mul (radius isRad) y) isRad) (.fin 400)),
      back (F.add (F.div (F.mul (radius isRad) x) isRad) (.fin 400)))

end Sky

end MaRC
