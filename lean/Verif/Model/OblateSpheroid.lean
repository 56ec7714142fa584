import Verif.Model.LinearAlgebra
import Mathlib.Analysis.SpecialFunctions.Trigonometric.Arctan
import Mathlib.Analysis.SpecialFunctions.Complex.Arg

/-!
# `lib/marc/OblateSpheroid.cpp` and `quadratic_roots` (`lib/marc/Mathematics.h`)

Real numbers stand for `double`: rounding is not modelled.  Where the code can
divide by zero the definition says what the C++ result is.

`double` latitudes in the closed range ±M_PI_2 lie strictly inside ±π/2, since
M_PI_2 is less than π/2; `Real.tan` agrees with `std::tan` there.
-/

namespace MaRC

noncomputable section

/-- `std::hypot`. -/
def hypot (x y : ℝ) : ℝ := Real.sqrt (x ^ 2 + y ^ 2)

/-- `std::atan2`.  Zeros are unsigned here. -/
def atan2 (y x : ℝ) : ℝ := Complex.arg ⟨x, y⟩

/-- A division whose result is used as a number: `none` stands for the
infinity or NaN that a zero divisor gives. -/
def divide (x y : ℝ) : Option ℝ := if y = 0 then none else some (x / y)

/-- `sgn` (lib/marc/Mathematics.h:146-152) of a real number. -/
def sgnR (x : ℝ) : ℝ := (if 0 ≤ x then 1 else 0) - (if x < 0 then 1 else 0)

/-- `q` of `quadratic_roots` (lib/marc/Mathematics.h:193-194). -/
def quadraticQ (a b c : ℝ) : ℝ := -(b + sgnR b * Real.sqrt (b * b - 4 * a * c)) / 2

/-- `quadratic_roots` (lib/marc/Mathematics.h:176-201): `none` when the call
returns false, else the two values stored. -/
def quadraticRoots (a b c : ℝ) : Option (Option ℝ × Option ℝ) :=
  if b * b - 4 * a * c < 0 then none
  else some (divide (quadraticQ a b c) a, divide c (quadraticQ a b c))

end

/-- `validate_radius` (lib/marc/OblateSpheroid.cpp:23-30). -/
def validateRadius (r : Dbl) : Outcome Dbl :=
  if r.isNaN || r.le (.fin 0) then .throw .invalidArgument else .ok r

/-- The constructor (lib/marc/OblateSpheroid.cpp:33-45), without the
eccentricity: the radii kept. -/
def makeSpheroid (eqRad polRad : Dbl) : Outcome (Dbl × Dbl) := do
  let e ← validateRadius eqRad
  let p ← validateRadius polRad
  if eqRad.lt polRad then .throw .invalidArgument else .ok (e, p)

noncomputable section

/-- Data of an `OblateSpheroid` (lib/marc/OblateSpheroid.h). -/
structure Spheroid where
  /-- `eq_rad_` -/
  eqRad : ℝ
  /-- `pol_rad_` -/
  polRad : ℝ

namespace Spheroid

variable (s : Spheroid)

/-- `first_eccentricity_` (lib/marc/OblateSpheroid.cpp:39). -/
def firstEccentricity : ℝ := Real.sqrt (1 - (s.polRad / s.eqRad) ^ 2)

/-- `flattening` (lib/marc/OblateSpheroid.h:73-76). -/
def flattening : ℝ := (s.eqRad - s.polRad) / s.eqRad

/-- `centric_radius` (lib/marc/OblateSpheroid.cpp:47-95). -/
def centricRadius (lat : ℝ) : ℝ :=
  1 / hypot (Real.cos lat / s.eqRad) (Real.sin lat / s.polRad)

/-- `centric_latitude` (lib/marc/OblateSpheroid.cpp:97-110). -/
def centricLatitude (latg : ℝ) : ℝ :=
  Real.arctan ((s.polRad / s.eqRad) ^ 2 * Real.tan latg)

/-- `graphic_latitude` (lib/marc/OblateSpheroid.cpp:112-125). -/
def graphicLatitude (lat : ℝ) : ℝ :=
  Real.arctan ((s.eqRad / s.polRad) ^ 2 * Real.tan lat)

/-- Magnitude of the vector from a surface point to the observer
(lib/marc/OblateSpheroid.cpp:147-151, 196-201). -/
def observerDistance (subLat subLon lat lon range : ℝ) : ℝ :=
  Real.sqrt (range * range + s.centricRadius lat * s.centricRadius lat -
    2 * range * s.centricRadius lat *
      (Real.sin subLat * Real.sin lat +
        Real.cos subLat * Real.cos lat * Real.cos (subLon - lon)))

/-- `mu` (lib/marc/OblateSpheroid.cpp:127-152). -/
def mu (subLat subLon lat lon range : ℝ) : ℝ :=
  ((range * Real.sin subLat * Real.sin (s.graphicLatitude lat)
      - s.centricRadius lat * Real.cos (lat - s.graphicLatitude lat))
    + range * Real.cos subLat * Real.cos (s.graphicLatitude lat) * Real.cos (subLon - lon)) /
  s.observerDistance subLat subLon lat lon range

/-- `mu0` (lib/marc/OblateSpheroid.cpp:154-170). -/
def mu0 (subLat subLon lat lon : ℝ) : ℝ :=
  Real.sin subLat * Real.sin (s.graphicLatitude lat)
    + Real.cos subLat * Real.cos (s.graphicLatitude lat) * Real.cos (subLon - lon)

/-- `cos_phase` (lib/marc/OblateSpheroid.cpp:172-202). -/
def cosPhase (obsLat obsLon sunLat sunLon lat lon range : ℝ) : ℝ :=
  (range * (Real.cos obsLat * Real.cos sunLat * Real.cos (obsLon - sunLon)
      + Real.sin obsLat * Real.sin sunLat)
    - s.centricRadius lat * (Real.cos lat * Real.cos sunLat * Real.cos (lon - sunLon)
      + Real.sin lat * Real.sin sunLat)) /
  s.observerDistance obsLat obsLon lat lon range

/-- `M` (lib/marc/OblateSpheroid.cpp:204-213); the power 1.5 of a positive
number. -/
def M (lat : ℝ) : ℝ :=
  s.eqRad * (1 - s.firstEccentricity ^ 2) /
    (1 - s.firstEccentricity ^ 2 * Real.sin (s.graphicLatitude lat) ^ 2) ^ (3 / 2 : ℝ)

/-- `N` (lib/marc/OblateSpheroid.cpp:215-224). -/
def N (lat : ℝ) : ℝ :=
  s.eqRad / Real.sqrt (1 - s.firstEccentricity ^ 2 * Real.sin (s.graphicLatitude lat) ^ 2)

/-! ### `ellipse_intersection` (lib/marc/OblateSpheroid.cpp:226-319) -/

/-- `semis` (lib/marc/OblateSpheroid.cpp:254-263). -/
def semis : Vec ℝ 3 := ![s.eqRad, s.eqRad, s.polRad]

/-- The quadratic's coefficients (lib/marc/OblateSpheroid.cpp:266-276). -/
def coefficients (vec dvec : Vec ℝ 3) : ℝ × ℝ × ℝ :=
  (List.finRange 3).foldl (fun (a, b, c) i =>
    (a + dvec i / s.semis i * (dvec i / s.semis i),
     b + 2 * (dvec i / s.semis i) * (vec i / s.semis i),
     c + vec i / s.semis i * (vec i / s.semis i))) (0, 0, -1)

/-- What `ellipse_intersection` reports: its return value and, for 0, the
latitude and longitude. -/
inductive Intersection where
  /-- returns -1 -/
  | badInput
  /-- returns 1 -/
  | none
  /-- returns 0 -/
  | found (lat lon : ℝ)

/-- Latitude of a point (lib/marc/OblateSpheroid.cpp:310): `atan(z / hypot(x,
y))`, where the quotient is an infinity on the axis. -/
def pointLatitude (x y z : ℝ) : ℝ :=
  if hypot x y = 0 then (if 0 < z then Real.pi / 2 else -(Real.pi / 2))
  else Real.arctan (z / hypot x y)

/-- The end of `ellipse_intersection` (lib/marc/OblateSpheroid.cpp:305-318). -/
def locate (vec dvec : Vec ℝ 3) (k : ℝ) : Intersection :=
  .found
    (pointLatitude (vec 0 + k * dvec 0) (vec 1 + k * dvec 1) (vec 2 + k * dvec 2))
    (atan2 (vec 0 + k * dvec 0) (-(vec 1 + k * dvec 1)))

open Classical in
/-- `ellipse_intersection` (lib/marc/OblateSpheroid.cpp:226-319).  A failed
assertion (304) is the outcome `ub`, also when an operand is not a number. -/
def ellipseIntersection (vec dvec : Vec ℝ 3) : Outcome Intersection :=
  if (s.coefficients vec dvec).1 ≤ 0 then .ok .badInput
  else
    match quadraticRoots (s.coefficients vec dvec).1 (s.coefficients vec dvec).2.1
        (s.coefficients vec dvec).2.2 with
    | none => .ok .none
    | some (some k1, some k2) => if k2 < k1 then .ok (locate vec dvec k2) else .ub
    | some _ => .ub

end Spheroid

end

end MaRC
