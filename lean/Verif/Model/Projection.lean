import Verif.Model.OblateSpheroid
import Verif.Model.Mathematics
import Mathlib.Analysis.SpecialFunctions.Pow.Real

/-!
# Map projections: `plot_map` of the four map factories

`lib/marc/SimpleCylindrical.cpp`, `Mercator.cpp`, `PolarStereographic.cpp`,
`Orthographic.cpp`.

Real numbers stand for `double`: rounding is not modelled, and NaN arguments
are left to the theorems about `Validate.h` (C02).  `C::degree` is the value of
the `double`, so that 90 degrees are less than a right angle as in the program
and `Real.tan` agrees with `std::tan`; the other multiples of pi are exact.

A call `plot(lat, lon, offset)` is recorded as `((lat, lon), offset)`.
-/

namespace MaRC.Projection

/-- A call of the `plot` functor (lib/marc/MapFactory.h, `plot_type`). -/
abbrev Plot := (ℝ × ℝ) × ℕ

/-- The loop over the samples of a line, shared by
lib/marc/SimpleCylindrical.cpp:126-130, Mercator.cpp:158-162,
PolarStereographic.cpp:176-236 and Orthographic.cpp:334-389: `point i` is what
the body computes, `none` when it does not call `plot`; `n` samples remain.
`offset` does not overflow, as it stays below the size of the map. -/
def samplesLoop (point : ℕ → Option (ℝ × ℝ)) : ℕ → ℕ → ℕ → List Plot
  | 0, _, _ => []
  | n + 1, i, offset =>
    match point i with
    | some c => (c, offset) :: samplesLoop point n (i + 1) (offset + 1)
    | none => samplesLoop point n (i + 1) (offset + 1)

/-- The loop over the lines (lib/marc/SimpleCylindrical.cpp:118-131,
Mercator.cpp:121-163, Orthographic.cpp:330-390): `line k` is computed before
the samples, and may throw.  The sample loop has increased `offset` by
`samples`. -/
def linesLoop (samples : ℕ) (line : ℕ → Outcome (ℕ → Option (ℝ × ℝ))) :
    ℕ → ℕ → ℕ → Outcome (List Plot)
  | 0, _, _ => .ok []
  | n + 1, k, offset => do
    let point ← line k
    let rest ← linesLoop samples line n (k + 1) (offset + samples)
    .ok (samplesLoop point samples 0 offset ++ rest)

/-- The value of `C::degree` (lib/marc/Constants.h:364); `MaRC.cDegree` computes
it. -/
def degreeQ : ℚ := 5030569068109113 / 288230376151711744

noncomputable section

/-- `C::degree` as a real number. -/
def degree : ℝ := (degreeQ : ℝ)

open Classical in
/-- `validate_latitude` (lib/marc/Validate.h:39-45) of a number. -/
def validateLat (lat : ℝ) : Outcome ℝ :=
  if lat < -90 ∨ 90 < lat then .throw .invalidArgument else .ok (lat * degree)

open Classical in
/-- `validate_longitude` (lib/marc/Validate.h:59-70) and
`validate_position_angle` (84-90) of a number. -/
def validateLon (lon : ℝ) : Outcome ℝ :=
  if lon < -360 ∨ 360 < lon then .throw .invalidArgument else .ok (lon * degree)

/-- `almost_equal` (lib/marc/Mathematics.h:64-78) of numbers. -/
def AlmostEqual (x y : ℝ) (ulp : ℕ) : Prop :=
  |x - y| < (dblEpsilon : ℝ) * |x + y| * ulp ∨ |x - y| < (dblMin : ℝ)

/-- `almost_zero` (lib/marc/Mathematics.h:109-119) of a number. -/
def AlmostZero (x : ℝ) (n : ℕ) : Prop := |x| < (dblEpsilon : ℝ) * n

/-! ## Simple cylindrical -/

/-- `SimpleCylindrical` (lib/marc/SimpleCylindrical.h:140-160). -/
structure Cylindrical where
  body : Spheroid
  /-- `body_->prograde()` -/
  prograde : Bool
  loLat : ℝ
  hiLat : ℝ
  loLon : ℝ
  hiLon : ℝ
  /-- `graphic_lat_` -/
  graphic : Bool

/-- `boundary_latitude` (lib/marc/SimpleCylindrical.cpp:46-59). -/
def boundaryLatitude (degrees : ℝ) (body : Spheroid) (graphic : Bool) : Outcome ℝ := do
  let lat ← validateLat degrees
  .ok (if graphic then body.graphicLatitude lat else lat)

open Classical in
/-- Adjustment of the longitudes (lib/marc/SimpleCylindrical.cpp:79-96). -/
def normalizeLon (lo hi : ℝ) : ℝ × ℝ :=
  if lo > hi then (lo - 2 * Real.pi, hi)
  else if AlmostEqual lo hi 2 ∨ (AlmostZero lo 2 ∧ AlmostZero hi 2) then (lo, hi + 2 * Real.pi)
  else (lo, hi)

/-- The constructor (lib/marc/SimpleCylindrical.cpp:64-97). -/
def Cylindrical.new (body : Spheroid) (prograde : Bool) (loLat hiLat loLon hiLon : ℝ)
    (graphic : Bool) : Outcome Cylindrical := do
  let loLat ← boundaryLatitude loLat body graphic
  let hiLat ← boundaryLatitude hiLat body graphic
  let loLon ← validateLon loLon
  let hiLon ← validateLon hiLon
  .ok ⟨body, prograde, loLat, hiLat, (normalizeLon loLon hiLon).1, (normalizeLon loLon hiLon).2,
    graphic⟩

namespace Cylindrical

variable (c : Cylindrical)

/-- `get_longitude` (lib/marc/SimpleCylindrical.h:122-136). -/
def longitude (i : ℕ) (cf : ℝ) : ℝ :=
  if c.prograde then c.hiLon - ((i : ℝ) + 0.5) * cf else ((i : ℝ) + 0.5) * cf + c.loLon

/-- Latitude of a line before its conversion (lib/marc/SimpleCylindrical.cpp:119-120). -/
def rawLatitude (lines k : ℕ) : ℝ := ((k : ℝ) + 0.5) * ((c.hiLat - c.loLat) / lines) + c.loLat

/-- Latitude of a line (lib/marc/SimpleCylindrical.cpp:119-124). -/
def latitude (lines k : ℕ) : ℝ :=
  if c.graphic then c.body.centricLatitude (c.rawLatitude lines k) else c.rawLatitude lines k

/-- `plot_map` (lib/marc/SimpleCylindrical.cpp:105-132). -/
def plotMap (samples lines : ℕ) : Outcome (List Plot) :=
  linesLoop samples
    (fun k => .ok fun i =>
      some (c.latitude lines k, c.longitude i ((c.hiLon - c.loLon) / samples)))
    lines 0 0

end Cylindrical

/-! ## Mercator -/

/-- `MaRC::root_find(y, xl, xh, f)` as a parameter: the program's root finder is
modelled in `Verif.Model.RootFind`. -/
abbrev Solver := ℝ → ℝ → ℝ → (ℝ → ℝ) → Outcome ℝ

/-- `mercator_x` (lib/marc/Mercator.cpp:46-55). -/
def mercatorX (s : Spheroid) (latg : ℝ) : ℝ :=
  Real.log (Real.tan (Real.pi / 4 + latg / 2) *
    ((1 - s.firstEccentricity * Real.sin latg) / (1 + s.firstEccentricity * Real.sin latg)) ^
      (s.firstEccentricity / 2))

namespace Mercator

/-- `get_longitude` (lib/marc/Mercator.cpp:219-241); `longitude_low` is 0
(lib/marc/DefaultConfiguration.h:66). -/
def longitude (prograde : Bool) (i samples : ℕ) : ℝ :=
  let lon := ((i : ℝ) + 0.5) / samples * (2 * Real.pi) + 0 * degree
  if prograde then 2 * Real.pi - lon else lon

/-- `xmax` (lib/marc/Mercator.cpp:100-116). -/
def xmax (samples lines : ℕ) : ℝ := (lines : ℝ) / samples * Real.pi

/-- Ordinate of a line (lib/marc/Mercator.cpp:122). -/
def ordinate (samples lines k : ℕ) : ℝ :=
  ((k : ℝ) + 0.5) / lines * 2 * xmax samples lines - xmax samples lines

/-- `plot_map` (lib/marc/Mercator.cpp:90-164). -/
def plotMap (solve : Solver) (body : Spheroid) (prograde : Bool) (samples lines : ℕ) :
    Outcome (List Plot) :=
  linesLoop samples
    (fun k => do
      let latg ← solve (ordinate samples lines k) (-(Real.pi / 2)) (Real.pi / 2) (mercatorX body)
      .ok fun i => some (body.centricLatitude latg, longitude prograde i samples))
    lines 0 0

/-- `distortion` (lib/marc/Mercator.cpp:243-261). -/
def distortion (body : Spheroid) (latg : ℝ) : ℝ :=
  body.eqRad / body.N (body.centricLatitude latg) / Real.cos latg

end Mercator

/-! ## Polar stereographic -/

/-- `rho_coefficient` (lib/marc/PolarStereographic.cpp:39-49). -/
def rhoCoefficient (s : Spheroid) : ℝ :=
  2 * s.eqRad * (1 + s.firstEccentricity) ^ (-(1 - s.firstEccentricity) / 2) *
    (1 - s.firstEccentricity) ^ (-(1 + s.firstEccentricity) / 2)

/-- `distortion_coefficient` (lib/marc/PolarStereographic.cpp:61-71). -/
def distortionCoefficient (s : Spheroid) : ℝ :=
  (1 + s.firstEccentricity) ^ (1 - 2 * s.firstEccentricity) *
    (1 - s.firstEccentricity) ^ (1 + 2 * s.firstEccentricity) / (4 * s.eqRad * s.eqRad)

/-- `stereo_rho_impl` (lib/marc/PolarStereographic.cpp:100-111). -/
def stereoRhoImpl (s : Spheroid) (coeff latg : ℝ) : ℝ :=
  coeff * Real.tan (Real.pi / 4 - latg / 2) *
    ((1 + s.firstEccentricity * Real.sin latg) / (1 - s.firstEccentricity * Real.sin latg)) ^
      (s.firstEccentricity / 2)

/-- `PolarStereographic` (lib/marc/PolarStereographic.h). -/
structure Stereographic where
  body : Spheroid
  prograde : Bool
  /-- `max_lat_`, radians -/
  maxLat : ℝ
  rhoCoeff : ℝ
  distortionCoeff : ℝ
  northPole : Bool

open Classical in
/-- The constructor (lib/marc/PolarStereographic.cpp:115-132); `none` stands for
a NaN maximum latitude. -/
def Stereographic.new (body : Spheroid) (prograde : Bool) (maxLat : Option ℝ)
    (northPole : Bool) : Outcome Stereographic :=
  match maxLat with
  | none => .ok ⟨body, prograde, 0, rhoCoefficient body, distortionCoefficient body, northPole⟩
  | some m =>
    if |m| ≥ 90 then .throw .invalidArgument
    else .ok ⟨body, prograde, m * degree, rhoCoefficient body, distortionCoefficient body,
      northPole⟩

namespace Stereographic

variable (p : Stereographic)

/-- `stereo_rho` (lib/marc/PolarStereographic.cpp:334-341). -/
def stereoRho (latg : ℝ) : ℝ :=
  stereoRhoImpl p.body p.rhoCoeff (if p.northPole then latg else -latg)

/-- `distortion` (lib/marc/PolarStereographic.cpp:327-332). -/
def distortion (latg : ℝ) : ℝ := 1 + p.distortionCoeff * p.stereoRho latg ^ 2

/-- `pix_conv_val` (lib/marc/PolarStereographic.cpp:153-156). -/
def pixConv (samples lines : ℕ) : ℝ :=
  2 * p.stereoRho (p.body.graphicLatitude p.maxLat) / (min samples lines : ℕ)

/-- `ccw` (lib/marc/PolarStereographic.cpp:163-166). -/
def ccw : Bool := (p.northPole && p.prograde) || (!p.northPole && !p.prograde)

/-- `X` of a line or `Y` of a sample: offset of a pixel centre from the map's
centre (lib/marc/PolarStereographic.cpp:174, 177). -/
def offset (n j : ℕ) : ℝ := (j : ℝ) + 0.5 - (n : ℝ) / 2

/-- `rho` of a pixel (lib/marc/PolarStereographic.cpp:186). -/
def pixelRho (samples lines i k : ℕ) : ℝ :=
  p.pixConv samples lines * hypot (offset samples i) (offset lines k)

/-- Latitude and longitude of a pixel (lib/marc/PolarStereographic.cpp:173-235). -/
def pixel (solve : Solver) (samples lines i k : ℕ) : Outcome (ℝ × ℝ) := do
  let latg ← solve (p.pixelRho samples lines i k) (-(Real.pi / 2)) (Real.pi / 2)
    (stereoRhoImpl p.body p.rhoCoeff)
  .ok (p.body.centricLatitude (if p.northPole then latg else -latg),
    atan2 (if p.ccw then offset samples i else -offset samples i) (offset lines k))

/-- The sample loop (lib/marc/PolarStereographic.cpp:176-236), with `n` samples
left; the root finder may throw at any pixel. -/
def sampleLoop (solve : Solver) (samples lines k : ℕ) : ℕ → ℕ → ℕ → Outcome (List Plot)
  | 0, _, _ => .ok []
  | n + 1, i, offset => do
    let c ← p.pixel solve samples lines i k
    let rest ← sampleLoop solve samples lines k n (i + 1) (offset + 1)
    .ok ((c, offset) :: rest)

/-- The line loop (lib/marc/PolarStereographic.cpp:173-237). -/
def lineLoop (solve : Solver) (samples lines : ℕ) : ℕ → ℕ → ℕ → Outcome (List Plot)
  | 0, _, _ => .ok []
  | n + 1, k, offset => do
    let a ← p.sampleLoop solve samples lines k samples 0 offset
    let b ← lineLoop solve samples lines n (k + 1) (offset + samples)
    .ok (a ++ b)

/-- `plot_map` (lib/marc/PolarStereographic.cpp:140-238). -/
def plotMap (solve : Solver) (samples lines : ℕ) : Outcome (List Plot) :=
  p.lineLoop solve samples lines lines 0 0

end Stereographic

/-! ## Orthographic -/

/-- What is known about the centre of the body in the map: `sample_center_`,
`line_center_`, `lat_at_center_` and `lon_at_center_`
(lib/marc/Orthographic.h) are set in one of three ways. -/
inductive Center where
  /-- all NaN -/
  | unset
  /-- centre in pixels (lib/marc/Orthographic.cpp:204-206) -/
  | pixels (sample line : ℝ)
  /-- latitude and longitude at the centre given: the centre in kilometers
  (lib/marc/Orthographic.cpp:207-290) -/
  | km (sample line : ℝ)

/-- `Orthographic` (lib/marc/Orthographic.h). -/
structure Ortho where
  body : Spheroid
  prograde : Bool
  subLat : ℝ
  subLon : ℝ
  /-- `PA_` -/
  pa : ℝ
  /-- `km_per_pixel_`, if positive -/
  kmPerPixel : Option ℝ
  center : Center
  /-- `polar_` -/
  polar : Bool

/-- `OrthographicCenter` (lib/marc/Orthographic.h). -/
inductive CenterInput where
  | default
  | centerGiven (sample line : ℝ)
  | latLonGiven (lat lon : ℝ)

namespace Ortho

/-- The view before the centre is looked at (lib/marc/Orthographic.cpp:152-199). -/
structure View where
  subLat : ℝ
  subLon : ℝ
  pa : ℝ
  polar : Bool

open Classical in
/-- The polar case (lib/marc/Orthographic.cpp:176-199). -/
def polarView (prograde : Bool) (subLatDeg : ℝ) : View :=
  { subLat := if subLatDeg > 0 then Real.pi / 2 else -(Real.pi / 2)
    subLon := 0
    pa := if (subLatDeg > 0 ∧ prograde) ∨ (subLatDeg < 0 ∧ ¬ prograde)
      then (if prograde then Real.pi else 0) else (if prograde then 0 else Real.pi)
    polar := true }

open Classical in
/-- Observer's place and position angle (lib/marc/Orthographic.cpp:160-199). -/
def makeView (prograde : Bool) (subLatDeg subLonDeg paDeg : ℝ) : Outcome View := do
  let subLat ← validateLat subLatDeg
  let subLon ← validateLon subLonDeg
  let pa ← validateLon paDeg
  if AlmostEqual |subLatDeg| 90 4 then .ok (polarView prograde subLatDeg)
  else .ok ⟨subLat, if subLon < 0 then subLon + 2 * Real.pi else subLon, pa, false⟩

/-- `cosine` (lib/marc/Orthographic.cpp:222-225).  In the polar case
`std::tan` is applied to the `double` C::pi_2, not to a right angle. -/
def limbCosine (body : Spheroid) (v : View) (lat : ℝ) : ℝ :=
  (body.eqRad / body.polRad) ^ 2 * Real.tan lat *
    Real.tan (if v.polar then (if 0 < v.subLat then 90 * degree else -(90 * degree))
      else v.subLat)

open Classical in
/-- Half the visible range of longitudes (lib/marc/Orthographic.cpp:234-243). -/
def limbAngle (v : View) (cosine : ℝ) : ℝ :=
  if ¬ v.polar ∧ |cosine| ≤ 1 then |Real.arccos (-cosine)| else Real.pi

open Classical in
/-- The longitude brought into the visible range (lib/marc/Orthographic.cpp:245-248). -/
def wrapLon (v : View) (limb lon : ℝ) : ℝ :=
  if lon < v.subLon - limb then lon + 2 * Real.pi
  else if lon > v.subLon + limb then lon - 2 * Real.pi
  else lon

/-- Position on the map, in kilometers from the body's centre, of a latitude and
longitude (lib/marc/Orthographic.cpp:258-289). -/
def centerKm (body : Spheroid) (prograde : Bool) (v : View) (lat lon : ℝ) : ℝ × ℝ :=
  let shift := v.subLon - lon
  let radius := body.centricRadius lat
  let pos0 := radius * Real.cos lat * Real.sin shift
  let pos0 := if prograde then pos0 else -pos0
  let pos1 := -radius * Real.cos lat * Real.cos shift
  let pos2 := radius * Real.sin lat
  (pos0 * Real.cos v.pa + pos1 * Real.sin v.pa * Real.sin (-v.subLat)
      - pos2 * Real.sin v.pa * Real.cos (-v.subLat),
   pos0 * Real.sin v.pa - pos1 * Real.sin (-v.subLat) * Real.cos v.pa
      + pos2 * Real.cos (-v.subLat) * Real.cos v.pa)

open Classical in
/-- Centre for a given latitude and longitude (lib/marc/Orthographic.cpp:207-290). -/
def latLonCenter (body : Spheroid) (prograde : Bool) (v : View) (latDeg lonDeg : ℝ) :
    Outcome Center := do
  let lat ← validateLat latDeg
  let lon ← validateLon lonDeg
  if limbCosine body v lat < -1 then .throw .invalidArgument
  else
    let limb := limbAngle v (limbCosine body v lat)
    let lon := wrapLon v limb lon
    if lon < v.subLon - limb ∨ lon > v.subLon + limb then .throw .invalidArgument
    else .ok (.km (centerKm body prograde v lat lon).1 (centerKm body prograde v lat lon).2)

/-- The centre asked for (lib/marc/Orthographic.cpp:204-290). -/
def makeCenter (body : Spheroid) (prograde : Bool) (v : View) : CenterInput → Outcome Center
  | .default => .ok .unset
  | .centerGiven s l => .ok (.pixels s l)
  | .latLonGiven lat lon => latLonCenter body prograde v lat lon

open Classical in
/-- The constructor (lib/marc/Orthographic.cpp:152-291). -/
def new (body : Spheroid) (prograde : Bool) (subLat subLon pa kmPerPixel : ℝ)
    (center : CenterInput) : Outcome Ortho := do
  let v ← makeView prograde subLat subLon pa
  let c ← makeCenter body prograde v center
  .ok ⟨body, prograde, v.subLat, v.subLon, v.pa,
    if kmPerPixel > 0 then some kmPerPixel else none, c, v.polar⟩

variable (o : Ortho)

/-- `km_per_pixel` of `map_parameters` (lib/marc/Orthographic.cpp:606-616). -/
def mapKm (samples lines : ℕ) : ℝ :=
  match o.kmPerPixel with
  | some km => km
  | none => 2 * max o.body.eqRad o.body.polRad / (0.9 * (min samples lines : ℕ))

/-- Body centre of `map_parameters`, as sample and line
(lib/marc/Orthographic.cpp:625-648). -/
def mapCenter (samples lines : ℕ) : ℝ × ℝ :=
  match o.center with
  | .km s l =>
    ((samples : ℝ) / 2 - s / o.mapKm samples lines, (lines : ℝ) / 2 - l / o.mapKm samples lines)
  | .unset => ((samples : ℝ) / 2, (lines : ℝ) / 2)
  | .pixels s l => (s, l)

/-- `(a - c)(a + c)` (lib/marc/Orthographic.cpp:319-321). -/
def diff : ℝ := (o.body.eqRad - o.body.polRad) * (o.body.eqRad + o.body.polRad)

/-- `CA` (lib/marc/Orthographic.cpp:324-327). -/
def coefA : ℝ := o.diff * Real.sin o.subLat ^ 2 + o.body.polRad * o.body.polRad

/-- `CB` (lib/marc/Orthographic.cpp:350-351). -/
def coefB (zz : ℝ) : ℝ := o.diff * zz * Real.sin (2 * o.subLat)

/-- `CC` (lib/marc/Orthographic.cpp:352-354). -/
def coefC (x zz : ℝ) : ℝ :=
  o.body.eqRad * o.body.eqRad * zz * zz + o.body.polRad * o.body.polRad * x * x
    - o.body.eqRad * o.body.eqRad * (o.body.polRad * o.body.polRad)
    - o.diff * zz * zz * Real.sin o.subLat ^ 2

open Classical in
/-- `std::min(roots.first, roots.second)` (lib/marc/Orthographic.cpp:359): the
first argument when a comparison with NaN is false. -/
def minRoot : Option ℝ × Option ℝ → Option ℝ
  | (some a, some b) => if b < a then some b else some a
  | (a, _) => a

/-- Image coordinates turned upright (lib/marc/Orthographic.cpp:338-347). -/
def upright (x z : ℝ) : ℝ × ℝ :=
  if o.polar then (x, z)
  else
    let r := matVec (Geometry.rotYMatrix (-o.pa)) ![x, 0, z]
    (r 0, r 2)

/-- Body coordinates of a point found (lib/marc/Orthographic.cpp:360-376). -/
def bodyPoint (x y zz : ℝ) : ℝ × ℝ × ℝ :=
  let r := matVec (Geometry.rotXMatrix o.subLat) ![x, y, zz]
  if o.polar then
    (r 0 * Real.cos (-o.pa) + r 1 * Real.sin (-o.pa),
      -r 0 * Real.sin (-o.pa) + r 1 * Real.cos (-o.pa), r 2)
  else (r 0, r 1, r 2)

/-- Latitude and longitude of body coordinates (lib/marc/Orthographic.cpp:378-385). -/
def latLon (p : ℝ × ℝ × ℝ) : ℝ × ℝ :=
  (atan2 p.2.2 (hypot p.1 p.2.1),
    if o.prograde then o.subLon - atan2 (-p.1) p.2.1 + Real.pi
    else o.subLon + atan2 (-p.1) p.2.1 - Real.pi)

/-- Latitude and longitude at image coordinates, in kilometers from the body's
centre, if the line of sight meets the body (lib/marc/Orthographic.cpp:336-387). -/
def locate (x z : ℝ) : Option (ℝ × ℝ) :=
  let u := o.upright x z
  match quadraticRoots o.coefA (o.coefB u.2) (o.coefC u.1 u.2) with
  | none => none
  | some roots => (minRoot roots).map fun y => o.latLon (o.bodyPoint u.1 y u.2)

/-- `plot_map` (lib/marc/Orthographic.cpp:299-405). -/
def plotMap (samples lines : ℕ) : Outcome (List Plot) :=
  linesLoop samples
    (fun k => .ok fun i =>
      o.locate (((i : ℝ) + 0.5 - (o.mapCenter samples lines).1) * o.mapKm samples lines)
        (((k : ℝ) + 0.5 - (o.mapCenter samples lines).2) * o.mapKm samples lines))
    lines 0 0

end Ortho

end

end MaRC.Projection
