import Verif.Model.OblateSpheroid

/-!
# `lib/marc/ViewingGeometry.cpp`: camera set-up and conversions

Real numbers stand for `double`.  Members that may be unset (NaN) are optional.
Warnings and debugging output are left out.
-/

namespace MaRC

noncomputable section

/-- What the setters have stored before `finalize_setup`
(lib/marc/ViewingGeometry.h:385-480); angles in radians. -/
structure ViewInput where
  /-- `body_` -/
  body : Spheroid
  /-- `body_->prograde()` -/
  prograde : Bool
  subLat : ℝ
  subLon : ℝ
  sunLat : ℝ
  sunLon : ℝ
  range : ℝ
  positionAngle : ℝ
  kmPerPixel : Option ℝ
  focalLength : Option ℝ
  scale : Option ℝ
  oaSample : Option ℝ
  oaLine : Option ℝ
  /-- `sample_center_` and `line_center_` -/
  center : Option (ℝ × ℝ)
  /-- `lat_at_center_` and `lon_at_center_` -/
  latLonCenter : Option (ℝ × ℝ)
  muLimit : ℝ
  useTerminator : Bool
  /-- `geometric_correction_->object_to_image`, on (line, sample) -/
  objectToImage : ℝ × ℝ → ℝ × ℝ
  /-- `geometric_correction_->image_to_object`, on (line, sample) -/
  imageToObject : ℝ × ℝ → ℝ × ℝ

/-- The data members used after `finalize_setup`. -/
structure Camera extends ViewInput where
  /-- `OA_s_` -/
  oaS : ℝ
  /-- `OA_l_` -/
  oaL : ℝ
  /-- `km_per_pixel_` -/
  km : ℝ
  /-- `focal_length_pixels_` -/
  focalPixels : ℝ
  /-- `normal_range_` -/
  normalRange : ℝ
  /-- `range_b_` -/
  rangeB : Vec ℝ 3
  /-- `observ2body_` -/
  observ2body : Mat ℝ 3 3
  /-- `body2observ_` -/
  body2observ : Mat ℝ 3 3

/-- `std::asin`: not a number outside [-1, 1]. -/
def asin (x : ℝ) : Option ℝ :=
  if -1 ≤ x ∧ x ≤ 1 then some (Real.arcsin x) else none

/-- `DVector(x, y, z)`. -/
def vec3 (x y z : ℝ) : Vec ℝ 3 := ![x, y, z]

namespace ViewInput

variable (g : ViewInput)

/-- `range_b_` (lib/marc/ViewingGeometry.cpp:268-270). -/
def rangeB : Vec ℝ 3 :=
  vec3 0 (-g.range * Real.cos g.subLat) (g.range * Real.sin g.subLat)

/-- Observer to body transformation of two angles
(lib/marc/ViewingGeometry.cpp:404-407, 423-427, 534-537, 563-567). -/
def o2b (positionAngle subLatMod zTwist : ℝ) : Mat ℝ 3 3 :=
  matMul (Geometry.rotZMatrix zTwist)
    (matMul (Geometry.rotXMatrix subLatMod) (Geometry.rotYMatrix (-positionAngle)))

/-- `(range_b - o2b * range_o).magnitude()`
(lib/marc/ViewingGeometry.cpp:411-412, 429-430). -/
def mismatch (target : Vec ℝ 3) (m : Mat ℝ 3 3) (v : Vec ℝ 3) : ℝ :=
  magnitude3 (vecSub target (matVec m v))

/-- One candidate of the first `rot_matrices`
(lib/marc/ViewingGeometry.cpp:396-407, 414-427): `none` stands for matrices
and vectors of NaNs. `r` is the unit range vector after the first rotation. -/
def candidate (r : Vec ℝ 3) (root : Option ℝ) : Option (Mat ℝ 3 3) :=
  (root.bind asin).map fun subLatMod =>
    let rotated := Geometry.rotX subLatMod r
    o2b g.positionAngle subLatMod (atan2 (rotated 0) (-rotated 1))

open Classical in
/-- The choice between the candidates (lib/marc/ViewingGeometry.cpp:409-435);
comparisons with NaN are false. -/
def choose (target v : Vec ℝ 3) (first second : Option (Mat ℝ 3 3)) : Option (Mat ℝ 3 3) :=
  match first, second with
  | some m1, some m2 => if mismatch target m1 v > mismatch target m2 v then some m2 else some m1
  | first, _ => first

/-- The unit range vector turned by the position angle
(lib/marc/ViewingGeometry.cpp:366-373). -/
def turned (rangeO : Vec ℝ 3) : Vec ℝ 3 := Geometry.rotY (-g.positionAngle) (unit3 rangeO)

/-- Roots for the sine of the tilt (lib/marc/ViewingGeometry.cpp:375-394). -/
def tiltRoots (r : Vec ℝ 3) : Option (Option ℝ × Option ℝ) :=
  quadraticRoots (r 2 * r 2 + r 1 * r 1) (2 * r 1 * Real.sin g.subLat)
    (Real.sin g.subLat * Real.sin g.subLat - r 2 * r 2)

/-- The first `rot_matrices` (lib/marc/ViewingGeometry.cpp:361-493): the
observer to body matrix; the other one is its transpose.  The outer `none`
stands for the return value false, upon which the matrices are left alone; the
inner one for a matrix of NaNs. -/
def rotMatricesCenter (rangeO : Vec ℝ 3) : Option (Option (Mat ℝ 3 3)) :=
  (g.tiltRoots (g.turned rangeO)).map fun roots =>
    choose g.rangeB rangeO
      (g.candidate (g.turned rangeO) roots.1)
      (g.candidate (g.turned rangeO) roots.2)

/-- One candidate of the second `rot_matrices`
(lib/marc/ViewingGeometry.cpp:528-537, 556-567). -/
def axisCandidate (subLatMod : ℝ) : Mat ℝ 3 3 :=
  let rotated := Geometry.rotX (-subLatMod) g.rangeB
  o2b g.positionAngle subLatMod (atan2 (rotated 0) (-rotated 1))

open Classical in
/-- The second `rot_matrices` (lib/marc/ViewingGeometry.cpp:496-647): the
observer to body matrix.  The argument of `asin` (525) is an element of a unit
vector. -/
def rotMatricesAxis (oa : Vec ℝ 3) : Mat ℝ 3 3 :=
  let subLatMod := Real.arcsin (-dot (vec3 0 0 1) (unit3 oa))
  let m1 := g.axisCandidate subLatMod
  let m2 := g.axisCandidate (Real.pi - subLatMod)
  let oaO := vec3 0 (magnitude3 oa) 0
  if mismatch oa m1 oaO > mismatch oa m2 oaO then m2 else m1

/-- `range_O` (lib/marc/ViewingGeometry.cpp:288-312) and `normal_range_`, the
negative of its second element. -/
def rangeO (oaS oaL km : ℝ) (center : ℝ × ℝ) : Vec ℝ 3 :=
  let x := (oaS - center.1) * km
  let z := (center.2 - oaL) * km
  let mag := magnitude3 (vec3 x 0 z)
  vec3 x (-Real.sqrt ((g.range - mag) * (g.range + mag))) z

/-- The optical axis in body coordinates
(lib/marc/ViewingGeometry.cpp:318-342). -/
def opticalAxis (latLon : ℝ × ℝ) : Vec ℝ 3 :=
  let lon := g.subLon - latLon.2
  let lon := if g.prograde then lon else -lon
  let radius := g.body.centricRadius latLon.1
  let r0 := vec3 (radius * Real.cos latLon.1 * Real.sin lon)
    (-radius * Real.cos latLon.1 * Real.cos lon) (radius * Real.sin latLon.1)
  let oaPrime := vecSub r0 g.rangeB
  let oaHat := unit3 oaPrime
  vecSub oaPrime (vecScale oaHat (dot r0 oaHat))

/-- The optical axis coordinates (lib/marc/ViewingGeometry.cpp:242-246). -/
def axis (samples lines : ℕ) : ℝ × ℝ :=
  (g.oaSample.getD (samples / 2), g.oaLine.getD (lines / 2))

/-- `set_km_per_pixel` (lib/marc/ViewingGeometry.cpp:698-717) where needed
(250-251): kilometers per pixel and, if computed, the focal length in
pixels. -/
def pixelScale (oaS oaL : ℝ) (center : ℝ × ℝ) : Outcome (ℝ × Option ℝ) :=
  match g.kmPerPixel with
  | some km => .ok (km, none)
  | none =>
    match g.focalLength, g.scale with
    | some f, some s =>
      .ok (g.range / magnitude3 (vec3 (oaS - center.1) (f * s) (oaL - center.2)), some (f * s))
    | _, _ => .throw .logicError

/-- The matrices before `finalize_setup`: all zero. -/
def zeroMat : Mat ℝ 3 3 := fun _ _ => 0

/-- `finalize_setup` (lib/marc/ViewingGeometry.cpp:232-358) when the body centre
was given and no latitude and longitude at the optical axis.  A matrix of NaNs
is the outcome `ub`. -/
def finalizeCenter (center : ℝ × ℝ) (samples lines : ℕ) : Outcome Camera :=
  let oa := g.axis samples lines
  (g.pixelScale oa.1 oa.2 center).bind fun (km, f) =>
    let ro := g.rangeO oa.1 oa.2 km center
    let build := fun m : Mat ℝ 3 3 =>
      { g with oaS := oa.1, oaL := oa.2, km := km, normalRange := -ro 1,
               focalPixels := f.getD (-ro 1 / km), rangeB := g.rangeB,
               observ2body := m, body2observ := transpose m : Camera }
    match g.rotMatricesCenter ro with
    | none => .ok (build zeroMat)
    | some none => .ub
    | some (some m) => .ok (build m)

/-- `finalize_setup` (lib/marc/ViewingGeometry.cpp:232-358) when latitude and
longitude at the optical axis were given, and the scale of the image. -/
def finalizeAxis (latLon : ℝ × ℝ) (km : ℝ) (samples lines : ℕ) : Camera :=
  let oa := g.axis samples lines
  let m := g.rotMatricesAxis (g.opticalAxis latLon)
  let nr := -(matVec (transpose m) g.rangeB) 1
  { g with oaS := oa.1, oaL := oa.2, km := km, normalRange := nr, focalPixels := nr / km,
           rangeB := g.rangeB, observ2body := m, body2observ := transpose m }

end ViewInput

namespace Camera

variable (c : Camera)

open Classical in
/-- `is_visible` (lib/marc/ViewingGeometry.cpp:136-178). -/
def isVisible (lat lon : ℝ) : Bool :=
  decide (c.body.mu c.subLat c.subLon lat lon c.range > c.muLimit) &&
    (!c.useTerminator || decide (c.body.mu0 c.sunLat c.sunLon lat lon > 0))

/-- Longitude relative to the central meridian
(lib/marc/ViewingGeometry.cpp:856-859). -/
def relativeLon (lon : ℝ) : ℝ := if c.prograde then c.subLon - lon else lon - c.subLon

/-- Surface point in body coordinates (lib/marc/ViewingGeometry.cpp:854-866). -/
def coord (lat lon : ℝ) : Vec ℝ 3 :=
  vec3 (c.body.centricRadius lat * Real.cos lat * Real.sin (c.relativeLon lon))
    (-c.body.centricRadius lat * Real.cos lat * Real.cos (c.relativeLon lon))
    (c.body.centricRadius lat * Real.sin lat)

/-- The vector from the observer to a surface point, in observer coordinates
(lib/marc/ViewingGeometry.cpp:868-871). -/
def seen (lat lon : ℝ) : Vec ℝ 3 := matVec c.body2observ (vecSub (c.coord lat lon) c.rangeB)

/-- `latlon2pix` (lib/marc/ViewingGeometry.cpp:845-902): sample and line when it
returns true.  Where the divisor (892-893) is zero the C++ results are not
numbers; here they are those of a zero quotient. -/
def latlon2pix (lat lon : ℝ) : Option (ℝ × ℝ) :=
  if c.isVisible lat lon then
    let r := c.seen lat lon
    let image := c.objectToImage (r 2 / r 1 * c.focalPixels, r 0 / r 1 * c.focalPixels)
    some (image.2 + c.oaS, c.oaL - image.1)
  else none

/-- `pix2latlon` (lib/marc/ViewingGeometry.cpp:904-951): latitude and longitude
when it returns true.  The call at 916 passes the sample where the correction
expects the line.  `center` are the body centre's coordinates. -/
def pix2latlon (center : ℝ × ℝ) (sample line : ℝ) : Outcome (Option (ℝ × ℝ)) :=
  let object := c.imageToObject (sample - center.1, center.2 - line)
  let rotated := vecScale (matVec c.observ2body (vec3 object.1 0 object.2)) c.km
  match c.body.ellipseIntersection c.rangeB (vecSub rotated c.rangeB) with
  | .ok .badInput => .ub
  | .ok .none => .ok none
  | .ok (.found lat lon) =>
    .ok (some (lat, if c.prograde then c.subLon - lon else lon - c.subLon))
  | .throw e => .throw e
  | .ub => .ub

end Camera

end

end MaRC
