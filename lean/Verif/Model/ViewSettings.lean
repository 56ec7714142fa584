import Verif.Model.Validate

/-!
# Setters of `lib/marc/ViewingGeometry.cpp`

Floating point values are `Dbl`s.  A setter returns the state left behind and
the exception thrown, if any, since an exception does not undo assignments.
-/

namespace MaRC

/-- `C::_2pi` (lib/marc/Constants.h:129). -/
def c2Pi : Dbl := Fp.ieee.rnd (6283185307179586476925286 / 10 ^ 24)

/-- `std::sqrt(std::numeric_limits<double>::max())`
(lib/marc/ViewingGeometry.cpp:727-728): the `double` next below 2^512. -/
def maxRange : Dbl := .fin (2 ^ 512 - 2 ^ 459)

/-- Data members of `ViewingGeometry` that setters assign
(lib/marc/ViewingGeometry.h:385-470), and the radii of its body. -/
structure ViewSettings where
  eqRad : Dbl
  polRad : Dbl
  subObservLat : Dbl := .nan
  subObservLon : Dbl := .nan
  subSolarLat : Dbl := .nan
  subSolarLon : Dbl := .nan
  range : Dbl := .nan
  positionAngle : Dbl := .nan
  kmPerPixel : Dbl := .nan
  focalLength : Dbl := .nan
  scale : Dbl := .nan
  oaSample : Dbl := .nan
  oaLine : Dbl := .nan
  sampleCenter : Dbl := .nan
  lineCenter : Dbl := .nan
  latAtCenter : Dbl := .nan
  lonAtCenter : Dbl := .nan
  muLimit : Dbl := .fin 0
  useTerminator : Bool := false
  /-- identifies the geometric correction strategy -/
  correction : ℕ := 0
  deriving DecidableEq

namespace ViewSettings

/-- What a setter leaves behind. -/
abbrev Result := ViewSettings × Option Exc

/-- `this->member = f(x)` where `f` may throw. -/
def assign (s : ViewSettings) (v : Outcome Dbl) (store : Dbl → ViewSettings) : Result :=
  match v with
  | .ok x => (store x, none)
  | .throw e => (s, some e)
  | .ub => (s, none)

/-- "Equivalent positive longitude" (lib/marc/ViewingGeometry.cpp:197-199,
220-222, 798-800). -/
def positiveLon (x : Dbl) : Dbl := if x.lt (.fin 0) then Fp.ieee.add x c2Pi else x

/-- Two setters one after the other. -/
def andThen (r : Result) (f : ViewSettings → Result) : Result :=
  match r with
  | (s, none) => f s
  | (s, some e) => (s, some e)

/-- `sub_observ_lat` (lib/marc/ViewingGeometry.cpp:187-191). -/
def setSubObservLat (s : ViewSettings) (lat : Dbl) : Result :=
  s.assign (validateLatitude lat) fun x => { s with subObservLat := x }

/-- `sub_observ_lon` (lib/marc/ViewingGeometry.cpp:193-201). -/
def setSubObservLon (s : ViewSettings) (lon : Dbl) : Result :=
  s.assign (validateLongitude lon) fun x => { s with subObservLon := positiveLon x }

/-- `sub_observ` (lib/marc/ViewingGeometry.cpp:180-185). -/
def setSubObserv (s : ViewSettings) (lat lon : Dbl) : Result :=
  andThen (s.setSubObservLat lat) fun s => s.setSubObservLon lon

/-- `sub_solar_lat` (lib/marc/ViewingGeometry.cpp:210-214). -/
def setSubSolarLat (s : ViewSettings) (lat : Dbl) : Result :=
  s.assign (validateLatitude lat) fun x => { s with subSolarLat := x }

/-- `sub_solar_lon` (lib/marc/ViewingGeometry.cpp:216-224). -/
def setSubSolarLon (s : ViewSettings) (lon : Dbl) : Result :=
  s.assign (validateLongitude lon) fun x => { s with subSolarLon := positiveLon x }

/-- `sub_solar` (lib/marc/ViewingGeometry.cpp:203-208). -/
def setSubSolar (s : ViewSettings) (lat lon : Dbl) : Result :=
  andThen (s.setSubSolarLat lat) fun s => s.setSubSolarLon lon

/-- `position_angle` (lib/marc/ViewingGeometry.cpp:226-230). -/
def setPositionAngle (s : ViewSettings) (north : Dbl) : Result :=
  s.assign (validatePositionAngle north) fun x => { s with positionAngle := x }

/-- Kilometers per pixel of an angle in arcseconds
(lib/marc/ViewingGeometry.cpp:686). -/
def arcsecToKm (a range : Dbl) : Dbl :=
  Fp.ieee.mul (Fp.ieee.mul (Fp.ieee.div cPi (.fin 648000)) a) range

/-- `arcsec_per_pixel` (lib/marc/ViewingGeometry.cpp:649-687). -/
def setArcsecPerPixel (s : ViewSettings) (a : Dbl) : Result :=
  if a.le (.fin 0) then (s, some .invalidArgument)
  else if s.range.isNaN then (s, some .logicError)
  else ({ s with kmPerPixel := arcsecToKm a s.range }, none)

/-- `km_per_pixel` (lib/marc/ViewingGeometry.cpp:689-696). -/
def setKmPerPixel (s : ViewSettings) (k : Dbl) : Result :=
  if k.le (.fin 0) then (s, some .invalidArgument) else ({ s with kmPerPixel := k }, none)

/-- `std::min`. -/
def stdMin (a b : Dbl) : Dbl := if b.lt a then b else a

/-- `range` (lib/marc/ViewingGeometry.cpp:719-735). -/
def setRange (s : ViewSettings) (r : Dbl) : Result :=
  if r.le (stdMin s.eqRad s.polRad) || r.ge maxRange then (s, some .invalidArgument)
  else ({ s with range := r }, none)

/-- `focal_length` (lib/marc/ViewingGeometry.cpp:737-744). -/
def setFocalLength (s : ViewSettings) (len : Dbl) : Result :=
  if len.le (.fin 0) then (s, some .invalidArgument) else ({ s with focalLength := len }, none)

/-- `scale` (lib/marc/ViewingGeometry.cpp:746-753). -/
def setScale (s : ViewSettings) (x : Dbl) : Result :=
  if x.le (.fin 0) then (s, some .invalidArgument) else ({ s with scale := x }, none)

/-- `body_center_sample` (lib/marc/ViewingGeometry.cpp:762-769). -/
def setBodyCenterSample (s : ViewSettings) (x : Dbl) : Result :=
  if x.isNaN then (s, some .invalidArgument) else ({ s with sampleCenter := x }, none)

/-- `body_center_line` (lib/marc/ViewingGeometry.cpp:771-778). -/
def setBodyCenterLine (s : ViewSettings) (x : Dbl) : Result :=
  if x.isNaN then (s, some .invalidArgument) else ({ s with lineCenter := x }, none)

/-- `body_center` (lib/marc/ViewingGeometry.cpp:755-760). -/
def setBodyCenter (s : ViewSettings) (sample line : Dbl) : Result :=
  andThen (s.setBodyCenterSample sample) fun s => s.setBodyCenterLine line

/-- `lat_at_center` (lib/marc/ViewingGeometry.cpp:787-791). -/
def setLatAtCenter (s : ViewSettings) (lat : Dbl) : Result :=
  s.assign (validateLatitude lat) fun x => { s with latAtCenter := x }

/-- `lon_at_center` (lib/marc/ViewingGeometry.cpp:793-801). -/
def setLonAtCenter (s : ViewSettings) (lon : Dbl) : Result :=
  s.assign (validateLongitude lon) fun x => { s with lonAtCenter := positiveLon x }

/-- `lat_lon_center` (lib/marc/ViewingGeometry.cpp:780-785). -/
def setLatLonCenter (s : ViewSettings) (lat lon : Dbl) : Result :=
  andThen (s.setLatAtCenter lat) fun s => s.setLonAtCenter lon

/-- `optical_axis_sample` (lib/marc/ViewingGeometry.cpp:810-817). -/
def setOpticalAxisSample (s : ViewSettings) (x : Dbl) : Result :=
  if x.isNaN then (s, some .invalidArgument) else ({ s with oaSample := x }, none)

/-- `optical_axis_line` (lib/marc/ViewingGeometry.cpp:819-826). -/
def setOpticalAxisLine (s : ViewSettings) (x : Dbl) : Result :=
  if x.isNaN then (s, some .invalidArgument) else ({ s with oaLine := x }, none)

/-- `optical_axis` (lib/marc/ViewingGeometry.cpp:803-808). -/
def setOpticalAxis (s : ViewSettings) (sample line : Dbl) : Result :=
  andThen (s.setOpticalAxisSample sample) fun s => s.setOpticalAxisLine line

/-- `emi_ang_limit` (lib/marc/ViewingGeometry.cpp:828-837); `cos` stands for
`std::cos`. -/
def setEmiAngLimit (cos : Dbl → Dbl) (s : ViewSettings) (angle : Dbl) : Result :=
  if angle.abs.gt (.fin 90) then (s, some .domainError)
  else ({ s with muLimit := cos (Fp.ieee.mul angle cDegree) }, none)

/-- `use_terminator` (lib/marc/ViewingGeometry.cpp:839-843). -/
def setUseTerminator (s : ViewSettings) (u : Bool) : Result :=
  ({ s with useTerminator := u }, none)

/-- `geometric_correction` (lib/marc/ViewingGeometry.cpp:124-134); `none` is a
null pointer. -/
def setCorrection (s : ViewSettings) (strategy : Option ℕ) : Result :=
  match strategy with
  | none => (s, some .invalidArgument)
  | some g => ({ s with correction := g }, none)

/-- A call of one of the setters that take one value. -/
inductive Call where
  | subObservLat (x : Dbl) | subObservLon (x : Dbl)
  | subSolarLat (x : Dbl) | subSolarLon (x : Dbl)
  | positionAngle (x : Dbl) | arcsecPerPixel (x : Dbl) | kmPerPixel (x : Dbl)
  | range (x : Dbl) | focalLength (x : Dbl) | scale (x : Dbl)
  | bodyCenterSample (x : Dbl) | bodyCenterLine (x : Dbl)
  | latAtCenter (x : Dbl) | lonAtCenter (x : Dbl)
  | opticalAxisSample (x : Dbl) | opticalAxisLine (x : Dbl)
  | emiAngLimit (x : Dbl) | useTerminator (u : Bool) | correction (g : Option ℕ)

/-- Make the call. -/
def call (cos : Dbl → Dbl) (s : ViewSettings) : Call → Result
  | .subObservLat x => s.setSubObservLat x
  | .subObservLon x => s.setSubObservLon x
  | .subSolarLat x => s.setSubSolarLat x
  | .subSolarLon x => s.setSubSolarLon x
  | .positionAngle x => s.setPositionAngle x
  | .arcsecPerPixel x => s.setArcsecPerPixel x
  | .kmPerPixel x => s.setKmPerPixel x
  | .range x => s.setRange x
  | .focalLength x => s.setFocalLength x
  | .scale x => s.setScale x
  | .bodyCenterSample x => s.setBodyCenterSample x
  | .bodyCenterLine x => s.setBodyCenterLine x
  | .latAtCenter x => s.setLatAtCenter x
  | .lonAtCenter x => s.setLonAtCenter x
  | .opticalAxisSample x => s.setOpticalAxisSample x
  | .opticalAxisLine x => s.setOpticalAxisLine x
  | .emiAngLimit x => s.setEmiAngLimit cos x
  | .useTerminator u => s.setUseTerminator u
  | .correction g => s.setCorrection g

end ViewSettings

end MaRC
