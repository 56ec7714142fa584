import Verif.Model.Validate
import Verif.Model.Mathematics
import Verif.Model.CosineImage

/-!
# Positions of cylindrical maps in floating point

`lib/marc/SimpleCylindrical.{h,cpp}` and the longitudes of `lib/marc/Mercator.cpp`, with
the roundings of the arithmetic that `Verif.Model.Projection` leaves out.
-/

namespace MaRC

/-- `C::_2pi` (lib/marc/Constants.h:129): the decimal literal rounded to `double`. -/
def c2pi : Dbl := Fp.ieee.rnd (6283185307179586476925286 / 10 ^ 24)

/-- `SimpleCylindrical` (lib/marc/SimpleCylindrical.h:140-160), with angles in radians. -/
structure CylindricalF where
  /-- `body_->prograde()` -/
  prograde : Bool
  loLat : Dbl
  hiLat : Dbl
  loLon : Dbl
  hiLon : Dbl
  /-- `graphic_lat_` -/
  graphic : Bool
  /-- Radii of `body_` -/
  eqRad : Dbl
  polRad : Dbl

/-- `centric_latitude` (lib/marc/OblateSpheroid.cpp:97-110).  `std::pow(x, 2)` is taken
to be the rounded product. -/
def centricLatitudeF (F : Fp) (L : Libm) (eqRad polRad latg : Dbl) : Dbl :=
  L.atan (F.mul (F.mul (F.div polRad eqRad) (F.div polRad eqRad)) (L.tan latg))

/-- `boundary_latitude` (lib/marc/SimpleCylindrical.cpp:46-59). -/
def boundaryLatitudeF (F : Fp) (L : Libm) (eqRad polRad : Dbl) (graphic : Bool)
    (degrees : Dbl) : Outcome Dbl := do
  let lat ← validateLatitude degrees
  .ok (if graphic then graphicLatitudeF F L eqRad polRad lat else lat)

/-- Adjustment of the longitudes (lib/marc/SimpleCylindrical.cpp:79-96). -/
def normalizeLonF (F : Fp) (lo hi : Dbl) : Dbl × Dbl :=
  if lo.gt hi then (F.sub lo c2pi, hi)
  else if almostEqual F lo hi 2 || (almostZero F lo 2 && almostZero F hi 2) then
    (lo, F.add hi c2pi)
  else (lo, hi)

namespace CylindricalF

/-- The constructor (lib/marc/SimpleCylindrical.cpp:64-97). -/
def new (F : Fp) (L : Libm) (eqRad polRad : Dbl) (prograde : Bool)
    (loLat hiLat loLon hiLon : Dbl) (graphic : Bool) : Outcome CylindricalF := do
  let loLat ← boundaryLatitudeF F L eqRad polRad graphic loLat
  let hiLat ← boundaryLatitudeF F L eqRad polRad graphic hiLat
  let loLon ← validateLongitude loLon
  let hiLon ← validateLongitude hiLon
  let lons := normalizeLonF F loLon hiLon
  .ok ⟨prograde, loLat, hiLat, lons.1, lons.2, graphic, eqRad, polRad⟩

variable (F : Fp) (L : Libm) (c : CylindricalF)

/-- `k + 0.5` for a `std::size_t` `k`, which is converted to `double` first. -/
def half (k : ℕ) : Dbl := F.add (F.rnd k) (.fin (1 / 2))

/-- `get_longitude` (lib/marc/SimpleCylindrical.h:122-136) with the longitudes per sample
of `plot_map` (lib/marc/SimpleCylindrical.cpp:113-114). -/
def longitude (samples i : ℕ) : Dbl :=
  let cf := F.div (F.sub c.hiLon c.loLon) (F.rnd samples)
  let lon := F.mul (half F i) cf
  if c.prograde then F.sub c.hiLon lon else F.add lon c.loLon

/-- Latitude of a line (lib/marc/SimpleCylindrical.cpp:110-111, 119-124). -/
def latitude (lines k : ℕ) : Dbl :=
  let cf := F.div (F.sub c.hiLat c.loLat) (F.rnd lines)
  let lat := F.add (F.mul (half F k) cf) c.loLat
  if c.graphic then centricLatitudeF F L c.eqRad c.polRad lat else lat

/-- `plot_map` (lib/marc/SimpleCylindrical.cpp:105-132): the arguments of the calls of
`plot` in order.  That the running offset is `k * samples + i` is C12. -/
def plotMap (samples lines : ℕ) : List ((Dbl × Dbl) × ℕ) :=
  (List.range lines).flatMap fun k =>
    (List.range samples).map fun i =>
      ((c.latitude F L lines k, c.longitude F samples i), k * samples + i)

end CylindricalF

/-- `Mercator::get_longitude` (lib/marc/Mercator.cpp:219-241); `longitude_low` is 0
(lib/marc/DefaultConfiguration.h:66). -/
def mercatorLongitudeF (F : Fp) (prograde : Bool) (samples i : ℕ) : Dbl :=
  let lon := F.add (F.mul (F.div (CylindricalF.half F i) (F.rnd samples)) c2pi)
    (F.mul (.fin 0) cDegree)
  if prograde then F.sub c2pi lon else lon

/-- `Mercator::plot_map` (lib/marc/Mercator.cpp:89-162): the arguments of the calls of
`plot` in order, when no search for a latitude throws.  Simplified: the latitude found by
`root_find` for line `k` (lines 119-152) is the argument `lat k`; its value is the subject
of C15 and C32. -/
def mercatorPlotMapF (F : Fp) (prograde : Bool) (lat : ℕ → Dbl) (samples lines : ℕ) :
    List ((Dbl × Dbl) × ℕ) :=
  (List.range lines).flatMap fun k =>
    (List.range samples).map fun i =>
      ((lat k, mercatorLongitudeF F prograde samples i), k * samples + i)

end MaRC
