import Verif.Model.Num

/-!
# `lib/marc/Validate.h` and the angle constants of `lib/marc/Constants.h`
-/

namespace MaRC

/-- `C::pi` (lib/marc/Constants.h:126): the decimal literal rounded to
`double`. -/
def cPi : Dbl := Fp.ieee.rnd (3141592653589793238462643 / 10 ^ 24)

/-- `C::circle` (lib/marc/Constants.h:346); `C::radian` is 1. -/
def cCircle : Dbl := Fp.ieee.mul (Fp.ieee.mul (.fin 2) cPi) (.fin 1)

/-- `C::degree` (lib/marc/Constants.h:364). -/
def cDegree : Dbl := Fp.ieee.mul (Fp.ieee.div (.fin 1) (.fin 360)) cCircle

/-- `MaRC::validate_latitude` (lib/marc/Validate.h:39-45). -/
def validateLatitude (lat : Dbl) : Outcome Dbl :=
  if lat.isNaN || lat.lt (.fin (-90)) || lat.gt (.fin 90) then
    .throw .invalidArgument
  else .ok (Fp.ieee.mul lat cDegree)

/-- `MaRC::validate_longitude` (lib/marc/Validate.h:59-70). -/
def validateLongitude (lon : Dbl) : Outcome Dbl :=
  if lon.isNaN || lon.lt (.fin (-360)) || lon.gt (.fin 360) then
    .throw .invalidArgument
  else .ok (Fp.ieee.mul lon cDegree)

/-- `MaRC::validate_position_angle` (lib/marc/Validate.h:84-90). -/
def validatePositionAngle (north : Dbl) : Outcome Dbl :=
  if north.isNaN || north.lt (.fin (-360)) || north.gt (.fin 360) then
    .throw .invalidArgument
  else .ok (Fp.ieee.mul north cDegree)

end MaRC
