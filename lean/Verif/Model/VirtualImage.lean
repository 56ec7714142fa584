import Verif.Model.Validate
import Verif.Model.Extrema

/-!
# Virtual images: `lib/marc/details/scale_and_offset.h`, `VirtualImage`,
`LatitudeImage`, `LongitudeImage`
-/

namespace MaRC

namespace MapType

/-- `std::numeric_limits<T>::digits10` of the integral types. -/
def digits10 : MapType → ℤ
  | u8 => 2
  | i16 => 4
  | i32 => 9
  | i64 => 18
  | f32 => 6
  | f64 => 15

/-- `std::numeric_limits<std::make_unsigned_t<T>>::max()` converted to `double`
(the 64 bit value is rounded up to `2^64`); unused for floating types. -/
def unsignedMax : MapType → ℚ
  | u8 => 2 ^ 8 - 1
  | i16 => 2 ^ 16 - 1
  | i32 => 2 ^ 32 - 1
  | i64 => 2 ^ 64
  | f32 | f64 => 0

end MapType

/-- `static_cast<int>(std::log10(q))` for a positive finite `q`: the logarithm
truncated toward zero.  Simplification: `log10` is taken to be exact. -/
def truncLog10 (q : ℚ) : ℤ := if 1 ≤ q then Int.log 10 q else Int.clog 10 q

/-- `MaRC::scale_and_offset<T>` (lib/marc/details/scale_and_offset.h:79-127 for
integral types, 146-179 for floating types).  `none` is the return value
`false`.  For equal bounds `log10(0)` is minus infinity and its conversion to
`int` undefined.  `std::pow(10, exponent)` is the correctly rounded power. -/
def scaleAndOffset (F : Fp) (T : MapType) (min max : Dbl) : Outcome (Option (Dbl × Dbl)) :=
  if T.isIntegral then
    match F.sub max min with
    | .fin range =>
      if range < 0 ∨ T.unsignedMax < range then .ok none
      else if range = 0 then .ub
      else
        let scale := F.rnd ((10 : ℚ) ^ (T.digits10 - truncLog10 range))
        if (F.mul min scale).lt (T.toDouble (.fin T.lowest)) then
          .ok (some (scale, F.mul (F.div (.fin range) (.fin 2)) scale))
        else if (F.mul max scale).gt (T.toDouble (.fin T.highest)) then
          .ok (some (scale, F.mul (F.div (.fin (-range)) (.fin 2)) scale))
        else .ok (some (scale, .fin 0))
    | _ => .ok none
  else .ok (some (.fin 1, .fin 0))

/-- Scale and offset of a `VirtualImage` (lib/marc/VirtualImage.cpp:14-18). -/
structure VirtualImage where
  scale : Dbl
  offset : Dbl
  deriving DecidableEq

namespace VirtualImage

/-- `VirtualImage::read_data` (lib/marc/VirtualImage.cpp:20-33) given the result of
the image's own `read_data_i`. -/
def readData (F : Fp) (v : VirtualImage) (physical : Option Dbl) : Option Dbl :=
  physical.map fun d => F.add (F.mul d v.scale) v.offset

/-- `VirtualImage::scale`, the BSCALE of the image (lib/marc/VirtualImage.h:123). -/
def bscale (F : Fp) (v : VirtualImage) : Dbl := F.div (.fin 1) v.scale

/-- `VirtualImage::offset`, the BZERO of the image (lib/marc/VirtualImage.h:134). -/
def bzero (F : Fp) (v : VirtualImage) : Dbl := F.mul (v.bscale F) v.offset.neg

end VirtualImage

/-- `std::fmod` of finite numbers: exact, with the sign of the dividend. -/
def fmodQ (x y : ℚ) : ℚ := x - y * truncQ (x / y)

/-- `std::fmod`. -/
def fmod : Dbl → Dbl → Dbl
  | .fin x, .fin y => if y = 0 then .nan else .fin (fmodQ x y)
  | .fin x, .pinf => .fin x
  | .fin x, .ninf => .fin x
  | _, _ => .nan

/-- Shift by 360 degrees in `LongitudeImage::read_data_i`
(lib/marc/LongitudeImage.cpp:45-49). -/
def shiftLongitude (F : Fp) (data : Dbl) : Dbl :=
  if data.lt (.fin 0) then F.add data (.fin 360)
  else if data.gt (.fin 360) then F.sub data (.fin 360)
  else data

/-- `LongitudeImage::read_data_i` (lib/marc/LongitudeImage.cpp:23-52) with
`longitude_low` 0 and `longitude_high` 360 (lib/marc/DefaultConfiguration.h). -/
def longitudeData (F : Fp) (lon : Dbl) : Option Dbl :=
  let data := shiftLongitude F (F.div (fmod lon cCircle) cDegree)
  if data.ge (.fin 0) && data.le (.fin 360) then some data else none

/-- `C::pi_2` (lib/marc/Constants.h:132). -/
def cPi2 : Dbl := Fp.ieee.rnd (1570796326794896619231322 / 10 ^ 24)

/-- `LatitudeImage::read_data_i` (lib/marc/LatitudeImage.cpp:31-49).  The body's
conversion to planetographic latitude is a parameter. -/
def latitudeData (F : Fp) (graphicLatitude : Dbl → Dbl) (graphic : Bool) (lat : Dbl) :
    Option Dbl :=
  if lat.lt cPi2.neg || lat.gt cPi2 then none
  else some (F.div (if graphic then graphicLatitude lat else lat) cDegree)

/-- Physical ranges of the virtual images (lib/marc/DefaultConfiguration.h): the
cosine, latitude and longitude images. -/
def virtualRanges : List (ℚ × ℚ) := [(-1, 1), (-90, 90), (0, 360)]

/-- Common part of the `make` functions of the virtual image factories
(src/CosPhaseImageFactory.cpp, src/LatitudeImageFactory.cpp,
src/LongitudeImageFactory.cpp, src/Mu0ImageFactory.cpp, src/MuImageFactory.cpp):
scale and offset, minimum and maximum. -/
def makeVirtual (F : Fp) (T : MapType) (low high : Dbl) : Outcome (VirtualImage × Dbl × Dbl) := do
  match ← scaleAndOffset F T low high with
  | none => .throw .rangeError
  | some (s, o) => .ok (⟨s, o⟩, F.add (F.mul low s) o, F.add (F.mul high s) o)

end MaRC
