import Verif.Model.Num

/-!
# `lib/marc/Mathematics.h`: approximate comparison and sign
-/

namespace MaRC

/-- `std::numeric_limits<double>::epsilon()`, `2^-52`. -/
def dblEpsilon : ℚ := 1 / 2 ^ 52

/-- `std::numeric_limits<double>::min()`, the smallest positive normal number. -/
def dblMin : ℚ := 1 / 2 ^ 1022

/-- `MaRC::almost_equal` for `double` (lib/marc/Mathematics.h:64-78).  The
product is evaluated left to right. -/
def almostEqual (F : Fp) (x y : Dbl) (ulp : ℤ) : Bool :=
  (F.sub x y).abs.lt (F.mul (F.mul (.fin dblEpsilon) (F.add x y).abs) (.fin ulp)) ||
    (F.sub x y).abs.lt (.fin dblMin)

/-- `MaRC::almost_zero` for `double` (lib/marc/Mathematics.h:109-119). -/
def almostZero (F : Fp) (x : Dbl) (n : ℤ) : Bool :=
  x.abs.lt (F.mul (.fin dblEpsilon) (.fin n))

/-- `MaRC::signum` (lib/marc/Mathematics.h:128-134). -/
def signum (x : Dbl) : ℤ :=
  (if x.gt (.fin 0) then 1 else 0) - (if x.lt (.fin 0) then 1 else 0)

/-- `MaRC::sgn` (lib/marc/Mathematics.h:146-152). -/
def sgn (x : Dbl) : ℤ :=
  (if x.ge (.fin 0) then 1 else 0) - (if x.lt (.fin 0) then 1 else 0)

end MaRC
