import Verif.Model.Num

/-!
# `lib/marc/Map_traits.h` and `lib/marc/extrema.h`

Values of every map data type are represented as `Dbl`: an integer typed value
`n` is `.fin n`.
-/

namespace MaRC

/-- The map data types MaRC instantiates (src/FITS_traits.h, BITPIX 8, 16, 32,
64, -32, -64). -/
inductive MapType where
  | u8 | i16 | i32 | i64 | f32 | f64
  deriving DecidableEq, Repr

namespace MapType

/-- `std::is_integral<T>`. -/
def isIntegral : MapType → Bool
  | f32 | f64 => false
  | _ => true

/-- `std::numeric_limits<T>::lowest()`. -/
def lowest : MapType → ℚ
  | u8 => 0
  | i16 => -2 ^ 15
  | i32 => -2 ^ 31
  | i64 => -2 ^ 63
  | f32 => -Fp.fltMax
  | f64 => -Fp.dblMax

/-- `std::numeric_limits<T>::max()`. -/
def highest : MapType → ℚ
  | u8 => 2 ^ 8 - 1
  | i16 => 2 ^ 15 - 1
  | i32 => 2 ^ 31 - 1
  | i64 => 2 ^ 63 - 1
  | f32 => Fp.fltMax
  | f64 => Fp.dblMax

/-- Range of an integral type as integers (unused for floating types). -/
def intRange : MapType → ℤ × ℤ
  | u8 => (0, 2 ^ 8 - 1)
  | i16 => (-2 ^ 15, 2 ^ 15 - 1)
  | i32 => (-2 ^ 31, 2 ^ 31 - 1)
  | i64 => (-2 ^ 63, 2 ^ 63 - 1)
  | f32 | f64 => (0, 0)

/-- Conversion `double` → `float` (round to nearest even, overflow to infinity
as IEC 60559 prescribes). -/
def toFloat : Dbl → Dbl
  | .fin q =>
      let r := Fp.rnd24 q
      if Fp.fltMax < r then .pinf else if r < -Fp.fltMax then .ninf else .fin r
  | d => d

/-- Conversion of a `double` to `T`; undefined when the truncated value does
not fit an integral `T`. -/
def cast (T : MapType) (d : Dbl) : Outcome Dbl :=
  match T with
  | f64 => .ok d
  | f32 => .ok (toFloat d)
  | _ =>
    match castInt T.intRange.1 T.intRange.2 d with
    | .ok n => .ok (.fin n)
    | .throw e => .throw e
    | .ub => .ub

/-- Conversion of a `T` to `double`; only 64-bit integers can be rounded. -/
def toDouble (T : MapType) (v : Dbl) : Dbl :=
  match T, v with
  | i64, .fin q => Fp.ieee.rnd q
  | _, v => v

/-- `Map_traits<T>::empty_value()` (lib/marc/Map_traits.h:52-55, 130-133):
`quiet_NaN()` is 0 for integral types. -/
def emptyValue (T : MapType) : Dbl := if T.isIntegral then .fin 0 else .nan

/-- `Map_traits<T>::minimum(m)` (lib/marc/Map_traits.h:80-86, 135-140):
`std::max(m, type_min)` converted to `T`. -/
def minimum (T : MapType) (m : Dbl) : Outcome Dbl :=
  match T with
  | f64 => .ok m
  | T =>
    let typeMin := T.toDouble (.fin T.lowest)
    T.cast (if m.lt typeMin then typeMin else m)

/-- `Map_traits<T>::maximum(m)` (lib/marc/Map_traits.h:104-110, 142-147):
`std::min(m, type_max)` converted to `T`. -/
def maximum (T : MapType) (m : Dbl) : Outcome Dbl :=
  match T with
  | f64 => .ok m
  | T =>
    let typeMax := T.toDouble (.fin T.highest)
    T.cast (if typeMax.lt m then typeMax else m)

end MapType

/-- State of `MaRC::extrema<T>` (lib/marc/extrema.h:33-44, 280-290). -/
structure Extrema where
  /-- `minimum_` -/
  min : Option Dbl
  /-- `maximum_` -/
  max : Option Dbl
  deriving DecidableEq, Repr

namespace Extrema

/-- Default constructor and `reset()` (lib/marc/extrema.h:42, 198-202). -/
def empty : Extrema := ⟨none, none⟩

/-- `v < optional` (`std::optional` comparison with a value). -/
def ltOpt (v : Dbl) : Option Dbl → Bool
  | none => false
  | some x => v.lt x

/-- `v > optional`. -/
def gtOpt (v : Dbl) : Option Dbl → Bool
  | none => true
  | some x => v.gt x

/-- `v >= optional`. -/
def geOpt (v : Dbl) : Option Dbl → Bool
  | none => true
  | some x => v.ge x

/-- `v <= optional`. -/
def leOpt (v : Dbl) : Option Dbl → Bool
  | none => false
  | some x => v.le x

/-- `extrema::is_valid` (lib/marc/extrema.h:135-143). -/
def isValid (e : Extrema) : Bool :=
  match e.min, e.max with
  | some a, some b => a.le b
  | _, _ => false

/-- `extrema::validate_minimum` (lib/marc/extrema.h:236-261); the argument has
already been converted to `double`, as the parameter of
`Map_traits<T>::minimum` requires. -/
def validateMinimum (T : MapType) (m : Dbl) : Outcome Dbl :=
  if m.isNaN then .throw .invalidArgument else T.minimum m

/-- `extrema::validate_maximum` (lib/marc/extrema.h:236-244, 272-279). -/
def validateMaximum (T : MapType) (m : Dbl) : Outcome Dbl :=
  if m.isNaN then .throw .invalidArgument else T.maximum m

/-- `extrema(minimum, maximum)` (lib/marc/extrema.h:52-61). -/
def make (T : MapType) (minimum maximum : Dbl) : Outcome Extrema := do
  let a ← validateMinimum T minimum
  let b ← validateMaximum T maximum
  let e : Extrema := ⟨some a, some b⟩
  if e.isValid then .ok e else .throw .invalidArgument

/-- Converting constructor `extrema(extrema<U> const &)` with `U = double`
(lib/marc/extrema.h:73-85). -/
def convert (T : MapType) (e : Extrema) : Outcome Extrema := do
  let a ← match e.min with
    | none => .ok none
    | some m => do let v ← validateMinimum T m; .ok (some v)
  let b ← match e.max with
    | none => .ok none
    | some m => do let v ← validateMaximum T m; .ok (some v)
  .ok ⟨a, b⟩

/-- `extrema::minimum(m)` (lib/marc/extrema.h:115-116). -/
def setMinimum (T : MapType) (e : Extrema) (m : Dbl) : Outcome Extrema := do
  let v ← validateMinimum T m
  .ok { e with min := some v }

/-- `extrema::maximum(m)` (lib/marc/extrema.h:122-123). -/
def setMaximum (T : MapType) (e : Extrema) (m : Dbl) : Outcome Extrema := do
  let v ← validateMaximum T m
  .ok { e with max := some v }

/-- `extrema<T>::in_range(double)` (lib/marc/extrema.h:129-132): the endpoints
are converted to `double` for the comparison. -/
def inRange (T : MapType) (e : Extrema) (v : Dbl) : Bool :=
  geOpt v (e.min.map T.toDouble) && leOpt v (e.max.map T.toDouble)

/-- `extrema::update(T datum)` (lib/marc/extrema.h:155-166). -/
def update (e : Extrema) (datum : Dbl) : Extrema :=
  let e := if ltOpt datum e.min || e.min.isNone then { e with min := some datum } else e
  if gtOpt datum e.max || e.max.isNone then { e with max := some datum } else e

/-- `extrema::update(extrema const &)` (lib/marc/extrema.h:179-190). -/
def merge (this e : Extrema) : Extrema :=
  let this := match e.min with
    | some m => if ltOpt m this.min then { this with min := some m } else this
    | none => this
  match e.max with
  | some m => if gtOpt m this.max then { this with max := some m } else this
  | none => this

end Extrema

end MaRC
