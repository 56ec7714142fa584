import Mathlib.Data.Rat.Floor
import Mathlib.Data.Int.Log
import Mathlib.Algebra.Order.Floor.Ring

/-!
# Numbers and outcomes shared by the whole model

This file models no `/repo` function.  It fixes how C++ values and the ways a
C++ call can end are represented.
-/

namespace MaRC

/-- Exception classes thrown by the modelled code (`<stdexcept>` names). -/
inductive Exc where
  | invalidArgument | domainError | logicError | runtimeError | rangeError
  | outOfRange
  deriving DecidableEq, Repr

/-- How a C++ call ends: normally with a value, with an exception, or in
undefined behaviour (out-of-range access, unrepresentable floating to integer
conversion, dereference of an empty optional or a null pointer, failed
`assert`). -/
inductive Outcome (α : Type) where
  | ok (a : α)
  | throw (e : Exc)
  | ub
  deriving DecidableEq, Repr

namespace Outcome

/-- Sequencing: an exception or undefined behaviour ends the computation. -/
def bind {α β : Type} (x : Outcome α) (f : α → Outcome β) : Outcome β :=
  match x with
  | ok a => f a
  | throw e => throw e
  | ub => ub

instance : Monad Outcome where
  pure := ok
  bind := bind

@[simp] theorem pure_eq {α : Type} (a : α) : (pure a : Outcome α) = ok a := rfl
@[simp] theorem bind_ok {α β : Type} (a : α) (f : α → Outcome β) :
    (ok a >>= f) = f a := rfl
@[simp] theorem bind_throw {α β : Type} (e : Exc) (f : α → Outcome β) :
    (throw e >>= f) = throw e := rfl
@[simp] theorem bind_ub {α β : Type} (f : α → Outcome β) :
    (ub >>= f) = ub := rfl

end Outcome

/-- A C++ `double`: NaN, the infinities, or a finite value given as the
rational number it denotes.  The sign of zero and NaN payloads are not
represented. -/
inductive Dbl where
  | nan
  | ninf
  | fin (q : ℚ)
  | pinf
  deriving DecidableEq, Repr

namespace Dbl

/-- IEEE `<` (false when an operand is NaN). -/
def lt : Dbl → Dbl → Bool
  | nan, _ => false
  | _, nan => false
  | ninf, ninf => false
  | ninf, _ => true
  | fin _, ninf => false
  | fin a, fin b => decide (a < b)
  | fin _, pinf => true
  | pinf, _ => false

/-- IEEE `<=` (false when an operand is NaN). -/
def le : Dbl → Dbl → Bool
  | nan, _ => false
  | _, nan => false
  | ninf, _ => true
  | fin _, ninf => false
  | fin a, fin b => decide (a ≤ b)
  | fin _, pinf => true
  | pinf, pinf => true
  | pinf, _ => false

/-- IEEE `>`. -/
def gt (a b : Dbl) : Bool := lt b a

/-- IEEE `>=`. -/
def ge (a b : Dbl) : Bool := le b a

/-- IEEE `==`. -/
def eq : Dbl → Dbl → Bool
  | nan, _ => false
  | _, nan => false
  | a, b => decide (a = b)

/-- `std::isnan`. -/
def isNaN : Dbl → Bool
  | nan => true
  | _ => false

/-- `std::isfinite`. -/
def isFinite : Dbl → Bool
  | fin _ => true
  | _ => false

/-- Unary minus. -/
def neg : Dbl → Dbl
  | nan => nan
  | ninf => pinf
  | fin q => fin (-q)
  | pinf => ninf

/-- `std::floor`. -/
def floor : Dbl → Dbl
  | fin q => fin ⌊q⌋
  | d => d

/-- `std::abs`. -/
def abs : Dbl → Dbl
  | nan => nan
  | ninf => pinf
  | fin q => fin |q|
  | pinf => pinf

end Dbl

/-- A floating point arithmetic: how an exact rational result becomes a
`double`. -/
structure Fp where
  /-- Rounding of an exact result. -/
  rnd : ℚ → Dbl

namespace Fp

/-- Arithmetic that never rounds (the idealisation used where a statement is
about the formula, not about its rounding). -/
def exact : Fp := ⟨Dbl.fin⟩

/-- Round to the nearest integer, ties to even. -/
def roundHalfEven (x : ℚ) : ℤ :=
  let f := ⌊x⌋
  let d := x - f
  if d < 1 / 2 then f
  else if 1 / 2 < d then f + 1
  else if f % 2 = 0 then f else f + 1

/-- Exponent of the unit in the last place around `q` of a binary format with
`p` bits of significand and smallest positive number `2^emin`. -/
def ulpExp (p : ℕ) (emin : ℤ) (q : ℚ) : ℤ := max (Int.log 2 |q| - (p - 1)) emin

/-- Round to the nearest multiple of the unit in the last place, ties to
even: IEEE rounding before the overflow check. -/
def rndP (p : ℕ) (emin : ℤ) (q : ℚ) : ℚ :=
  roundHalfEven (q / (2 : ℚ) ^ ulpExp p emin q) * (2 : ℚ) ^ ulpExp p emin q

/-- binary64 rounding (53 bit significand, gradual underflow at `2^-1074`). -/
def rnd53 (q : ℚ) : ℚ := rndP 53 (-1074) q

/-- binary32 rounding (24 bit significand, gradual underflow at `2^-149`). -/
def rnd24 (q : ℚ) : ℚ := rndP 24 (-149) q

/-- Largest finite `double`, `(2^53 - 1) * 2^971`. -/
def dblMax : ℚ := (2 ^ 53 - 1) * 2 ^ 971

/-- Largest finite `float`, `(2^24 - 1) * 2^104`. -/
def fltMax : ℚ := (2 ^ 24 - 1) * 2 ^ 104

/-- binary64 with round-to-nearest-even and overflow to infinity. -/
def ieee : Fp where
  rnd q :=
    let r := rnd53 q
    if dblMax < r then .pinf else if r < -dblMax then .ninf else .fin r

variable (F : Fp)

/-- Floating point addition. -/
def add : Dbl → Dbl → Dbl
  | .nan, _ => .nan
  | _, .nan => .nan
  | .pinf, .ninf => .nan
  | .ninf, .pinf => .nan
  | .pinf, _ => .pinf
  | _, .pinf => .pinf
  | .ninf, _ => .ninf
  | _, .ninf => .ninf
  | .fin a, .fin b => F.rnd (a + b)

/-- Floating point subtraction. -/
def sub (a b : Dbl) : Dbl := F.add a b.neg

/-- The infinity with the sign of `s` (NaN for a zero `s`). -/
def signedInf (s : ℚ) : Dbl :=
  if 0 < s then .pinf else if s < 0 then .ninf else .nan

/-- Floating point multiplication. -/
def mul : Dbl → Dbl → Dbl
  | .nan, _ => .nan
  | _, .nan => .nan
  | .pinf, .pinf => .pinf
  | .pinf, .ninf => .ninf
  | .ninf, .pinf => .ninf
  | .ninf, .ninf => .pinf
  | .pinf, .fin b => signedInf b
  | .fin a, .pinf => signedInf a
  | .ninf, .fin b => signedInf (-b)
  | .fin a, .ninf => signedInf (-a)
  | .fin a, .fin b => F.rnd (a * b)

/-- Floating point division.  Zero is unsigned here, so a nonzero number
divided by zero is the infinity with the sign of the dividend. -/
def div : Dbl → Dbl → Dbl
  | .nan, _ => .nan
  | _, .nan => .nan
  | .pinf, .fin b => if b < 0 then .ninf else .pinf
  | .ninf, .fin b => if b < 0 then .pinf else .ninf
  | .pinf, _ => .nan
  | .ninf, _ => .nan
  | .fin _, .pinf => .fin 0
  | .fin _, .ninf => .fin 0
  | .fin a, .fin b => if b = 0 then signedInf a else F.rnd (a / b)

end Fp

/-- `std::size_t` has 64 bits. -/
def szMod : ℕ := 2 ^ 64

/-- `std::size_t` addition (wraps). -/
def szAdd (a b : ℕ) : ℕ := (a + b) % szMod

/-- `std::size_t` multiplication (wraps). -/
def szMul (a b : ℕ) : ℕ := (a * b) % szMod

/-- `std::size_t` subtraction (wraps), for operands below `2^64`. -/
def szSub (a b : ℕ) : ℕ := (a + (szMod - b)) % szMod

/-- Truncation of a finite `double` toward zero, as `static_cast` to an
integer type does. -/
def truncQ (q : ℚ) : ℤ := if 0 ≤ q then ⌊q⌋ else ⌈q⌉

/-- `static_cast` of a `double` to an integer type with range `[lo, hi]`:
undefined unless the truncated value is representable. -/
def castInt (lo hi : ℤ) : Dbl → Outcome ℤ
  | .fin q => if lo ≤ truncQ q ∧ truncQ q ≤ hi then .ok (truncQ q) else .ub
  | _ => .ub

/-- `static_cast<std::size_t>` of a `double`. -/
def castSize (d : Dbl) : Outcome ℕ := do
  let n ← castInt 0 (2 ^ 64 - 1) d
  .ok n.toNat

/-- Array access; out of range is undefined behaviour. -/
def arrayAt {α : Type} (l : List α) (i : ℕ) : Outcome α :=
  match l[i]? with
  | some a => .ok a
  | none => .ub

end MaRC
