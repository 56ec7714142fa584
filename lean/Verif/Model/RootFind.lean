import Verif.Model.Mathematics

/-!
# `lib/marc/root_find.cpp`

`f` is the function whose argument is sought; it may return any `double`.
-/

namespace MaRC.RootFind

variable (F : Fp)

/-- Integer literal as an operand. -/
def lit (n : ℤ) : Dbl := .fin n

/-- Step of the numerical derivative (lib/marc/root_find.cpp:53-56). -/
def stepSize (x : Dbl) : Dbl :=
  if x.lt (lit 1) then .fin (2 * dblEpsilon) else F.mul (.fin (2 * dblEpsilon)) x

/-- `first_derivative` (lib/marc/root_find.cpp:40-64). -/
def firstDerivative (x : Dbl) (f : Dbl → Dbl) : Dbl :=
  F.div
    (F.sub
      (F.add
        (F.sub (f (F.sub x (F.mul (lit 2) (stepSize F x))))
          (F.mul (lit 8) (f (F.sub x (stepSize F x)))))
        (F.mul (lit 8) (f (F.add x (stepSize F x)))))
      (f (F.add x (F.mul (lit 2) (stepSize F x)))))
    (F.mul (lit 12) (stepSize F x))

/-- `is_almost_equal` (lib/marc/root_find.cpp:66-76). -/
def isAlmostEqual (lhs rhs : Dbl) : Bool :=
  almostEqual F lhs rhs 2 || (almostZero F lhs 2 && almostZero F rhs 2)

/-- One Newton-Raphson step (lib/marc/root_find.cpp:112). -/
def newtonStep (y x0 : Dbl) (f : Dbl → Dbl) : Dbl :=
  F.sub x0 (F.div (F.sub (f x0) y) (firstDerivative F x0 f))

/-- `newton_raphson` (lib/marc/root_find.cpp:78-121) with `n` iterations left. -/
def newtonRaphson (y : Dbl) (f : Dbl → Dbl) : ℕ → Dbl → Dbl
  | 0, _ => .nan
  | n + 1, x0 =>
    if isAlmostEqual F (newtonStep F y x0 f) x0 then newtonStep F y x0 f
    else newtonRaphson y f n (newtonStep F y x0 f)

/-- Search loop of the unbracketed `root_find` (lib/marc/root_find.cpp:163-177).
The literal `1e-3` is taken as the rational number (rounded by `F`). -/
def search (y : Dbl) (f : Dbl → Dbl) (stop : Dbl) : ℕ → Dbl → Outcome Dbl
  | 0, _ => .throw .runtimeError
  | n + 1, x0 =>
    if (newtonRaphson F y f 20 x0).isNaN then
      if (F.add x0 (F.rnd (1 / 1000))).ge stop then .throw .runtimeError
      else search y f stop n (F.add x0 (F.rnd (1 / 1000)))
    else .ok (newtonRaphson F y f 20 x0)

/-- `MaRC::root_find(y, x0, f)` (lib/marc/root_find.cpp:124-185). -/
def guess (y x0 : Dbl) (f : Dbl → Dbl) : Outcome Dbl :=
  if (newtonRaphson F y f 20 x0).isNaN then
    search F y f (F.add x0 (F.mul x0 (lit 2))) 10 (F.sub x0 (F.mul x0 (lit 2)))
  else .ok (newtonRaphson F y f 20 x0)

/-- Local variables of the loop of the bracketed `root_find`. -/
structure St where
  xl : Dbl
  xh : Dbl
  dxold : Dbl
  dx : Dbl
  x0 : Dbl
  y0 : Dbl

/-- The test for bisection (lib/marc/root_find.cpp:236-238). -/
def bisects (y : Dbl) (s : St) (df : Dbl) : Bool :=
  (F.mul
    (F.add (F.sub (F.mul (F.sub s.x0 s.xh) df) s.y0) y)
    (F.add (F.sub (F.mul (F.sub s.x0 s.xl) df) s.y0) y)).gt (lit 0) ||
  (F.mul (lit 2) (F.sub s.y0 y)).abs.gt (F.mul s.dxold df).abs

/-- The new step and point (lib/marc/root_find.cpp:234-256). -/
def move (y : Dbl) (f : Dbl → Dbl) (s : St) : St :=
  if bisects F y s (firstDerivative F s.x0 f) then
    { s with
      dxold := s.dx
      dx := F.div (F.sub s.xh s.xl) (lit 2)
      x0 := F.add s.xl (F.div (F.sub s.xh s.xl) (lit 2)) }
  else
    { s with
      dxold := s.dx
      dx := F.div (F.sub s.y0 y) (firstDerivative F s.x0 f)
      x0 := F.sub s.x0 (F.div (F.sub s.y0 y) (firstDerivative F s.x0 f)) }

/-- Narrowing of the bracket (lib/marc/root_find.cpp:263-268). -/
def narrow (y : Dbl) (f : Dbl → Dbl) (s : St) : St :=
  if (f s.x0).lt y then { s with y0 := f s.x0, xl := s.x0 }
  else { s with y0 := f s.x0, xh := s.x0 }

/-- The loop (lib/marc/root_find.cpp:231-272) with `n` iterations left. -/
def loop (y : Dbl) (f : Dbl → Dbl) : ℕ → St → Outcome Dbl
  | 0, _ => .throw .runtimeError
  | n + 1, s =>
    if almostZero F (move F y f s).dx 2 then .ok (move F y f s).x0
    else loop y f n (narrow y f (move F y f s))

/-- State before the loop, for brackets already oriented
(lib/marc/root_find.cpp:220-229). -/
def init (f : Dbl → Dbl) (xl xh : Dbl) : St :=
  { xl := xl
    xh := xh
    dxold := (F.sub xh xl).abs
    dx := (F.sub xh xl).abs
    x0 := F.div (F.add xl xh) (lit 2)
    y0 := f (F.div (F.add xl xh) (lit 2)) }

/-- `MaRC::root_find(y, xl, xh, f)` (lib/marc/root_find.cpp:187-275). -/
def bracketed (y xl xh : Dbl) (f : Dbl → Dbl) : Outcome Dbl :=
  if ((f xl).gt y && (f xh).gt y) || ((f xl).lt y && (f xh).lt y) then .throw .invalidArgument
  else if isAlmostEqual F (f xl) y then .ok xl
  else if isAlmostEqual F (f xh) y then .ok xh
  else if (f xl).gt y then loop F y f 100 (init F f xh xl)
  else loop F y f 100 (init F f xl xh)

end MaRC.RootFind
