import Verif.Model.Num

/-!
# `lib/marc/BilinearInterpolation.cpp`, `lib/marc/NullInterpolation.cpp`
-/

namespace MaRC.Bilinear

/-- State of `MaRC::BilinearInterpolation`
(lib/marc/BilinearInterpolation.h:76-93). -/
structure Rect where
  samples : ℕ
  left : ℕ
  right : ℕ
  top : ℕ
  bottom : ℕ
  deriving DecidableEq, Repr

/-- Constructor (lib/marc/BilinearInterpolation.cpp:16-30); the subtractions
wrap. -/
def new (samples lines nibbleLeft nibbleRight nibbleTop nibbleBottom : ℕ) : Rect :=
  ⟨samples, nibbleLeft, szSub samples nibbleRight, nibbleTop, szSub lines nibbleBottom⟩

/-- `(b - a) * t + a`, the edge interpolation term
(lib/marc/BilinearInterpolation.cpp:60-65, 72, 79). -/
def edge (F : Fp) (a b t : Dbl) : Dbl := F.add (F.mul (F.sub b a) t) a

/-- The sum and number of contributions from the four pixel values `bl`, `br`
(line `b`), `tl`, `tr` (line `t`) and the fractions `u = x - l`, `v = z - b`
(lib/marc/BilinearInterpolation.cpp:57-82). -/
def contributions (F : Fp) (bl br tl tr u v : Dbl) : Dbl × ℕ :=
  let s : Dbl × ℕ := (.fin 0, 0)
  let s := if !br.isNaN && !bl.isNaN then
      let tmp := F.add s.1 (edge F bl br u)
      let tmp := F.add tmp (F.add (F.mul (F.sub br bl) v) br)
      (tmp, s.2 + 2)
    else s
  let s := if !tr.isNaN && !tl.isNaN then (F.add s.1 (edge F tl tr u), s.2 + 1) else s
  if !tl.isNaN && !bl.isNaN then (F.add s.1 (edge F bl tl v), s.2 + 1) else s

/-- `BilinearInterpolation::interpolate`
(lib/marc/BilinearInterpolation.cpp:32-91).  The four pixels are read up
front; the code reads them as needed, but reads all of `data[ob + r]`,
`data[ot + r]` and `data[ot + l]` in any case, and `data[ob + l]` lies between
two elements it reads. -/
def interpolate (F : Fp) (r : Rect) (data : List Dbl) (x z datum : Dbl) :
    Outcome (Bool × Dbl) := do
  let l ← castSize x
  let b ← castSize z
  let rr := szAdd l 1
  let t := szAdd b 1
  let ob := szMul b r.samples
  let ot := szMul t r.samples
  if l < r.left ∨ rr ≥ r.right ∨ b < r.top ∨ t ≥ r.bottom then .ok (false, datum)
  else do
    let br ← arrayAt data (szAdd ob rr)
    let bl ← arrayAt data (szAdd ob l)
    let tr ← arrayAt data (szAdd ot rr)
    let tl ← arrayAt data (szAdd ot l)
    let (tmp, count) := contributions F bl br tl tr
      (F.sub x (F.rnd l)) (F.sub z (F.rnd b))
    if count > 0 then .ok (true, F.div tmp (.fin count)) else .ok (false, datum)

/-- `NullInterpolation::interpolate` (lib/marc/NullInterpolation.cpp:14-21). -/
def null (_data : List Dbl) (_x _z datum : Dbl) : Outcome (Bool × Dbl) := .ok (true, datum)

end MaRC.Bilinear
