import Verif.Model.Num
import Mathlib.Algebra.Ring.Defs
import Mathlib.Data.List.FinRange
import Mathlib.Analysis.SpecialFunctions.Trigonometric.Basic
import Mathlib.Analysis.SpecialFunctions.Pow.Real
import Mathlib.Data.Fin.VecNotation

/-!
# `lib/marc/Matrix.h`, `Vector.h`, `details/vector.h`, `Geometry.cpp` and
`GLLGeometricCorrection.cpp`

Elements are taken from a commutative ring (integers, or the reals standing for
`double`, whose rounding is not modelled here).
-/

namespace MaRC

/-- `Vector<T, M>` (lib/marc/Vector.h). -/
abbrev Vec (R : Type) (m : ℕ) := Fin m → R

/-- `Matrix<T, M, N>` (lib/marc/Matrix.h). -/
abbrev Mat (R : Type) (m n : ℕ) := Fin m → Fin n → R

section ring
variable {R : Type} [CommRing R] {m n r : ℕ}

/-- `for (i = 0; i < n; ++i) element += f(i)` starting from a zero element. -/
def sumLoop (n : ℕ) (f : Fin n → R) : R := (List.finRange n).foldl (fun acc i => acc + f i) 0

/-- `transpose` (lib/marc/Matrix.h:334-344). -/
def transpose (a : Mat R m n) : Mat R n m := fun col row => a row col

/-- Matrix `operator+` (lib/marc/Matrix.h:204-212, 356-363). -/
def matAdd (a b : Mat R m n) : Mat R m n := fun i j => a i j + b i j

/-- Matrix `operator-` (lib/marc/Matrix.h:222-230, 371-378). -/
def matSub (a b : Mat R m n) : Mat R m n := fun i j => a i j - b i j

/-- Matrix/matrix `operator*` (lib/marc/Matrix.h:385-401). -/
def matMul (a : Mat R m n) (b : Mat R n r) : Mat R m r :=
  fun i k => sumLoop n fun j => a i j * b j k

/-- Matrix/vector `operator*` (lib/marc/Matrix.h:408-419). -/
def matVec (a : Mat R m n) (x : Vec R n) : Vec R m := fun i => sumLoop n fun j => a i j * x j

/-- Matrix/scalar `operator*` (lib/marc/Matrix.h:241-257, 426-433). -/
def matScale (a : Mat R m n) (x : R) : Mat R m n := fun i j => a i j * x

/-- Scalar/matrix `operator*` (lib/marc/Matrix.h:440-444). -/
def scaleMat (x : R) (a : Mat R m n) : Mat R m n := matScale a x

/-- Vector `operator+` (lib/marc/Vector.h:250-258, 366-373). -/
def vecAdd (a b : Vec R m) : Vec R m := fun i => a i + b i

/-- Vector `operator-` (lib/marc/Vector.h:268-276, 381-388). -/
def vecSub (a b : Vec R m) : Vec R m := fun i => a i - b i

/-- Vector/scalar `operator*` (lib/marc/Vector.h:287-293, 396-416). -/
def vecScale (a : Vec R m) (x : R) : Vec R m := fun i => a i * x

/-- `dot_product` (lib/marc/Vector.h:346-354). -/
def dot (a b : Vec R m) : R := sumLoop m fun i => a i * b i

end ring

/-- Copy of one row in the `Matrix` initializer list constructor: the elements of
`row` go to `dest`. -/
def copyRows {R : Type} (n : ℕ) : List (List R) → List R → Outcome (List R)
  | [], done => .ok done
  | row :: rows, done => if row.length ≠ n then .throw .outOfRange else copyRows n rows (done ++ row)

/-- `Matrix(std::initializer_list<std::initializer_list<T>>)`
(lib/marc/Matrix.h:91-112): the flattened elements (row `i`, column `j` at
`i * n + j`).  For no rows `rhs.begin()->size()` is not evaluated, as `m` is
positive. -/
def matOfLists {R : Type} (m n : ℕ) (rows : List (List R)) : Outcome (List R) :=
  if rows.length ≠ m then .throw .outOfRange
  else match rows with
    | [] => .ub
    | r :: _ => if r.length ≠ n then .throw .outOfRange else copyRows n rows []

/-- `Vector(std::initializer_list<T>)` (lib/marc/Vector.h:102-112): the elements. -/
def vecOfList {R : Type} (m : ℕ) (l : List R) : Outcome (List R) :=
  if l.length ≠ m then .throw .outOfRange else .ok l

/-- `Matrix::at` (lib/marc/Matrix.h:161-169, 182-191) on the flattened elements. -/
def matAt {R : Type} (m n : ℕ) (flat : List R) (row col : ℕ) : Outcome R :=
  if m ≤ row ∨ n ≤ col then .throw .outOfRange else arrayAt flat (row * n + col)

/-- `details::magnitude` for three elements (lib/marc/details/vector.h), with an
exact `std::hypot`. -/
noncomputable def magnitude3 (v : Vec ℝ 3) : ℝ := Real.sqrt (v 0 ^ 2 + v 1 ^ 2 + v 2 ^ 2)

/-- `details::magnitude` for two elements. -/
noncomputable def magnitude2 (v : Vec ℝ 2) : ℝ := Real.sqrt (v 0 ^ 2 + v 1 ^ 2)

/-- `details::magnitude` for one element: the element itself, sign included. -/
def magnitude1 (v : Vec ℝ 1) : ℝ := v 0

/-- `Vector::to_unit_vector` (lib/marc/Vector.h:315-327) for three elements. -/
noncomputable def unit3 (v : Vec ℝ 3) : Vec ℝ 3 := fun i => v i / magnitude3 v

/-- `Vector::to_unit_vector` for two elements. -/
noncomputable def unit2 (v : Vec ℝ 2) : Vec ℝ 2 := fun i => v i / magnitude2 v

/-- `Vector::to_unit_vector` for one element. -/
noncomputable def unit1 (v : Vec ℝ 1) : Vec ℝ 1 := fun i => v i / magnitude1 v

namespace Geometry

/-- `Geometry::RotX` (lib/marc/Geometry.cpp:18-33).  Argument and result are
taken to be different objects. -/
noncomputable def rotX (angle : ℝ) (v : Vec ℝ 3) : Vec ℝ 3 :=
  ![v 0, v 1 * Real.cos angle + v 2 * Real.sin angle,
    -v 1 * Real.sin angle + v 2 * Real.cos angle]

/-- `Geometry::RotY` (lib/marc/Geometry.cpp:35-50). -/
noncomputable def rotY (angle : ℝ) (v : Vec ℝ 3) : Vec ℝ 3 :=
  ![v 0 * Real.cos angle - v 2 * Real.sin angle, v 1,
    v 0 * Real.sin angle + v 2 * Real.cos angle]

/-- `Geometry::RotZ` (lib/marc/Geometry.cpp:52-67). -/
noncomputable def rotZ (angle : ℝ) (v : Vec ℝ 3) : Vec ℝ 3 :=
  ![v 0 * Real.cos angle + v 1 * Real.sin angle,
    -v 0 * Real.sin angle + v 1 * Real.cos angle, v 2]

/-- `Geometry::RotXMatrix` (lib/marc/Geometry.cpp:69-88); the other elements are
zero by construction. -/
noncomputable def rotXMatrix (angle : ℝ) : Mat ℝ 3 3 :=
  ![![1, 0, 0], ![0, Real.cos angle, Real.sin angle], ![0, -Real.sin angle, Real.cos angle]]

/-- `Geometry::RotYMatrix` (lib/marc/Geometry.cpp:90-109). -/
noncomputable def rotYMatrix (angle : ℝ) : Mat ℝ 3 3 :=
  ![![Real.cos angle, 0, -Real.sin angle], ![0, 1, 0], ![Real.sin angle, 0, Real.cos angle]]

/-- `Geometry::RotZMatrix` (lib/marc/Geometry.cpp:111-130). -/
noncomputable def rotZMatrix (angle : ℝ) : Mat ℝ 3 3 :=
  ![![Real.cos angle, Real.sin angle, 0], ![-Real.sin angle, Real.cos angle, 0], ![0, 0, 1]]

end Geometry

namespace GLL

/-- `GLL::DISTORTION` (lib/marc/GLLGeometricCorrection.cpp:22-26). -/
noncomputable def distortion : ℝ := 6.58e-9

/-- `std::cbrt`. -/
noncomputable def cbrt (x : ℝ) : ℝ := if 0 ≤ x then x ^ (1 / 3 : ℝ) else -((-x) ^ (1 / 3 : ℝ))

/-- `GLLGeometricCorrection(samples)` (lib/marc/GLLGeometricCorrection.cpp:35-38):
whether the image is in summation mode. -/
def summationMode (samples : ℕ) : Bool := decide (samples ≤ 400)

/-- Image coordinate to full frame coordinate relative to the optical axis (line
and sample 400) (lib/marc/GLLGeometricCorrection.cpp:48-55, 93-100). -/
def toAxis (summation : Bool) (c : ℝ) : ℝ := if summation then c * 2 - 400 else c - 400

/-- Back to an image coordinate. -/
noncomputable def fromAxis (summation : Bool) (x : ℝ) : ℝ :=
  if summation then (x + 400) / 2 else x + 400

/-- Object space radius of an image space radius (lib/marc/GLLGeometricCorrection.cpp:63-73). -/
noncomputable def objectRadius (isRad : ℝ) : ℝ :=
  let t1 := isRad / (2 * distortion)
  let t2 := Real.sqrt (t1 ^ 2 + (1 / (3 * distortion)) ^ 3)
  cbrt (t1 + t2) + cbrt (t1 - t2)

/-- `GLLGeometricCorrection::image_to_object`
(lib/marc/GLLGeometricCorrection.cpp:40-83); pairs are (line, sample). -/
noncomputable def imageToObject (summation : Bool) (p : ℝ × ℝ) : ℝ × ℝ :=
  let y := toAxis summation p.1
  let x := toAxis summation p.2
  let isRad := Real.sqrt (x ^ 2 + y ^ 2)
  if isRad ≠ 0 then
    let osRad := objectRadius isRad
    (fromAxis summation ((osRad * y) / isRad), fromAxis summation ((osRad * x) / isRad))
  else p

/-- `GLLGeometricCorrection::object_to_image`
(lib/marc/GLLGeometricCorrection.cpp:85-111). -/
noncomputable def objectToImage (summation : Bool) (p : ℝ × ℝ) : ℝ × ℝ :=
  let y := toAxis summation p.1
  let x := toAxis summation p.2
  let common := 1 + distortion * (x * x + y * y)
  (fromAxis summation (y * common), fromAxis summation (x * common))

end GLL

end MaRC
