import Mathlib.Data.Rat.Defs
import Mathlib.Analysis.SpecialFunctions.Trigonometric.Arctan

/-!
# Where the cells of a cylindrical map are

Stated in degrees, from the bounds in the input file.
-/

namespace MaRC.CylinderSpec

/-- Center of the `k`-th of `n` equal parts of the range from `lo` to `hi` degrees, in
radians. -/
noncomputable def center (lo hi : ℚ) (n k : ℕ) : ℝ :=
  ((lo + (k + 1 / 2) * (hi - lo) / n : ℚ) : ℝ) * (Real.pi / 180)

/-- The range of longitudes of a map with the bounds `lo` and `hi`, in degrees: a whole
turn if they are equal, and over the prime meridian if `lo` is above `hi`. -/
def lonRange (lo hi : ℚ) : ℚ × ℚ :=
  if lo = hi then (lo, hi + 360) else if lo < hi then (lo, hi) else (lo - 360, hi)

/-- The bounds are equal or distinguishable, and not more than a turn apart the wrong
way. -/
def Distinguishable (lo hi : ℚ) : Prop :=
  lo = hi ∨ lo + 1 / 10 ^ 6 ≤ hi ∨ hi + 1 / 10 ^ 6 ≤ lo ∧ lo + 1 / 10 ^ 6 ≤ hi + 360

/-- The part of the range of longitudes in which sample `i` lies: samples are counted
from the left, and longitudes of prograde bodies increase to the left. -/
def part (prograde : Bool) (samples i : ℕ) : ℕ := if prograde then samples - 1 - i else i

/-- Planetographic latitude, in radians, of points at the planetocentric latitude of `q`
degrees. -/
noncomputable def graphicOf (eqRad polRad q : ℚ) : ℝ :=
  if |q| = 90 then q * (Real.pi / 180)
  else Real.arctan ((eqRad / polRad) ^ 2 * Real.tan (q * (Real.pi / 180)))

/-- Planetocentric latitude of points at the planetographic latitude `latg`, in radians. -/
noncomputable def centricOf (eqRad polRad : ℚ) (latg : ℝ) : ℝ :=
  Real.arctan ((polRad / eqRad) ^ 2 * Real.tan latg)

/-- Planetocentric latitude of the center of the `k`-th of `n` parts with equal ranges of
planetographic latitude, for bounds of `lo` and `hi` degrees of planetocentric latitude. -/
noncomputable def graphicCenter (eqRad polRad lo hi : ℚ) (n k : ℕ) : ℝ :=
  centricOf eqRad polRad (graphicOf eqRad polRad lo +
    (k + 1 / 2) * (graphicOf eqRad polRad hi - graphicOf eqRad polRad lo) / n)

/-- The latitude, in radians, that an image shows of points at the planetocentric latitude
`lat`: the planetographic one if `graphic`. -/
noncomputable def shown (eqRad polRad : ℚ) (graphic : Bool) (lat : ℝ) : ℝ :=
  if graphic then Real.arctan ((eqRad / polRad) ^ 2 * Real.tan lat) else lat

end MaRC.CylinderSpec
