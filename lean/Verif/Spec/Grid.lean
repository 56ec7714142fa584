import Verif.Model.Grid

/-!
# Specification: grids
-/

namespace MaRC.Projection

/-- `z` is the integer nearest to `x`; of two nearest ones, the one farther from
zero. -/
def RoundsTo (x : ℝ) (z : ℤ) : Prop :=
  |x - z| ≤ 1 / 2 ∧ (|x - z| = 1 / 2 → |x| ≤ |(z : ℝ)|)

/-- The grid has one cell for each pixel, and the cell of sample `i` in line `k`
is white (255) if `W k i` and black (0) otherwise. -/
def Grid.Shows (samples lines : ℕ) (W : ℕ → ℕ → Prop) (g : Grid) : Prop :=
  g.length = samples * lines ∧
  ∀ k < lines, ∀ i < samples,
    (W k i → g[k * samples + i]? = some 255) ∧ (¬ W k i → g[k * samples + i]? = some 0)

/-- A latitude, in degrees, that has a grid line: a multiple of the interval away
from the south pole, and neither pole. -/
def GridLatitude (interval n : ℝ) : Prop :=
  ∃ j : ℕ, 0 < j ∧ n = -90 + j * interval ∧ n < 90

/-- A longitude, in degrees, that has a grid line: a multiple of the interval below
360, and positive. -/
def GridLongitude (interval m : ℝ) : Prop := ∃ j : ℕ, m = 360 - j * interval ∧ 0 < m


/-- A latitude, in degrees, that has a line on an orthographic map. -/
def OrthoLatitude (interval n : ℝ) : Prop := ∃ j : ℕ, n = -90 + j * interval ∧ n ≤ 90

/-- A longitude, in degrees, that has a line on an orthographic map. -/
def OrthoLongitude (interval m : ℝ) : Prop := ∃ j : ℕ, 0 < j ∧ m = j * interval ∧ m ≤ 360

/-- The points, as latitude and longitude in radians, of which the lines of an
orthographic map are made: 2000 around each circle of latitude and 1000 along each
meridian. -/
def LatitudePoint (interval lat lon : ℝ) : Prop :=
  ∃ n, OrthoLatitude interval n ∧ ∃ t < 2000, lat = n * degree ∧
    lon = ((t : ℕ) : ℝ) / 2000 * degree * 360

/-- See `LatitudePoint`. -/
def LongitudePoint (interval lat lon : ℝ) : Prop :=
  ∃ m, OrthoLongitude interval m ∧ ∃ t < 1000, lat = (((t : ℕ) : ℝ) / 1000 * 180 - 90) * degree ∧
    lon = m * degree

end MaRC.Projection
