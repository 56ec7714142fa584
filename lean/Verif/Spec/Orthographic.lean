import Verif.Spec.Spheroid

/-!
# Specification: a body seen from very far away

The observer is so far away that all lines of sight are parallel.
-/

namespace MaRC.Geo

open Matrix

/-- Where the observer is and how the image is turned. -/
structure Viewer where
  /-- planetocentric latitude of the point below the observer -/
  subLat : ℝ
  /-- longitude of that point, in the body's direction of counting -/
  subLon : ℝ
  /-- angle from image up to the body's north, counter-clockwise -/
  pa : ℝ
  /-- a body whose longitudes are counted westwards -/
  prograde : Bool

noncomputable section

/-- The eastward longitude of a map longitude: longitudes of prograde bodies are
counted westwards. -/
def eastward (prograde : Bool) (lon : ℝ) : ℝ := if prograde then -lon else lon

/-- The point of the spheroid with the given planetocentric latitude and map
longitude. -/
def surfacePoint (s : Spheroid) (prograde : Bool) (lat lon : ℝ) : Point :=
  s.centricRadius lat • direction lat (eastward prograde lon)

namespace Viewer

variable (v : Viewer)

/-- Unit vector from the body towards the observer. -/
def toward : Point := direction v.subLat (eastward v.prograde v.subLon)

/-- Unit vector seen as north, at a right angle to the line of sight. -/
def north : Point :=
  ![-(Real.sin v.subLat * Real.cos (eastward v.prograde v.subLon)),
    -(Real.sin v.subLat * Real.sin (eastward v.prograde v.subLon)), Real.cos v.subLat]

/-- Unit vector seen as east, at a right angle to the line of sight. -/
def east : Point :=
  ![-Real.sin (eastward v.prograde v.subLon), Real.cos (eastward v.prograde v.subLon), 0]

/-- Where a point is seen: distance to the right of and above the body's centre.
North is turned counter-clockwise from image up by the position angle. -/
def image (p : Point) : ℝ × ℝ :=
  (p ⬝ᵥ v.east * Real.cos v.pa - p ⬝ᵥ v.north * Real.sin v.pa,
   p ⬝ᵥ v.east * Real.sin v.pa + p ⬝ᵥ v.north * Real.cos v.pa)

/-- The points of the spheroid seen at a position. -/
def SeenAt (s : Spheroid) (x z : ℝ) (p : Point) : Prop :=
  OnSpheroid s.eqRad s.polRad p ∧ v.image p = (x, z)

/-- `p` is the point of the spheroid an observer sees at a position: among all
points of the spheroid on the line of sight the one nearest to the observer. -/
def Sees (s : Spheroid) (x z : ℝ) (p : Point) : Prop :=
  v.SeenAt s x z p ∧ ∀ q, v.SeenAt s x z q → q ⬝ᵥ v.toward ≤ p ⬝ᵥ v.toward

end Viewer

end

end MaRC.Geo
