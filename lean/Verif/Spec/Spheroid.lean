import Verif.Model.OblateSpheroid
import Mathlib.Data.Matrix.Mul

/-!
# Specification: spheroids, directions, lines in space
-/

namespace MaRC.Geo

open Matrix

/-- A point or vector of space. -/
abbrev Point := Fin 3 → ℝ

noncomputable section

/-- Length of a vector. -/
def length (p : Point) : ℝ := Real.sqrt (p ⬝ᵥ p)

/-- The direction of a latitude and longitude. -/
def direction (lat lon : ℝ) : Point :=
  ![Real.cos lat * Real.cos lon, Real.cos lat * Real.sin lon, Real.sin lat]

/-- The left-hand side of the equation of the spheroid with equatorial radius
`a` and polar radius `c`: less than 1 inside, 1 on it, more than 1 outside. -/
def level (a c : ℝ) (p : Point) : ℝ := (p 0 / a) ^ 2 + (p 1 / a) ^ 2 + (p 2 / c) ^ 2

/-- The point is on the spheroid. -/
def OnSpheroid (a c : ℝ) (p : Point) : Prop := level a c p = 1

/-- An outward normal of the spheroid at a point of it: half the gradient of
`level`. -/
def normal (a c : ℝ) (p : Point) : Point := ![p 0 / a ^ 2, p 1 / a ^ 2, p 2 / c ^ 2]

/-- The cosine of the angle between two vectors. -/
def cosAngle (u v : Point) : ℝ := u ⬝ᵥ v / (length u * length v)

end

end MaRC.Geo

namespace MaRC.Spheroid

/-- Radii the constructor accepts. -/
structure Valid (s : Spheroid) : Prop where
  pol_pos : 0 < s.polRad
  le : s.polRad ≤ s.eqRad

end MaRC.Spheroid
