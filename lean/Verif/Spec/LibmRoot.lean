import Verif.Spec.Libm
import Verif.Model.MuImage

/-! # Specification: correctly rounded roots -/

namespace MaRC

/-- `d` is the `double` nearest to `r`: it is not below the rounded value of any
rational number up to `r`, and not above that of any from `r`. -/
def Rounded (d : Dbl) (r : ℝ) : Prop :=
  ∀ q : ℚ,
    ((q : ℝ) ≤ r → (Fp.ieee.rnd q).le d = true) ∧ (r ≤ (q : ℝ) → d.le (Fp.ieee.rnd q) = true)

/-- A mathematical library as good as can be. -/
structure LibmRoot.Correct (L : LibmRoot) : Prop extends L.toLibm.Correct where
  /-- Square roots of numbers from 0. -/
  sqrt : ∀ x : ℚ, 0 ≤ x → Rounded (L.sqrt (.fin x)) (Real.sqrt x)
  hypot : ∀ x y : ℚ, Rounded (L.hypot (.fin x) (.fin y)) (Real.sqrt (x ^ 2 + y ^ 2))

/-- Bodies and distances of the observer for which the errors are bounded, in the unit
of length the input uses. -/
structure InRange (eqRad polRad range : ℚ) : Prop where
  pol : 1 / 2 ^ 20 ≤ polRad
  le : polRad ≤ eqRad
  ratio : eqRad ≤ 2 ^ 20 * polRad
  far : 2 * eqRad ≤ range
  near : range ≤ 2 ^ 60

end MaRC
