import Verif.Model.CosineImage
import Mathlib.Analysis.SpecialFunctions.Trigonometric.Arctan

/-! # Specification: correctly rounded mathematical functions -/

namespace MaRC

/-- `f` returns the `double` nearest to `g x`: its result is not below the rounded
value of any rational number up to `g x`, and not above that of any from `g x`. -/
def CorrectlyRounded (f : Dbl → Dbl) (g : ℝ → ℝ) : Prop :=
  ∀ x q : ℚ,
    ((q : ℝ) ≤ g x → (Fp.ieee.rnd q).le (f (.fin x)) = true) ∧
    (g x ≤ (q : ℝ) → (f (.fin x)).le (Fp.ieee.rnd q) = true)

/-- A mathematical library as good as can be. -/
structure Libm.Correct (L : Libm) : Prop where
  sin : CorrectlyRounded L.sin Real.sin
  cos : CorrectlyRounded L.cos Real.cos
  tan : CorrectlyRounded L.tan Real.tan
  atan : CorrectlyRounded L.atan Real.arctan

end MaRC
