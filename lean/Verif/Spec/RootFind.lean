import Verif.Model.Num

/-! # Equality up to rounding errors, and Newton's method -/

namespace MaRC.RootFind

/-- The spacing of doubles above 1. -/
def ulpOne : ℚ := 1 / 2 ^ 52

/-- The smallest normal double. -/
def minNormal : ℚ := 1 / 2 ^ 1022

/-- `a` and `b` differ by less than two units in the last place of their sum or by less
than all normal numbers, or both are less than two such units of 1; in the arithmetic `F`. -/
def Almost (F : Fp) (a b : Dbl) : Prop :=
  (F.sub a b).abs.lt (F.mul (F.mul (.fin ulpOne) (F.add a b).abs) (.fin 2)) = true ∨
  (F.sub a b).abs.lt (.fin minNormal) = true ∨
  a.abs.lt (F.mul (.fin ulpOne) (.fin 2)) = true ∧ b.abs.lt (F.mul (.fin ulpOne) (.fin 2)) = true

/-- Starting from `x`, one of the first 20 steps of `next` is the first that almost stays in
place, and it ends at the number `r`. -/
def Converges (F : Fp) (next : Dbl → Dbl) (x r : Dbl) : Prop :=
  ∃ k < 20, Almost F (next^[k + 1] x) (next^[k] x) ∧
    (∀ j < k, ¬ Almost F (next^[j + 1] x) (next^[j] x)) ∧ r = next^[k + 1] x ∧ r ≠ .nan

end MaRC.RootFind
