import Mathlib.Data.List.Basic

/-!
# Specification: lines and columns of a text

Lines and columns are counted from 1, as editors do.
-/

namespace MaRC.LocSpec

/-- Line of what follows `before`. -/
def lineAfter (before : List Char) : ℕ := before.count '\n' + 1

/-- Column of what follows `before`. -/
def columnAfter (before : List Char) : ℕ := (before.reverse.takeWhile (· ≠ '\n')).length + 1

/-- No line of the text but the last ends with a colon. -/
def NoBareColon (text : List Char) : Prop := ¬ [':', '\n'] <:+: text

end MaRC.LocSpec
