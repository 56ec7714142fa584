import Verif.Model.Projection

/-!
# Specification: what a map projection plots
-/

namespace MaRC.Projection

/-- The plots visit every offset of the map once, in increasing order: line by
line, and from the first to the last sample of a line. -/
def VisitsAll (samples lines : ℕ) (plots : List Plot) : Prop :=
  plots.map Prod.snd = List.range (samples * lines)

/-- The plots visit offsets of the map at most once each, in increasing order. -/
def VisitsInOrder (samples lines : ℕ) (plots : List Plot) : Prop :=
  (plots.map Prod.snd).Pairwise (· < ·) ∧ ∀ p ∈ plots, p.2 < samples * lines

/-- A root finder that, whenever it returns a number, returns a solution of the
equation it was given. -/
def Solver.Exact (solve : Solver) : Prop :=
  ∀ (y xl xh : ℝ) (f : ℝ → ℝ) (r : ℝ), solve y xl xh f = .ok r → xl ≤ r ∧ r ≤ xh ∧ f r = y

/-- A root finder that, whenever it returns a number, returns one between the
bounds whose function value is within `tol` of the wanted one. -/
def Solver.Within (tol : ℝ) (solve : Solver) : Prop :=
  ∀ (y xl xh : ℝ) (f : ℝ → ℝ) (r : ℝ), solve y xl xh f = .ok r →
    xl ≤ r ∧ r ≤ xh ∧ |f r - y| ≤ tol

end MaRC.Projection
