import Verif.Spec.Map

/-!
# What the cells of a plane of a map show

A projection plots points of the body in cells of the map.  Each source image has data
at some points of the body.
-/

namespace MaRC

/-- The cell `o` of a plane of a map of type `T` has the content `cell`.  `plots` are the
points plotted, with their cells, in the order in which they are plotted; `datum pt x` says
that the source image has the datum `x` at the point `pt`; `lo` and `hi` are the limits of
the plane.  A cell is `empty` if no point plotted in it has a datum within the limits.
Otherwise it has the datum of the last such point, converted to the type of the map. -/
def CellShows {C : Type} (T : MapType) (plots : List (C × ℕ)) (datum : C → Dbl → Prop)
    (lo hi empty : Dbl) (o : ℕ) (cell : Option Dbl) : Prop :=
  (cell = some empty ∧ ∀ pt x, (pt, o) ∈ plots → datum pt x →
    ¬ (lo.le x = true ∧ x.le hi = true)) ∨
  ∃ before pt after x v, plots = before ++ (pt, o) :: after ∧
    datum pt x ∧ lo.le x = true ∧ x.le hi = true ∧ T.cast x = .ok v ∧ cell = some v ∧
    ∀ pt' x', (pt', o) ∈ after → datum pt' x' → ¬ (lo.le x' = true ∧ x'.le hi = true)

end MaRC
