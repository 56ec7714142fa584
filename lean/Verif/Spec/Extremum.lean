import Verif.Model.Num

/-! Specification: what it means to be the least / greatest of a collection of
numbers, independent of how they were collected. -/

namespace MaRC

/-- `m` is one of the values of `l` and no value of `l` is below it. -/
def IsMinOf (m : Dbl) (l : List Dbl) : Prop := m ∈ l ∧ ∀ d ∈ l, m.le d = true

/-- `m` is one of the values of `l` and no value of `l` is above it. -/
def IsMaxOf (m : Dbl) (l : List Dbl) : Prop := m ∈ l ∧ ∀ d ∈ l, d.le m = true

end MaRC
