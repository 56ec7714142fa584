import Verif.Model.Num
import Mathlib.Tactic.Linarith

/-! Order facts about `Dbl` (IEEE comparisons away from NaN form a linear
order). -/

namespace MaRC.Dbl

theorem le_refl {a : Dbl} (h : a.isNaN = false) : a.le a = true := by
  cases a <;> simp_all [isNaN, le]

theorem le_trans {a b c : Dbl} (h1 : a.le b = true) (h2 : b.le c = true) :
    a.le c = true := by
  cases a <;> cases b <;> cases c <;> simp_all [le]
  linarith

theorem le_antisymm {a b : Dbl} (h1 : a.le b = true) (h2 : b.le a = true) : a = b := by
  cases a <;> cases b <;> simp_all [le]
  exact _root_.le_antisymm h1 h2

theorem not_lt {a b : Dbl} (ha : a.isNaN = false) (hb : b.isNaN = false) :
    a.lt b = false ↔ b.le a = true := by
  cases a <;> cases b <;> simp_all [isNaN, lt, le]

theorem le_of_lt {a b : Dbl} (h : a.lt b = true) : a.le b = true := by
  cases a <;> cases b <;> simp_all [lt, le]
  linarith

theorem lt_of_lt_of_le {a b c : Dbl} (h1 : a.lt b = true) (h2 : b.le c = true) :
    a.lt c = true := by
  cases a <;> cases b <;> cases c <;> simp_all [lt, le]
  linarith

theorem lt_of_le_of_lt {a b c : Dbl} (h1 : a.le b = true) (h2 : b.lt c = true) :
    a.lt c = true := by
  cases a <;> cases b <;> cases c <;> simp_all [lt, le]
  linarith

theorem notNaN_of_le_left {a b : Dbl} (h : a.le b = true) : a.isNaN = false := by
  cases a <;> simp_all [le, isNaN]

theorem notNaN_of_le_right {a b : Dbl} (h : a.le b = true) : b.isNaN = false := by
  cases a <;> cases b <;> simp_all [le, isNaN]

theorem le_total {a b : Dbl} (ha : a.isNaN = false) (hb : b.isNaN = false) :
    a.le b = true ∨ b.le a = true := by
  cases a <;> cases b <;> simp_all [isNaN, le]
  exact _root_.le_total _ _

@[simp] theorem le_fin {a b : ℚ} : (fin a).le (fin b) = true ↔ a ≤ b := by simp [le]
@[simp] theorem lt_fin {a b : ℚ} : (fin a).lt (fin b) = true ↔ a < b := by simp [lt]

/-- A number between two finite numbers is finite. -/
theorem fin_of_between {a b : ℚ} {d : Dbl} (h1 : (fin a).le d = true)
    (h2 : d.le (fin b) = true) : ∃ q, d = fin q ∧ a ≤ q ∧ q ≤ b := by
  cases d <;> simp_all [le]

end MaRC.Dbl
