import Verif.Model.LinearAlgebra
import Mathlib.Algebra.BigOperators.Fin
import Mathlib.Data.Matrix.Mul
import Mathlib.Tactic.Ring
import Mathlib.Tactic.Linarith

namespace MaRC

variable {R : Type} [CommRing R]

theorem foldl_add_eq {α : Type} (l : List α) (f : α → R) (a : R) :
    l.foldl (fun acc i => acc + f i) a = a + (l.map f).sum := by
  induction l generalizing a with
  | nil => simp
  | cons x l ih => simp only [List.foldl_cons, List.map_cons, List.sum_cons, ih]; ring

theorem sumLoop_eq (n : ℕ) (f : Fin n → R) : sumLoop n f = ∑ i, f i := by
  unfold sumLoop
  rw [foldl_add_eq, zero_add, Fin.sum_univ_def]

theorem sumLoop_three (f : Fin 3 → R) : sumLoop 3 f = f 0 + f 1 + f 2 := by
  rw [sumLoop_eq, Fin.sum_univ_three]

theorem dot_three (a b : Vec R 3) : dot a b = a 0 * b 0 + a 1 * b 1 + a 2 * b 2 := sumLoop_three _

end MaRC
