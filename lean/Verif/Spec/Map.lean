import Verif.Model.MapFactory

/-! Specification vocabulary for map creation. -/

namespace MaRC

/-- The source image has a datum for `c`, it lies within `[lo, hi]`, and `v` is
that datum in the map's data type. -/
def Stores {C : Type} (T : MapType) (lo hi : Dbl) (read : ReadData C) (c : C) (v : Dbl) : Prop :=
  ∃ d, read c (.fin 0) = .ok (true, d) ∧ lo.le d = true ∧ d.le hi = true ∧ T.cast d = .ok v

/-- `v` is a (non-NaN, and for `float` finite) value of the type `T`. -/
def IsValue (T : MapType) (v : Dbl) : Prop :=
  match T with
  | .f64 => v.isNaN = false
  | .f32 => ∃ q : ℚ, v = .fin q ∧ |q| ≤ Fp.fltMax ∧ Fp.rnd24 q = q
  | T => ∃ n : ℤ, v = .fin n ∧ T.intRange.1 ≤ n ∧ n ≤ T.intRange.2

/-- The user's optional limits are values of the map's type. -/
def IsRange (T : MapType) (e : Extrema) : Prop :=
  (∀ v, e.min = some v → IsValue T v) ∧ (∀ v, e.max = some v → IsValue T v)

/-- Lower limit for a map: the user's minimum, or the type's least value. -/
def lowLimit (T : MapType) (e : Extrema) : Dbl := e.min.getD (.fin T.lowest)

/-- Upper limit for a map: the user's maximum, or the type's greatest value. -/
def highLimit (T : MapType) (e : Extrema) : Dbl := e.max.getD (.fin T.highest)

/-- What an observer should see while one map of `size` cells with `m` visited
cells is made. -/
def mapEvents (size m : ℕ) : List Progress.Event :=
  (List.range m).map (fun i => .notify size (i + 1)) ++ [.notify size size, .reset]

/-- The plot counts in a sequence of calls. -/
def counts (es : List Progress.Event) : List ℕ :=
  es.filterMap fun | .notify _ c => some c | .reset => none

end MaRC
