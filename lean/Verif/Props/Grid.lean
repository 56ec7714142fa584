import Verif.Lemmas.Grid
import Verif.Props.Conformal

/-!
# C43: grids
-/

namespace MaRC.Projection

open Real Set

/-! ## Simple cylindrical -/

/-- Position, in degrees, of a longitude relative to the map's edge. -/
noncomputable def fromEdge (edge m : ℝ) : ℝ := if m - edge > 360 then m - edge - 360 else m - edge

theorem gridColumn_eq {c : Cylindrical} (hw : c.loLon < c.hiLon) (samples : ℕ) (m : ℝ) :
    c.gridColumn samples m = some (cround (fromEdge (c.loLon / degree) m *
      (samples / ((c.hiLon - c.loLon) / degree)))) := by
  have hd := degree_pos
  have h : c.hiLon / degree - c.loLon / degree ≠ 0 := by
    rw [← sub_div]
    exact div_ne_zero (by linarith) hd.ne'
  simp only [Cylindrical.gridColumn, divide, if_neg h, Option.map_some, sub_div, fromEdge,
    Cylindrical.gridLow]
  split_ifs
  · rw [show m - (c.loLon / degree + 360) = m - c.loLon / degree - 360 by ring]
  · rfl

theorem gridRow_eq {c : Cylindrical} (hw : c.loLat < c.hiLat) (lines : ℕ) (n : ℝ) :
    c.gridRow lines n = some (cround ((n - c.loLat / degree) *
      (lines / ((c.hiLat - c.loLat) / degree)))) := by
  have hd := degree_pos
  have h : c.hiLat / degree - c.loLat / degree ≠ 0 := by
    rw [← sub_div]
    exact div_ne_zero (by linarith) hd.ne'
  simp only [Cylindrical.gridRow, divide, if_neg h, Option.map_some, sub_div]

/-- The sample whose edge a longitude is at: counted from the other end of the
line for prograde bodies. -/
def edgeSample (prograde : Bool) (samples i : ℕ) : ℤ := if prograde then (samples : ℤ) - i else i

theorem columnOf_cround {prograde : Bool} {samples i : ℕ} {x : ℝ} :
    columnOf prograde samples (cround x) i ↔ RoundsTo x (edgeSample prograde samples i) := by
  rw [← cround_eq_iff]
  cases prograde <;> simp [columnOf, edgeSample]

/-- Both directions of lines together, for grids made of rows and columns. -/
theorem rows_columns {samples lines : ℕ} (hs : samples < 2 ^ 64) (hsize : samples * lines < 2 ^ 64)
    {latI lonI : ℝ} (h1 : 0 < latI) (h2 : 0 < lonI) {prograde : Bool} {row col : ℝ → ℝ}
    (hcol : ∀ m, GridLongitude lonI m → -(1 / 2) < col m ∧ col m ≤ 2 ^ 63)
    {f : Grid → Outcome Grid}
    (hf : f = drawGrid latI lonI latValues lonValues
      (fun n => drawRow samples lines (some (cround (row n))))
      (fun m => drawColumn prograde samples lines (some (cround (col m))))) :
    ∃ g, makeGrid f samples lines = .ok g ∧ g.Shows samples lines fun k i =>
      (∃ n, GridLatitude latI n ∧ RoundsTo (row n) k) ∨
      (∃ m, GridLongitude lonI m ∧ RoundsTo (col m) (edgeSample prograde samples i)) := by
  subst hf
  refine makeGrid_shows hsize (writes_drawGrid h1 h2
    (T := fun m => {j | ∃ i < samples, columnOf prograde samples (cround (col m)) i ∧
      ∃ l < lines, j = l * samples + i})
    (fun n _ => writes_drawRow (some (cround (row n))))
    (fun m hm => ?_)) ?_
  · obtain ⟨c0, c1⟩ := hcol m ((mem_lonValues h2).1 hm)
    refine writes_drawColumn hs prograde (cround_nonneg_iff.2 c0) ?_
    have : cround (col m) ≤ 2 ^ 63 := cround_le (by exact_mod_cast c1)
    omega
  · intro k hk i hi
    simp only [mem_ofPred_eq, mem_latValues h1, mem_lonValues h2, Option.some.injEq]
    constructor
    · rintro (⟨n, hn, l, hl, e, i', hi', ej⟩ | ⟨m, hm, i', hi', hc, l, hl, ej⟩)
      · obtain ⟨rfl, rfl⟩ := cell_unique hi hi' ej
        exact .inl ⟨n, hn, cround_eq_iff.1 e⟩
      · obtain ⟨rfl, rfl⟩ := cell_unique hi hi' ej
        exact .inr ⟨m, hm, columnOf_cround.1 hc⟩
    · rintro (⟨n, hn, e⟩ | ⟨m, hm, e⟩)
      · exact .inl ⟨n, hn, k, hk, cround_eq_iff.2 e, i, hi, rfl⟩
      · exact .inr ⟨m, hm, i, hi, columnOf_cround.2 e, k, hk, rfl⟩

/-- **C43** (simple cylindrical).  For a map that is not absurdly narrow and has no
grid longitude half a sample or more before its western edge, the grid is made
without undefined behaviour.  A cell is white exactly if a grid latitude falls on
its line or a grid longitude on the edge of its sample: each grid latitude gives a
whole row, each grid longitude a whole column, and nothing else is drawn.  The full
statement has no condition on the edge; `C43_edge_violated` is about all other
maps. -/
theorem C43_cylindrical_partial (c : Cylindrical) {samples lines : ℕ} {latI lonI : ℝ}
    (hs : samples < 2 ^ 64) (hsize : samples * lines < 2 ^ 64)
    (hlat : c.loLat < c.hiLat) (hlon : c.loLon < c.hiLon)
    (hlow : -1000 ≤ c.loLon / degree)
    (hedge : ∀ m, GridLongitude lonI m →
      -(1 / 2) < (m - c.loLon / degree) * (samples / ((c.hiLon - c.loLon) / degree)))
    (hspan : 1000 * (samples / ((c.hiLon - c.loLon) / degree)) ≤ 2 ^ 63)
    (h1 : 0 < latI) (h2 : 0 < lonI) :
    ∃ g, makeGrid (c.plotGrid samples lines latI lonI) samples lines = .ok g ∧
      g.Shows samples lines fun k i =>
        (∃ n, GridLatitude latI n ∧ RoundsTo
          ((n - c.loLat / degree) * (lines / ((c.hiLat - c.loLat) / degree))) k) ∨
        (∃ m, GridLongitude lonI m ∧ RoundsTo
          (fromEdge (c.loLon / degree) m * (samples / ((c.hiLon - c.loLon) / degree)))
          (edgeSample c.prograde samples i)) := by
  have hd := degree_pos
  have hsr : 0 ≤ (samples : ℝ) / ((c.hiLon - c.loLon) / degree) :=
    div_nonneg (by positivity) (div_nonneg (by linarith) hd.le)
  refine rows_columns hs hsize h1 h2 (prograde := c.prograde) (fun m hm => ?_) ?_
  · obtain ⟨m0, m1⟩ := hm.le h2
    have hle : fromEdge (c.loLon / degree) m ≤ 1000 := by
      rw [fromEdge]
      split_ifs <;> linarith
    refine ⟨?_, (mul_le_mul_of_nonneg_right hle hsr).trans hspan⟩
    rw [fromEdge]
    split_ifs with h
    · have : 0 ≤ (m - c.loLon / degree - 360) * (samples / ((c.hiLon - c.loLon) / degree)) :=
        mul_nonneg (by linarith) hsr
      linarith
    · exact hedge m hm
  · rw [Cylindrical.plotGrid]
    simp only [gridRow_eq hlat, gridColumn_eq hlon]

/-- The edge of every map is above -1000 degrees. -/
theorem edge_low {body : Spheroid} {prograde : Bool} {loLat hiLat loLon hiLon : ℝ}
    {graphic : Bool} {c : Cylindrical}
    (h : Cylindrical.new body prograde loLat hiLat loLon hiLon graphic = .ok c) :
    -1000 ≤ c.loLon / degree := by
  obtain ⟨-, -, -, -, l1, l2, m1, m2, rfl⟩ := cylindrical_new h
  have hd := degree_pos
  have hpi' : 2 * π ≤ 361 * degree := by
    have := pi_lt_d6
    rw [degree, degreeQ]
    push_cast
    linarith
  have a1 : -360 * degree ≤ loLon * degree := mul_le_mul_of_nonneg_right l1 hd.le
  rw [le_div_iff₀ hd]
  simp only [normalizeLon]
  split_ifs <;> simp only <;> linarith

/-- A map whose edge is at a longitude of 0 or less has no grid longitudes before
it. -/
theorem edge_clear {c : Cylindrical} {samples : ℕ} {lonI : ℝ} (h2 : 0 < lonI)
    (hlon : c.loLon < c.hiLon) (h0 : c.loLon / degree ≤ 0) (m : ℝ) (hm : GridLongitude lonI m) :
    -(1 / 2) < (m - c.loLon / degree) * (samples / ((c.hiLon - c.loLon) / degree)) := by
  have hd := degree_pos
  have hsr : 0 ≤ (samples : ℝ) / ((c.hiLon - c.loLon) / degree) :=
    div_nonneg (by positivity) (div_nonneg (by linarith) hd.le)
  obtain ⟨m0, m1⟩ := hm.le h2
  have : 0 ≤ (m - c.loLon / degree) * (samples / ((c.hiLon - c.loLon) / degree)) :=
    mul_nonneg (by linarith) hsr
  linarith

/-- Maps from a longitude of 0 or less, and those whose lower bound is the greater
one, have an edge below 0. -/
theorem edge_bounds {body : Spheroid} {prograde : Bool} {loLat hiLat loLon hiLon : ℝ}
    {graphic : Bool} {c : Cylindrical}
    (h : Cylindrical.new body prograde loLat hiLat loLon hiLon graphic = .ok c)
    (hlon : loLon ≤ 0 ∨ hiLon < loLon) :
    -1000 ≤ c.loLon / degree ∧ c.loLon / degree ≤ 0 := by
  obtain ⟨-, -, -, -, l1, l2, m1, m2, rfl⟩ := cylindrical_new h
  have hd := degree_pos
  have hpi := circle_le
  have hpi' : 2 * π ≤ 361 * degree := by
    have := pi_lt_d6
    rw [degree, degreeQ]
    push_cast
    linarith
  have a1 : -360 * degree ≤ loLon * degree := mul_le_mul_of_nonneg_right l1 hd.le
  have a2 : loLon * degree ≤ 360 * degree := mul_le_mul_of_nonneg_right l2 hd.le
  rw [le_div_iff₀ hd, div_le_iff₀ hd, zero_mul]
  simp only [normalizeLon]
  rcases hlon with h0 | hgt
  · have : loLon * degree ≤ 0 := mul_nonpos_of_nonpos_of_nonneg h0 hd.le
    split_ifs <;> constructor <;> simp only <;> linarith
  · have : hiLon * degree < loLon * degree := mul_lt_mul_of_pos_right hgt hd
    rw [if_pos this]
    constructor <;> simp only <;> linarith

/-- A full map of a body of any shape, 720 by 360 pixels, satisfies the hypotheses. -/
example (body : Spheroid) (prograde : Bool) : ∃ c,
    Cylindrical.new body prograde (-90) 90 0 360 false = .ok c ∧
    c.loLat < c.hiLat ∧ c.loLon < c.hiLon ∧
    -1000 ≤ c.loLon / degree ∧
    (∀ m, GridLongitude 10 m →
      -(1 / 2) < (m - c.loLon / degree) * ((720 : ℕ) / ((c.hiLon - c.loLon) / degree))) ∧
    1000 * (((720 : ℕ) : ℝ) / ((c.hiLon - c.loLon) / degree)) ≤ 2 ^ 63 := by
  obtain ⟨c, hc⟩ := cylindrical_exists body prograde (loLat := -90) (hiLat := 90) (loLon := 0)
    (hiLon := 360) false (by norm_num) (by norm_num) (by norm_num) (by norm_num)
  have hd := degree_pos
  have hr := C14_range_partial hc (by norm_num)
  refine ⟨c, hc, ?_, hr.1, edge_low hc,
    edge_clear (by norm_num) hr.1 (edge_bounds hc (.inl le_rfl)).2, ?_⟩
  · obtain ⟨-, -, -, -, -, -, -, -, rfl⟩ := cylindrical_new hc
    simp only [Bool.false_eq_true, if_false]
    linarith
  · have h1 := hr.2.2.2 (by norm_num)
    have h2 : (360 : ℝ) ≤ (c.hiLon - c.loLon) / degree := by
      rw [le_div_iff₀ hd, h1.1]
      rcases h1.2 with e | e <;> rw [e] <;> linarith [pi_pos]
    have h3 : ((720 : ℕ) : ℝ) / ((c.hiLon - c.loLon) / degree) ≤ 2 := by
      rw [div_le_iff₀ (by linarith)]
      push_cast
      linarith
    calc 1000 * (((720 : ℕ) : ℝ) / ((c.hiLon - c.loLon) / degree)) ≤ 1000 * 2 := by linarith
      _ ≤ 2 ^ 63 := by norm_num

/-- So does a map from 5 to 355 degrees, whose edge is above 0. -/
example (body : Spheroid) (prograde : Bool) (samples : ℕ) : ∃ c,
    Cylindrical.new body prograde (-90) 90 5 355 false = .ok c ∧ c.loLon < c.hiLon ∧
    (∀ m, GridLongitude 10 m →
      -(1 / 2) < (m - c.loLon / degree) * (samples / ((c.hiLon - c.loLon) / degree))) := by
  obtain ⟨c, hc⟩ := cylindrical_exists body prograde (loLat := -90) (hiLat := 90) (loLon := 5)
    (hiLon := 355) false (by norm_num) (by norm_num) (by norm_num) (by norm_num)
  have hd := degree_pos
  have hr := C14_range_partial hc (by norm_num)
  have h1 := hr.2.2.2 (by norm_num)
  refine ⟨c, hc, hr.1, ?_⟩
  rintro m ⟨k, hk, hm⟩
  have e1 : c.loLon / degree = 5 := by rw [h1.1]; field_simp
  have hsr : 0 ≤ (samples : ℝ) / ((c.hiLon - c.loLon) / degree) :=
    div_nonneg (by positivity) (div_nonneg (by linarith [hr.1]) hd.le)
  have hk' : k ≤ 35 := by
    by_contra hn
    have : (36 : ℝ) ≤ k := by exact_mod_cast (by omega : 36 ≤ k)
    linarith
  have : (k : ℝ) ≤ 35 := by exact_mod_cast hk'
  have : 0 ≤ (m - c.loLon / degree) * (samples / ((c.hiLon - c.loLon) / degree)) :=
    mul_nonneg (by rw [e1]; linarith) hsr
  linarith

/-! ## Undefined behaviour -/

theorem setCell_ne_throw {o : ℕ} {g : Grid} {e : Exc} : setCell o g ≠ .throw e := by
  rw [setCell]
  split_ifs <;> simp

theorem bind_ne_throw {x : Outcome Grid} {f : Grid → Outcome Grid} (hx : ∀ e, x ≠ .throw e)
    (hf : ∀ g e, f g ≠ .throw e) (e : Exc) : (x >>= f) ≠ .throw e := by
  cases x with
  | ok g => exact hf g e
  | throw e' => exact absurd rfl (hx e')
  | ub => simp

theorem fillCells_ne_throw (n : ℕ) : ∀ {o : ℕ} {g : Grid} (e : Exc), fillCells n o g ≠ .throw e := by
  induction n with
  | zero => intro o g e; simp [fillCells]
  | succ n ih =>
    intro o g e
    rw [fillCells]
    exact bind_ne_throw (fun _ => setCell_ne_throw) (fun _ e => ih e) e

theorem fillColumn_ne_throw {samples i : ℕ} (n : ℕ) : ∀ {k : ℕ} {g : Grid} (e : Exc),
    fillColumn samples i n k g ≠ .throw e := by
  induction n with
  | zero => intro k g e; simp [fillColumn]
  | succ n ih =>
    intro k g e
    rw [fillColumn]
    exact bind_ne_throw (fun _ => setCell_ne_throw) (fun _ e => ih e) e

theorem drawAll_ne_throw {α : Type} {draw : α → Grid → Outcome Grid}
    (h : ∀ x g e, draw x g ≠ .throw e) : ∀ (l : List α) (g : Grid) (e : Exc),
    drawAll draw l g ≠ .throw e := by
  intro l
  induction l with
  | nil => intro g e; simp [drawAll]
  | cons x xs ih =>
    intro g e
    rw [drawAll]
    exact bind_ne_throw (h x g) ih e

theorem drawAll_ub {α : Type} {draw : α → Grid → Outcome Grid}
    (h : ∀ x g e, draw x g ≠ .throw e) {l : List α} {x : α} (hx : x ∈ l)
    (hub : ∀ g, draw x g = .ub) (g : Grid) : drawAll draw l g = .ub := by
  induction l generalizing g with
  | nil => simp at hx
  | cons y ys ih =>
    rw [drawAll]
    cases hy : draw y g with
    | throw e => exact absurd hy (h y g e)
    | ub => rfl
    | ok g' =>
      rcases List.mem_cons.1 hx with rfl | hx
      · rw [hub g] at hy; exact absurd hy (by simp)
      · exact ih hx g'

theorem drawRow_ne_throw {samples lines : ℕ} (k : Option ℤ) (g : Grid) (e : Exc) :
    drawRow samples lines k g ≠ .throw e := by
  cases k with
  | none => simp [drawRow]
  | some k =>
    rw [drawRow]
    split_ifs
    · exact fillCells_ne_throw _ e
    · simp

theorem drawColumn_ne_throw {prograde : Bool} {samples lines : ℕ} (i : Option ℤ) (g : Grid)
    (e : Exc) : drawColumn prograde samples lines i g ≠ .throw e := by
  cases i with
  | none => simp [drawColumn]
  | some i =>
    simp only [drawColumn, sizeOf]
    by_cases h : 0 ≤ i ∧ i < 2 ^ 64
    · rw [if_pos h, Outcome.bind_ok]
      generalize (if prograde = true then szSub samples i.toNat else i.toNat) = j
      by_cases hj : j < samples
      · rw [if_pos hj]; exact fillColumn_ne_throw _ e
      · rw [if_neg hj]; simp
    · rw [if_neg h]; simp

/-- **C43** is violated by maps that begin east of a grid longitude: if a grid
longitude is half a sample or more before the map's edge, a negative number is
converted to `std::size_t`, which is undefined behaviour. -/
theorem C43_edge_violated (c : Cylindrical) (samples lines : ℕ) {latI lonI m : ℝ}
    (h2 : 0 < lonI) (hlon : c.loLon < c.hiLon) (hm : GridLongitude lonI m)
    (hbefore : (m - c.loLon / degree) * (samples / ((c.hiLon - c.loLon) / degree)) ≤ -(1 / 2)) :
    makeGrid (c.plotGrid samples lines latI lonI) samples lines = .ub := by
  have hd := degree_pos
  have hsr : 0 ≤ (samples : ℝ) / ((c.hiLon - c.loLon) / degree) :=
    div_nonneg (by positivity) (div_nonneg (by linarith) hd.le)
  have hneg : m - c.loLon / degree < 0 := by
    by_contra hn
    have := mul_nonneg (not_lt.1 hn) hsr
    linarith
  have hcol : c.gridColumn samples m = some (cround ((m - c.loLon / degree) *
      (samples / ((c.hiLon - c.loLon) / degree)))) := by
    rw [gridColumn_eq hlon, fromEdge, if_neg (by linarith)]
  have hround : cround ((m - c.loLon / degree) * (samples / ((c.hiLon - c.loLon) / degree))) < 0 := by
    by_contra hn
    have := cround_nonneg_iff.1 (not_lt.1 hn)
    linarith
  have hub : ∀ g, drawColumn c.prograde samples lines (c.gridColumn samples m) g = .ub := by
    intro g
    rw [hcol, drawColumn, sizeOf, if_neg (by omega)]
    rfl
  rw [makeGrid, Cylindrical.plotGrid, drawGrid]
  by_cases h1 : latI ≤ 0
  · rw [if_pos h1]
  · rw [if_neg h1]
    cases hr : drawAll (fun n => drawRow samples lines (c.gridRow lines n)) (latValues latI)
        (List.replicate (szMul samples lines) 0) with
    | throw e => exact absurd hr (drawAll_ne_throw (fun x g e => drawRow_ne_throw _ g e) _ _ e)
    | ub => rfl
    | ok g =>
      rw [Outcome.bind_ok, if_neg (not_le.2 h2)]
      exact drawAll_ub
        (draw := fun m => drawColumn c.prograde samples lines (c.gridColumn samples m))
        (fun x g e => drawColumn_ne_throw _ g e) ((mem_lonValues h2).2 hm) hub g

/-- A map from 30 to 60 degrees with a grid of 10 degrees is such a map. -/
theorem C43_edge_instance (body : Spheroid) (prograde : Bool) : ∃ c,
    Cylindrical.new body prograde (-90) 90 30 60 false = .ok c ∧
    makeGrid (c.plotGrid 300 100 10 10) 300 100 = .ub := by
  obtain ⟨c, hc⟩ := cylindrical_exists body prograde (loLat := -90) (hiLat := 90) (loLon := 30)
    (hiLon := 60) false (by norm_num) (by norm_num) (by norm_num) (by norm_num)
  have hd := degree_pos
  have hr := C14_range_partial hc (by norm_num)
  have h1 := hr.2.2.2 (by norm_num)
  refine ⟨c, hc, C43_edge_violated c 300 100 (m := 10) (by norm_num) hr.1
    ⟨35, by norm_num, by norm_num⟩ ?_⟩
  have e1 : c.loLon / degree = 30 := by rw [h1.1]; field_simp
  have e2 : (c.hiLon - c.loLon) / degree ≤ 400 := by
    rw [div_le_iff₀ hd, h1.1]
    have hpi' : 2 * π ≤ 361 * degree := by
      have := pi_lt_d6
      rw [degree, degreeQ]
      push_cast
      linarith
    rcases h1.2 with e | e <;> rw [e] <;> linarith
  have e3 : 0 < (c.hiLon - c.loLon) / degree := div_pos (by linarith [hr.1]) hd
  have e4 : (3 : ℝ) / 4 ≤ ((300 : ℕ) : ℝ) / ((c.hiLon - c.loLon) / degree) := by
    rw [le_div_iff₀ e3]
    push_cast
    linarith
  rw [e1]
  linarith

/-- **C43** is violated by grids of more than `2^64` cells, for which the product
of samples and lines wraps: the first row is then written outside the grid. -/
theorem C43_wrap_violated (body : Spheroid) (prograde : Bool) : ∃ c,
    Cylindrical.new body prograde (-90) 90 0 360 false = .ok c ∧
    makeGrid (c.plotGrid (2 ^ 32) (2 ^ 32) 10 10) (2 ^ 32) (2 ^ 32) = .ub := by
  obtain ⟨c, hc⟩ := cylindrical_exists body prograde (loLat := -90) (hiLat := 90) (loLon := 0)
    (hiLon := 360) false (by norm_num) (by norm_num) (by norm_num) (by norm_num)
  have hd := degree_pos
  refine ⟨c, hc, ?_⟩
  obtain ⟨-, -, -, -, -, -, -, -, rfl⟩ := cylindrical_new hc
  set c := (⟨body, prograde, _, _, _, _, false⟩ : Cylindrical) with hcdef
  have e1 : c.loLat / degree = -90 := by
    simp only [hcdef, Bool.false_eq_true, if_false]
    field_simp
  have e2 : c.hiLat / degree = 90 := by
    simp only [hcdef, Bool.false_eq_true, if_false]
    field_simp
  have hrow : c.gridRow (2 ^ 32) 0 = some (2 ^ 31 : ℤ) := by
    rw [Cylindrical.gridRow, e1, e2, divide, if_neg (by norm_num), Option.map_some]
    congr 1
    rw [cround_eq_iff, RoundsTo]
    push_cast
    norm_num
  have hub : ∀ g : Grid, g.length = 0 →
      drawRow (2 ^ 32) (2 ^ 32) (c.gridRow (2 ^ 32) 0) g = .ub := by
    intro g hg
    rw [hrow, drawRow, if_pos (by norm_num), show (2 : ℕ) ^ 32 = (2 ^ 32 - 1) + 1 by norm_num,
      fillCells, setCell, if_neg (by omega)]
    rfl
  -- on an empty grid every row drawn is undefined, so the loop never yields a grid
  have hlen : ∀ (l : List ℝ), (0 : ℝ) ∈ l → drawAll
      (fun n => drawRow (2 ^ 32) (2 ^ 32) (c.gridRow (2 ^ 32) n)) l [] = .ub := by
    intro l
    induction l with
    | nil => intro h; simp at h
    | cons y ys ih =>
      intro h
      rw [drawAll]
      have hcases : drawRow (2 ^ 32) (2 ^ 32) (c.gridRow (2 ^ 32) y) [] = .ub ∨
          drawRow (2 ^ 32) (2 ^ 32) (c.gridRow (2 ^ 32) y) [] = .ok [] := by
        cases c.gridRow (2 ^ 32) y with
        | none => right; rfl
        | some k =>
          rw [drawRow]
          split_ifs
          · left
            rw [show (2 : ℕ) ^ 32 = (2 ^ 32 - 1) + 1 by norm_num, fillCells, setCell,
              if_neg (by simp)]
            rfl
          · right; rfl
      rcases hcases with e | e
      · rw [e]; rfl
      · rw [e, Outcome.bind_ok]
        rcases List.mem_cons.1 h with rfl | h
        · rw [hub [] rfl] at e; exact absurd e (by simp)
        · exact ih h
  have hm : (0 : ℝ) ∈ latValues 10 := (mem_latValues (by norm_num)).2
    ⟨9, by norm_num, by norm_num, by norm_num⟩
  have hz : szMul (2 ^ 32) (2 ^ 32) = 0 := by decide
  rw [makeGrid, hz, List.replicate_zero, Cylindrical.plotGrid, drawGrid, if_neg (by norm_num),
    hlen _ hm]
  rfl

/-- **C43** is violated by tiny intervals: in `double` arithmetic the counter of the
latitude loop never leaves the south pole for an interval of `2^-60` degrees, so
the loop does not end. -/
theorem C43_endless_violated (k : ℕ) :
    latCounter .ieee (.fin (1 / 2 ^ 60)) k = .fin (-90) := by
  have h : Fp.ieee.add (.fin (-90)) (.fin (1 / 2 ^ 60)) = .fin (-90) := by decide +kernel
  induction k with
  | zero => exact h
  | succ k ih => rw [latCounter, ih, h]

/-! ## Mercator -/

/-- **C43** (Mercator).  The grid is made without undefined behaviour for every
body.  A cell is white exactly if the ordinate of a grid latitude falls on its line
or a grid longitude on the edge of its sample. -/
theorem C43_mercator (body : Spheroid) (prograde : Bool) {samples lines : ℕ} {latI lonI : ℝ}
    (hl : 0 < lines) (hs : samples < 2 ^ 63) (hsize : samples * lines < 2 ^ 64)
    (h1 : 0 < latI) (h2 : 0 < lonI) :
    ∃ g, makeGrid (Mercator.plotGrid body prograde samples lines latI lonI) samples lines = .ok g ∧
      g.Shows samples lines fun k i =>
        (∃ n, GridLatitude latI n ∧ RoundsTo
          (mercatorX body (body.graphicLatitude (n * degree)) / (2 * π / samples) + lines / 2) k) ∨
        (∃ m, GridLongitude lonI m ∧ RoundsTo (m * samples / 360)
          (edgeSample prograde samples i)) := by
  have hl' : (lines : ℝ) ≠ 0 := by exact_mod_cast hl.ne'
  refine rows_columns (by omega) hsize h1 h2 (fun m hm => ?_) ?_
  · obtain ⟨m0, m1⟩ := hm.le h2
    have hs' : (samples : ℝ) ≤ 2 ^ 63 := by exact_mod_cast hs.le
    have h0 : (0 : ℝ) ≤ samples := by positivity
    have hm0 : 0 ≤ m * samples / 360 := by positivity
    refine ⟨by linarith, ?_⟩
    rw [div_le_iff₀ (by norm_num)]
    calc m * samples ≤ 360 * samples := mul_le_mul_of_nonneg_right m1 h0
      _ ≤ 2 ^ 63 * 360 := by linarith
  · rw [Mercator.plotGrid]
    have e : Mercator.xmax samples lines / lines * 2 = 2 * π / samples := by
      rw [Mercator.xmax]
      field_simp
    simp only [Mercator.gridRow, Mercator.gridColumn, e]

example : (0 : ℕ) < 360 ∧ 720 < 2 ^ 63 ∧ 720 * 360 < 2 ^ 64 ∧ (0 : ℝ) < 10 ∧
    GridLatitude 10 30 ∧ GridLongitude 10 350 :=
  ⟨by norm_num, by norm_num, by norm_num, by norm_num, ⟨12, by norm_num, by norm_num, by norm_num⟩,
    ⟨1, by norm_num, by norm_num⟩⟩

/-! ## Polar stereographic -/

/-- Draw a single cell if it is one of the grid. -/
theorem writes_point {samples lines : ℕ} (i k : ℤ) :
    Writes (samples * lines)
      (fun g => if 0 ≤ i ∧ i < samples ∧ 0 ≤ k ∧ k < lines
        then setCell (k.toNat * samples + i.toNat) g else .ok g)
      {j | ∃ l < lines, ∃ p < samples, k = l ∧ i = p ∧ j = l * samples + p} := by
  by_cases h : 0 ≤ i ∧ i < samples ∧ 0 ≤ k ∧ k < lines
  · have hk : k.toNat < lines := by omega
    have hlt : k.toNat * samples + i.toNat < samples * lines := by
      have : (k.toNat + 1) * samples ≤ lines * samples := Nat.mul_le_mul_right _ hk
      have e : (k.toNat + 1) * samples = k.toNat * samples + samples := by ring
      have e' : lines * samples = samples * lines := by ring
      omega
    simp only [if_pos h]
    refine (writes_setCell hlt).congr fun j _ => ⟨fun e => ?_, ?_⟩
    · exact ⟨k.toNat, hk, i.toNat, by omega, by omega, by omega, e⟩
    · rintro ⟨l, hl, p, hp, rfl, rfl, rfl⟩
      simp
  · simp only [if_neg h]
    exact writes_ok.congr fun j _ => ⟨fun h => h.elim, fun ⟨l, hl, p, hp, e1, e2, _⟩ => h (by omega)⟩

/-- The pixel nearest to a position: `x` and `z` are counted in pixels from the
lower left corner of the map. -/
def PixelAt (x z : ℝ) (k i : ℕ) : Prop := RoundsTo x i ∧ RoundsTo z k

/-- **C43** (polar stereographic).  The grid is made without undefined behaviour.  A
cell is white exactly if it is nearest to one of 2000 points of the circle of a
grid latitude, or of the meridian of a grid longitude. -/
theorem C43_stereographic (p : Stereographic) {samples lines : ℕ} {latI lonI : ℝ}
    (hsize : samples * lines < 2 ^ 64) (h1 : 0 < latI) (h2 : 0 < lonI) :
    ∃ g, makeGrid (p.plotGrid samples lines latI lonI) samples lines = .ok g ∧
      g.Shows samples lines fun k i =>
        (∃ n, GridLatitude latI n ∧ ∃ t < 2000,
          PixelAt (p.stereoRho (p.body.graphicLatitude (n * degree)) * sin (Stereographic.turn t) /
              p.gridScale samples lines + samples / 2)
            (p.stereoRho (p.body.graphicLatitude (n * degree)) * cos (Stereographic.turn t) /
              p.gridScale samples lines + lines / 2) k i) ∨
        (∃ m, GridLongitude lonI m ∧ ∃ t < 2000,
          PixelAt (p.stereoRho (Stereographic.turn t) * sin (m * degree) /
              p.gridScale samples lines + samples / 2)
            (p.stereoRho (Stereographic.turn t) * cos (m * degree) /
              p.gridScale samples lines + lines / 2) k i) := by
  have hpt : ∀ rho a : ℝ, Writes (samples * lines) (p.drawPoint samples lines rho a)
      {j | ∃ l < lines, ∃ q < samples,
        cround (rho * cos a / p.gridScale samples lines + lines / 2) = l ∧
        cround (rho * sin a / p.gridScale samples lines + samples / 2) = q ∧
        j = l * samples + q} := fun rho a => writes_point _ _
  refine makeGrid_shows hsize (writes_drawGrid h1 h2
    (fun n _ => writes_drawAll fun t _ => hpt _ _)
    (fun m _ => writes_drawAll fun t _ => hpt _ _)) fun k hk i hi => ?_
  simp only [mem_ofPred_eq, mem_latValues h1, mem_lonValues h2, List.mem_range, PixelAt,
    cround_eq_iff]
  constructor
  · rintro (⟨n, hn, t, ht, l, hl, q, hq, e1, e2, ej⟩ | ⟨n, hn, t, ht, l, hl, q, hq, e1, e2, ej⟩)
    · obtain ⟨rfl, rfl⟩ := cell_unique hi hq ej
      exact .inl ⟨n, hn, t, ht, e2, e1⟩
    · obtain ⟨rfl, rfl⟩ := cell_unique hi hq ej
      exact .inr ⟨n, hn, t, ht, e2, e1⟩
  · rintro (⟨n, hn, t, ht, e2, e1⟩ | ⟨n, hn, t, ht, e2, e1⟩)
    · exact .inl ⟨n, hn, t, ht, k, hk, i, hi, e1, e2, rfl⟩
    · exact .inr ⟨n, hn, t, ht, k, hk, i, hi, e1, e2, rfl⟩

end MaRC.Projection
