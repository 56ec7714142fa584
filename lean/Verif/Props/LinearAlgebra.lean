import Verif.Lemmas.LinearAlgebra
import Mathlib.LinearAlgebra.Matrix.Determinant.Basic
import Mathlib.Tactic.LinearCombination
import Mathlib.Tactic.FinCases
import Mathlib.Tactic.NormNum

/-!
# C29, C30, C31: matrices, vectors, rotations, Galileo lens correction
-/

namespace MaRC

/-! ## C30 -/

section C30
variable {R : Type} [CommRing R] {m n r s : ℕ}

/-- C30: the operators are those of linear algebra (Mathlib's matrices), for all
dimensions and elements. -/
theorem C30_linear_algebra (a a' : Mat R m n) (b : Mat R n r) (x : Vec R n) (c : R)
    (u v : Vec R n) :
    matMul a b = Matrix.of a * Matrix.of b ∧
    matVec a x = (Matrix.of a).mulVec x ∧
    transpose a = (Matrix.of a).transpose ∧
    matAdd a a' = Matrix.of a + Matrix.of a' ∧
    matSub a a' = Matrix.of a - Matrix.of a' ∧
    matScale a c = c • Matrix.of a ∧ scaleMat c a = c • Matrix.of a ∧
    dot u v = u ⬝ᵥ v ∧ vecAdd u v = u + v ∧ vecSub u v = u - v ∧ vecScale u c = c • u := by
  refine ⟨?_, ?_, rfl, rfl, rfl, ?_, ?_, ?_, rfl, rfl, ?_⟩
  · funext i k; simp [matMul, sumLoop_eq, Matrix.mul_apply]
  · funext i; simp [matVec, sumLoop_eq, Matrix.mulVec, dotProduct]
  · funext i j; simp [matScale, mul_comm]
  · funext i j; simp [scaleMat, matScale, mul_comm]
  · simp [dot, sumLoop_eq, dotProduct]
  · funext i; simp [vecScale, mul_comm]

/-- C30: the product is associative, also with a vector. -/
theorem C30_assoc (a : Mat R m n) (b : Mat R n r) (c : Mat R r s) (x : Vec R r) :
    matMul (matMul a b) c = matMul a (matMul b c) ∧
    matVec (matMul a b) x = matVec a (matVec b x) := by
  have z1 : Mat R m n := a
  constructor
  · funext i j
    simp only [matMul, sumLoop_eq, Finset.sum_mul, Finset.mul_sum]
    rw [Finset.sum_comm]
    simp only [mul_assoc]
  · funext i
    simp only [matMul, matVec, sumLoop_eq, Finset.sum_mul, Finset.mul_sum]
    rw [Finset.sum_comm]
    simp only [mul_assoc]

/-- C30: transposition is an involution and reverses products. -/
theorem C30_transpose (a : Mat R m n) (b : Mat R n r) :
    transpose (transpose a) = a ∧
    transpose (matMul a b) = matMul (transpose b) (transpose a) := by
  refine ⟨rfl, ?_⟩
  funext i j
  simp only [transpose, matMul, sumLoop_eq]
  exact Finset.sum_congr rfl fun k _ => mul_comm _ _

/-- C30: products distribute over sums and differences; scalars commute with
products. -/
theorem C30_distrib (a a' : Mat R m n) (b : Mat R n r) (x y : Vec R n) (c : R) :
    matMul (matAdd a a') b = matAdd (matMul a b) (matMul a' b) ∧
    matMul (matSub a a') b = matSub (matMul a b) (matMul a' b) ∧
    matVec a (vecAdd x y) = vecAdd (matVec a x) (matVec a y) ∧
    matVec a (vecSub x y) = vecSub (matVec a x) (matVec a y) ∧
    matVec (matAdd a a') x = vecAdd (matVec a x) (matVec a' x) ∧
    matMul (scaleMat c a) b = scaleMat c (matMul a b) ∧
    matMul a (matScale b c) = scaleMat c (matMul a b) ∧
    matVec (matScale a c) x = vecScale (matVec a x) c := by
  refine ⟨?_, ?_, ?_, ?_, ?_, ?_, ?_, ?_⟩ <;> funext i <;> try funext j
  · simp only [matMul, matAdd, sumLoop_eq, add_mul, Finset.sum_add_distrib]
  · simp only [matMul, matSub, sumLoop_eq, sub_mul, Finset.sum_sub_distrib]
  · simp only [matVec, vecAdd, sumLoop_eq, mul_add, Finset.sum_add_distrib]
  · simp only [matVec, vecSub, sumLoop_eq, mul_sub, Finset.sum_sub_distrib]
  · simp only [matVec, vecAdd, matAdd, sumLoop_eq, add_mul, Finset.sum_add_distrib]
  · simp only [matMul, scaleMat, matScale, sumLoop_eq, Finset.sum_mul]
    exact Finset.sum_congr rfl fun k _ => by ring
  · simp only [matMul, scaleMat, matScale, sumLoop_eq, Finset.sum_mul]
    exact Finset.sum_congr rfl fun k _ => by ring
  · simp only [matVec, vecScale, matScale, sumLoop_eq, Finset.sum_mul]
    exact Finset.sum_congr rfl fun k _ => by ring

/-- C30: the dot product is symmetric, bilinear, and moves a matrix across by
transposition. -/
theorem C30_dot (u v w : Vec R n) (c : R) (a : Mat R n m) (x : Vec R m) :
    dot u v = dot v u ∧ dot (vecAdd u v) w = dot u w + dot v w ∧
    dot (vecScale u c) v = c * dot u v ∧ dot u (matVec a x) = dot (matVec (transpose a) u) x := by
  refine ⟨?_, ?_, ?_, ?_⟩
  · simp only [dot, sumLoop_eq, mul_comm]
  · simp only [dot, vecAdd, sumLoop_eq, add_mul, Finset.sum_add_distrib]
  · simp only [dot, vecScale, sumLoop_eq, Finset.mul_sum]
    exact Finset.sum_congr rfl fun k _ => by ring
  · simp only [dot, matVec, transpose, sumLoop_eq, Finset.sum_mul, Finset.mul_sum]
    rw [Finset.sum_comm]
    exact Finset.sum_congr rfl fun k _ => Finset.sum_congr rfl fun l _ => by ring

example : matMul (R := ℤ) ![![1, 2], ![3, 4], ![5, 6]] ![![1, 0], ![1, 1]] =
    ![![3, 2], ![7, 4], ![11, 6]] := by decide

theorem copyRows_ok {A : Type} {n : ℕ} {rows : List (List A)} {done flat : List A} :
    copyRows n rows done = .ok flat ↔
      (∀ row ∈ rows, row.length = n) ∧ flat = done ++ rows.flatten := by
  induction rows generalizing done with
  | nil => simp [copyRows, eq_comm]
  | cons row rows ih =>
    unfold copyRows
    split_ifs with h
    · simp [h]
    · rw [ih]
      simp only [not_not] at h
      simp [h]

theorem copyRows_throw {A : Type} {n : ℕ} {rows : List (List A)} {done : List A} :
    copyRows n rows done = .throw .outOfRange ↔ ∃ row ∈ rows, row.length ≠ n := by
  induction rows generalizing done with
  | nil => simp [copyRows]
  | cons row rows ih =>
    unfold copyRows
    split_ifs with h
    · simp [h]
    · rw [ih]
      simp only [not_not] at h
      simp [h]

theorem flatten_get {A : Type} {n : ℕ} {rows : List (List A)}
    (h : ∀ row ∈ rows, row.length = n) {i j : ℕ} (hj : j < n) :
    rows.flatten[i * n + j]? = (rows[i]?).bind fun row => row[j]? := by
  induction rows generalizing i with
  | nil => simp
  | cons row rows ih =>
    have hr := h row List.mem_cons_self
    cases i with
    | zero =>
      simp only [zero_mul, zero_add, List.flatten_cons]
      rw [List.getElem?_append_left (by omega)]
      simp
    | succ i =>
      simp only [List.flatten_cons]
      rw [List.getElem?_append_right (by rw [hr, Nat.succ_mul]; omega), hr,
        show (i + 1) * n + j - n = i * n + j by rw [Nat.succ_mul]; omega,
        ih fun row hrow => h row (.tail _ hrow)]
      simp

/-- C30: a matrix is made from nested lists exactly when there are `m` of them,
each with `n` elements; otherwise `out_of_range` is thrown (never undefined
behaviour); and checked access returns element `j` of list `i`, or throws exactly
when an index is out of range. -/
theorem C30_initializer {A : Type} (m n : ℕ) (hm : 0 < m) (rows : List (List A)) :
    ((∃ flat, matOfLists m n rows = .ok flat) ↔
      rows.length = m ∧ ∀ row ∈ rows, row.length = n) ∧
    (matOfLists m n rows = .throw .outOfRange ↔
      ¬ (rows.length = m ∧ ∀ row ∈ rows, row.length = n)) ∧
    ∀ flat, matOfLists m n rows = .ok flat → flat.length = m * n ∧ ∀ i j,
      (∀ x, (rows[i]?.bind fun row => row[j]?) = some x → matAt m n flat i j = .ok x) ∧
      (¬ (i < m ∧ j < n) → matAt m n flat i j = .throw .outOfRange) := by
  have main : ∀ flat, matOfLists m n rows = .ok flat ↔
      (rows.length = m ∧ ∀ row ∈ rows, row.length = n) ∧ flat = rows.flatten := by
    intro flat
    unfold matOfLists
    split_ifs with h1
    · simp [h1]
    · simp only [not_not] at h1
      cases rows with
      | nil => simp at h1; omega
      | cons r rows =>
        simp only
        split_ifs with h2
        · simp [h2]
        · rw [copyRows_ok]; simp [h1]
  refine ⟨⟨fun ⟨flat, h⟩ => ((main flat).mp h).1, fun h => ⟨_, (main _).mpr ⟨h, rfl⟩⟩⟩, ?_, ?_⟩
  · unfold matOfLists
    split_ifs with h1
    · simp [h1]
    · simp only [not_not] at h1
      cases rows with
      | nil => simp at h1; omega
      | cons r rows =>
        simp only
        split_ifs with h2
        · simp [h2]
        · rw [copyRows_throw]
          simp only [h1, true_and, not_forall]
          exact ⟨fun ⟨row, hr, hn⟩ => ⟨row, hr, hn⟩, fun ⟨row, hr, hn⟩ => ⟨row, hr, hn⟩⟩
  · intro flat hflat
    obtain ⟨⟨hl, hrow⟩, rfl⟩ := (main flat).mp hflat
    refine ⟨?_, fun i j => ⟨?_, ?_⟩⟩
    · rw [List.length_flatten, ← hl]
      clear hflat main hl
      induction rows with
      | nil => simp
      | cons row rows ih =>
        simp only [List.map_cons, List.sum_cons, List.length_cons, Nat.succ_mul]
        rw [ih fun r hr => hrow r (.tail _ hr), hrow row List.mem_cons_self]
        omega
    · intro x hx
      cases hi : rows[i]? with
      | none => rw [hi] at hx; simp at hx
      | some row =>
        rw [hi] at hx
        simp only [Option.bind_some] at hx
        have him : i < m := by
          rw [← hl]; exact (List.getElem?_eq_some_iff.mp hi).1
        have hjn : j < n := by
          have h1 := (List.getElem?_eq_some_iff.mp hx).1
          have h2 := hrow row (List.mem_of_getElem? hi)
          omega
        unfold matAt arrayAt
        rw [if_neg (by omega), flatten_get hrow hjn, hi, Option.bind_some, hx]
    · intro h
      unfold matAt
      rw [if_pos (by omega)]

example : matOfLists 2 3 [[1, 2, 3], [4, 5, 6]] = .ok [1, 2, 3, 4, 5, 6] := by rfl
example : matAt 2 3 [1, 2, 3, 4, 5, 6] 1 0 = .ok 4 := by rfl

end C30

/-- C30: normalised vectors have unit length and keep their direction (two and
three elements). -/
theorem C30_unit (v : Vec ℝ 3) (hv : v ≠ 0) (w : Vec ℝ 2) (hw : w ≠ 0) :
    magnitude3 (unit3 v) = 1 ∧ dot (unit3 v) (unit3 v) = 1 ∧
    (∃ c : ℝ, 0 < c ∧ v = vecScale (unit3 v) c) ∧
    magnitude2 (unit2 w) = 1 ∧ (∃ c : ℝ, 0 < c ∧ w = vecScale (unit2 w) c) := by
  have h3 : 0 < v 0 ^ 2 + v 1 ^ 2 + v 2 ^ 2 := by
    by_contra h
    apply hv
    have h0 : v 0 = 0 := by nlinarith [sq_nonneg (v 0), sq_nonneg (v 1), sq_nonneg (v 2)]
    have h1 : v 1 = 0 := by nlinarith [sq_nonneg (v 0), sq_nonneg (v 1), sq_nonneg (v 2)]
    have h2 : v 2 = 0 := by nlinarith [sq_nonneg (v 0), sq_nonneg (v 1), sq_nonneg (v 2)]
    funext i; fin_cases i <;> assumption
  have h2 : 0 < w 0 ^ 2 + w 1 ^ 2 := by
    by_contra h
    apply hw
    have h0 : w 0 = 0 := by nlinarith [sq_nonneg (w 0), sq_nonneg (w 1)]
    have h1 : w 1 = 0 := by nlinarith [sq_nonneg (w 0), sq_nonneg (w 1)]
    funext i; fin_cases i <;> assumption
  have m3 : 0 < magnitude3 v := Real.sqrt_pos.mpr h3
  have m2 : 0 < magnitude2 w := Real.sqrt_pos.mpr h2
  have s3 : magnitude3 v ^ 2 = v 0 ^ 2 + v 1 ^ 2 + v 2 ^ 2 := Real.sq_sqrt h3.le
  have s2 : magnitude2 w ^ 2 = w 0 ^ 2 + w 1 ^ 2 := Real.sq_sqrt h2.le
  have q3 : (v 0 / magnitude3 v) ^ 2 + (v 1 / magnitude3 v) ^ 2 + (v 2 / magnitude3 v) ^ 2 = 1 := by
    field_simp; linarith
  have q2 : (w 0 / magnitude2 w) ^ 2 + (w 1 / magnitude2 w) ^ 2 = 1 := by
    field_simp; linarith
  refine ⟨?_, ?_, ⟨magnitude3 v, m3, ?_⟩, ?_, ⟨magnitude2 w, m2, ?_⟩⟩
  · show Real.sqrt ((v 0 / magnitude3 v) ^ 2 + (v 1 / magnitude3 v) ^ 2 +
      (v 2 / magnitude3 v) ^ 2) = 1
    rw [q3, Real.sqrt_one]
  · rw [dot_three]
    simp only [unit3]
    linarith
  · funext i; simp only [vecScale, unit3]; field_simp
  · show Real.sqrt ((w 0 / magnitude2 w) ^ 2 + (w 1 / magnitude2 w) ^ 2) = 1
    rw [q2, Real.sqrt_one]
  · funext i; simp only [vecScale, unit2]; field_simp

/-- C30, the direction of a normalised vector, is false of the code for vectors
of one element: the "magnitude" of (-2) is -2, and its unit vector (1). -/
theorem C30_unit_one_violated : magnitude1 ![-2] = -2 ∧ unit1 ![-2] = ![1] := by
  constructor
  · simp [magnitude1]
  · funext i; fin_cases i; norm_num [unit1, magnitude1]

/-! ## C29 -/

/-- Specification: the identity matrix. -/
def identity (n : ℕ) : Mat ℝ n n := fun i j => if i = j then 1 else 0

open Geometry

/-- C29: the vector rotations are multiplications by the matrices. -/
theorem C29_matrix (a : ℝ) (v : Vec ℝ 3) :
    rotX a v = matVec (rotXMatrix a) v ∧ rotY a v = matVec (rotYMatrix a) v ∧
    rotZ a v = matVec (rotZMatrix a) v := by
  refine ⟨?_, ?_, ?_⟩ <;> funext i <;> simp only [matVec, sumLoop_three] <;> fin_cases i <;>
    simp [rotX, rotY, rotZ, rotXMatrix, rotYMatrix, rotZMatrix] <;> ring

/-- C29: rotations preserve dot products and lengths. -/
theorem C29_isometry (a : ℝ) (v w : Vec ℝ 3) :
    (dot (rotX a v) (rotX a w) = dot v w ∧ magnitude3 (rotX a v) = magnitude3 v) ∧
    (dot (rotY a v) (rotY a w) = dot v w ∧ magnitude3 (rotY a v) = magnitude3 v) ∧
    (dot (rotZ a v) (rotZ a w) = dot v w ∧ magnitude3 (rotZ a v) = magnitude3 v) := by
  have h := Real.sin_sq_add_cos_sq a
  refine ⟨⟨?_, ?_⟩, ⟨?_, ?_⟩, ⟨?_, ?_⟩⟩
  · simp only [dot_three, rotX, Matrix.cons_val]
    linear_combination (v 1 * w 1 + v 2 * w 2) * h
  · simp only [magnitude3, rotX, Matrix.cons_val]
    congr 1; linear_combination (v 1 ^ 2 + v 2 ^ 2) * h
  · simp only [dot_three, rotY, Matrix.cons_val]
    linear_combination (v 0 * w 0 + v 2 * w 2) * h
  · simp only [magnitude3, rotY, Matrix.cons_val]
    congr 1; linear_combination (v 0 ^ 2 + v 2 ^ 2) * h
  · simp only [dot_three, rotZ, Matrix.cons_val]
    linear_combination (v 0 * w 0 + v 1 * w 1) * h
  · simp only [magnitude3, rotZ, Matrix.cons_val]
    congr 1; linear_combination (v 0 ^ 2 + v 1 ^ 2) * h

/-- C29: rotations about one axis compose additively. -/
theorem C29_compose (a b : ℝ) (v : Vec ℝ 3) :
    rotX a (rotX b v) = rotX (a + b) v ∧ rotY a (rotY b v) = rotY (a + b) v ∧
    rotZ a (rotZ b v) = rotZ (a + b) v := by
  refine ⟨?_, ?_, ?_⟩ <;> funext i <;> fin_cases i <;>
    simp [rotX, rotY, rotZ, Real.sin_add, Real.cos_add] <;> ring

/-- C29: the opposite angle undoes a rotation. -/
theorem C29_inverse (a : ℝ) (v : Vec ℝ 3) :
    rotX (-a) (rotX a v) = v ∧ rotY (-a) (rotY a v) = v ∧ rotZ (-a) (rotZ a v) = v := by
  obtain ⟨h1, h2, h3⟩ := C29_compose (-a) a v
  rw [h1, h2, h3, neg_add_cancel]
  refine ⟨?_, ?_, ?_⟩ <;> funext i <;> fin_cases i <;> simp [rotX, rotY, rotZ]

/-- C29: the transposed rotation matrix is its inverse, and rotation matrices have
determinant one. -/
theorem C29_orthogonal (a : ℝ) :
    ∀ M ∈ [rotXMatrix a, rotYMatrix a, rotZMatrix a],
      matMul (transpose M) M = identity 3 ∧ matMul M (transpose M) = identity 3 ∧
      (Matrix.of M).det = 1 := by
  have h := Real.sin_sq_add_cos_sq a
  simp only [List.mem_cons, List.not_mem_nil, or_false, forall_eq_or_imp, forall_eq]
  refine ⟨⟨?_, ?_, ?_⟩, ⟨?_, ?_, ?_⟩, ⟨?_, ?_, ?_⟩⟩
  all_goals first
    | (rw [Matrix.det_fin_three]
       simp [rotXMatrix, rotYMatrix, rotZMatrix]
       linear_combination h)
    | (funext i j
       simp only [matMul, sumLoop_three, transpose, identity]
       fin_cases i <;> fin_cases j <;> simp [rotXMatrix, rotYMatrix, rotZMatrix] <;>
         first | ring1 | linear_combination h)

/-- C29: the sense of the rotations.  A vector at angle `t` in the plane of the
rotation (from y to z, from z to x, from x to y) is at angle `t - a` afterwards;
its component along the axis is unchanged. -/
theorem C29_sense (a t r c : ℝ) :
    rotX a ![c, r * Real.cos t, r * Real.sin t] =
      ![c, r * Real.cos (t - a), r * Real.sin (t - a)] ∧
    rotY a ![r * Real.sin t, c, r * Real.cos t] =
      ![r * Real.sin (t - a), c, r * Real.cos (t - a)] ∧
    rotZ a ![r * Real.cos t, r * Real.sin t, c] =
      ![r * Real.cos (t - a), r * Real.sin (t - a), c] := by
  refine ⟨?_, ?_, ?_⟩ <;> funext i <;> fin_cases i <;>
    simp [rotX, rotY, rotZ, Real.sin_sub, Real.cos_sub] <;> ring

/-! ## C31 -/

open GLL

theorem cbrt_cubed (x : ℝ) : cbrt x ^ 3 = x := by
  have key : ∀ y : ℝ, 0 ≤ y → (y ^ (1 / 3 : ℝ)) ^ 3 = y := by
    intro y hy
    rw [← Real.rpow_natCast, ← Real.rpow_mul hy]; norm_num
  unfold cbrt
  split_ifs with h
  · exact key x h
  · rw [neg_pow, key (-x) (by linarith)]; norm_num

theorem cube_inj {a b : ℝ} (h : a ^ 3 = b ^ 3) : a = b := by
  have : (a - b) * (a ^ 2 + a * b + b ^ 2) = 0 := by linear_combination h
  rcases mul_eq_zero.mp this with h1 | h1
  · linarith
  · have h2 : a = 0 ∧ b = 0 := by
      constructor <;> nlinarith [sq_nonneg (a + b), sq_nonneg a, sq_nonneg b, sq_nonneg (a - b)]
    rw [h2.1, h2.2]

theorem distortion_pos : 0 < distortion := by norm_num [distortion]

/-- Cardano's formula: the object space radius solves the distortion equation. -/
theorem objectRadius_spec (r : ℝ) :
    objectRadius r * (1 + distortion * objectRadius r ^ 2) = r := by
  have hD := distortion_pos
  obtain ⟨t1, ht1⟩ : ∃ t1, t1 = r / (2 * distortion) := ⟨_, rfl⟩
  obtain ⟨p, hp⟩ : ∃ p, p = 1 / (3 * distortion) := ⟨_, rfl⟩
  have hp0 : 0 < p := by rw [hp]; positivity
  obtain ⟨t2, ht2⟩ : ∃ t2, t2 = Real.sqrt (t1 ^ 2 + p ^ 3) := ⟨_, rfl⟩
  have ht2s : t2 ^ 2 = t1 ^ 2 + p ^ 3 := by rw [ht2]; exact Real.sq_sqrt (by positivity)
  obtain ⟨u, hu⟩ : ∃ u, u = cbrt (t1 + t2) := ⟨_, rfl⟩
  obtain ⟨v, hv⟩ : ∃ v, v = cbrt (t1 - t2) := ⟨_, rfl⟩
  have e : objectRadius r = u + v := by
    rw [hu, hv, ht2, ht1, hp]; rfl
  have hu3 : u ^ 3 = t1 + t2 := by rw [hu]; exact cbrt_cubed _
  have hv3 : v ^ 3 = t1 - t2 := by rw [hv]; exact cbrt_cubed _
  have huv : u * v = -p := by
    apply cube_inj
    rw [mul_pow, hu3, hv3]; linear_combination -ht2s
  have hDp : distortion * p = 1 / 3 := by rw [hp]; field_simp
  have hDt : distortion * t1 = r / 2 := by rw [ht1]; field_simp
  rw [e]
  have h3 : (u + v) ^ 3 = 2 * t1 - 3 * p * (u + v) := by
    linear_combination hu3 + hv3 + 3 * (u + v) * huv
  linear_combination distortion * h3 + 2 * hDt - 3 * (u + v) * hDp

/-- The distortion equation has one solution. -/
theorem distortion_inj {a b : ℝ}
    (h : a * (1 + distortion * a ^ 2) = b * (1 + distortion * b ^ 2)) : a = b := by
  have hD := distortion_pos
  have : (a - b) * (1 + distortion * (a ^ 2 + a * b + b ^ 2)) = 0 := by linear_combination h
  rcases mul_eq_zero.mp this with h1 | h1
  · linarith
  · have : 0 ≤ a ^ 2 + a * b + b ^ 2 := by nlinarith [sq_nonneg (a + b), sq_nonneg a, sq_nonneg b]
    have := mul_nonneg hD.le this
    linarith

theorem toAxis_fromAxis (s : Bool) (x : ℝ) : toAxis s (fromAxis s x) = x := by
  unfold toAxis fromAxis; split_ifs <;> ring

theorem fromAxis_toAxis (s : Bool) (x : ℝ) : fromAxis s (toAxis s x) = x := by
  unfold toAxis fromAxis; split_ifs <;> ring

theorem radius_sq (x y : ℝ) : Real.sqrt (x ^ 2 + y ^ 2) ^ 2 = x ^ 2 + y ^ 2 :=
  Real.sq_sqrt (by positivity)

/-- C31: image to object space and back, in both modes. -/
theorem C31_image_object_image (samples : ℕ) (p : ℝ × ℝ) :
    objectToImage (summationMode samples) (imageToObject (summationMode samples) p) = p := by
  generalize summationMode samples = s
  obtain ⟨line, sample⟩ := p
  unfold imageToObject
  simp only
  generalize hy : toAxis s line = y
  generalize hx : toAxis s sample = x
  split_ifs with h0
  · have hr := radius_sq x y
    generalize hrr : Real.sqrt (x ^ 2 + y ^ 2) = r at *
    have hc := objectRadius_spec r
    generalize objectRadius r = o at *
    unfold objectToImage
    simp only [toAxis_fromAxis]
    have hn : o * x / r * (o * x / r) + o * y / r * (o * y / r) = o ^ 2 := by
      field_simp; linear_combination -o ^ 2 * hr
    rw [hn]
    have e1 : o * y / r * (1 + distortion * o ^ 2) = y := by
      field_simp; linear_combination y * hc
    have e2 : o * x / r * (1 + distortion * o ^ 2) = x := by
      field_simp; linear_combination x * hc
    rw [e1, e2, ← hy, ← hx, fromAxis_toAxis, fromAxis_toAxis]
  · simp only [not_not] at h0
    have hz : x ^ 2 + y ^ 2 = 0 := by rw [← radius_sq, h0]; norm_num
    have x0 : x = 0 := by nlinarith [sq_nonneg x, sq_nonneg y]
    have y0 : y = 0 := by nlinarith [sq_nonneg x, sq_nonneg y]
    unfold objectToImage
    simp only [hx, hy, x0, y0]
    have l0 : fromAxis s 0 = line := by rw [← y0, ← hy, fromAxis_toAxis]
    have s0 : fromAxis s 0 = sample := by rw [← x0, ← hx, fromAxis_toAxis]
    rw [zero_mul]
    exact Prod.ext l0 s0

/-- C31: object to image space and back, in both modes. -/
theorem C31_object_image_object (samples : ℕ) (p : ℝ × ℝ) :
    imageToObject (summationMode samples) (objectToImage (summationMode samples) p) = p := by
  generalize summationMode samples = s
  obtain ⟨line, sample⟩ := p
  unfold objectToImage
  simp only
  generalize hy : toAxis s line = y
  generalize hx : toAxis s sample = x
  have hD := distortion_pos
  have hr := radius_sq x y
  obtain ⟨r, hrr⟩ : ∃ r, r = Real.sqrt (x ^ 2 + y ^ 2) := ⟨_, rfl⟩
  have hr0 : 0 ≤ r := by rw [hrr]; exact Real.sqrt_nonneg _
  rw [← hrr] at hr
  have hc : (1 : ℝ) + distortion * (x * x + y * y) = 1 + distortion * r ^ 2 := by rw [hr]; ring
  rw [hc]
  have hcpos : 0 < 1 + distortion * r ^ 2 := by positivity
  have hrad : Real.sqrt ((x * (1 + distortion * r ^ 2)) ^ 2 + (y * (1 + distortion * r ^ 2)) ^ 2) =
      r * (1 + distortion * r ^ 2) := by
    rw [show (x * (1 + distortion * r ^ 2)) ^ 2 + (y * (1 + distortion * r ^ 2)) ^ 2 =
      (r * (1 + distortion * r ^ 2)) ^ 2 by linear_combination -(1 + distortion * r ^ 2) ^ 2 * hr]
    exact Real.sqrt_sq (by positivity)
  unfold imageToObject
  simp only [toAxis_fromAxis, hrad]
  split_ifs with h0
  · have hor : objectRadius (r * (1 + distortion * r ^ 2)) = r :=
      distortion_inj (objectRadius_spec _)
    have hrne : r ≠ 0 := left_ne_zero_of_mul h0
    rw [hor]
    have e1 : r * (y * (1 + distortion * r ^ 2)) / (r * (1 + distortion * r ^ 2)) = y := by
      field_simp
    have e2 : r * (x * (1 + distortion * r ^ 2)) / (r * (1 + distortion * r ^ 2)) = x := by
      field_simp
    rw [e1, e2, ← hy, ← hx, fromAxis_toAxis, fromAxis_toAxis]
  · simp only [not_not] at h0
    have r0 : r = 0 := by
      rcases mul_eq_zero.mp h0 with h | h
      · exact h
      · exact absurd h hcpos.ne'
    rw [r0] at hr ⊢
    rw [show (1 : ℝ) + distortion * 0 ^ 2 = 1 by norm_num, mul_one, mul_one, ← hy, ← hx,
      fromAxis_toAxis, fromAxis_toAxis]

/-- C31: the direction of the correction.  In full frame pixels, of which an image of up to
400 samples has two per pixel and others one, the optical axis is at 400, 400.  It is fixed;
every other point keeps its direction from the axis, and object space radii are the
smaller ones. -/
theorem C31_radial (samples : ℕ) (p : ℝ × ℝ) {f : ℝ} (hf : f = if samples ≤ 400 then 2 else 1) :
    ∃ k : ℝ, 1 ≤ k ∧ k = 1 + 6.58e-9 * ((f * p.1 - 400) ^ 2 + (f * p.2 - 400) ^ 2) ∧
      f * (objectToImage (summationMode samples) p).1 - 400 = k * (f * p.1 - 400) ∧
      f * (objectToImage (summationMode samples) p).2 - 400 = k * (f * p.2 - 400) := by
  refine ⟨_, ?_, rfl, ?_⟩
  · have : (0 : ℝ) ≤ 6.58e-9 * ((f * p.1 - 400) ^ 2 + (f * p.2 - 400) ^ 2) := by positivity
    linarith
  · subst hf
    by_cases h : samples ≤ 400 <;>
      simp only [objectToImage, summationMode, toAxis, fromAxis, distortion, h, decide_true,
        decide_false, if_true, if_false, Bool.false_eq_true] <;>
      constructor <;> ring

/-- Images of 400 samples have two full frame pixels per pixel. -/
example : ∃ k : ℝ, 1 ≤ k ∧ 2 * (objectToImage (summationMode 400) (10, 20)).1 - 400 =
    k * (2 * 10 - 400) := by
  obtain ⟨k, h1, -, h2, -⟩ := C31_radial 400 (10, 20) (f := 2) (by norm_num)
  exact ⟨k, h1, h2⟩

end MaRC
