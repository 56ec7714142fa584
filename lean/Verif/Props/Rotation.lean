import Verif.Model.ViewingGeometry
import Verif.Props.LinearAlgebra
import Verif.Props.Intersection

/-!
# C41, C68: the rotation between camera and body
-/

namespace MaRC

open Real Geometry

/-- Specification: a rotation matrix. -/
structure IsRotation (m : Mat ℝ 3 3) : Prop where
  left : matMul (transpose m) m = identity 3
  right : matMul m (transpose m) = identity 3
  det : (Matrix.of m).det = 1

theorem matVec_identity (v : Vec ℝ 3) : matVec (identity 3) v = v := by
  funext i
  simp only [matVec, sumLoop_three, identity]
  fin_cases i <;> simp

theorem matMul_identity (m : Mat ℝ 3 3) :
    matMul m (identity 3) = m ∧ matMul (identity 3) m = m := by
  constructor <;> funext i j <;> simp only [matMul, sumLoop_three, identity]
  · fin_cases j <;> simp
  · fin_cases i <;> simp

theorem IsRotation.mul {a b : Mat ℝ 3 3} (ha : IsRotation a) (hb : IsRotation b) :
    IsRotation (matMul a b) := by
  refine ⟨?_, ?_, ?_⟩
  · rw [(C30_transpose a b).2, (C30_assoc _ _ _ (0 : Vec ℝ 3)).1,
      ← (C30_assoc (transpose a) a b (0 : Vec ℝ 3)).1, ha.left, (matMul_identity b).2, hb.left]
  · rw [(C30_transpose a b).2, (C30_assoc _ _ _ (0 : Vec ℝ 3)).1,
      ← (C30_assoc b (transpose b) (transpose a) (0 : Vec ℝ 3)).1, hb.right,
      (matMul_identity _).2, ha.right]
  · have := (C30_linear_algebra a a b (0 : Vec ℝ 3) 0 (0 : Vec ℝ 3) (0 : Vec ℝ 3)).1
    have e : Matrix.of (matMul a b) = Matrix.of a * Matrix.of b := this
    rw [e, Matrix.det_mul, ha.det, hb.det, one_mul]

theorem rot_isRotation (a : ℝ) :
    IsRotation (rotXMatrix a) ∧ IsRotation (rotYMatrix a) ∧ IsRotation (rotZMatrix a) := by
  have h := C29_orthogonal a
  refine ⟨?_, ?_, ?_⟩
  · obtain ⟨h1, h2, h3⟩ := h _ (by simp : rotXMatrix a ∈ _)
    exact ⟨h1, h2, h3⟩
  · obtain ⟨h1, h2, h3⟩ := h _ (by simp : rotYMatrix a ∈ _)
    exact ⟨h1, h2, h3⟩
  · obtain ⟨h1, h2, h3⟩ := h _ (by simp : rotZMatrix a ∈ _)
    exact ⟨h1, h2, h3⟩

theorem IsRotation.apply_transpose {m : Mat ℝ 3 3} (h : IsRotation m) (v : Vec ℝ 3) :
    matVec m (matVec (transpose m) v) = v ∧ matVec (transpose m) (matVec m v) = v := by
  rw [← (C30_assoc m (transpose m) (identity 3) v).2,
    ← (C30_assoc (transpose m) m (identity 3) v).2, h.left, h.right, matVec_identity]
  exact ⟨rfl, rfl⟩

namespace ViewInput

theorem o2b_isRotation (pa t z : ℝ) : IsRotation (o2b pa t z) :=
  (rot_isRotation z).2.2.mul ((rot_isRotation t).1.mul (rot_isRotation (-pa)).2.1)

theorem matVec_o2b (pa t z : ℝ) (v : Vec ℝ 3) :
    matVec (o2b pa t z) v = rotZ z (rotX t (rotY (-pa) v)) := by
  rw [o2b, (C30_assoc _ _ (identity 3) v).2, (C30_assoc _ _ (identity 3) v).2,
    ← (C29_matrix (-pa) v).2.1, ← (C29_matrix t _).1, ← (C29_matrix z _).2.2]

theorem candidate_form (g : ViewInput) (r : Vec ℝ 3) (root : Option ℝ) (m : Mat ℝ 3 3)
    (h : g.candidate r root = some m) :
    ∃ s, root = some s ∧ -1 ≤ s ∧ s ≤ 1 ∧
      m = o2b g.positionAngle (arcsin s)
        (atan2 (rotX (arcsin s) r 0) (-rotX (arcsin s) r 1)) := by
  cases root with
  | none => simp [candidate] at h
  | some s =>
    simp only [candidate, Option.bind_some, asin] at h
    split_ifs at h with hs
    · simp only [Option.map_some, Option.some.injEq] at h
      exact ⟨s, rfl, hs.1, hs.2, h.symm⟩
    · simp at h

theorem choose_mem (t v : Vec ℝ 3) (a b : Option (Mat ℝ 3 3)) (m : Mat ℝ 3 3)
    (h : choose t v a b = some m) : a = some m ∨ b = some m := by
  unfold choose at h
  split at h
  · split_ifs at h
    · exact .inr h
    · exact .inl h
  · exact .inl h

/-! ## C41 -/

/-- Whichever candidate the computation from the body centre selects, it is a
rotation (orthogonal, determinant one), inverse to its transpose. -/
theorem C41_center (g : ViewInput) (ro : Vec ℝ 3) (m : Mat ℝ 3 3)
    (h : g.rotMatricesCenter ro = some (some m)) :
    IsRotation m ∧ IsRotation (transpose m) ∧
    ∀ v, matVec m (matVec (transpose m) v) = v ∧ matVec (transpose m) (matVec m v) = v := by
  have hm : IsRotation m := by
    simp only [rotMatricesCenter, Option.map_eq_some_iff] at h
    obtain ⟨roots, -, hc⟩ := h
    rcases choose_mem _ _ _ _ _ hc with h1 | h1 <;>
      obtain ⟨s, -, -, -, rfl⟩ := candidate_form g _ _ _ h1 <;> exact o2b_isRotation _ _ _
  refine ⟨hm, ⟨hm.right, hm.left, ?_⟩, hm.apply_transpose⟩
  have := hm.det
  rw [← Matrix.det_transpose] at this
  exact this

/-- The same for the computation from the latitude and longitude at the optical
axis, which always selects one. -/
theorem C41_axis (g : ViewInput) (oa : Vec ℝ 3) :
    IsRotation (g.rotMatricesAxis oa) ∧ IsRotation (transpose (g.rotMatricesAxis oa)) ∧
    ∀ v, matVec (g.rotMatricesAxis oa) (matVec (transpose (g.rotMatricesAxis oa)) v) = v ∧
      matVec (transpose (g.rotMatricesAxis oa)) (matVec (g.rotMatricesAxis oa) v) = v := by
  have hm : IsRotation (g.rotMatricesAxis oa) := by
    unfold rotMatricesAxis axisCandidate
    simp only
    split_ifs <;> exact o2b_isRotation _ _ _
  refine ⟨hm, ⟨hm.right, hm.left, ?_⟩, hm.apply_transpose⟩
  have := hm.det
  rw [← Matrix.det_transpose] at this
  exact this

/-- After set-up from the body centre: the matrices are a rotation and its
inverse provided a tilt was found. -/
theorem C41_setup_partial (g : ViewInput) (center : ℝ × ℝ) (samples lines : ℕ) (c : Camera)
    (h : g.finalizeCenter center samples lines = .ok c) :
    c.body2observ = transpose c.observ2body ∧
    (IsRotation c.observ2body ∨
      ∃ ro, g.tiltRoots (g.turned ro) = none ∧ c.observ2body = zeroMat) := by
  unfold finalizeCenter Outcome.bind at h
  cases hp : g.pixelScale (g.axis samples lines).1 (g.axis samples lines).2 center with
  | throw e => simp [hp] at h
  | ub => simp [hp] at h
  | ok kf =>
    obtain ⟨km, f⟩ := kf
    simp only [hp] at h
    split at h
    case h_1 hr =>
      simp only [Outcome.ok.injEq] at h
      subst h
      exact ⟨rfl, .inr ⟨_, by simpa [rotMatricesCenter] using hr, rfl⟩⟩
    case h_2 => simp at h
    case h_3 m hr =>
      simp only [Outcome.ok.injEq] at h
      subst h
      exact ⟨rfl, .inl (C41_center g _ m hr).1⟩

/-- When the equation for the tilt has no real root: exactly when the turned
range vector has a vertical component and lies farther from the plane of the
position angle than the sub-observer latitude allows. -/
theorem tiltRoots_none (g : ViewInput) (r : Vec ℝ 3) :
    g.tiltRoots r = none ↔ r 2 ≠ 0 ∧ r 1 ^ 2 + r 2 ^ 2 < sin g.subLat ^ 2 := by
  have h := (C38_success (r 2 * r 2 + r 1 * r 1) (2 * r 1 * sin g.subLat)
    (sin g.subLat * sin g.subLat - r 2 * r 2)).1
  rw [← not_iff_not, ← ne_eq, ← Option.isSome_iff_ne_none, tiltRoots, h]
  have e : (2 * r 1 * sin g.subLat) ^ 2 -
      4 * (r 2 * r 2 + r 1 * r 1) * (sin g.subLat * sin g.subLat - r 2 * r 2) =
      4 * (r 2 ^ 2 * (r 1 ^ 2 + r 2 ^ 2 - sin g.subLat ^ 2)) := by ring
  rw [e]
  by_cases hz : r 2 = 0
  · simp [hz]
  · have : 0 < r 2 ^ 2 := by positivity
    simp only [ne_eq, hz, not_false_eq_true, true_and, not_lt]
    constructor
    · intro h0
      by_contra hc
      nlinarith
    · intro h0
      have := mul_nonneg this.le (sub_nonneg.2 h0)
      linarith

/-- Set-up reports success with matrices of zeros when no tilt is found: the
failure reported by the computation is ignored. -/
theorem C41_violated (g : ViewInput) (center : ℝ × ℝ) (samples lines : ℕ) (km : ℝ)
    (hk : g.kmPerPixel = some km)
    (hno : let r := g.turned (g.rangeO (g.axis samples lines).1 (g.axis samples lines).2 km center)
      r 2 ≠ 0 ∧ r 1 ^ 2 + r 2 ^ 2 < sin g.subLat ^ 2) :
    ∃ c, g.finalizeCenter center samples lines = .ok c ∧ c.observ2body = zeroMat ∧
      c.body2observ = zeroMat ∧ ¬ IsRotation c.observ2body := by
  have h0 := (tiltRoots_none g _).2 hno
  have h1 : g.rotMatricesCenter
      (g.rangeO (g.axis samples lines).1 (g.axis samples lines).2 km center) = none := by
    rw [rotMatricesCenter, h0]; rfl
  unfold finalizeCenter Outcome.bind pixelScale
  simp only [hk, h1]
  refine ⟨_, rfl, rfl, rfl, fun h => ?_⟩
  have := congrFun (congrFun h.left 0) 0
  simp [matMul, sumLoop_three, identity, zeroMat] at this

/-- An instance: looking down at the north pole from 13 km with the body centre
3 samples and 4 lines off the optical axis at 1 km per pixel. -/
example : ∃ g : ViewInput, ∃ c, g.kmPerPixel = some 1 ∧ g.subLat = π / 2 ∧
    g.finalizeCenter (7, 4) 20 16 = .ok c ∧ c.observ2body = zeroMat := by
  let g : ViewInput :=
    { body := ⟨1, 1⟩, prograde := true, subLat := π / 2, subLon := 0, sunLat := 0, sunLon := 0,
      range := 13, positionAngle := 0, kmPerPixel := some 1, focalLength := none, scale := none,
      oaSample := none, oaLine := none, center := some (7, 4), latLonCenter := none,
      muLimit := 0, useTerminator := false, objectToImage := id, imageToObject := id }
  have hr : g.rangeO (g.axis 20 16).1 (g.axis 20 16).2 1 (7, 4) = vec3 3 (-12) (-4) := by
    have h5 : √((3 : ℝ) ^ 2 + 0 ^ 2 + (-4) ^ 2) = 5 := by
      rw [show (3 : ℝ) ^ 2 + 0 ^ 2 + (-4) ^ 2 = 5 ^ 2 by norm_num, Real.sqrt_sq (by norm_num)]
    have h12 : √(((13 : ℝ) - 5) * (13 + 5)) = 12 := by
      rw [show ((13 : ℝ) - 5) * (13 + 5) = 12 ^ 2 by norm_num, Real.sqrt_sq (by norm_num)]
    have e1 : ((20 : ℕ) / 2 : ℝ) - 7 = 3 := by norm_num
    have e2 : (4 : ℝ) - (16 : ℕ) / 2 = -4 := by norm_num
    simp only [rangeO, axis, g, Option.getD_none, e1, e2, mul_one, magnitude3, vec3,
      Matrix.cons_val, h5, h12]
  have hm : magnitude3 (vec3 3 (-12) (-4)) = 13 := by
    simp only [magnitude3, vec3, Matrix.cons_val]
    rw [show (3 : ℝ) ^ 2 + (-12) ^ 2 + (-4) ^ 2 = 13 ^ 2 by norm_num, Real.sqrt_sq (by norm_num)]
  obtain ⟨c, h1, h2, -⟩ := C41_violated g (7, 4) 20 16 1 rfl (by
    have hu : unit3 (vec3 3 (-12) (-4)) = vec3 (3 / 13) (-12 / 13) (-4 / 13) := by
      funext i
      simp only [unit3, hm]
      fin_cases i <;> norm_num [vec3]
    have hv : rotY (-(0 : ℝ)) (vec3 (3 / 13) (-12 / 13) (-4 / 13)) =
        vec3 (3 / 13) (-12 / 13) (-4 / 13) := by
      funext i
      fin_cases i <;> simp [rotY, vec3]
    have hs : sin (π / 2) = 1 := sin_pi_div_two
    simp only [hr, turned, hu]
    change rotY (-(0 : ℝ)) (vec3 (3 / 13) (-12 / 13) (-4 / 13)) 2 ≠ 0 ∧
      rotY (-(0 : ℝ)) (vec3 (3 / 13) (-12 / 13) (-4 / 13)) 1 ^ 2 +
      rotY (-(0 : ℝ)) (vec3 (3 / 13) (-12 / 13) (-4 / 13)) 2 ^ 2 < sin (π / 2) ^ 2
    rw [hv, hs]
    simp only [vec3, Matrix.cons_val]
    norm_num)
  exact ⟨g, c, rfl, rfl, h1, h2⟩

/-! ## C68 -/

theorem atan2_spec (x y : ℝ) :
    √(x ^ 2 + y ^ 2) * cos (atan2 x y) = y ∧ √(x ^ 2 + y ^ 2) * sin (atan2 x y) = x := by
  have hn : ‖(⟨y, x⟩ : ℂ)‖ = √(x ^ 2 + y ^ 2) := by
    rw [Complex.norm_eq_sqrt_sq_add_sq, add_comm]
  have h1 := Complex.norm_mul_cos_arg (⟨y, x⟩ : ℂ)
  have h2 := Complex.norm_mul_sin_arg (⟨y, x⟩ : ℂ)
  rw [hn] at h1 h2
  exact ⟨h1, h2⟩

/-- The twist brings a vector into the plane of the central meridian. -/
theorem twist (v : Vec ℝ 3) :
    rotZ (atan2 (v 0) (-v 1)) v = vec3 0 (-√(v 0 ^ 2 + v 1 ^ 2)) (v 2) := by
  obtain ⟨h1, h2⟩ := atan2_spec (v 0) (-v 1)
  rw [neg_sq] at h1 h2
  set ρ := √(v 0 ^ 2 + v 1 ^ 2) with hρ
  set t := atan2 (v 0) (-v 1)
  have h3 := sin_sq_add_cos_sq t
  funext i
  fin_cases i
  · change v 0 * cos t + v 1 * sin t = 0
    linear_combination (-cos t) * h2 + sin t * h1
  · change -v 0 * sin t + v 1 * cos t = -ρ
    linear_combination (sin t) * h2 + cos t * h1 - ρ * h3
  · rfl

theorem magnitude3_nonneg (v : Vec ℝ 3) : 0 ≤ magnitude3 v := Real.sqrt_nonneg _

theorem magnitude3_sq (v : Vec ℝ 3) : magnitude3 v ^ 2 = v 0 ^ 2 + v 1 ^ 2 + v 2 ^ 2 := by
  rw [magnitude3, Real.sq_sqrt (by positivity)]

theorem mismatch_zero (t v : Vec ℝ 3) (m : Mat ℝ 3 3) : mismatch t m v = 0 ↔ matVec m v = t := by
  rw [mismatch, magnitude3, Real.sqrt_eq_zero (by positivity)]
  simp only [vecSub]
  constructor
  · intro h
    have p0 := sq_nonneg (t 0 - matVec m v 0)
    have p1 := sq_nonneg (t 1 - matVec m v 1)
    have p2 := sq_nonneg (t 2 - matVec m v 2)
    have h0 : t 0 - matVec m v 0 = 0 := pow_eq_zero_iff two_ne_zero |>.1 (by linarith)
    have h1 : t 1 - matVec m v 1 = 0 := pow_eq_zero_iff two_ne_zero |>.1 (by linarith)
    have h2 : t 2 - matVec m v 2 = 0 := pow_eq_zero_iff two_ne_zero |>.1 (by linarith)
    funext i
    fin_cases i
    · exact (sub_eq_zero.1 h0).symm
    · exact (sub_eq_zero.1 h1).symm
    · exact (sub_eq_zero.1 h2).symm
  · rintro rfl
    simp

theorem choose_good (t v : Vec ℝ 3) (a b : Option (Mat ℝ 3 3))
    (h : (∃ m, a = some m ∧ matVec m v = t) ∨
      (∃ m₁ m₂, a = some m₁ ∧ b = some m₂ ∧ matVec m₂ v = t)) :
    ∃ m, choose t v a b = some m ∧ matVec m v = t := by
  rcases h with ⟨m, rfl, hm⟩ | ⟨m₁, m₂, rfl, rfl, hm⟩
  · cases b with
    | none => exact ⟨m, rfl, hm⟩
    | some b =>
      refine ⟨m, ?_, hm⟩
      have h0 := (mismatch_zero t v m).2 hm
      have : ¬ mismatch t m v > mismatch t b v := by
        rw [h0]; exact not_lt.2 (magnitude3_nonneg _)
      simp [choose, this]
  · have h0 := (mismatch_zero t v m₂).2 hm
    by_cases h1 : mismatch t m₁ v > mismatch t m₂ v
    · exact ⟨m₂, by simp [choose, h1], hm⟩
    · refine ⟨m₁, by simp [choose, h1], ?_⟩
      rw [h0, gt_iff_lt, not_lt] at h1
      exact (mismatch_zero t v m₁).1 (le_antisymm h1 (magnitude3_nonneg _))

theorem turned_scaled (g : ViewInput) (ro : Vec ℝ 3) (hr : 0 < g.range)
    (hm : magnitude3 ro = g.range) :
    rotY (-g.positionAngle) ro = g.range • g.turned ro ∧
    g.turned ro 0 ^ 2 + g.turned ro 1 ^ 2 + g.turned ro 2 ^ 2 = 1 := by
  have hu : ro = g.range • unit3 ro := by
    funext i
    simp only [unit3, hm, Pi.smul_apply, smul_eq_mul]
    field_simp
  have hsq := magnitude3_sq ro
  rw [hm] at hsq
  constructor
  · conv_lhs => rw [hu]
    funext i
    fin_cases i
    · simp only [turned, rotY, Pi.smul_apply, smul_eq_mul, Fin.zero_eta, Matrix.cons_val]; ring
    · simp only [turned, rotY, Pi.smul_apply, smul_eq_mul, Fin.mk_one, Matrix.cons_val]
    · simp only [turned, rotY, Pi.smul_apply, smul_eq_mul, Fin.reduceFinMk, Matrix.cons_val]; ring
  · have h1 := sin_sq_add_cos_sq (-g.positionAngle)
    simp only [turned, rotY, unit3, hm, Matrix.cons_val]
    field_simp
    have : g.range ^ 2 = g.range ^ 2 := rfl
    linear_combination (ro 0 ^ 2 + ro 2 ^ 2) * h1 - hsq

/-- A candidate whose tilt solves the equation of heights maps the camera's
range vector onto the body's. -/
theorem o2b_maps (g : ViewInput) (ro : Vec ℝ 3) (hr : 0 < g.range)
    (hm : magnitude3 ro = g.range) (hc : 0 ≤ cos g.subLat) (θ : ℝ)
    (hθ : -g.turned ro 1 * sin θ + g.turned ro 2 * cos θ = sin g.subLat) :
    matVec (o2b g.positionAngle θ
      (atan2 (rotX θ (g.turned ro) 0) (-rotX θ (g.turned ro) 1))) ro = g.rangeB := by
  obtain ⟨h1, h2⟩ := turned_scaled g ro hr hm
  rw [matVec_o2b, h1]
  have hX : rotX θ (g.range • g.turned ro) = g.range • rotX θ (g.turned ro) := by
    funext i
    fin_cases i
    · rfl
    · simp only [rotX, Pi.smul_apply, smul_eq_mul, Fin.mk_one, Matrix.cons_val]; ring
    · simp only [rotX, Pi.smul_apply, smul_eq_mul, Fin.reduceFinMk, Matrix.cons_val]; ring
  have hZ : ∀ (t : ℝ) (v : Vec ℝ 3), rotZ t (g.range • v) = g.range • rotZ t v := by
    intro t v
    funext i
    fin_cases i
    · simp only [rotZ, Pi.smul_apply, smul_eq_mul, Fin.zero_eta, Matrix.cons_val]; ring
    · simp only [rotZ, Pi.smul_apply, smul_eq_mul, Fin.mk_one, Matrix.cons_val]; ring
    · rfl
  rw [hX, hZ, twist]
  have h3 : rotX θ (g.turned ro) 2 = sin g.subLat := hθ
  have h4 : rotX θ (g.turned ro) 0 ^ 2 + rotX θ (g.turned ro) 1 ^ 2 = cos g.subLat ^ 2 := by
    have h5 := sin_sq_add_cos_sq θ
    have h6 := sin_sq_add_cos_sq g.subLat
    rw [← h3] at h6
    simp only [rotX, Matrix.cons_val] at h6 ⊢
    linear_combination h2 - h6 + (g.turned ro 1 ^ 2 + g.turned ro 2 ^ 2) * h5
  rw [h3, h4, Real.sqrt_sq hc]
  funext i
  fin_cases i
  · simp [rangeB, vec3]
  · simp [rangeB, vec3]
  · simp [rangeB, vec3]

/-- **C68** (body centre).  If some tilt within a right angle and some twist,
together with the position angle, carry the camera's range vector to the
body's, then the selected matrix does, too. -/
theorem C68_center (g : ViewInput) (ro : Vec ℝ 3) (hr : 0 < g.range)
    (hm : magnitude3 ro = g.range) (hc : 0 ≤ cos g.subLat) (hy : ro 1 ≠ 0)
    (hex : ∃ θ ∈ Set.Icc (-(π / 2)) (π / 2), ∃ t, matVec (o2b g.positionAngle θ t) ro = g.rangeB) :
    ∃ m, g.rotMatricesCenter ro = some (some m) ∧ matVec m ro = g.rangeB := by
  obtain ⟨θ, hθ, t, ht⟩ := hex
  obtain ⟨hs, hunit⟩ := turned_scaled g ro hr hm
  set r := g.turned ro with hrdef
  set p := sin g.subLat with hp
  -- the height of the image of the range vector
  have height : -r 1 * sin θ + r 2 * cos θ = p := by
    have h2 := congrFun ht 2
    rw [matVec_o2b, hs] at h2
    have e1 : rotZ t (rotX θ (g.range • r)) 2 = g.range * (-r 1 * sin θ + r 2 * cos θ) := by
      simp only [rotZ, rotX, Pi.smul_apply, smul_eq_mul, Matrix.cons_val]; ring
    have e2 : g.rangeB 2 = g.range * p := rfl
    rw [e1, e2] at h2
    exact mul_left_cancel₀ hr.ne' h2
  have hr1 : r 1 ≠ 0 := by
    intro h0
    have h1 := congrFun hs 1
    have e1 : rotY (-g.positionAngle) ro 1 = ro 1 := rfl
    rw [e1, Pi.smul_apply, h0, smul_zero] at h1
    exact hy h1
  have ha : r 2 * r 2 + r 1 * r 1 ≠ 0 := by
    have := mul_self_pos.2 hr1
    nlinarith [mul_self_nonneg (r 2)]
  have hθs : arcsin (sin θ) = θ := arcsin_sin hθ.1 hθ.2
  have hroot : (r 2 * r 2 + r 1 * r 1) * sin θ ^ 2 + (2 * r 1 * p) * sin θ +
      (p * p - r 2 * r 2) = 0 := by
    have h1 := sin_sq_add_cos_sq θ
    linear_combination (-(p + r 1 * sin θ + r 2 * cos θ)) * height + r 2 ^ 2 * h1
  have good : ∀ s, s = sin θ → ∃ m, g.candidate r (some s) = some m ∧ matVec m ro = g.rangeB := by
    rintro s rfl
    refine ⟨_, ?_, o2b_maps g ro hr hm hc θ height⟩
    simp only [candidate, Option.bind_some, asin, neg_one_le_sin, sin_le_one, and_self, if_true,
      Option.map_some, hθs]
    rfl
  have valid : ∀ s, (r 2 * r 2 + r 1 * r 1) * s ^ 2 + (2 * r 1 * p) * s +
      (p * p - r 2 * r 2) = 0 → r 2 ≠ 0 → ∃ m, g.candidate r (some s) = some m := by
    intro s h1 h2
    have h3 : r 2 ^ 2 * (1 - s ^ 2) = (p + r 1 * s) ^ 2 := by linear_combination -h1
    have h4 : s ^ 2 ≤ 1 := by
      by_contra hlt
      have : 0 < r 2 ^ 2 := by positivity
      nlinarith [sq_nonneg (p + r 1 * s)]
    have h5 := abs_le.1 (sq_le_one_iff_abs_le_one s |>.1 h4)
    simp [candidate, asin, h5.1, h5.2]
  by_cases hbc : 2 * r 1 * p = 0 ∧ p * p - r 2 * r 2 = 0
  · have hs0 : sin θ = 0 := by
      rw [hbc.1, hbc.2, zero_mul, add_zero, add_zero] at hroot
      exact pow_eq_zero_iff two_ne_zero |>.1 ((mul_eq_zero.1 hroot).resolve_left ha)
    have hq : g.tiltRoots r = some (some 0, none) := by
      rw [tiltRoots, hbc.1, hbc.2]
      exact (C38_violated _ ha).1
    obtain ⟨m, hm1, hm2⟩ := good 0 hs0.symm
    obtain ⟨m', h1, h2⟩ := choose_good g.rangeB ro (g.candidate r (some 0)) (g.candidate r none)
      (.inl ⟨m, hm1, hm2⟩)
    refine ⟨m', ?_, h2⟩
    rw [rotMatricesCenter, ← hrdef, hq, Option.map_some, h1]
  · have hd : 0 ≤ (2 * r 1 * p) ^ 2 - 4 * (r 2 * r 2 + r 1 * r 1) * (p * p - r 2 * r 2) := by
      have : (2 * (r 2 * r 2 + r 1 * r 1) * sin θ + 2 * r 1 * p) ^ 2 =
          (2 * r 1 * p) ^ 2 - 4 * (r 2 * r 2 + r 1 * r 1) * (p * p - r 2 * r 2) := by
        linear_combination 4 * (r 2 * r 2 + r 1 * r 1) * hroot
      rw [← this]
      positivity
    obtain ⟨x₁, x₂, hq, hfac, hiff⟩ := C38_roots _ _ _ ha hbc hd
    have hres : ∀ m', choose g.rangeB ro (g.candidate r (some x₁)) (g.candidate r (some x₂)) =
        some m' → g.rotMatricesCenter ro = some (some m') := by
      intro m' h
      rw [rotMatricesCenter, ← hrdef, tiltRoots, ← hp, hq, Option.map_some, h]
    rcases (hiff _).1 hroot with h1 | h1
    · obtain ⟨m, hm1, hm2⟩ := good x₁ h1.symm
      obtain ⟨m', h3, h4⟩ := choose_good g.rangeB ro _ (g.candidate r (some x₂))
        (.inl ⟨m, hm1, hm2⟩)
      exact ⟨m', hres m' h3, h4⟩
    · obtain ⟨m, hm1, hm2⟩ := good x₂ h1.symm
      by_cases hz : r 2 = 0
      · -- a double root
        have hx : x₁ = x₂ := by
          have e := hfac x₁
          rw [sub_self, mul_zero, zero_mul] at e
          have e1 := (hiff x₂).2 (.inr rfl)
          rw [hz] at e e1
          have f1 : (r 1 * x₁ + p) ^ 2 = 0 := by linear_combination e
          have f2 : (r 1 * x₂ + p) ^ 2 = 0 := by linear_combination e1
          have g1 := pow_eq_zero_iff two_ne_zero |>.1 f1
          have g2 := pow_eq_zero_iff two_ne_zero |>.1 f2
          exact mul_left_cancel₀ hr1 (by linarith)
        obtain ⟨m', h3, h4⟩ := choose_good g.rangeB ro (g.candidate r (some x₁))
          (g.candidate r (some x₂)) (.inl ⟨m, by rw [hx]; exact hm1, hm2⟩)
        exact ⟨m', hres m' h3, h4⟩
      · obtain ⟨m₁, hv⟩ := valid x₁ ((hiff x₁).2 (.inl rfl)) hz
        obtain ⟨m', h3, h4⟩ := choose_good g.rangeB ro (g.candidate r (some x₁))
          (g.candidate r (some x₂)) (.inr ⟨m₁, m, hv, hm1, hm2⟩)
        exact ⟨m', hres m' h3, h4⟩

/-- Such a tilt exists if the body centre is seen at an angle from the optical
axis not beyond the colatitude of the sub-observer point. -/
theorem tilt_exists (g : ViewInput) (ro : Vec ℝ 3) (hr : 0 < g.range)
    (hm : magnitude3 ro = g.range) (hc : 0 ≤ cos g.subLat)
    (hy : |sin g.subLat| * g.range ≤ -ro 1) :
    ∃ θ ∈ Set.Icc (-(π / 2)) (π / 2), ∃ t, matVec (o2b g.positionAngle θ t) ro = g.rangeB := by
  have h1 : g.range * g.turned ro 1 = ro 1 := by
    have := congrFun (turned_scaled g ro hr hm).1 1
    simpa [rotY] using this.symm
  have hle : |sin g.subLat| ≤ -g.turned ro 1 := by
    by_contra hlt
    have := mul_lt_mul_of_pos_left (not_le.1 hlt) hr
    linarith
  obtain ⟨hle1, hle2⟩ := abs_le.1 hle
  have hcont : ContinuousOn (fun θ => -g.turned ro 1 * sin θ + g.turned ro 2 * cos θ)
      (Set.Icc (-(π / 2)) (π / 2)) := by fun_prop
  have hivt := intermediate_value_Icc (by linarith [pi_pos]) hcont
  obtain ⟨θ, hθ, he⟩ := hivt (show sin g.subLat ∈ Set.Icc _ _ by
    simp only [sin_neg, sin_pi_div_two, cos_neg, cos_pi_div_two, mul_zero, add_zero, mul_one,
      mul_neg, neg_neg, Set.mem_Icc]
    constructor <;> linarith)
  exact ⟨θ, hθ, _, o2b_maps g ro hr hm hc θ he⟩

/-- What a user expects of a camera set up from the pixel coordinates of the
body centre (sample, line). -/
structure Consistent (c : Camera) (center : ℝ × ℝ) : Prop where
  rotation : IsRotation c.observ2body
  inverse : c.body2observ = transpose c.observ2body
  km_pos : 0 < c.km
  normal_pos : 0 < c.normalRange
  /-- One pixel at the focal length spans `km` at the normal range. -/
  focal : c.focalPixels * c.km = c.normalRange
  /-- The observer lies at the given range above the sub-observer point. -/
  range_eq : c.rangeB = c.toViewInput.rangeB
  /-- The rotation carries the position of the observer relative to the body
  from camera coordinates (right, along the optical axis, up) to body
  coordinates. -/
  aligned : matVec c.observ2body (vec3 ((c.oaS - center.1) * c.km) (-c.normalRange)
    ((center.2 - c.oaL) * c.km)) = c.rangeB

theorem rangeO_mag (g : ViewInput) (oaS oaL km : ℝ) (ctr : ℝ × ℝ) (hr : 0 < g.range)
    (h : km ^ 2 * ((oaS - ctr.1) ^ 2 + (ctr.2 - oaL) ^ 2) ≤ g.range ^ 2) :
    magnitude3 (g.rangeO oaS oaL km ctr) = g.range ∧
    g.rangeO oaS oaL km ctr 0 = (oaS - ctr.1) * km ∧
    g.rangeO oaS oaL km ctr 2 = (ctr.2 - oaL) * km ∧
    -g.rangeO oaS oaL km ctr 1 =
      √(g.range ^ 2 - km ^ 2 * ((oaS - ctr.1) ^ 2 + (ctr.2 - oaL) ^ 2)) := by
  have hsq := magnitude3_sq (vec3 ((oaS - ctr.1) * km) 0 ((ctr.2 - oaL) * km))
  have e0 : vec3 ((oaS - ctr.1) * km) 0 ((ctr.2 - oaL) * km) 0 = (oaS - ctr.1) * km := rfl
  have e1 : vec3 ((oaS - ctr.1) * km) 0 ((ctr.2 - oaL) * km) 1 = 0 := rfl
  have e2 : vec3 ((oaS - ctr.1) * km) 0 ((ctr.2 - oaL) * km) 2 = (ctr.2 - oaL) * km := rfl
  rw [e0, e1, e2] at hsq
  set mag := magnitude3 (vec3 ((oaS - ctr.1) * km) 0 ((ctr.2 - oaL) * km)) with hmag
  have h3 : (g.range - mag) * (g.range + mag) =
      g.range ^ 2 - km ^ 2 * ((oaS - ctr.1) ^ 2 + (ctr.2 - oaL) ^ 2) := by
    linear_combination -hsq
  have r0 : g.rangeO oaS oaL km ctr 0 = (oaS - ctr.1) * km := rfl
  have r1 : g.rangeO oaS oaL km ctr 1 = -√((g.range - mag) * (g.range + mag)) := rfl
  have r2 : g.rangeO oaS oaL km ctr 2 = (ctr.2 - oaL) * km := rfl
  refine ⟨?_, r0, r2, by rw [r1, neg_neg, h3]⟩
  rw [magnitude3, r0, r1, r2, neg_sq, h3, Real.sq_sqrt (by linarith)]
  rw [show ((oaS - ctr.1) * km) ^ 2 + (g.range ^ 2 - km ^ 2 * ((oaS - ctr.1) ^ 2 +
    (ctr.2 - oaL) ^ 2)) + ((ctr.2 - oaL) * km) ^ 2 = g.range ^ 2 by ring]
  exact Real.sqrt_sq hr.le

/-- The optical axis: the coordinates given, and otherwise the middle of the photo. -/
structure AxisAt (g : ViewInput) (samples lines : ℕ) (oa : ℝ × ℝ) : Prop where
  sample : ∀ x, g.oaSample = some x → oa.1 = x
  line : ∀ y, g.oaLine = some y → oa.2 = y
  middleSample : g.oaSample = none → oa.1 = samples / 2
  middleLine : g.oaLine = none → oa.2 = lines / 2

theorem AxisAt.eq {g : ViewInput} {samples lines : ℕ} {oa : ℝ × ℝ} (h : AxisAt g samples lines oa) :
    oa = g.axis samples lines := by
  refine Prod.ext ?_ ?_
  · cases hs : g.oaSample with
    | none => simp [axis, hs, h.middleSample hs]
    | some x => simp [axis, hs, h.sample x hs]
  · cases hs : g.oaLine with
    | none => simp [axis, hs, h.middleLine hs]
    | some x => simp [axis, hs, h.line x hs]

/-- Set-up from the body centre and the scale in km per pixel. -/
theorem C68_setup_km (g : ViewInput) (center : ℝ × ℝ) (samples lines : ℕ) (oa : ℝ × ℝ) (km : ℝ)
    (hoa : AxisAt g samples lines oa) (hk : g.kmPerPixel = some km) (hkm : 0 < km)
    (hr : 0 < g.range) (hc : 0 ≤ cos g.subLat)
    (hoff : km ^ 2 * ((oa.1 - center.1) ^ 2 +
      (center.2 - oa.2) ^ 2) < g.range ^ 2 * cos g.subLat ^ 2) :
    ∃ c, g.finalizeCenter center samples lines = .ok c ∧ c.toViewInput = g ∧ c.km = km ∧
      (c.oaS, c.oaL) = oa ∧ Consistent c center := by
  obtain rfl := hoa.eq
  have htrig := sin_sq_add_cos_sq g.subLat
  have hr2 : 0 < g.range ^ 2 := by positivity
  obtain ⟨hm, h0, h2, h1⟩ := rangeO_mag g (g.axis samples lines).1 (g.axis samples lines).2 km
    center hr (by nlinarith [mul_nonneg hr2.le (sq_nonneg (sin g.subLat))])
  set ro := g.rangeO (g.axis samples lines).1 (g.axis samples lines).2 km center with hro
  have hpos : 0 < -ro 1 := by
    rw [h1]
    apply Real.sqrt_pos.2
    nlinarith [mul_nonneg hr2.le (sq_nonneg (sin g.subLat))]
  have htilt : |sin g.subLat| * g.range ≤ -ro 1 := by
    rw [h1]
    apply Real.le_sqrt_of_sq_le
    rw [mul_pow, sq_abs]
    nlinarith
  obtain ⟨m, hm1, hm2⟩ := C68_center g ro hr hm hc (by linarith)
    (tilt_exists g ro hr hm hc htilt)
  unfold finalizeCenter Outcome.bind pixelScale
  simp only [hk, ← hro, hm1]
  refine ⟨_, rfl, rfl, rfl, rfl, (C41_center g ro m hm1).1, rfl, hkm, hpos, ?_, rfl, ?_⟩
  · simp only [Option.getD_none]
    field_simp
  · simp only [neg_neg]
    rw [← h0, ← h2]
    convert hm2 using 2
    funext i
    fin_cases i <;> rfl

/-- Set-up from the body centre, the focal length and the scale of the
detector. -/
theorem C68_setup_focal (g : ViewInput) (center : ℝ × ℝ) (samples lines : ℕ) (oa : ℝ × ℝ) (f s : ℝ)
    (hoa : AxisAt g samples lines oa) (hk : g.kmPerPixel = none) (hf : g.focalLength = some f)
    (hs : g.scale = some s)
    (hfs : 0 < f * s) (hr : 0 < g.range) (hc : 0 ≤ cos g.subLat)
    (hoff : sin g.subLat ^ 2 * ((oa.1 - center.1) ^ 2 + (f * s) ^ 2 +
      (center.2 - oa.2) ^ 2) ≤ (f * s) ^ 2) :
    ∃ c, g.finalizeCenter center samples lines = .ok c ∧ c.toViewInput = g ∧
      c.focalPixels = f * s ∧ (c.oaS, c.oaL) = oa ∧ Consistent c center := by
  obtain rfl := hoa.eq
  set D := magnitude3 (vec3 ((g.axis samples lines).1 - center.1) (f * s)
    ((g.axis samples lines).2 - center.2)) with hD
  have hDsq : D ^ 2 = ((g.axis samples lines).1 - center.1) ^ 2 + (f * s) ^ 2 +
      (center.2 - (g.axis samples lines).2) ^ 2 := by
    rw [hD, magnitude3_sq]
    simp only [vec3, Matrix.cons_val]
    ring
  have hDpos : 0 < D := by
    refine lt_of_le_of_ne (magnitude3_nonneg _) fun h => ?_
    rw [← h] at hDsq
    nlinarith [sq_nonneg ((g.axis samples lines).1 - center.1),
      sq_nonneg (center.2 - (g.axis samples lines).2), mul_pos hfs hfs]
  set km := g.range / D with hkmdef
  have hkm : 0 < km := by positivity
  have hkD : km * D = g.range := by rw [hkmdef]; field_simp
  have hrr : g.range ^ 2 - km ^ 2 * (((g.axis samples lines).1 - center.1) ^ 2 +
      (center.2 - (g.axis samples lines).2) ^ 2) = (km * (f * s)) ^ 2 := by
    rw [← hkD]
    linear_combination km ^ 2 * hDsq
  obtain ⟨hm, h0, h2, h1⟩ := rangeO_mag g (g.axis samples lines).1 (g.axis samples lines).2 km
    center hr (by nlinarith [sq_nonneg (km * (f * s))])
  set ro := g.rangeO (g.axis samples lines).1 (g.axis samples lines).2 km center with hro
  have hnr : -ro 1 = km * (f * s) := by rw [h1, hrr, Real.sqrt_sq (by positivity)]
  have hpos : 0 < -ro 1 := by rw [hnr]; positivity
  have htilt : |sin g.subLat| * g.range ≤ -ro 1 := by
    rw [h1]
    apply Real.le_sqrt_of_sq_le
    rw [mul_pow, sq_abs, hrr, ← hkD]
    rw [← hDsq] at hoff
    have := mul_le_mul_of_nonneg_left hoff (sq_nonneg km)
    nlinarith
  obtain ⟨m, hm1, hm2⟩ := C68_center g ro hr hm hc (by linarith)
    (tilt_exists g ro hr hm hc htilt)
  unfold finalizeCenter Outcome.bind pixelScale
  simp only [hk, hf, hs, ← hD, ← hkmdef, ← hro, hm1]
  refine ⟨_, rfl, rfl, rfl, rfl, (C41_center g ro m hm1).1, rfl, hkm, hpos, ?_, rfl, ?_⟩
  · simp only [Option.getD_some]
    rw [hnr]
    ring
  · simp only [neg_neg]
    rw [← h0, ← h2]
    convert hm2 using 2
    funext i
    fin_cases i <;> rfl

/-- The hypotheses of the two set-ups are met at a sub-observer latitude of 30°
from 13 km, with the body centre 3 samples and 4 lines off the middle of an
image of 20 by 16 pixels at 1 km per pixel or 12 pixels of focal length. -/
example : (1 : ℝ) ^ 2 * ((((20 : ℕ) : ℝ) / 2 - 7) ^ 2 + (4 - ((16 : ℕ) : ℝ) / 2) ^ 2) <
      13 ^ 2 * cos (π / 6) ^ 2 ∧
    sin (π / 6) ^ 2 * ((((20 : ℕ) : ℝ) / 2 - 7) ^ 2 + (12 * 1) ^ 2 +
      (4 - ((16 : ℕ) : ℝ) / 2) ^ 2) ≤ (12 * 1) ^ 2 := by
  rw [cos_pi_div_six, sin_pi_div_six, div_pow, Real.sq_sqrt (by norm_num)]
  norm_num

/-- In a consistent camera the body's centre is imaged on the given pixel by a
perspective projection through the optical axis. -/
theorem C68_center_image (c : Camera) (center : ℝ × ℝ) (h : Consistent c center) :
    let toCenter := matVec c.body2observ (vecSub (fun _ => 0) c.rangeB)
    0 < toCenter 1 ∧
    toCenter 0 / toCenter 1 * c.focalPixels + c.oaS = center.1 ∧
    c.oaL - toCenter 2 / toCenter 1 * c.focalPixels = center.2 := by
  have h1 : matVec c.body2observ c.rangeB = vec3 ((c.oaS - center.1) * c.km) (-c.normalRange)
      ((center.2 - c.oaL) * c.km) := by
    rw [← h.aligned, h.inverse]
    exact (h.rotation.apply_transpose _).2
  have h2 : matVec c.body2observ (vecSub (fun _ => 0) c.rangeB) =
      vec3 (-((c.oaS - center.1) * c.km)) c.normalRange (-((center.2 - c.oaL) * c.km)) := by
    have : ∀ i, matVec c.body2observ (vecSub (fun _ => 0) c.rangeB) i =
        -matVec c.body2observ c.rangeB i := by
      intro i
      simp only [matVec, sumLoop_three, vecSub]
      ring
    funext i
    rw [this, h1]
    fin_cases i <;> simp [vec3]
  simp only [h2]
  have hn := h.normal_pos
  have hf := h.focal
  have hk := h.km_pos
  have hF : c.focalPixels = c.normalRange / c.km := by rw [← hf]; field_simp
  refine ⟨hn, ?_, ?_⟩ <;> simp only [vec3, Matrix.cons_val, hF] <;> field_simp <;> ring

/-- The north pole appears at the position angle, counted from the upward
direction of the image towards the left, and towards that side, not the
opposite one. -/
theorem C68_pole (g : ViewInput) (ro : Vec ℝ 3) (m : Mat ℝ 3 3)
    (h : g.rotMatricesCenter ro = some (some m)) :
    ∃ k, 0 ≤ k ∧ matVec (transpose m) (vec3 0 0 1) 0 = -k * sin g.positionAngle ∧
      matVec (transpose m) (vec3 0 0 1) 2 = k * cos g.positionAngle := by
  simp only [rotMatricesCenter, Option.map_eq_some_iff] at h
  obtain ⟨roots, -, hc⟩ := h
  have key : ∀ s z, ∃ k, 0 ≤ k ∧
      matVec (transpose (o2b g.positionAngle (arcsin s) z)) (vec3 0 0 1) 0 =
        -k * sin g.positionAngle ∧
      matVec (transpose (o2b g.positionAngle (arcsin s) z)) (vec3 0 0 1) 2 =
        k * cos g.positionAngle := by
    intro s z
    refine ⟨cos (arcsin s), cos_arcsin_nonneg s, ?_⟩
    simp only [matVec, transpose, o2b, matMul, sumLoop_three, rotZMatrix, rotXMatrix, rotYMatrix,
      vec3, Matrix.cons_val, cos_neg, sin_neg]
    norm_num
  rcases choose_mem _ _ _ _ _ hc with h1 | h1 <;>
    obtain ⟨s, -, -, -, rfl⟩ := candidate_form g _ _ _ h1 <;> exact key _ _

end ViewInput

end MaRC
