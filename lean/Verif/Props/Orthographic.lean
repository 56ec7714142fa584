import Verif.Spec.Orthographic
import Verif.Props.Projection
import Verif.Props.Intersection
import Verif.Lemmas.LinearAlgebra

/-!
# C18, C70: orthographic maps
-/

namespace MaRC.Projection

open Real Set Geo Matrix

namespace Ortho

/-- The observer an orthographic projection stands for. -/
def viewer (o : Ortho) : Viewer := ⟨o.subLat, o.subLon, o.pa, o.prograde⟩

/-- What holds of every constructed projection in the polar case. -/
def Turned (o : Ortho) : Prop :=
  o.polar = true → sin o.pa = 0 ∧ cos o.subLat = 0

theorem polarView_turned (prograde : Bool) (d : ℝ) :
    sin (polarView prograde d).pa = 0 ∧ cos (polarView prograde d).subLat = 0 := by
  constructor
  · simp only [polarView]
    split_ifs <;> simp
  · simp only [polarView]
    split_ifs <;> simp

theorem makeView_ok {prograde : Bool} {subLat subLon pa : ℝ} {v : View}
    (h : makeView prograde subLat subLon pa = .ok v) :
    |subLat| ≤ 90 ∧ |subLon| ≤ 360 ∧ |pa| ≤ 360 ∧
    ((AlmostEqual |subLat| 90 4 ∧ v = polarView prograde subLat) ∨
     (¬ AlmostEqual |subLat| 90 4 ∧
      v = ⟨subLat * degree,
        if subLon * degree < 0 then subLon * degree + 2 * π else subLon * degree,
        pa * degree, false⟩)) := by
  simp only [makeView] at h
  cases h1 : validateLat subLat with
  | throw e => simp [h1] at h
  | ub => simp [h1] at h
  | ok a =>
    cases h2 : validateLon subLon with
    | throw e => simp [h1, h2] at h
    | ub => simp [h1, h2] at h
    | ok b =>
      cases h3 : validateLon pa with
      | throw e => simp [h1, h2, h3] at h
      | ub => simp [h1, h2, h3] at h
      | ok c =>
        obtain ⟨a1, a2, rfl⟩ := validateLat_ok.1 h1
        obtain ⟨b1, b2, rfl⟩ := validateLon_ok.1 h2
        obtain ⟨c1, c2, rfl⟩ := validateLon_ok.1 h3
        simp only [h1, h2, h3, Outcome.bind_ok] at h
        refine ⟨abs_le.2 ⟨a1, a2⟩, abs_le.2 ⟨b1, b2⟩, abs_le.2 ⟨c1, c2⟩, ?_⟩
        split_ifs at h with hp hn
        · exact .inl ⟨hp, (Outcome.ok.inj h).symm⟩
        · refine .inr ⟨hp, ?_⟩
          rw [if_pos hn]; exact (Outcome.ok.inj h).symm
        · refine .inr ⟨hp, ?_⟩
          rw [if_neg hn]; exact (Outcome.ok.inj h).symm

theorem new_ok {body : Spheroid} {prograde : Bool} {subLat subLon pa km : ℝ}
    {center : CenterInput} {o : Ortho}
    (h : Ortho.new body prograde subLat subLon pa km center = .ok o) :
    ∃ v c, makeView prograde subLat subLon pa = .ok v ∧
      makeCenter body prograde v center = .ok c ∧
      o.body = body ∧ o.prograde = prograde ∧ o.subLat = v.subLat ∧ o.subLon = v.subLon ∧
      o.pa = v.pa ∧ o.polar = v.polar ∧ o.center = c ∧ (0 < km → o.kmPerPixel = some km) ∧
      (km ≤ 0 → o.kmPerPixel = none) := by
  rw [Ortho.new] at h
  cases h1 : makeView prograde subLat subLon pa with
  | throw e => simp [h1] at h
  | ub => simp [h1] at h
  | ok v =>
    cases h2 : makeCenter body prograde v center with
    | throw e => simp [h1, h2] at h
    | ub => simp [h1, h2] at h
    | ok c =>
      simp only [h1, h2, Outcome.bind_ok, Outcome.ok.injEq] at h
      subst h
      refine ⟨v, c, rfl, h2, rfl, rfl, rfl, rfl, rfl, rfl, rfl, fun hk => ?_, fun hk => ?_⟩
      · simp [hk]
      · simp [not_lt.2 hk]

theorem new_turned {body : Spheroid} {prograde : Bool} {subLat subLon pa km : ℝ}
    {center : CenterInput} {o : Ortho}
    (h : Ortho.new body prograde subLat subLon pa km center = .ok o) : o.Turned := by
  obtain ⟨v, c, hv, -, -, -, h1, -, h2, h3, -⟩ := new_ok h
  obtain ⟨-, -, -, ⟨-, rfl⟩ | ⟨-, rfl⟩⟩ := makeView_ok hv
  · intro _
    rw [h1, h2]
    exact polarView_turned _ _
  · intro hp
    rw [h3] at hp
    exact absurd hp (by simp)

variable {o : Ortho}

/-- The point of space `x` east, `z` north and `-y` towards the observer. -/
noncomputable def place (o : Ortho) (x y z : ℝ) : Point :=
  x • o.viewer.east + z • o.viewer.north - y • o.viewer.toward

theorem east_val (v : Viewer) (p : Point) : p ⬝ᵥ v.east =
    -(p 0 * sin (eastward v.prograde v.subLon)) + p 1 * cos (eastward v.prograde v.subLon) := by
  rw [Spheroid.dot3]
  simp [Viewer.east]

theorem north_val (v : Viewer) (p : Point) : p ⬝ᵥ v.north =
    -(p 0 * sin v.subLat * cos (eastward v.prograde v.subLon))
      - p 1 * sin v.subLat * sin (eastward v.prograde v.subLon) + p 2 * cos v.subLat := by
  rw [Spheroid.dot3]
  simp [Viewer.north]
  ring

theorem toward_val (v : Viewer) (p : Point) : p ⬝ᵥ v.toward =
    p 0 * cos v.subLat * cos (eastward v.prograde v.subLon)
      + p 1 * cos v.subLat * sin (eastward v.prograde v.subLon) + p 2 * sin v.subLat := by
  rw [Spheroid.dot3]
  simp [Viewer.toward, direction]
  ring

theorem place_val (x y z : ℝ) :
    o.place x y z 0 = -x * sin (eastward o.prograde o.subLon)
      - (z * sin o.subLat + y * cos o.subLat) * cos (eastward o.prograde o.subLon) ∧
    o.place x y z 1 = x * cos (eastward o.prograde o.subLon)
      - (z * sin o.subLat + y * cos o.subLat) * sin (eastward o.prograde o.subLon) ∧
    o.place x y z 2 = z * cos o.subLat - y * sin o.subLat := by
  refine ⟨?_, ?_, ?_⟩ <;>
    simp [place, viewer, Viewer.east, Viewer.north, Viewer.toward, direction] <;> ring

theorem place_east (x y z : ℝ) : o.place x y z ⬝ᵥ o.viewer.east = x := by
  obtain ⟨h0, h1, -⟩ := place_val (o := o) x y z
  rw [east_val, h0, h1]
  simp only [viewer]
  linear_combination x * sin_sq_add_cos_sq (eastward o.prograde o.subLon)

theorem place_north (x y z : ℝ) : o.place x y z ⬝ᵥ o.viewer.north = z := by
  obtain ⟨h0, h1, h2⟩ := place_val (o := o) x y z
  rw [north_val, h0, h1, h2]
  simp only [viewer]
  linear_combination (z * sin o.subLat + y * cos o.subLat) * sin o.subLat *
    sin_sq_add_cos_sq (eastward o.prograde o.subLon) + z * sin_sq_add_cos_sq o.subLat

theorem place_toward (x y z : ℝ) : o.place x y z ⬝ᵥ o.viewer.toward = -y := by
  obtain ⟨h0, h1, h2⟩ := place_val (o := o) x y z
  rw [toward_val, h0, h1, h2]
  simp only [viewer]
  linear_combination -(z * sin o.subLat + y * cos o.subLat) * cos o.subLat *
    sin_sq_add_cos_sq (eastward o.prograde o.subLon) - y * sin_sq_add_cos_sq o.subLat

/-- Every point is at some place. -/
theorem place_self (p : Point) :
    o.place (p ⬝ᵥ o.viewer.east) (-(p ⬝ᵥ o.viewer.toward)) (p ⬝ᵥ o.viewer.north) = p := by
  obtain ⟨h0, h1, h2⟩ := place_val (o := o) (p ⬝ᵥ o.viewer.east) (-(p ⬝ᵥ o.viewer.toward))
    (p ⬝ᵥ o.viewer.north)
  have e := sin_sq_add_cos_sq (eastward o.prograde o.subLon)
  have f := sin_sq_add_cos_sq o.subLat
  rw [east_val, north_val, toward_val] at h0 h1 h2
  simp only [viewer] at h0 h1 h2
  set S := sin (eastward o.prograde o.subLon)
  set C := cos (eastward o.prograde o.subLon)
  set s := sin o.subLat
  set c := cos o.subLat
  rw [east_val, north_val, toward_val]
  simp only [viewer]
  ext i
  fin_cases i
  · refine h0.trans ?_
    simp only [Fin.zero_eta]
    linear_combination p 0 * e + (p 0 * C ^ 2 + p 1 * S * C) * f
  · refine h1.trans ?_
    simp only [Fin.mk_one]
    linear_combination p 1 * e + (p 0 * C * S + p 1 * S ^ 2) * f
  · refine h2.trans ?_
    simp only [Fin.reduceFinMk]
    linear_combination p 2 * f

/-- The equation of the spheroid along a line of sight. -/
theorem level_place (h : o.body.Valid) (x y z : ℝ) :
    o.body.eqRad ^ 2 * o.body.polRad ^ 2 *
      (level o.body.eqRad o.body.polRad (o.place x y z) - 1) =
      o.coefA * y ^ 2 - o.coefB z * y + o.coefC x z := by
  have ha : o.body.eqRad ≠ 0 := (lt_of_lt_of_le h.pol_pos h.le).ne'
  have hc : o.body.polRad ≠ 0 := h.pol_pos.ne'
  obtain ⟨h0, h1, h2⟩ := place_val (o := o) x y z
  rw [level, h0, h1, h2, coefA, coefB, coefC, diff, sin_two_mul]
  have e := sin_sq_add_cos_sq (eastward o.prograde o.subLon)
  have f := sin_sq_add_cos_sq o.subLat
  set S := sin (eastward o.prograde o.subLon)
  set C := cos (eastward o.prograde o.subLon)
  set s := sin o.subLat
  set c := cos o.subLat
  field_simp
  linear_combination o.body.polRad ^ 2 * (x ^ 2 + (z * s + y * c) ^ 2) * e +
    (o.body.eqRad ^ 2 * z ^ 2 + o.body.polRad ^ 2 * y ^ 2) * f

theorem coefA_pos (h : o.body.Valid) : 0 < o.coefA := by
  have h1 := h.pol_pos
  have h2 := h.le
  have : 0 ≤ o.diff := by
    rw [diff]
    exact mul_nonneg (by linarith) (by linarith)
  rw [coefA]
  positivity

/-- The smaller root. -/
theorem minRoot_spec {a b c : ℝ} (ha : 0 < a) :
    (quadraticRoots a b c = none ∧ ∀ y, a * y ^ 2 + b * y + c ≠ 0) ∨
    ∃ roots y, quadraticRoots a b c = some roots ∧ minRoot roots = some y ∧
      a * y ^ 2 + b * y + c = 0 ∧ ∀ y', a * y' ^ 2 + b * y' + c = 0 → y ≤ y' := by
  by_cases hd : 0 ≤ b ^ 2 - 4 * a * c
  · right
    by_cases hbc : b = 0 ∧ c = 0
    · obtain ⟨rfl, rfl⟩ := hbc
      refine ⟨_, 0, (C38_violated a ha.ne').1, rfl, by simp, fun y' hy => ?_⟩
      have h0 : a * y' ^ 2 = 0 := by linarith
      rcases mul_eq_zero.1 h0 with h | h
      · exact absurd h ha.ne'
      · exact (pow_eq_zero_iff two_ne_zero).1 h ▸ le_rfl
    · obtain ⟨x₁, x₂, h1, -, h3⟩ := C38_roots a b c ha.ne' hbc hd
      by_cases hlt : x₂ < x₁
      · refine ⟨_, x₂, h1, by simp [minRoot, hlt], (h3 _).2 (.inr rfl), fun y' hy => ?_⟩
        rcases (h3 _).1 hy with rfl | rfl
        · exact hlt.le
        · exact le_rfl
      · refine ⟨_, x₁, h1, by simp [minRoot, hlt], (h3 _).2 (.inl rfl), fun y' hy => ?_⟩
        rcases (h3 _).1 hy with rfl | rfl
        · exact le_rfl
        · exact not_lt.1 hlt
  · left
    have h1 : ¬ (quadraticRoots a b c).isSome := fun h => hd ((C38_success a b c).1.1 h)
    refine ⟨by simpa using h1, fun y hy => ?_⟩
    exact h1 (((C38_success a b c).2 ha.ne').2 ⟨y, hy⟩)

/-- Image coordinates with north up. -/
noncomputable def east (o : Ortho) (x z : ℝ) : ℝ := x * cos o.pa + z * sin o.pa
noncomputable def north (o : Ortho) (x z : ℝ) : ℝ := -x * sin o.pa + z * cos o.pa

theorem image_place (x y z X Z : ℝ) :
    o.viewer.image (o.place X y Z) = (x, z) ↔ X = o.east x z ∧ Z = o.north x z := by
  rw [Viewer.image, place_east, place_north, Prod.mk.injEq, east, north]
  simp only [viewer]
  have e := sin_sq_add_cos_sq o.pa
  constructor
  · rintro ⟨rfl, rfl⟩
    constructor
    · linear_combination -X * e
    · linear_combination -Z * e
  · rintro ⟨rfl, rfl⟩
    constructor
    · linear_combination x * e
    · linear_combination z * e

/-- The points of space seen at a position. -/
theorem seenAt_iff (h : o.body.Valid) (x z : ℝ) (p : Point) :
    o.viewer.SeenAt o.body x z p ↔ ∃ y, p = o.place (o.east x z) y (o.north x z) ∧
      o.coefA * y ^ 2 - o.coefB (o.north x z) * y + o.coefC (o.east x z) (o.north x z) = 0 := by
  have ha : 0 < o.body.eqRad := lt_of_lt_of_le h.pol_pos h.le
  have hc := h.pol_pos
  have hac : o.body.eqRad ^ 2 * o.body.polRad ^ 2 ≠ 0 := by positivity
  rw [Viewer.SeenAt, OnSpheroid]
  constructor
  · rintro ⟨h1, h2⟩
    rw [← place_self (o := o) p, image_place] at h2
    refine ⟨-(p ⬝ᵥ o.viewer.toward), ?_, ?_⟩
    · rw [← h2.1, ← h2.2, place_self]
    · rw [← level_place h, ← h2.1, ← h2.2, place_self, h1]
      ring
  · rintro ⟨y, rfl, hy⟩
    rw [← level_place h] at hy
    refine ⟨?_, (image_place _ _ _ _ _).2 ⟨rfl, rfl⟩⟩
    rcases mul_eq_zero.1 hy with h' | h'
    · exact absurd h' hac
    · linarith

/-- `locate` with north up. -/
theorem locate_eq (ht : o.Turned) (x z : ℝ) :
    o.locate x z = match quadraticRoots o.coefA (o.coefB (o.north x z))
        (o.coefC (o.east x z) (o.north x z)) with
      | none => none
      | some roots => (minRoot roots).map fun y => o.latLon
          (o.east x z, y * cos o.subLat + o.north x z * sin o.subLat,
            -y * sin o.subLat + o.north x z * cos o.subLat) := by
  rw [locate]
  by_cases hp : o.polar = true
  · obtain ⟨h1, h2⟩ := ht hp
    have hpa : cos o.pa ^ 2 = 1 := by nlinarith [sin_sq_add_cos_sq o.pa]
    have hX : o.east x z = x * cos o.pa := by rw [east, h1]; ring
    have hZ : o.north x z = z * cos o.pa := by rw [north, h1]; ring
    have hB : o.coefB z = o.coefB (o.north x z) := by
      rw [coefB, coefB, sin_two_mul, h2]; ring
    have hC : o.coefC x z = o.coefC (o.east x z) (o.north x z) := by
      rw [coefC, coefC, hX, hZ]
      linear_combination -(o.body.eqRad ^ 2 * z ^ 2 + o.body.polRad ^ 2 * x ^ 2
        - o.diff * z ^ 2 * sin o.subLat ^ 2) * hpa
    simp only [upright, hp, if_true]
    rw [hB, hC]
    cases quadraticRoots o.coefA (o.coefB (o.north x z)) (o.coefC (o.east x z) (o.north x z)) with
    | none => rfl
    | some roots =>
      simp only
      congr 1
      funext y
      congr 1
      simp only [bodyPoint, hp, if_true]
      simp [matVec, sumLoop_three, Geometry.rotXMatrix, h1, h2, hX, hZ]
      constructor <;> ring
  · simp only [upright, hp, if_false, Bool.false_eq_true]
    have h0 : matVec (Geometry.rotYMatrix (-o.pa)) ![x, 0, z] 0 = o.east x z := by
      simp [matVec, sumLoop_three, Geometry.rotYMatrix, east]; ring
    have h2 : matVec (Geometry.rotYMatrix (-o.pa)) ![x, 0, z] 2 = o.north x z := by
      simp [matVec, sumLoop_three, Geometry.rotYMatrix, north]; ring
    rw [h0, h2]
    cases quadraticRoots o.coefA (o.coefB (o.north x z)) (o.coefC (o.east x z) (o.north x z)) with
    | none => rfl
    | some roots =>
      simp only
      congr 1
      funext y
      congr 1
      simp only [bodyPoint, hp, if_false, Bool.false_eq_true]
      simp [matVec, sumLoop_three, Geometry.rotXMatrix]
      constructor <;> ring

/-- Latitude and longitude reported for body coordinates are those of the point
of space. -/
theorem latLon_direction (x y z lat lon : ℝ)
    (h : o.latLon (x, y * cos o.subLat + z * sin o.subLat,
      -y * sin o.subLat + z * cos o.subLat) = (lat, lon)) :
    o.place x y z = √(o.place x y z ⬝ᵥ o.place x y z) •
      direction lat (eastward o.prograde lon) := by
  obtain ⟨h0, h1, h2⟩ := place_val (o := o) x y z
  set b1 := y * cos o.subLat + z * sin o.subLat with hb1
  set b2 := -y * sin o.subLat + z * cos o.subLat with hb2
  have g0 : o.place x y z 0 = -x * sin (eastward o.prograde o.subLon)
      - b1 * cos (eastward o.prograde o.subLon) := by rw [h0, hb1]; ring
  have g1 : o.place x y z 1 = x * cos (eastward o.prograde o.subLon)
      - b1 * sin (eastward o.prograde o.subLon) := by rw [h1, hb1]; ring
  have g2 : o.place x y z 2 = b2 := by rw [h2, hb2]; ring
  simp only [latLon, Prod.mk.injEq, atan2] at h
  obtain ⟨hlat, hlon⟩ := h
  have c1 := Complex.norm_mul_cos_arg (⟨b1, -x⟩ : ℂ)
  have s1 := Complex.norm_mul_sin_arg (⟨b1, -x⟩ : ℂ)
  have n1 : ‖(⟨b1, -x⟩ : ℂ)‖ = hypot x b1 := by
    rw [Complex.norm_def, Complex.normSq_mk, hypot]; congr 1; ring
  rw [n1] at c1 s1
  simp only at c1 s1
  have c2 := Complex.norm_mul_cos_arg (⟨hypot x b1, b2⟩ : ℂ)
  have s2 := Complex.norm_mul_sin_arg (⟨hypot x b1, b2⟩ : ℂ)
  have hh : hypot x b1 ^ 2 = x ^ 2 + b1 ^ 2 := by rw [hypot, sq_sqrt (by positivity)]
  have n2 : ‖(⟨hypot x b1, b2⟩ : ℂ)‖ = √(o.place x y z ⬝ᵥ o.place x y z) := by
    rw [Complex.norm_def, Complex.normSq_mk, Spheroid.dot3, g0, g1, g2, ← pow_two, ← pow_two, hh]
    congr 1
    linear_combination -(x ^ 2 + b1 ^ 2) * sin_sq_add_cos_sq (eastward o.prograde o.subLon)
  rw [n2, hlat] at c2 s2
  simp only at c2 s2
  set θ := Complex.arg (⟨b1, -x⟩ : ℂ)
  set r := √(o.place x y z ⬝ᵥ o.place x y z)
  have hE : eastward o.prograde lon = eastward o.prograde o.subLon + θ - π := by
    rw [← hlon, eastward, eastward]
    cases o.prograde
    · simp
    · simp only [if_true]; ring
  ext i
  fin_cases i
  · simp only [Fin.zero_eta, direction, Pi.smul_apply, smul_eq_mul, Matrix.cons_val]
    rw [g0, hE, cos_sub_pi, cos_add]
    linear_combination (cos (eastward o.prograde o.subLon) * cos θ
      - sin (eastward o.prograde o.subLon) * sin θ) * c2
      + cos (eastward o.prograde o.subLon) * c1 - sin (eastward o.prograde o.subLon) * s1
  · simp only [Fin.mk_one, direction, Pi.smul_apply, smul_eq_mul, Matrix.cons_val]
    rw [g1, hE, sin_sub_pi, sin_add]
    linear_combination (sin (eastward o.prograde o.subLon) * cos θ
      + cos (eastward o.prograde o.subLon) * sin θ) * c2
      + sin (eastward o.prograde o.subLon) * c1 + cos (eastward o.prograde o.subLon) * s1
  · simp only [Fin.reduceFinMk, direction, Pi.smul_apply, smul_eq_mul, Matrix.cons_val]
    rw [g2, s2]

theorem place_ne_zero {x y z : ℝ} (h : o.place x y z ≠ 0) :
    0 < √(o.place x y z ⬝ᵥ o.place x y z) := by
  refine sqrt_pos.2 (lt_of_le_of_ne (Spheroid.dot_self_nonneg _) fun e => h ?_)
  rw [Spheroid.dot3] at e
  have h0 := mul_self_nonneg (o.place x y z 0)
  have h1 := mul_self_nonneg (o.place x y z 1)
  have h2 := mul_self_nonneg (o.place x y z 2)
  ext i
  fin_cases i
  · exact mul_self_eq_zero.1 (le_antisymm (by change o.place x y z 0 * o.place x y z 0 ≤ 0; linarith) h0)
  · exact mul_self_eq_zero.1 (le_antisymm (by change o.place x y z 1 * o.place x y z 1 ≤ 0; linarith) h1)
  · exact mul_self_eq_zero.1 (le_antisymm (by change o.place x y z 2 * o.place x y z 2 ≤ 0; linarith) h2)

/-- The centre of sample `i` of line `k`: kilometers to the right of and above
the body's centre. -/
noncomputable def pixelPosition (o : Ortho) (samples lines i k : ℕ) : ℝ × ℝ :=
  (((i : ℝ) + 1 / 2 - (o.mapCenter samples lines).1) * o.mapKm samples lines,
   ((k : ℝ) + 1 / 2 - (o.mapCenter samples lines).2) * o.mapKm samples lines)

theorem mem_plots {samples lines : ℕ} {plots : List Plot}
    (hp : o.plotMap samples lines = .ok plots) {i k : ℕ} (hk : k < lines) (hi : i < samples)
    (c : ℝ × ℝ) : (c, k * samples + i) ∈ plots ↔
      o.locate (o.pixelPosition samples lines i k).1 (o.pixelPosition samples lines i k).2 =
        some c := by
  obtain ⟨plots', h1, -, h2⟩ := C12_orthographic o samples lines
  rw [hp] at h1
  cases Outcome.ok.inj h1
  rw [h2 k hk i hi c, pixelPosition]
  norm_num

theorem locate_cases (hb : o.body.Valid) (ht : o.Turned) (x z : ℝ) :
    (o.locate x z = none ∧ ∀ y, o.coefA * y ^ 2 + o.coefB (o.north x z) * y +
        o.coefC (o.east x z) (o.north x z) ≠ 0) ∨
    ∃ y, o.coefA * y ^ 2 + o.coefB (o.north x z) * y +
        o.coefC (o.east x z) (o.north x z) = 0 ∧
      (∀ y', o.coefA * y' ^ 2 + o.coefB (o.north x z) * y' +
        o.coefC (o.east x z) (o.north x z) = 0 → y ≤ y') ∧
      o.locate x z = some (o.latLon (o.east x z, y * cos o.subLat + o.north x z * sin o.subLat,
            -y * sin o.subLat + o.north x z * cos o.subLat)) := by
  rw [locate_eq ht]
  rcases minRoot_spec (b := o.coefB (o.north x z)) (c := o.coefC (o.east x z) (o.north x z))
    (coefA_pos hb) with ⟨h1, h2⟩ | ⟨roots, y, h1, h2, h3, h4⟩
  · exact .inl ⟨by rw [h1], h2⟩
  · refine .inr ⟨y, h3, h4, ?_⟩
    rw [h1]
    simp only
    rw [h2]
    rfl

theorem locate_isSome (hb : o.body.Valid) (ht : o.Turned) (x z : ℝ) :
    (∃ c, o.locate x z = some c) ↔ ∃ p, o.viewer.SeenAt o.body x z p := by
  rcases locate_cases hb ht x z with ⟨h1, h2⟩ | ⟨y, h1, -, h2⟩
  · refine iff_of_false (by rw [h1]; simp) ?_
    rintro ⟨p, hp⟩
    obtain ⟨y, -, hy⟩ := (seenAt_iff hb x z p).1 hp
    exact h2 (-y) (by linear_combination hy)
  · refine iff_of_true ⟨_, h2⟩ ⟨_, (seenAt_iff hb x z _).2 ⟨-y, rfl, ?_⟩⟩
    linear_combination h1

/-- The plotted latitude and longitude are those of the point found on the line
of sight. -/
theorem locate_surface (hb : o.body.Valid) {x z y lat lon : ℝ}
    (h : o.latLon (o.east x z, y * cos o.subLat + o.north x z * sin o.subLat,
      -y * sin o.subLat + o.north x z * cos o.subLat) = (lat, lon))
    (hne : o.place (o.east x z) y (o.north x z) ≠ 0) :
    ∃ t : ℝ, 0 < t ∧ surfacePoint o.body o.prograde lat lon =
      t • o.place (o.east x z) y (o.north x z) := by
  have h1 := latLon_direction _ _ _ _ _ h
  have h2 := place_ne_zero hne
  set r := √(o.place (o.east x z) y (o.north x z) ⬝ᵥ o.place (o.east x z) y (o.north x z))
  have h3 := Spheroid.centricRadius_pos hb lat
  refine ⟨o.body.centricRadius lat / r, by positivity, ?_⟩
  rw [h1, smul_smul, div_mul_cancel₀ _ h2.ne', surfacePoint]

/-- Where the code's equation and the true one agree, the observer's point is
plotted. -/
theorem locate_sees (hb : o.body.Valid) (ht : o.Turned) {x z lat lon : ℝ}
    (hB : o.coefB (o.north x z) = 0) (h : o.locate x z = some (lat, lon)) :
    o.viewer.Sees o.body x z (surfacePoint o.body o.prograde lat lon) := by
  rcases locate_cases hb ht x z with ⟨h1, -⟩ | ⟨y, h1, h2, h3⟩
  · rw [h] at h1; simp at h1
  rw [h, Option.some.injEq] at h3
  have hseen : o.viewer.SeenAt o.body x z (o.place (o.east x z) y (o.north x z)) :=
    (seenAt_iff hb x z _).2 ⟨y, rfl, by rw [hB] at h1 ⊢; linarith⟩
  have hp : surfacePoint o.body o.prograde lat lon = o.place (o.east x z) y (o.north x z) := by
    have e1 := latLon_direction _ _ _ _ _ h3.symm
    have e2 := hseen.1
    rw [e1] at e2
    rw [surfacePoint, ← (Spheroid.C34_surface hb lat _).2 _ (sqrt_nonneg _) e2, ← e1]
  rw [hp]
  refine ⟨hseen, fun q hq => ?_⟩
  obtain ⟨y', rfl, hy'⟩ := (seenAt_iff hb x z q).1 hq
  rw [place_toward, place_toward, neg_le_neg_iff]
  exact h2 y' (by rw [hB] at hy' ⊢; linarith)

theorem not_polar {d : ℝ} (h0 : 0 ≤ d) (h : d ≤ 89) : ¬ AlmostEqual |d| 90 4 := by
  rw [abs_of_nonneg h0, AlmostEqual, not_or, not_lt, not_lt,
    abs_of_nonpos (by linarith : d - 90 ≤ 0), abs_of_nonneg (by linarith : 0 ≤ d + 90)]
  have e1 : (dblEpsilon : ℝ) ≤ 1 / 2 ^ 20 := by rw [dblEpsilon]; norm_num
  have e2 : (dblMin : ℝ) ≤ 1 := by
    rw [dblMin]; push_cast
    exact div_le_one_of_le₀ (one_le_pow₀ (by norm_num)) (by positivity)
  constructor
  · have : (dblEpsilon : ℝ) * (d + 90) ≤ 1 / 2 ^ 20 * 179 := by
      refine mul_le_mul e1 (by linarith) (by linarith) (by norm_num)
    push_cast
    norm_num at this
    linarith
  · linarith

/-! ## C18 -/

/-- **C18** (the observer).  Away from the poles the observer is above the given
point, and the position angle is the given one; at 90 degrees latitude the
observer is above the pole and sees the prime meridian straight up from it,
whichever way longitudes are counted. -/
theorem C18_viewer {body : Spheroid} {prograde : Bool} {subLat subLon pa km : ℝ}
    {center : CenterInput} {o : Ortho}
    (h : Ortho.new body prograde subLat subLon pa km center = .ok o) :
    o.body = body ∧ o.viewer.prograde = prograde ∧
    (¬ AlmostEqual |subLat| 90 4 →
      o.viewer.subLat = subLat * degree ∧ o.viewer.pa = pa * degree ∧
      (o.viewer.subLon = subLon * degree ∨ o.viewer.subLon = subLon * degree + 2 * π) ∧
      0 ≤ o.viewer.subLon ∧ o.viewer.subLon < 2 * π) ∧
    (AlmostEqual |subLat| 90 4 →
      o.viewer.toward = (if 0 < subLat then ![0, 0, 1] else ![0, 0, -1]) ∧
      o.viewer.image ![1, 0, 0] = (0, 1)) := by
  obtain ⟨v, c, hv, -, h1, h2, h3, h4, h5, -⟩ := new_ok h
  obtain ⟨-, hlon, -, ⟨hp, rfl⟩ | ⟨hp, rfl⟩⟩ := makeView_ok hv
  · refine ⟨h1, h2, fun hn => absurd hp hn, fun _ => ⟨?_, ?_⟩⟩
    · simp only [Viewer.toward, viewer, h2, h3, h4, direction, polarView, gt_iff_lt]
      split_ifs <;> simp
    · have h0 : subLat ≠ 0 := by
        rintro rfl
        exact not_polar le_rfl (by norm_num) hp
      have hs : eastward prograde 0 = 0 := by unfold eastward; split_ifs <;> simp
      simp only [Viewer.image, Viewer.east, Viewer.north, viewer, h2, h3, h4, h5, polarView, hs,
        gt_iff_lt]
      rcases lt_or_gt_of_ne h0 with hn | hn <;> cases prograde <;>
        simp [hn, not_lt.2 hn.le]
  · refine ⟨h1, h2, fun _ => ⟨h3, h5, ?_, ?_, ?_⟩, fun hp' => absurd hp' hp⟩
    · simp only [viewer, h4]
      split_ifs
      · exact .inr rfl
      · exact .inl rfl
    · simp only [viewer, h4]
      have h6 := circle_le
      have h7 := degree_pos
      split_ifs with hn
      · have := mul_le_mul_of_nonneg_right (abs_le.1 hlon).1 h7.le
        linarith
      · exact not_lt.1 hn
    · simp only [viewer, h4]
      have h6 := circle_le
      have h7 := degree_pos
      split_ifs with hn
      · linarith
      · have := mul_le_mul_of_nonneg_right (abs_le.1 hlon).2 h7.le
        linarith

/-- **C18** (plotted pixels).  A pixel is plotted exactly if the line of sight
through its centre meets the body. -/
theorem C18_plotted {body : Spheroid} (hb : body.Valid) {prograde : Bool}
    {subLat subLon pa km : ℝ} {center : CenterInput} {o : Ortho}
    (h : Ortho.new body prograde subLat subLon pa km center = .ok o)
    {samples lines : ℕ} {plots : List Plot} (hp : o.plotMap samples lines = .ok plots)
    {i k : ℕ} (hk : k < lines) (hi : i < samples) :
    (∃ lat lon, ((lat, lon), k * samples + i) ∈ plots) ↔
      ∃ p, o.viewer.SeenAt body (o.pixelPosition samples lines i k).1
        (o.pixelPosition samples lines i k).2 p := by
  obtain ⟨v, c, -, -, rfl, -⟩ := new_ok h
  rw [← locate_isSome hb (new_turned h)]
  constructor
  · rintro ⟨lat, lon, hm⟩
    exact ⟨_, (mem_plots hp hk hi _).1 hm⟩
  · rintro ⟨⟨lat, lon⟩, hm⟩
    exact ⟨lat, lon, (mem_plots hp hk hi _).2 hm⟩

/-- **C18** (where the body is).  With a center and a scale given, a point is plotted at a
pixel exactly if one is seen that many kilometers from the middle of the body as the
pixel's middle is away from the given center. -/
theorem C18_center {body : Spheroid} (hb : body.Valid) {prograde : Bool}
    {subLat subLon pa km s l : ℝ} {o : Ortho} (hkm : 0 < km)
    (h : Ortho.new body prograde subLat subLon pa km (.centerGiven s l) = .ok o)
    {samples lines : ℕ} {plots : List Plot} (hp : o.plotMap samples lines = .ok plots)
    {i k : ℕ} (hk : k < lines) (hi : i < samples) :
    (∃ lat lon, ((lat, lon), k * samples + i) ∈ plots) ↔
      ∃ p, o.viewer.SeenAt body (((i : ℝ) + 1 / 2 - s) * km) (((k : ℝ) + 1 / 2 - l) * km) p := by
  rw [C18_plotted hb h hp hk hi]
  obtain ⟨v, c, -, hc, -, -, -, -, -, -, rfl, h7, -⟩ := new_ok h
  rw [makeCenter, Outcome.ok.injEq] at hc
  have e : o.pixelPosition samples lines i k =
      (((i : ℝ) + 1 / 2 - s) * km, ((k : ℝ) + 1 / 2 - l) * km) := by
    simp only [pixelPosition, mapCenter, ← hc, mapKm, h7 hkm]
  rw [e]

/-- **C18** (where the body is).  With neither given, the middle of the body is in the
middle of the map, and its larger diameter takes up nine tenths of the shorter side. -/
theorem C18_default {body : Spheroid} (hb : body.Valid) {prograde : Bool}
    {subLat subLon pa km : ℝ} {o : Ortho} (hkm : km ≤ 0)
    (h : Ortho.new body prograde subLat subLon pa km .default = .ok o)
    {samples lines : ℕ} {plots : List Plot} (hp : o.plotMap samples lines = .ok plots)
    {i k : ℕ} (hk : k < lines) (hi : i < samples) :
    ∃ scale : ℝ, 9 / 10 * (min samples lines : ℕ) * scale = 2 * body.eqRad ∧
      ((∃ lat lon, ((lat, lon), k * samples + i) ∈ plots) ↔
        ∃ p, o.viewer.SeenAt body (((i : ℝ) + 1 / 2 - samples / 2) * scale)
          (((k : ℝ) + 1 / 2 - lines / 2) * scale) p) := by
  refine ⟨o.mapKm samples lines, ?_, ?_⟩
  · obtain ⟨v, c, -, hc, rfl, -, -, -, -, -, rfl, -, h8⟩ := new_ok h
    have h0 : ((min samples lines : ℕ) : ℝ) ≠ 0 := by
      have : 0 < min samples lines := by omega
      exact_mod_cast this.ne'
    simp only [mapKm, h8 hkm, max_eq_left hb.le]
    field_simp
    norm_num
    ring
  · rw [C18_plotted hb h hp hk hi]
    obtain ⟨v, c, -, hc, -, -, -, -, -, -, rfl, -, -⟩ := new_ok h
    rw [makeCenter, Outcome.ok.injEq] at hc
    have e : o.pixelPosition samples lines i k =
        (((i : ℝ) + 1 / 2 - samples / 2) * o.mapKm samples lines,
          ((k : ℝ) + 1 / 2 - lines / 2) * o.mapKm samples lines) := by
      simp only [pixelPosition, mapCenter, ← hc]
    rw [e]

/-- **C18** (plotted points).  For spheres, and for any body seen from above its
equator or a pole, the point plotted at a pixel is the one the observer sees
there: it projects onto the centre of the pixel and no other point of the body
that does is nearer to the observer.  Missing: the same for oblate bodies seen
from other latitudes, for which `C18_violated` shows that it is false. -/
theorem C18_sees_partial {body : Spheroid} (hb : body.Valid) {prograde : Bool}
    {subLat subLon pa km : ℝ} {center : CenterInput} {o : Ortho}
    (h : Ortho.new body prograde subLat subLon pa km center = .ok o)
    (hcase : body.eqRad = body.polRad ∨ subLat = 0 ∨ AlmostEqual |subLat| 90 4)
    {samples lines : ℕ} {plots : List Plot} (hp : o.plotMap samples lines = .ok plots)
    {i k : ℕ} (hk : k < lines) (hi : i < samples) {lat lon : ℝ}
    (hm : ((lat, lon), k * samples + i) ∈ plots) :
    o.viewer.Sees body (o.pixelPosition samples lines i k).1
      (o.pixelPosition samples lines i k).2 (surfacePoint body prograde lat lon) := by
  obtain ⟨v, c, hv, -, rfl, rfl, h3, -⟩ := new_ok h
  refine locate_sees hb (new_turned h) ?_ ((mem_plots hp hk hi _).1 hm)
  rw [coefB]
  rcases hcase with hs | hs | hs
  · rw [diff, hs]; ring
  · obtain ⟨-, -, -, ⟨hp, rfl⟩ | ⟨hp, rfl⟩⟩ := makeView_ok hv
    · rw [sin_two_mul, h3, (polarView_turned _ _).2]; ring
    · rw [h3, hs]; simp
  · obtain ⟨-, -, -, ⟨hp, rfl⟩ | ⟨hp, rfl⟩⟩ := makeView_ok hv
    · rw [sin_two_mul, h3, (polarView_turned _ _).2]; ring
    · exact absurd hs hp

/-- **C18 does not hold** for oblate bodies seen from a latitude other than 0 and
90 degrees: the middle coefficient of the equation solved has the wrong sign.
Whatever pixel is plotted, unless its line of sight passes at the height of the
body's centre or happens to meet the body exactly beside it, the latitude and
longitude plotted are not those of a point projecting onto the pixel. -/
theorem C18_violated {body : Spheroid} (hb : body.Valid) (hob : body.polRad < body.eqRad)
    {prograde : Bool} {subLat subLon pa km : ℝ} {center : CenterInput} {o : Ortho}
    (h : Ortho.new body prograde subLat subLon pa km center = .ok o)
    (hlat : sin (2 * o.viewer.subLat) ≠ 0)
    {samples lines : ℕ} {plots : List Plot} (hp : o.plotMap samples lines = .ok plots)
    {i k : ℕ} (hk : k < lines) (hi : i < samples) {lat lon : ℝ}
    (hm : ((lat, lon), k * samples + i) ∈ plots)
    (hheight : -(o.pixelPosition samples lines i k).1 * sin o.viewer.pa +
      (o.pixelPosition samples lines i k).2 * cos o.viewer.pa ≠ 0)
    (hbeside : ∀ p, o.viewer.SeenAt body (o.pixelPosition samples lines i k).1
      (o.pixelPosition samples lines i k).2 p → p ⬝ᵥ o.viewer.toward ≠ 0) :
    o.viewer.image (surfacePoint body prograde lat lon) ≠ o.pixelPosition samples lines i k := by
  obtain ⟨v, c, -, -, rfl, rfl, -⟩ := new_ok h
  have hl := (mem_plots hp hk hi _).1 hm
  set x := (o.pixelPosition samples lines i k).1 with hx
  set z := (o.pixelPosition samples lines i k).2 with hz
  have hN : o.north x z ≠ 0 := hheight
  rcases locate_cases hb (new_turned h) x z with ⟨h1, -⟩ | ⟨y, h1, h2, h3⟩
  · rw [hl] at h1; simp at h1
  rw [hl, Option.some.injEq] at h3
  have hne : o.place (o.east x z) y (o.north x z) ≠ 0 := by
    intro h0
    have := place_north (o := o) (o.east x z) y (o.north x z)
    rw [h0, zero_dotProduct] at this
    exact hN this.symm
  obtain ⟨t, ht, hs⟩ := locate_surface hb h3.symm hne
  intro himg
  have hon := (Spheroid.C34_surface hb lat (eastward o.prograde lon)).1
  change OnSpheroid _ _ (surfacePoint o.body o.prograde lat lon) at hon
  have hseen : o.viewer.SeenAt o.body x z (surfacePoint o.body o.prograde lat lon) :=
    ⟨hon, himg⟩
  obtain ⟨y', hy1, hy2⟩ := (seenAt_iff hb x z _).1 hseen
  have e1 : t * o.north x z = o.north x z := by
    have := congrArg (· ⬝ᵥ o.viewer.north) (hs.symm.trans hy1)
    simp only [smul_dotProduct, place_north, smul_eq_mul] at this
    exact this
  have ht1 : t = 1 := mul_right_cancel₀ hN (by rw [e1, one_mul])
  have hyy : y = y' := by
    have := congrArg (· ⬝ᵥ o.viewer.toward) (hs.symm.trans hy1)
    simp only [ht1, one_smul, place_toward] at this
    linarith
  have hy0 : y' ≠ 0 := by
    have := hbeside _ hseen
    rw [hy1, place_toward] at this
    exact fun e => this (by rw [e, neg_zero])
  rw [hyy] at h1
  have hB : o.coefB (o.north x z) * y' = 0 := by linarith
  have hd : o.diff ≠ 0 := by
    rw [diff]
    have := hb.pol_pos
    exact mul_ne_zero (by linarith) (by linarith)
  have : o.coefB (o.north x z) ≠ 0 := by
    rw [coefB]
    exact mul_ne_zero (mul_ne_zero hd hN) hlat
  exact mul_ne_zero this hy0 hB

theorem makeView_normal (prograde : Bool) {subLat subLon pa : ℝ} (h0 : 0 ≤ subLat)
    (h1 : subLat ≤ 89) (h2 : 0 ≤ subLon) (h3 : subLon ≤ 360) (h4 : 0 ≤ pa) (h5 : pa ≤ 360) :
    makeView prograde subLat subLon pa =
      .ok ⟨subLat * degree, subLon * degree, pa * degree, false⟩ := by
  rw [makeView, validateLat_ok.2 ⟨by linarith, by linarith, rfl⟩, Outcome.bind_ok,
    validateLon_ok.2 ⟨by linarith, by linarith, rfl⟩, Outcome.bind_ok,
    validateLon_ok.2 ⟨by linarith, by linarith, rfl⟩, Outcome.bind_ok,
    if_neg (not_polar h0 h1), if_neg (not_lt.2 (mul_nonneg h2 degree_pos.le))]

/-- There are such maps: the body's middle in a corner, and no scale. -/
example : (∃ o plots, Ortho.new ⟨2, 1⟩ true 45 0 0 3 (.centerGiven 0 8) = .ok o ∧
      o.plotMap 4 8 = .ok plots) ∧
    ∃ o plots, Ortho.new ⟨2, 1⟩ true 45 0 0 (-1) .default = .ok o ∧ o.plotMap 4 8 = .ok plots := by
  have key : ∀ km c, (∃ x, makeCenter ⟨2, 1⟩ true ⟨45 * degree, 0 * degree, 0 * degree, false⟩ c =
      .ok x) → ∃ o plots, Ortho.new ⟨2, 1⟩ true 45 0 0 km c = .ok o ∧ o.plotMap 4 8 = .ok plots := by
    rintro km c ⟨x, hx⟩
    have : ∃ o, Ortho.new ⟨2, 1⟩ true 45 0 0 km c = .ok o := by
      rw [Ortho.new, makeView_normal true (by norm_num) (by norm_num) (by norm_num) (by norm_num)
        (by norm_num) (by norm_num), Outcome.bind_ok, hx]
      exact ⟨_, rfl⟩
    obtain ⟨o, ho⟩ := this
    obtain ⟨plots, hp, -⟩ := C12_orthographic o 4 8
    exact ⟨o, plots, ho, hp⟩
  exact ⟨key _ _ ⟨_, rfl⟩, key _ _ ⟨_, rfl⟩⟩

/-- The projections of `C18_violated` exist: an oblate body seen from 45 degrees
latitude on a map of two by two pixels, of which the last one is plotted and
wrong. -/
theorem C18_violated_instance : ∃ (o : Ortho) (plots : List Plot) (lat lon : ℝ),
    Ortho.new ⟨2, 1⟩ true 45 0 0 1 .default = .ok o ∧
    o.plotMap 2 2 = .ok plots ∧ ((lat, lon), 3) ∈ plots ∧
    o.pixelPosition 2 2 1 1 = (1 / 2, 1 / 2) ∧
    o.viewer.image (surfacePoint ⟨2, 1⟩ true lat lon) ≠ (1 / 2, 1 / 2) := by
  have hb : Spheroid.Valid ⟨2, 1⟩ := ⟨by norm_num, by norm_num⟩
  have hnew : Ortho.new ⟨2, 1⟩ true 45 0 0 1 .default =
      .ok ⟨⟨2, 1⟩, true, 45 * degree, 0 * degree, 0 * degree, some 1, .unset, false⟩ := by
    rw [Ortho.new, makeView_normal true (by norm_num) (by norm_num) (by norm_num) (by norm_num)
      (by norm_num) (by norm_num), Outcome.bind_ok]
    simp [makeCenter]
  set o : Ortho := ⟨⟨2, 1⟩, true, 45 * degree, 0 * degree, 0 * degree, some 1, .unset, false⟩
    with ho
  obtain ⟨plots, hp, -, -⟩ := C12_orthographic o 2 2
  have hpix : o.pixelPosition 2 2 1 1 = (1 / 2, 1 / 2) := by
    simp [pixelPosition, mapCenter, mapKm, ho]
  have hE : o.east (1 / 2) (1 / 2) = 1 / 2 := by simp [east, ho]
  have hN : o.north (1 / 2) (1 / 2) = 1 / 2 := by simp [north, ho]
  have hdiff : o.diff = 3 := by simp [diff, ho]; norm_num
  have hC : o.coefC (1 / 2) (1 / 2) < 0 := by
    rw [coefC, hdiff]
    simp only [ho]
    have := sq_nonneg (sin (45 * degree))
    linarith
  have hA := coefA_pos (o := o) hb
  obtain ⟨⟨lat, lon⟩, hl⟩ : ∃ c, o.locate (1 / 2) (1 / 2) = some c := by
    rcases locate_cases (o := o) hb (new_turned hnew) (1 / 2) (1 / 2) with ⟨-, h2⟩ | ⟨y, -, -, h2⟩
    · exfalso
      rw [hE, hN] at h2
      have hs := (C38_success o.coefA (o.coefB (1 / 2)) (o.coefC (1 / 2) (1 / 2)))
      obtain ⟨y, hy⟩ := (hs.2 hA.ne').1 (hs.1.2 (by
        have := mul_pos hA (neg_pos.2 hC)
        have := sq_nonneg (o.coefB (1 / 2))
        linarith))
      exact h2 y hy
    · exact ⟨_, h2⟩
  have hm : ((lat, lon), 1 * 2 + 1) ∈ plots :=
    (mem_plots hp (by norm_num) (by norm_num) _).2 (by rw [hpix]; exact hl)
  refine ⟨o, plots, lat, lon, hnew, hp, hm, hpix, ?_⟩
  have hv := C18_violated hb (by norm_num) hnew ?_ hp (i := 1) (k := 1) (by norm_num)
    (by norm_num) hm ?_ ?_
  · rw [hpix] at hv; exact hv
  · have h1 := ninety_lt
    have h2 := degree_pos
    refine (sin_pos_of_pos_of_lt_pi ?_ ?_).ne'
    · simp only [viewer, ho]; linarith
    · simp only [viewer, ho]; linarith [pi_pos]
  · rw [hpix]
    simp [viewer, ho]
  · rw [hpix]
    intro p hpp h0
    obtain ⟨y, rfl, hy⟩ := (seenAt_iff (o := o) hb _ _ p).1 hpp
    rw [place_toward, neg_eq_zero] at h0
    rw [h0, hE, hN] at hy
    linarith

/-- The hypotheses of `C18_sees_partial` are met: a sphere seen from 45 degrees
latitude. -/
example : ∃ (o : Ortho) (plots : List Plot),
    Ortho.new ⟨2, 2⟩ true 45 0 0 1 .default = .ok o ∧ o.plotMap 2 2 = .ok plots := by
  have hnew : Ortho.new ⟨2, 2⟩ true 45 0 0 1 .default =
      .ok ⟨⟨2, 2⟩, true, 45 * degree, 0 * degree, 0 * degree, some 1, .unset, false⟩ := by
    rw [Ortho.new, makeView_normal true (by norm_num) (by norm_num) (by norm_num) (by norm_num)
      (by norm_num) (by norm_num), Outcome.bind_ok]
    simp [makeCenter]
  obtain ⟨plots, hp, -, -⟩ := C12_orthographic
    ⟨⟨2, 2⟩, true, 45 * degree, 0 * degree, 0 * degree, some 1, .unset, false⟩ 2 2
  exact ⟨_, plots, hnew, hp⟩

/-! ## C70 -/

/-- A point of the spheroid is visible: the observer sees it where it appears. -/
def Visible (v : Viewer) (s : Spheroid) (p : Point) : Prop :=
  v.Sees s (v.image p).1 (v.image p).2 p

/-- **C70** (visible points).  A point of the body is visible exactly if the
surface there does not face away from the observer. -/
theorem C70_visible (hb : o.body.Valid) (p : Point)
    (hp : OnSpheroid o.body.eqRad o.body.polRad p) :
    Visible o.viewer o.body p ↔
      0 ≤ normal o.body.eqRad o.body.polRad p ⬝ᵥ o.viewer.toward := by
  have ha : 0 < o.body.eqRad := lt_of_lt_of_le hb.pol_pos hb.le
  have hc := hb.pol_pos
  have hd : o.viewer.toward ≠ 0 := by
    intro h0
    have := Spheroid.length_direction o.subLat (eastward o.prograde o.subLon)
    have h1 : o.viewer.toward = direction o.subLat (eastward o.prograde o.subLon) := rfl
    rw [← h1, h0, Geo.length] at this
    simp at this
  have hpos := Spheroid.level_pos hb _ hd
  have line : ∀ t : ℝ, level o.body.eqRad o.body.polRad (p + t • o.viewer.toward) =
      1 + 2 * t * (normal o.body.eqRad o.body.polRad p ⬝ᵥ o.viewer.toward) +
        t ^ 2 * level o.body.eqRad o.body.polRad o.viewer.toward := by
    intro t
    rw [OnSpheroid, level] at hp
    rw [Spheroid.dot3]
    simp only [level, normal, Pi.add_apply, Pi.smul_apply, smul_eq_mul, Matrix.cons_val]
    field_simp at hp ⊢
    linear_combination hp
  have himg : ∀ t : ℝ, o.viewer.image (p + t • o.viewer.toward) = o.viewer.image p := by
    intro t
    have e1 : o.viewer.toward ⬝ᵥ o.viewer.east = 0 := by
      rw [east_val]
      simp only [Viewer.toward, direction, Matrix.cons_val]
      ring
    have e2 : o.viewer.toward ⬝ᵥ o.viewer.north = 0 := by
      rw [north_val]
      simp only [Viewer.toward, direction, Matrix.cons_val]
      linear_combination -cos o.viewer.subLat * sin o.viewer.subLat *
        sin_sq_add_cos_sq (eastward o.viewer.prograde o.viewer.subLon)
    rw [Viewer.image, Viewer.image, add_dotProduct, add_dotProduct, smul_dotProduct,
      smul_dotProduct, e1, e2]
    simp
  have hdd : o.viewer.toward ⬝ᵥ o.viewer.toward = 1 := by
    rw [toward_val]
    simp only [Viewer.toward, direction, Matrix.cons_val]
    linear_combination cos o.viewer.subLat ^ 2 *
      sin_sq_add_cos_sq (eastward o.viewer.prograde o.viewer.subLon) +
      sin_sq_add_cos_sq o.viewer.subLat
  constructor
  · rintro ⟨-, hmax⟩
    by_contra hneg
    rw [not_le] at hneg
    set n := normal o.body.eqRad o.body.polRad p ⬝ᵥ o.viewer.toward
    set L := level o.body.eqRad o.body.polRad o.viewer.toward
    have h1 := hmax (p + (-2 * n / L) • o.viewer.toward) ⟨by
      rw [OnSpheroid, line]; field_simp; ring, himg _⟩
    rw [add_dotProduct, smul_dotProduct, hdd, smul_eq_mul, mul_one] at h1
    have : 0 < -2 * n / L := div_pos (by linarith) hpos
    linarith
  · intro hn
    refine ⟨⟨hp, rfl⟩, fun q hq => ?_⟩
    obtain ⟨hq1, hq2⟩ := hq
    have hq' : q = p + (q ⬝ᵥ o.viewer.toward - p ⬝ᵥ o.viewer.toward) • o.viewer.toward := by
      have e := hq2
      rw [← place_self (o := o) q, ← place_self (o := o) p, Prod.mk.eta] at e
      have e' := (image_place (o.viewer.image (o.place (p ⬝ᵥ o.viewer.east)
        (-(p ⬝ᵥ o.viewer.toward)) (p ⬝ᵥ o.viewer.north))).1 _ _ _ _).1 (by rw [e])
      have e'' := (image_place (o.viewer.image (o.place (p ⬝ᵥ o.viewer.east)
        (-(p ⬝ᵥ o.viewer.toward)) (p ⬝ᵥ o.viewer.north))).1 _ _ _ _).1 rfl
      have k1 : q ⬝ᵥ o.viewer.east = p ⬝ᵥ o.viewer.east := e'.1.trans e''.1.symm
      have k2 : q ⬝ᵥ o.viewer.north = p ⬝ᵥ o.viewer.north := e'.2.trans e''.2.symm
      have f1 := place_self (o := o) q
      have f2 := place_self (o := o) p
      rw [place, k1, k2] at f1
      rw [place] at f2
      calc q = (p ⬝ᵥ o.viewer.east) • o.viewer.east + (p ⬝ᵥ o.viewer.north) • o.viewer.north -
            -(q ⬝ᵥ o.viewer.toward) • o.viewer.toward := f1.symm
        _ = ((p ⬝ᵥ o.viewer.east) • o.viewer.east + (p ⬝ᵥ o.viewer.north) • o.viewer.north -
            -(p ⬝ᵥ o.viewer.toward) • o.viewer.toward) +
            (q ⬝ᵥ o.viewer.toward - p ⬝ᵥ o.viewer.toward) • o.viewer.toward := by module
        _ = _ := congrArg (· + (q ⬝ᵥ o.viewer.toward - p ⬝ᵥ o.viewer.toward) •
            o.viewer.toward) f2
    set t := q ⬝ᵥ o.viewer.toward - p ⬝ᵥ o.viewer.toward with ht
    have h1 : level o.body.eqRad o.body.polRad q = 1 := hq1
    rw [hq', line] at h1
    by_contra hlt
    have htpos : 0 < t := by rw [ht]; linarith
    have : 0 < t ^ 2 * level o.body.eqRad o.body.polRad o.viewer.toward := by positivity
    have := mul_nonneg (mul_nonneg (by norm_num : (0:ℝ) ≤ 2) htpos.le) hn
    linarith

theorem surface_east (lat lon : ℝ) :
    surfacePoint o.body o.prograde lat lon ⬝ᵥ o.viewer.east = o.body.centricRadius lat * cos lat *
      sin (eastward o.prograde lon - eastward o.prograde o.subLon) := by
  rw [east_val, surfacePoint, sin_sub]
  simp only [direction, Pi.smul_apply, smul_eq_mul, Matrix.cons_val, viewer]
  ring

theorem surface_north (lat lon : ℝ) :
    surfacePoint o.body o.prograde lat lon ⬝ᵥ o.viewer.north = o.body.centricRadius lat *
      (sin lat * cos o.subLat - cos lat * sin o.subLat *
        cos (eastward o.prograde lon - eastward o.prograde o.subLon)) := by
  rw [north_val, surfacePoint, cos_sub]
  simp only [direction, Pi.smul_apply, smul_eq_mul, Matrix.cons_val, viewer]
  ring

theorem wrapLon_eq (v : View) (limb lon : ℝ) :
    sin (v.subLon - wrapLon v limb lon) = sin (v.subLon - lon) ∧
    cos (v.subLon - wrapLon v limb lon) = cos (v.subLon - lon) := by
  rw [wrapLon]
  split_ifs
  · rw [show v.subLon - (lon + 2 * π) = v.subLon - lon - 2 * π by ring, sin_sub_two_pi,
      cos_sub_two_pi]
    exact ⟨rfl, rfl⟩
  · rw [show v.subLon - (lon - 2 * π) = v.subLon - lon + 2 * π by ring, sin_add_two_pi,
      cos_add_two_pi]
    exact ⟨rfl, rfl⟩
  · exact ⟨rfl, rfl⟩

/-- The scale of a map of at least one pixel is positive. -/
theorem mapKm_pos (hb : o.body.Valid) (hkm : ∀ k, o.kmPerPixel = some k → 0 < k)
    {samples lines : ℕ} (hs : 0 < samples) (hl : 0 < lines) : 0 < o.mapKm samples lines := by
  rw [mapKm]
  have ha : 0 < o.body.eqRad := lt_of_lt_of_le hb.pol_pos hb.le
  have hmin : (0 : ℝ) < (min samples lines : ℕ) := by exact_mod_cast lt_min hs hl
  cases h : o.kmPerPixel with
  | some k => exact hkm k h
  | none =>
    have : 0 < max o.body.eqRad o.body.polRad := lt_max_of_lt_left ha
    simp only
    positivity

/-- **C70** (place).  When a latitude and longitude are asked for at the middle of
the map, the point of the body with that latitude and longitude appears exactly
at the middle of a map of any size. -/
theorem C70_middle {body : Spheroid} (hb : body.Valid) {prograde : Bool}
    {subLat subLon pa km lat lon : ℝ} {o : Ortho}
    (h : Ortho.new body prograde subLat subLon pa km (.latLonGiven lat lon) = .ok o)
    {samples lines : ℕ} (hs : 0 < samples) (hl : 0 < lines) :
    o.viewer.image (surfacePoint body prograde (lat * degree) (lon * degree)) =
      (((samples : ℝ) / 2 - (o.mapCenter samples lines).1) * o.mapKm samples lines,
       ((lines : ℝ) / 2 - (o.mapCenter samples lines).2) * o.mapKm samples lines) := by
  obtain ⟨v, c, hv, hc, rfl, rfl, h3, h4, h5, h6, rfl, h7, h8⟩ := new_ok h
  have hkm : 0 < o.mapKm samples lines := by
    refine mapKm_pos hb (fun k hk => ?_) hs hl
    rcases lt_or_ge 0 km with hp | hn
    · rw [h7 hp, Option.some.injEq] at hk; exact hk ▸ hp
    · rw [h8 hn] at hk; simp at hk
  rw [makeCenter, latLonCenter] at hc
  cases e1 : validateLat lat with
  | throw e => simp [e1] at hc
  | ub => simp [e1] at hc
  | ok a =>
    cases e2 : validateLon lon with
    | throw e => simp [e1, e2] at hc
    | ub => simp [e1, e2] at hc
    | ok b =>
      obtain ⟨-, -, rfl⟩ := validateLat_ok.1 e1
      obtain ⟨-, -, rfl⟩ := validateLon_ok.1 e2
      simp only [e1, e2, Outcome.bind_ok] at hc
      split_ifs at hc with g1 g2
      have hc := (Outcome.ok.inj hc).symm
      rw [mapCenter, hc]
      simp only [sub_sub_cancel]
      rw [div_mul_cancel₀ _ hkm.ne', div_mul_cancel₀ _ hkm.ne', Viewer.image, surface_east,
        surface_north, centerKm]
      obtain ⟨w1, w2⟩ := wrapLon_eq v (limbAngle v (limbCosine o.body v (lat * degree)))
        (lon * degree)
      rw [w1, w2]
      simp only [viewer, h3, h4, h5, sin_neg, cos_neg, eastward]
      cases o.prograde
      · simp only [Bool.false_eq_true, if_false]
        rw [show lon * degree - v.subLon = -(v.subLon - lon * degree) by ring, sin_neg, cos_neg]
        rw [Prod.mk.injEq]
        constructor <;> ring
      · simp only [if_true]
        rw [show -(lon * degree) - -v.subLon = v.subLon - lon * degree by ring]
        rw [Prod.mk.injEq]
        constructor <;> ring

/-- Facing the observer, by the cosine the code computes. -/
theorem facing (hb : o.body.Valid) (lat lon : ℝ) (hl : 0 < cos lat) (ho : 0 < cos o.subLat) :
    0 ≤ normal o.body.eqRad o.body.polRad (surfacePoint o.body o.prograde lat lon) ⬝ᵥ
      o.viewer.toward ↔
    -((o.body.eqRad / o.body.polRad) ^ 2 * tan lat * tan o.subLat) ≤ cos (o.subLon - lon) := by
  have ha : 0 < o.body.eqRad := lt_of_lt_of_le hb.pol_pos hb.le
  have hc := hb.pol_pos
  have hr := Spheroid.centricRadius_pos hb lat
  have hE : cos (eastward o.prograde o.subLon - eastward o.prograde lon) =
      cos (o.subLon - lon) := by
    rw [eastward, eastward]
    cases o.prograde
    · simp
    · simp only [if_true]
      rw [← cos_neg]; congr 1; ring
  have key : normal o.body.eqRad o.body.polRad (surfacePoint o.body o.prograde lat lon) ⬝ᵥ
      o.viewer.toward = o.body.centricRadius lat * cos lat * cos o.subLat / o.body.eqRad ^ 2 *
        (cos (o.subLon - lon) + (o.body.eqRad / o.body.polRad) ^ 2 * tan lat * tan o.subLat) := by
    rw [← hE, cos_sub, toward_val, tan_eq_sin_div_cos, tan_eq_sin_div_cos]
    simp only [normal, surfacePoint, direction, Pi.smul_apply, smul_eq_mul, Matrix.cons_val,
      viewer]
    field_simp
  rw [key, mul_nonneg_iff_of_pos_left (by positivity)]
  constructor <;> intro h <;> linarith

/-- Within the visible range of longitudes. -/
theorem limb_iff {K Δ limb : ℝ} (hK : -1 ≤ K) (h0 : 0 ≤ Δ) (h2 : Δ ≤ 2 * π)
    (hl : limb = if |K| ≤ 1 then |arccos (-K)| else π) :
    -K ≤ cos Δ ↔ Δ ≤ limb ∨ 2 * π - Δ ≤ limb := by
  by_cases h1 : |K| ≤ 1
  · rw [if_pos h1, abs_of_nonneg (arccos_nonneg _)] at hl
    have hK' := abs_le.1 h1
    have hcos : cos limb = -K := by rw [hl, cos_arccos (by linarith) (by linarith)]
    have hl0 : 0 ≤ limb := hl ▸ arccos_nonneg _
    have hl1 : limb ≤ π := hl ▸ arccos_le_pi _
    have main : ∀ t, 0 ≤ t → t ≤ π → (cos limb ≤ cos t ↔ t ≤ limb) := fun t t0 t1 =>
      strictAntiOn_cos.le_iff_ge ⟨hl0, hl1⟩ ⟨t0, t1⟩
    rw [← hcos]
    rcases le_total Δ π with h3 | h3
    · rw [main Δ h0 h3]
      constructor
      · exact .inl
      · rintro (h | h)
        · exact h
        · linarith
    · rw [← cos_two_pi_sub Δ, main _ (by linarith) (by linarith)]
      constructor
      · exact .inr
      · rintro (h | h)
        · linarith
        · exact h
  · rw [if_neg h1] at hl
    have : 1 < K := by
      rcases lt_abs.1 (not_le.1 h1) with h | h
      · exact h
      · linarith
    refine iff_of_true (by linarith [neg_one_le_cos Δ]) ?_
    rcases le_total Δ π with h3 | h3
    · exact .inl (by rw [hl]; exact h3)
    · exact .inr (by rw [hl]; linarith)

/-- **C70** (acceptance).  For an observer away from the poles and a longitude
between 0 and 360 degrees, the latitude and longitude asked for at the middle of
the map are accepted exactly if that point of the body is visible.  Missing:
negative longitudes, see `C70_violated`; for polar views see `C70_polar_partial`. -/
theorem C70_accepted_partial {body : Spheroid} (hb : body.Valid) {prograde : Bool}
    {subLat subLon pa km lat lon : ℝ} {o : Ortho}
    (h : Ortho.new body prograde subLat subLon pa km .default = .ok o)
    (hpol : ¬ AlmostEqual |subLat| 90 4)
    (hlat : |lat| ≤ 90) (hlon0 : 0 ≤ lon) (hlon1 : lon ≤ 360) :
    (∃ o', Ortho.new body prograde subLat subLon pa km (.latLonGiven lat lon) = .ok o') ↔
      Visible o.viewer body (surfacePoint body prograde (lat * degree) (lon * degree)) := by
  have hview := (C18_viewer h).2.2.1 hpol
  obtain ⟨v, c, hv, -, rfl, rfl, h3, h4, h5, h6, -⟩ := new_ok h
  obtain ⟨hsub, -, -, ⟨hp, -⟩ | ⟨-, hv'⟩⟩ := makeView_ok hv
  · exact absurd hp hpol
  have hpolar : v.polar = false := by rw [hv']
  have hsl : v.subLat = subLat * degree := by rw [hv']
  have hd := degree_pos
  have h90 := ninety_lt
  have cospos : ∀ t : ℝ, |t| ≤ 90 → 0 < cos (t * degree) := by
    intro t ht
    have h1 := mul_le_mul_of_nonneg_right (abs_le.1 ht).1 hd.le
    have h2 := mul_le_mul_of_nonneg_right (abs_le.1 ht).2 hd.le
    exact cos_pos_of_mem_Ioo ⟨by linarith, by linarith⟩
  have hS0 : 0 ≤ v.subLon := by rw [← h4]; exact hview.2.2.2.1
  have hS1 : v.subLon < 2 * π := by rw [← h4]; exact hview.2.2.2.2
  have hL0 : 0 ≤ lon * degree := mul_nonneg hlon0 hd.le
  have hL1 : lon * degree < 2 * π := by
    have := mul_le_mul_of_nonneg_right hlon1 hd.le
    linarith [circle_le]
  rw [C70_visible hb (surfacePoint o.body o.prograde (lat * degree) (lon * degree))
      (Spheroid.C34_surface hb _ _).1,
    facing hb _ _ (cospos lat hlat) (by rw [h3, hsl]; exact cospos subLat hsub), h3, h4]
  have hK : limbCosine o.body v (lat * degree) =
      (o.body.eqRad / o.body.polRad) ^ 2 * tan (lat * degree) * tan v.subLat := by
    rw [limbCosine, hpolar]; simp
  rw [← hK]
  have hlimb : limbAngle v (limbCosine o.body v (lat * degree)) =
      if |limbCosine o.body v (lat * degree)| ≤ 1
        then |arccos (-limbCosine o.body v (lat * degree))| else π := by
    rw [limbAngle, hpolar]; simp
  have step : (∃ o', Ortho.new o.body o.prograde subLat subLon pa km (.latLonGiven lat lon) =
      .ok o') ↔ ¬ limbCosine o.body v (lat * degree) < -1 ∧
        ¬ (wrapLon v (limbAngle v (limbCosine o.body v (lat * degree))) (lon * degree) <
            v.subLon - limbAngle v (limbCosine o.body v (lat * degree)) ∨
          wrapLon v (limbAngle v (limbCosine o.body v (lat * degree))) (lon * degree) >
            v.subLon + limbAngle v (limbCosine o.body v (lat * degree))) := by
    rw [Ortho.new, hv, Outcome.bind_ok, makeCenter, latLonCenter,
      validateLat_ok.2 ⟨(abs_le.1 hlat).1, (abs_le.1 hlat).2, rfl⟩, Outcome.bind_ok,
      validateLon_ok.2 ⟨by linarith, hlon1, rfl⟩, Outcome.bind_ok]
    by_cases g1 : limbCosine o.body v (lat * degree) < -1
    · rw [if_pos g1]
      simp [g1]
    · rw [if_neg g1]
      simp only
      by_cases g2 : (wrapLon v (limbAngle v (limbCosine o.body v (lat * degree))) (lon * degree) <
            v.subLon - limbAngle v (limbCosine o.body v (lat * degree)) ∨
          wrapLon v (limbAngle v (limbCosine o.body v (lat * degree))) (lon * degree) >
            v.subLon + limbAngle v (limbCosine o.body v (lat * degree)))
      · rw [if_pos g2]
        refine iff_of_false (by simp) fun hh => hh.2 g2
      · rw [if_neg g2]
        exact iff_of_true ⟨_, rfl⟩ ⟨g1, g2⟩
  rw [step]
  set K := limbCosine o.body v (lat * degree)
  set limb := limbAngle v K
  by_cases hK1 : K < -1
  · refine iff_of_false (fun hh => hh.1 hK1) ?_
    linarith [cos_le_one (v.subLon - lon * degree)]
  · have hK1' := not_lt.1 hK1
    have hlimb0 : 0 ≤ limb := by
      rw [hlimb]; split_ifs
      · exact abs_nonneg _
      · exact pi_pos.le
    rw [wrapLon]
    split_ifs with w1 w2
    · have e : cos (v.subLon - lon * degree) = cos (lon * degree + 2 * π - v.subLon) := by
        rw [← cos_neg, show -(v.subLon - lon * degree) = lon * degree + 2 * π - v.subLon - 2 * π by
          ring, cos_sub_two_pi]
      rw [e, limb_iff hK1' (by linarith) (by linarith) hlimb]
      constructor
      · rintro ⟨-, hh⟩
        push Not at hh
        exact .inl (by linarith [hh.2])
      · rintro (hh | hh)
        · refine ⟨hK1, ?_⟩
          push Not
          constructor <;> linarith
        · linarith
    · have e : cos (v.subLon - lon * degree) = cos (v.subLon - (lon * degree - 2 * π)) := by
        rw [show v.subLon - (lon * degree - 2 * π) = v.subLon - lon * degree + 2 * π by ring,
          cos_add_two_pi]
      rw [e, limb_iff hK1' (by linarith) (by linarith) hlimb]
      constructor
      · rintro ⟨-, hh⟩
        push Not at hh
        exact .inl (by linarith [hh.1])
      · rintro (hh | hh)
        · refine ⟨hK1, ?_⟩
          push Not
          constructor <;> linarith
        · linarith
    · push Not at w1 w2
      refine iff_of_true ⟨hK1, ?_⟩ ?_
      · push Not
        exact ⟨w1, w2⟩
      · rcases le_total (lon * degree) v.subLon with g | g
        · rw [limb_iff hK1' (by linarith) (by linarith) hlimb]
          exact .inl (by linarith)
        · rw [← cos_neg, limb_iff hK1' (by linarith) (by linarith) hlimb]
          exact .inl (by linarith)

/-- **C70 does not hold** for negative longitudes: seen from above longitude 350,
longitude -350, which is the visible meridian 10, is rejected. -/
theorem C70_violated : ∃ o : Ortho,
    Ortho.new ⟨2, 1⟩ true 0 350 0 1 .default = .ok o ∧
    Visible o.viewer ⟨2, 1⟩ (surfacePoint ⟨2, 1⟩ true (0 * degree) (-350 * degree)) ∧
    Ortho.new ⟨2, 1⟩ true 0 350 0 1 (.latLonGiven 0 (-350)) = .throw .invalidArgument ∧
    ∃ o', Ortho.new ⟨2, 1⟩ true 0 350 0 1 (.latLonGiven 0 10) = .ok o' := by
  have hb : Spheroid.Valid ⟨2, 1⟩ := ⟨by norm_num, by norm_num⟩
  have hd1 : (0.0174532 : ℝ) < degree := by rw [degree, degreeQ]; norm_num
  have hd2 : degree < (0.0174533 : ℝ) := by rw [degree, degreeQ]; norm_num
  have hpi1 := pi_gt_d2
  have hpi2 := pi_lt_d2
  have hview := makeView_normal true (subLat := 0) (subLon := 350) (pa := 0) le_rfl (by norm_num)
    (by norm_num) (by norm_num) le_rfl (by norm_num)
  have hnew : Ortho.new ⟨2, 1⟩ true 0 350 0 1 .default =
      .ok ⟨⟨2, 1⟩, true, 0 * degree, 350 * degree, 0 * degree, some 1, .unset, false⟩ := by
    rw [Ortho.new, hview, Outcome.bind_ok]
    simp [makeCenter]
  have hvis : ∀ lon : ℝ, 0 < cos (350 * degree - lon * degree) →
      Visible (viewer ⟨⟨2, 1⟩, true, 0 * degree, 350 * degree, 0 * degree, some 1, .unset, false⟩)
        ⟨2, 1⟩ (surfacePoint ⟨2, 1⟩ true (0 * degree) (lon * degree)) := by
    intro lon hlon
    have h1 := (C70_visible (o := ⟨⟨2, 1⟩, true, 0 * degree, 350 * degree, 0 * degree, some 1,
      .unset, false⟩) hb _ (Spheroid.C34_surface hb (0 * degree)
        (eastward true (lon * degree))).1).2
    refine h1 ?_
    refine (facing (o := ⟨⟨2, 1⟩, true, 0 * degree, 350 * degree, 0 * degree, some 1,
      .unset, false⟩) hb (0 * degree) (lon * degree) (by simp) (by simp)).2 ?_
    simp only [zero_mul, tan_zero, mul_zero, neg_zero]
    exact hlon.le
  refine ⟨_, hnew, hvis (-350) ?_, ?_, ?_⟩
  · rw [← cos_sub_two_pi, ← cos_sub_two_pi]
    refine cos_pos_of_mem_Ioo ⟨by linarith, by linarith⟩
  · rw [Ortho.new, hview, Outcome.bind_ok, makeCenter, latLonCenter,
      validateLat_ok.2 ⟨by norm_num, by norm_num, rfl⟩, Outcome.bind_ok,
      validateLon_ok.2 ⟨by norm_num, by norm_num, rfl⟩, Outcome.bind_ok]
    have hcosine : limbCosine ⟨2, 1⟩ ⟨0 * degree, 350 * degree, 0 * degree, false⟩ (0 * degree) =
        0 := by simp [limbCosine]
    have hlimb : limbAngle ⟨0 * degree, 350 * degree, 0 * degree, false⟩ 0 = π / 2 := by
      simp only [limbAngle, neg_zero, arccos_zero]
      rw [if_pos (by simp), abs_of_pos (by linarith)]
    rw [hcosine, hlimb, if_neg (by norm_num)]
    have hw : wrapLon ⟨0 * degree, 350 * degree, 0 * degree, false⟩ (π / 2) (-350 * degree) =
        -350 * degree + 2 * π := by
      rw [wrapLon, if_pos (by simp only; linarith)]
    simp only [hw]
    rw [if_pos (.inl (by linarith))]
    rfl
  · refine (C70_accepted_partial hb hnew (not_polar le_rfl (by norm_num)) (by norm_num)
      (by norm_num) (by norm_num)).2 (hvis 10 ?_)
    rw [← cos_sub_two_pi]
    refine cos_pos_of_mem_Ioo ⟨by linarith, by linarith⟩

end Ortho
end MaRC.Projection
