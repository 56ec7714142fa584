import Verif.Props.Surface
import Mathlib.Topology.Order.IntermediateValue

/-!
# Properties of quadratic roots and of ray/spheroid intersection: C37, C38
-/

namespace MaRC

open Real Geo

/-! ## C38 -/

/-- The call succeeds exactly for a non-negative discriminant; for a quadratic
equation that is exactly when a real solution exists. -/
theorem C38_success (a b c : ℝ) :
    ((quadraticRoots a b c).isSome ↔ 0 ≤ b ^ 2 - 4 * a * c) ∧
    (a ≠ 0 → ((quadraticRoots a b c).isSome ↔ ∃ x, a * x ^ 2 + b * x + c = 0)) := by
  have h1 : (quadraticRoots a b c).isSome ↔ 0 ≤ b ^ 2 - 4 * a * c := by
    rw [quadraticRoots, ← pow_two]
    split_ifs with h <;> simp <;> linarith
  refine ⟨h1, fun ha => h1.trans ⟨fun h => ?_, ?_⟩⟩
  · refine ⟨(-b + √(b ^ 2 - 4 * a * c)) / (2 * a), ?_⟩
    have := Real.sq_sqrt h
    set r := √(b ^ 2 - 4 * a * c)
    field_simp
    linear_combination this
  · rintro ⟨x, hx⟩
    have : b ^ 2 - 4 * a * c = (2 * a * x + b) ^ 2 := by linear_combination (-4 * a) * hx
    rw [this]
    positivity

theorem sgnR_cases (b : ℝ) : (0 ≤ b ∧ sgnR b = 1) ∨ (b < 0 ∧ sgnR b = -1) := by
  rcases le_or_gt 0 b with h | h
  · left; simp [sgnR, h, h.not_gt]
  · right; simp [sgnR, h, h.not_ge]

theorem quadraticQ_eq (a b c : ℝ) (h : 0 ≤ b ^ 2 - 4 * a * c) :
    quadraticQ a b c * (quadraticQ a b c + b) = -(a * c) := by
  have := Real.sq_sqrt h
  rw [quadraticQ, ← pow_two]
  rcases sgnR_cases b with ⟨_, hs⟩ | ⟨_, hs⟩ <;> rw [hs] <;> linear_combination this / 4

theorem quadraticQ_zero (a b c : ℝ) :
    quadraticQ a b c = 0 ↔ b = 0 ∧ b ^ 2 - 4 * a * c ≤ 0 := by
  have hn := Real.sqrt_nonneg (b ^ 2 - 4 * a * c)
  rw [quadraticQ, ← pow_two, ← Real.sqrt_eq_zero']
  rcases sgnR_cases b with ⟨h0, hs⟩ | ⟨h0, hs⟩ <;> rw [hs] <;> constructor
  · intro h
    constructor <;> linarith
  · rintro ⟨h1, h2⟩
    rw [h2, h1]; norm_num
  · intro h
    linarith
  · rintro ⟨h1, h2⟩
    linarith

/-- For a quadratic equation with real solutions, other than x² = 0, both
values reported are numbers, and the polynomial factors through them: they are
its solutions, and the only ones. -/
theorem C38_roots (a b c : ℝ) (ha : a ≠ 0) (hbc : ¬ (b = 0 ∧ c = 0))
    (hd : 0 ≤ b ^ 2 - 4 * a * c) :
    ∃ x₁ x₂, quadraticRoots a b c = some (some x₁, some x₂) ∧
      (∀ x, a * x ^ 2 + b * x + c = a * (x - x₁) * (x - x₂)) ∧
      (∀ x, a * x ^ 2 + b * x + c = 0 ↔ x = x₁ ∨ x = x₂) := by
  have hq : quadraticQ a b c ≠ 0 := by
    rw [Ne, quadraticQ_zero]
    rintro ⟨h1, h2⟩
    apply hbc
    refine ⟨h1, ?_⟩
    have : a * c = 0 := by rw [h1] at h2 hd; linarith
    exact (mul_eq_zero.1 this).resolve_left ha
  have key := quadraticQ_eq a b c hd
  have fac : ∀ x, a * x ^ 2 + b * x + c =
      a * (x - quadraticQ a b c / a) * (x - c / quadraticQ a b c) := by
    intro x
    field_simp
    linear_combination x * key
  refine ⟨quadraticQ a b c / a, c / quadraticQ a b c, ?_, fac, ?_⟩
  · rw [quadraticRoots, ← pow_two, if_neg hd.not_gt, divide, divide, if_neg ha, if_neg hq]
  · intro x
    rw [fac, mul_eq_zero, mul_eq_zero, sub_eq_zero, sub_eq_zero]
    simp [ha]

example : (1 : ℝ) ≠ 0 ∧ ¬ ((-3 : ℝ) = 0 ∧ (2 : ℝ) = 0) ∧
    (0 : ℝ) ≤ (-3) ^ 2 - 4 * 1 * 2 := by norm_num

/-- The first root has the larger magnitude (the numerically stable choice):
it is the larger root for a negative middle coefficient and positive leading
one. -/
theorem C38_order (a b c : ℝ) (ha : 0 < a) (hbc : ¬ (b = 0 ∧ c = 0))
    (hd : 0 ≤ b ^ 2 - 4 * a * c) :
    ∃ x₁ x₂, quadraticRoots a b c = some (some x₁, some x₂) ∧
      |x₂| ≤ |x₁| ∧ (b < 0 → x₂ ≤ x₁) ∧ (0 ≤ b → x₁ ≤ x₂) := by
  obtain ⟨x₁, x₂, h1, h2, -⟩ := C38_roots a b c ha.ne' hbc hd
  refine ⟨x₁, x₂, h1, ?_⟩
  have hx : x₁ = quadraticQ a b c / a := by
    rw [quadraticRoots, ← pow_two, if_neg hd.not_gt, divide, divide, if_neg ha.ne'] at h1
    simp only [Option.some.injEq, Prod.mk.injEq] at h1
    exact h1.1.symm
  have hsum : a * (x₁ + x₂) = -b := by
    have e1 := h2 1
    have e2 := h2 (-1)
    linear_combination (e1 - e2) / 2
  have hn := Real.sqrt_nonneg (b ^ 2 - 4 * a * c)
  have hx1 : a * x₁ = quadraticQ a b c := by rw [hx]; field_simp
  rw [quadraticQ, ← pow_two] at hx1
  rcases sgnR_cases b with ⟨h0, hs⟩ | ⟨h0, hs⟩
  · rw [hs] at hx1
    have hle : x₁ ≤ x₂ := by
      by_contra hlt
      have := mul_lt_mul_of_pos_left (not_le.1 hlt) ha
      linarith
    have hs : x₁ + x₂ ≤ 0 := by
      by_contra hlt
      have := mul_pos ha (not_le.1 hlt)
      linarith
    refine ⟨?_, fun h => absurd h0 h.not_ge, fun _ => hle⟩
    rw [abs_of_nonpos (by linarith : x₁ ≤ 0), abs_le]
    constructor <;> linarith
  · rw [hs] at hx1
    have hle : x₂ ≤ x₁ := by
      by_contra hlt
      have := mul_lt_mul_of_pos_left (not_le.1 hlt) ha
      linarith
    have hs : 0 < x₁ + x₂ := by
      by_contra hlt
      have := mul_nonneg ha.le (sub_nonneg.2 (not_lt.1 hlt))
      nlinarith
    refine ⟨?_, fun _ => hle, fun h => absurd h0 h.not_gt⟩
    rw [abs_of_nonneg (by linarith : 0 ≤ x₁), abs_le]
    constructor <;> linarith

/-- For x² = 0 the call reports success although the second value is the
quotient 0/0, not the root 0. -/
theorem C38_violated (a : ℝ) (ha : a ≠ 0) :
    quadraticRoots a 0 0 = some (some 0, none) ∧ a * (0 : ℝ) ^ 2 + 0 * 0 + 0 = 0 := by
  have : quadraticQ a 0 0 = 0 := by rw [quadraticQ_zero]; simp
  simp [quadraticRoots, divide, this, ha]

/-- For a linear equation the second value is its solution. -/
theorem C38_linear (b c : ℝ) (hb : b ≠ 0) :
    quadraticRoots 0 b c = some (none, some (-c / b)) := by
  have h1 : quadraticQ 0 b c = -b := by
    rw [quadraticQ]
    rcases sgnR_cases b with ⟨h0, hs⟩ | ⟨h0, hs⟩ <;> rw [hs]
    · simp [Real.sqrt_mul_self h0]
    · have : √(b * b - 4 * 0 * c) = -b := by
        rw [mul_zero, zero_mul, sub_zero, ← neg_mul_neg, Real.sqrt_mul_self (by linarith)]
      rw [this]
      ring
  have h2 : ¬ b * b - 4 * 0 * c < 0 := by nlinarith [mul_self_nonneg b]
  rw [quadraticRoots, if_neg h2, h1, divide, divide, if_pos rfl, if_neg (neg_ne_zero.2 hb),
    div_neg, neg_div]

/-! ## C37 -/

namespace Spheroid

variable {s : Spheroid}

theorem coefficients_eq (s : Spheroid) (v d : Point) :
    s.coefficients v d =
      (level s.eqRad s.polRad d,
       2 * (d 0 / s.eqRad * (v 0 / s.eqRad) + d 1 / s.eqRad * (v 1 / s.eqRad) +
         d 2 / s.polRad * (v 2 / s.polRad)),
       level s.eqRad s.polRad v - 1) := by
  simp only [coefficients, List.finRange_succ, List.finRange_zero, List.map_cons, List.map_nil,
    List.foldl_cons, List.foldl_nil, semis, level, Fin.succ_zero_eq_one, Fin.succ_one_eq_two,
    Matrix.cons_val]
  refine Prod.ext ?_ (Prod.ext ?_ ?_) <;> simp only <;> ring

theorem level_line (s : Spheroid) (v d : Point) (k : ℝ) :
    level s.eqRad s.polRad (v + k • d) - 1 =
      (s.coefficients v d).1 * k ^ 2 + (s.coefficients v d).2.1 * k +
        (s.coefficients v d).2.2 := by
  rw [coefficients_eq]
  simp only [level, Pi.add_apply, Pi.smul_apply, smul_eq_mul]
  ring

theorem level_pos (h : s.Valid) (d : Point) (hd : d ≠ 0) : 0 < level s.eqRad s.polRad d := by
  have hp := h.pol_pos
  have he := h.eq_pos
  have : d 0 ≠ 0 ∨ d 1 ≠ 0 ∨ d 2 ≠ 0 := by
    by_contra hc
    push Not at hc
    apply hd
    ext i
    fin_cases i
    · exact hc.1
    · exact hc.2.1
    · exact hc.2.2
  rw [level]
  rcases this with h | h | h <;> positivity

/-- The direction of a reported latitude and longitude: longitude zero is on
the negative y axis and x is east of it. -/
noncomputable def reportedDirection (lat lon : ℝ) : Point :=
  ![cos lat * sin lon, -(cos lat * cos lon), sin lat]

theorem locate_direction (p : Point) (hp : p ≠ 0) :
    p = length p • reportedDirection (pointLatitude (p 0) (p 1) (p 2)) (atan2 (p 0) (-(p 1))) := by
  have hlen : length p = √(hypot (p 0) (p 1) ^ 2 + p 2 ^ 2) := by
    rw [length, dot3, hypot, Real.sq_sqrt (by positivity)]
    congr 1; ring
  have hnorm : ‖(⟨-(p 1), p 0⟩ : ℂ)‖ = hypot (p 0) (p 1) := by
    rw [Complex.norm_eq_sqrt_sq_add_sq, hypot]
    congr 1; ring
  have hcos := Complex.norm_mul_cos_arg (⟨-(p 1), p 0⟩ : ℂ)
  have hsin := Complex.norm_mul_sin_arg (⟨-(p 1), p 0⟩ : ℂ)
  rw [hnorm] at hcos hsin
  simp only at hcos hsin
  have hr : 0 ≤ hypot (p 0) (p 1) := Real.sqrt_nonneg _
  set ρ := hypot (p 0) (p 1) with hρ
  set φ := Complex.arg (⟨-(p 1), p 0⟩ : ℂ) with hφ
  have key : length p * cos (pointLatitude (p 0) (p 1) (p 2)) = ρ ∧
      length p * sin (pointLatitude (p 0) (p 1) (p 2)) = p 2 := by
    rw [pointLatitude, ← hρ]
    by_cases h0 : ρ = 0
    · rw [if_pos h0, hlen, h0]
      have hz : p 2 ≠ 0 := by
        intro hz
        apply hp
        rw [h0, zero_mul] at hcos hsin
        ext i
        fin_cases i
        · exact hsin.symm
        · simpa using hcos.symm
        · exact hz
      split_ifs with h2
      · simp [Real.sqrt_sq h2.le]
      · have : p 2 < 0 := lt_of_le_of_ne (not_lt.1 h2) hz
        rw [cos_neg, sin_neg, cos_pi_div_two, sin_pi_div_two]
        simp [Real.sqrt_sq_eq_abs, abs_of_neg this]
    · rw [if_neg h0, cos_arctan, sin_arctan, hlen]
      have hρ0 : 0 < ρ := lt_of_le_of_ne hr (Ne.symm h0)
      have e : ρ ^ 2 + p 2 ^ 2 = ρ ^ 2 * (1 + (p 2 / ρ) ^ 2) := by field_simp
      have hpos : 0 < 1 + (p 2 / ρ) ^ 2 := by positivity
      rw [e, Real.sqrt_mul (by positivity), Real.sqrt_sq hr]
      have hs := Real.sqrt_pos.2 hpos
      set w := √(1 + (p 2 / ρ) ^ 2)
      constructor
      · field_simp
      · field_simp
  obtain ⟨k1, k2⟩ := key
  ext i
  fin_cases i
  · change p 0 = length p * (cos (pointLatitude (p 0) (p 1) (p 2)) * sin φ)
    rw [← mul_assoc, k1, hsin]
  · change p 1 = length p * (-(cos (pointLatitude (p 0) (p 1) (p 2)) * cos φ))
    rw [mul_neg, ← mul_assoc, k1, hcos, neg_neg]
  · exact k2.symm

/-- The outcome when the two (possibly equal) intersections are known. -/
theorem eval_roots (h : s.Valid) (v d : Point) (hd : d ≠ 0) (k₁ k₂ : ℝ) (hle : k₁ ≤ k₂)
    (hfac : ∀ k : ℝ, level s.eqRad s.polRad (v + k • d) - 1 =
      level s.eqRad s.polRad d * (k - k₁) * (k - k₂)) :
    s.ellipseIntersection v d =
      if k₁ < k₂ ∧ 0 < k₁ + k₂ then .ok (locate v d k₁) else .ub := by
  have ha := level_pos h d hd
  have hline := level_line s v d
  have ea : (s.coefficients v d).1 = level s.eqRad s.polRad d := by rw [coefficients_eq]
  rw [ellipseIntersection]
  simp only [ea] at hline ⊢
  rw [if_neg ha.not_ge]
  set a := level s.eqRad s.polRad d
  generalize (s.coefficients v d).2.1 = b at hline ⊢
  generalize (s.coefficients v d).2.2 = c at hline ⊢
  have hp : ∀ k, a * k ^ 2 + b * k + c = a * (k - k₁) * (k - k₂) := fun k => by
    rw [← hline, hfac]
  have hc : c = a * k₁ * k₂ := by linear_combination hp 0
  have hb : b = -(a * (k₁ + k₂)) := by linear_combination (hp 1 - hp (-1)) / 2
  have hdisc : b * b - 4 * a * c = (a * (k₂ - k₁)) ^ 2 := by rw [hb, hc]; ring
  have hsqrt : √(b * b - 4 * a * c) = a * (k₂ - k₁) := by
    rw [hdisc, Real.sqrt_sq (mul_nonneg ha.le (by linarith))]
  have hq : quadraticRoots a b c =
      some (some (quadraticQ a b c / a), divide c (quadraticQ a b c)) := by
    rw [quadraticRoots, if_neg (by rw [hdisc]; exact (sq_nonneg _).not_gt), divide, if_neg ha.ne']
  rw [hq]
  rcases lt_or_ge 0 (k₁ + k₂) with h0 | h0
  · have hb0 : b < 0 := by rw [hb]; nlinarith
    have hQ : quadraticQ a b c = a * k₂ := by
      rcases sgnR_cases b with ⟨h1, _⟩ | ⟨_, h1⟩
      · linarith
      · rw [quadraticQ, h1, hsqrt, hb]; ring
    have hk2 : 0 < k₂ := by linarith
    have hQ0 : a * k₂ ≠ 0 := by positivity
    rw [hQ, divide, if_neg hQ0]
    have e1 : a * k₂ / a = k₂ := by field_simp
    have e2 : c / (a * k₂) = k₁ := by rw [hc]; field_simp
    rw [e1, e2]
    simp [h0]
  · have hb0 : 0 ≤ b := by rw [hb]; nlinarith
    have hQ : quadraticQ a b c = a * k₁ := by
      rcases sgnR_cases b with ⟨_, h1⟩ | ⟨h1, _⟩
      · rw [quadraticQ, h1, hsqrt, hb]; ring
      · linarith
    rw [hQ, if_neg (fun hh => absurd hh.2 h0.not_gt), divide]
    by_cases hk : a * k₁ = 0
    · rw [if_pos hk]
    · rw [if_neg hk]
      have hk1 : k₁ ≠ 0 := fun h => hk (by rw [h, mul_zero])
      have e1 : a * k₁ / a = k₁ := by field_simp
      have e2 : c / (a * k₁) = k₂ := by rw [hc]; field_simp
      rw [e1, e2]
      simp [hle]

theorem exists_roots (h : s.Valid) (v d : Point) (hd : d ≠ 0) (k : ℝ)
    (hk : OnSpheroid s.eqRad s.polRad (v + k • d)) :
    ∃ k₁ k₂ : ℝ, k₁ ≤ k₂ ∧ (k = k₁ ∨ k = k₂) ∧
      ∀ x : ℝ, level s.eqRad s.polRad (v + x • d) - 1 =
        level s.eqRad s.polRad d * (x - k₁) * (x - k₂) := by
  have ha := level_pos h d hd
  have hline := level_line s v d
  have ea : (s.coefficients v d).1 = level s.eqRad s.polRad d := by rw [coefficients_eq]
  simp only [ea] at hline
  set a := level s.eqRad s.polRad d
  generalize (s.coefficients v d).2.1 = b at hline
  generalize (s.coefficients v d).2.2 = c at hline
  have h0 : a * k ^ 2 + b * k + c = 0 := by rw [← hline, hk, sub_self]
  have fac : ∀ x : ℝ, level s.eqRad s.polRad (v + x • d) - 1 =
      a * (x - k) * (x - (-b / a - k)) := by
    intro x
    rw [hline]
    field_simp
    linear_combination h0
  rcases le_total k (-b / a - k) with hle | hle
  · exact ⟨k, _, hle, .inl rfl, fac⟩
  · refine ⟨_, k, hle, .inr rfl, fun x => ?_⟩
    rw [fac]; ring

theorem on_iff {a k₁ k₂ : ℝ} (ha : 0 < a) {v d : Point}
    (hfac : ∀ k : ℝ, level s.eqRad s.polRad (v + k • d) - 1 = a * (k - k₁) * (k - k₂)) (k : ℝ) :
    OnSpheroid s.eqRad s.polRad (v + k • d) ↔ k = k₁ ∨ k = k₂ := by
  rw [OnSpheroid, ← sub_eq_zero, hfac, mul_eq_zero, mul_eq_zero, sub_eq_zero, sub_eq_zero]
  simp [ha.ne']

theorem eval_none (h : s.Valid) (v d : Point) (hd : d ≠ 0)
    (hm : ∀ k : ℝ, ¬ OnSpheroid s.eqRad s.polRad (v + k • d)) :
    s.ellipseIntersection v d = .ok .none := by
  have ha := level_pos h d hd
  have hline := level_line s v d
  have ea : (s.coefficients v d).1 = level s.eqRad s.polRad d := by rw [coefficients_eq]
  rw [ellipseIntersection]
  simp only [ea] at hline ⊢
  rw [if_neg ha.not_ge]
  set a := level s.eqRad s.polRad d
  generalize (s.coefficients v d).2.1 = b at hline ⊢
  generalize (s.coefficients v d).2.2 = c at hline ⊢
  cases hq : quadraticRoots a b c with
  | none => rfl
  | some r =>
    obtain ⟨x, hx⟩ := ((C38_success a b c).2 ha.ne').1 (by rw [hq]; rfl)
    rw [← hline, sub_eq_zero] at hx
    exact absurd hx (hm x)

theorem eval_null (v : Point) : s.ellipseIntersection v 0 = .ok .badInput := by
  rw [ellipseIntersection, coefficients_eq]
  simp [level]

/-- "Bad input" is reported exactly for a null direction. -/
theorem C37_bad_input (h : s.Valid) (v d : Point) :
    s.ellipseIntersection v d = .ok .badInput ↔ d = 0 := by
  refine ⟨fun he => ?_, fun hd => hd ▸ eval_null v⟩
  by_contra hd
  by_cases hm : ∃ k : ℝ, OnSpheroid s.eqRad s.polRad (v + k • d)
  · obtain ⟨k, hk⟩ := hm
    obtain ⟨k₁, k₂, hle, -, hfac⟩ := exists_roots h v d hd k hk
    rw [eval_roots h v d hd k₁ k₂ hle hfac] at he
    split_ifs at he
    simp [locate] at he
  · rw [eval_none h v d hd (fun k hk => hm ⟨k, hk⟩)] at he
    simp at he

/-- "No solution" is reported exactly when the direction is not null and the
line does not meet the spheroid. -/
theorem C37_miss (h : s.Valid) (v d : Point) :
    s.ellipseIntersection v d = .ok .none ↔
      d ≠ 0 ∧ ∀ k : ℝ, ¬ OnSpheroid s.eqRad s.polRad (v + k • d) := by
  refine ⟨fun he => ?_, fun ⟨hd, hm⟩ => eval_none h v d hd hm⟩
  have hd : d ≠ 0 := by
    rintro rfl
    rw [eval_null] at he
    simp at he
  refine ⟨hd, fun k hk => ?_⟩
  obtain ⟨k₁, k₂, hle, -, hfac⟩ := exists_roots h v d hd k hk
  rw [eval_roots h v d hd k₁ k₂ hle hfac] at he
  split_ifs at he
  simp [locate] at he

theorem pointLatitude_mem (x y z : ℝ) : pointLatitude x y z ∈ Set.Icc (-(π / 2)) (π / 2) := by
  rw [pointLatitude]
  have := pi_pos
  split_ifs
  · constructor <;> linarith
  · constructor <;> linarith
  · exact ⟨(neg_pi_div_two_lt_arctan _).le, (arctan_lt_pi_div_two _).le⟩

theorem on_ne_zero {p : Point} (hp : OnSpheroid s.eqRad s.polRad p) : p ≠ 0 := by
  rintro rfl
  simp [OnSpheroid, level] at hp

theorem found_spec (v d : Point) (k lat lon : ℝ)
    (hk : OnSpheroid s.eqRad s.polRad (v + k • d)) (he : locate v d k = .found lat lon) :
    v + k • d = length (v + k • d) • reportedDirection lat lon ∧
      lat ∈ Set.Icc (-(π / 2)) (π / 2) ∧ lon ∈ Set.Ioc (-π) π := by
  rw [locate] at he
  injection he with e1 e2
  subst e1 e2
  exact ⟨locate_direction _ (on_ne_zero hk), pointLatitude_mem _ _ _, Complex.arg_mem_Ioc _⟩

/-- The latitude and longitude of a reported intersection are those of a point
of the line on the spheroid, and any other point of the line on the spheroid
is farther along the line. -/
theorem C37_found (h : s.Valid) (v d : Point) (lat lon : ℝ)
    (hf : s.ellipseIntersection v d = .ok (.found lat lon)) :
    ∃ k : ℝ, OnSpheroid s.eqRad s.polRad (v + k • d) ∧
      v + k • d = length (v + k • d) • reportedDirection lat lon ∧
      (∀ k', OnSpheroid s.eqRad s.polRad (v + k' • d) → k ≤ k') ∧
      lat ∈ Set.Icc (-(π / 2)) (π / 2) ∧ lon ∈ Set.Ioc (-π) π := by
  have hd : d ≠ 0 := by
    rintro rfl
    rw [eval_null] at hf
    simp at hf
  by_cases hm : ∃ k : ℝ, OnSpheroid s.eqRad s.polRad (v + k • d)
  · obtain ⟨k, hk⟩ := hm
    obtain ⟨k₁, k₂, hle, -, hfac⟩ := exists_roots h v d hd k hk
    rw [eval_roots h v d hd k₁ k₂ hle hfac] at hf
    split_ifs at hf
    have hon := on_iff (level_pos h d hd) hfac
    have h1 := (hon k₁).2 (.inl rfl)
    obtain ⟨e1, e2, e3⟩ := found_spec v d k₁ lat lon h1 (Outcome.ok.inj hf)
    refine ⟨k₁, h1, e1, fun k' hk' => ?_, e2, e3⟩
    rcases (hon k').1 hk' with rfl | rfl
    · exact le_refl _
    · exact hle
  · rw [eval_none h v d hd (fun k hk => hm ⟨k, hk⟩)] at hf
    simp at hf

/-- An intersection is reported exactly when the line meets the spheroid in two
points whose midpoint lies ahead. -/
theorem C37_found_iff (h : s.Valid) (v d : Point) (hd : d ≠ 0) :
    (∃ lat lon, s.ellipseIntersection v d = .ok (.found lat lon)) ↔
      ∃ k₁ k₂ : ℝ, k₁ < k₂ ∧ 0 < k₁ + k₂ ∧
        OnSpheroid s.eqRad s.polRad (v + k₁ • d) ∧ OnSpheroid s.eqRad s.polRad (v + k₂ • d) := by
  constructor
  · rintro ⟨lat, lon, hf⟩
    obtain ⟨k, hk, -⟩ := C37_found h v d lat lon hf
    obtain ⟨k₁, k₂, hle, -, hfac⟩ := exists_roots h v d hd k hk
    rw [eval_roots h v d hd k₁ k₂ hle hfac] at hf
    split_ifs at hf with h2
    have hon := on_iff (level_pos h d hd) hfac
    exact ⟨k₁, k₂, h2.1, h2.2, (hon _).2 (.inl rfl), (hon _).2 (.inr rfl)⟩
  · rintro ⟨x₁, x₂, hlt, hsum, h1, h2⟩
    obtain ⟨k₁, k₂, hle, -, hfac⟩ := exists_roots h v d hd x₁ h1
    have hon := on_iff (level_pos h d hd) hfac
    rw [eval_roots h v d hd k₁ k₂ hle hfac]
    have : k₁ < k₂ ∧ 0 < k₁ + k₂ := by
      rcases (hon _).1 h1 with rfl | rfl <;> rcases (hon _).1 h2 with rfl | rfl
      · exact absurd hlt (lt_irrefl _)
      · exact ⟨hlt, hsum⟩
      · linarith
      · exact absurd hlt (lt_irrefl _)
    rw [if_pos this]
    exact ⟨_, _, rfl⟩

/-- Looking from outside at a point inside the body, the nearer of the two
intersections ahead is reported. -/
theorem C37_nearer (h : s.Valid) (v d : Point) (ho : 1 < level s.eqRad s.polRad v)
    (k₀ : ℝ) (hk : 0 < k₀) (hi : level s.eqRad s.polRad (v + k₀ • d) < 1) :
    ∃ lat lon k, s.ellipseIntersection v d = .ok (.found lat lon) ∧ 0 < k ∧ k < k₀ ∧
      OnSpheroid s.eqRad s.polRad (v + k • d) ∧
      v + k • d = length (v + k • d) • reportedDirection lat lon ∧
      ∀ k', OnSpheroid s.eqRad s.polRad (v + k' • d) → k ≤ k' := by
  have hd : d ≠ 0 := by
    rintro rfl
    rw [smul_zero, add_zero] at hi
    linarith
  have hcont : Continuous fun k : ℝ => level s.eqRad s.polRad (v + k • d) := by
    simp only [level, Pi.add_apply, Pi.smul_apply, smul_eq_mul]
    fun_prop
  obtain ⟨x, hx, hxe⟩ : (1 : ℝ) ∈ (fun k : ℝ => level s.eqRad s.polRad (v + k • d)) ''
      Set.Icc 0 k₀ := by
    apply intermediate_value_Icc' hk.le hcont.continuousOn
    simp only [zero_smul, add_zero]
    exact ⟨hi.le, ho.le⟩
  obtain ⟨k₁, k₂, hle, hxk, hfac⟩ := exists_roots h v d hd x hxe
  have ha := level_pos h d hd
  have hon := on_iff ha hfac
  have hin : (k₀ - k₁) * (k₀ - k₂) < 0 := by
    have := hfac k₀
    rw [mul_assoc] at this
    by_contra hc
    have := mul_nonneg ha.le (not_lt.1 hc)
    linarith
  have hout : 0 < (0 - k₁) * (0 - k₂) := by
    have := hfac 0
    rw [mul_assoc, zero_smul, add_zero] at this
    by_contra hc
    have := mul_nonpos_of_nonneg_of_nonpos ha.le (not_lt.1 hc)
    linarith
  have hb1 : k₁ < k₀ := by nlinarith
  have hb2 : k₀ < k₂ := by nlinarith
  have hb0 : 0 < k₁ := by nlinarith
  rw [eval_roots h v d hd k₁ k₂ hle hfac, if_pos ⟨by linarith, by linarith⟩]
  have h1 := (hon k₁).2 (.inl rfl)
  obtain ⟨e1, -⟩ := found_spec v d k₁ _ _ h1 rfl
  refine ⟨_, _, k₁, rfl, hb0, hb1, h1, e1, fun k' hk' => ?_⟩
  rcases (hon k').1 hk' with rfl | rfl
  · exact le_refl _
  · exact hle

/-- The assertion in the function fails whenever the line touches the spheroid
in one point, or meets it in two points whose midpoint is not ahead. -/
theorem C37_violated (h : s.Valid) (v d : Point) (hd : d ≠ 0)
    (k₁ k₂ : ℝ) (h1 : OnSpheroid s.eqRad s.polRad (v + k₁ • d))
    (_h2 : OnSpheroid s.eqRad s.polRad (v + k₂ • d))
    (hall : ∀ k, OnSpheroid s.eqRad s.polRad (v + k • d) → k = k₁ ∨ k = k₂)
    (hbad : k₁ = k₂ ∨ k₁ + k₂ ≤ 0) :
    s.ellipseIntersection v d = .ub := by
  obtain ⟨x₁, x₂, hle, -, hfac⟩ := exists_roots h v d hd k₁ h1
  have hon := on_iff (level_pos h d hd) hfac
  rw [eval_roots h v d hd x₁ x₂ hle hfac, if_neg]
  rintro ⟨hlt, hsum⟩
  have a1 := hall x₁ ((hon _).2 (.inl rfl))
  have a2 := hall x₂ ((hon _).2 (.inr rfl))
  rcases a1 with a1 | a1 <;> rcases a2 with a2 | a2 <;> rcases hbad with hb | hb <;> linarith

/-- Looking at a unit sphere from above: straight down finds the north pole,
past it finds nothing, along the tangent or straight up the assertion
fails. -/
theorem C37_instances :
    let s : Spheroid := ⟨1, 1⟩
    (∃ lat lon, s.ellipseIntersection ![0, 0, 2] ![0, 0, -1] = .ok (.found lat lon)) ∧
    s.ellipseIntersection ![2, 0, 0] ![0, 0, 1] = .ok .none ∧
    s.ellipseIntersection ![1, 0, -2] ![0, 0, 1] = .ub ∧
    s.ellipseIntersection ![0, 0, 2] ![0, 0, 1] = .ub := by
  intro s
  have hv : s.Valid := ⟨by norm_num [s], by norm_num [s]⟩
  have on : ∀ a b c d e f k : ℝ, OnSpheroid s.eqRad s.polRad (![a, b, c] + k • ![d, e, f]) ↔
      (a + k * d) ^ 2 + (b + k * e) ^ 2 + (c + k * f) ^ 2 = 1 := by
    intro a b c d e f k
    simp [OnSpheroid, level, s]
  have nz : ∀ d : Point, d 2 ≠ 0 → d ≠ 0 := fun d hd h => hd (by rw [h]; rfl)
  refine ⟨?_, ?_, ?_, ?_⟩
  · rw [C37_found_iff hv _ _ (nz _ (by simp))]
    refine ⟨1, 3, by norm_num, by norm_num, ?_, ?_⟩ <;> rw [on] <;> norm_num
  · rw [C37_miss hv]
    refine ⟨nz _ (by simp), fun k => ?_⟩
    rw [on]
    intro h
    nlinarith
  · refine C37_violated hv _ _ (nz _ (by simp)) 2 2 ?_ ?_ ?_ (.inl rfl)
    · rw [on]; norm_num
    · rw [on]; norm_num
    · intro k hk
      rw [on] at hk
      have : (k - 2) ^ 2 = 0 := by linarith
      left
      have := pow_eq_zero_iff (two_ne_zero) |>.1 this
      linarith
  · refine C37_violated hv _ _ (nz _ (by simp)) (-3) (-1) ?_ ?_ ?_ (.inr (by norm_num))
    · rw [on]; norm_num
    · rw [on]; norm_num
    · intro k hk
      rw [on] at hk
      have : (k + 3) * (k + 1) = 0 := by linarith
      rcases mul_eq_zero.1 this with h | h
      · left; linarith
      · right; linarith

end Spheroid
end MaRC
