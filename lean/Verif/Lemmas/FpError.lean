import Verif.Spec.LibmRoot
import Verif.Lemmas.Accuracy

/-! # Errors of chains of floating-point operations -/

namespace MaRC

open Fp

/-- A correctly rounded library exists. -/
theorem exists_correctRoot : ∃ L : LibmRoot, L.Correct := by
  classical
  obtain ⟨L, hL⟩ := exists_correct
  choose d hd using exists_rounded
  let f : Dbl → Dbl := fun x => match x with
    | .fin x => d (Real.sqrt x)
    | _ => .nan
  let g : Dbl → Dbl → Dbl := fun x y => match x, y with
    | .fin x, .fin y => d (Real.sqrt (x ^ 2 + y ^ 2))
    | _, _ => .nan
  exact ⟨⟨L, f, g⟩, { toCorrect := hL, sqrt := fun x _ q => hd _ q, hypot := fun x y q => hd _ q }⟩

theorem Rounded.eq {d : Dbl} {r : ℝ} (h : Rounded d r) {q1 q2 v : ℚ} (h1 : (q1 : ℝ) ≤ r)
    (h2 : r ≤ (q2 : ℝ)) (e1 : ieee.rnd q1 = .fin v) (e2 : ieee.rnd q2 = .fin v) : d = .fin v :=
  CorrectlyRounded.eq (f := fun _ => d) (g := fun _ => r) (fun _ => h) (x := 0) h1 h2 e1 e2

theorem Rounded.err {d : Dbl} {r : ℝ} (h : Rounded d r) (hr : |r| ≤ 2 ^ 100) :
    ∃ q : ℚ, d = .fin q ∧ |(q : ℝ) - r| ≤ |r| / 2 ^ 53 + 1 / 2 ^ 199 :=
  CorrectlyRounded.err (f := fun _ => d) (g := fun _ => r) (fun _ => h) 0 hr

/-- `d` is a number within `k` units of relative size 2^-52 of `x`, at scale `S`. -/
def Ap (d : Dbl) (x k S : ℝ) : Prop :=
  ∃ q : ℚ, d = .fin q ∧ |(q : ℝ) - x| ≤ k * (S / 2 ^ 52) ∧ |x| ≤ S

/-- Scales at which neither overflow nor underflow matters. -/
structure Scale (S : ℝ) : Prop where
  lo : 1 / 2 ^ 140 ≤ S
  hi : S ≤ 2 ^ 180

theorem Scale.pos {S : ℝ} (h : Scale S) : 0 < S := lt_of_lt_of_le (by positivity) h.lo

theorem ap_rnd {q : ℚ} {x k S l : ℝ} (hS : Scale S) (h : |(q : ℝ) - x| ≤ k * (S / 2 ^ 52))
    (hx : |x| ≤ S) (hk : k ≤ 2 ^ 20) (hl : k + 1 ≤ l) : Ap (ieee.rnd q) x l S := by
  have hp := hS.pos
  have hlo := hS.lo
  have hhi := hS.hi
  have hq : |(q : ℝ)| ≤ S * (1 + 1 / 2 ^ 30) := by
    have h1 := abs_add_le ((q : ℝ) - x) x
    rw [sub_add_cancel] at h1
    have h2 : k * (S / 2 ^ 52) ≤ 2 ^ 20 * (S / 2 ^ 52) :=
      mul_le_mul_of_nonneg_right hk (by positivity)
    norm_num at h2 ⊢
    linarith
  have hfin : ieee.rnd q = .fin (rnd53 q) := by
    refine ieee_rnd_fin ?_
    have : |(q : ℝ)| ≤ 2 ^ 200 := by
      norm_num at hq hhi ⊢
      linarith
    exact_mod_cast this
  refine ⟨_, hfin, ?_, hx⟩
  have e := rnd53_err200R q
  have h1 : |(rnd53 q : ℝ) - x| ≤ |(rnd53 q : ℝ) - q| + |(q : ℝ) - x| := abs_sub_le _ _ _
  have h3 : (k + 1) * (S / 2 ^ 52) ≤ l * (S / 2 ^ 52) :=
    mul_le_mul_of_nonneg_right hl (by positivity)
  norm_num at e h h1 h3 hq hlo ⊢
  linarith

theorem Ap.exact (q : ℚ) {S : ℝ} (h : |(q : ℝ)| ≤ S) : Ap (.fin q) q 0 S :=
  ⟨q, rfl, by simp, h⟩

theorem Ap.mul {a b : Dbl} {x y i j X Y : ℝ} (ha : Ap a x i X) (hb : Ap b y j Y)
    (hi : 0 ≤ i ∧ i ≤ 2 ^ 10) (hj : 0 ≤ j ∧ j ≤ 2 ^ 10) (hX : Scale X) (hY : Scale Y)
    (hXY : Scale (X * Y)) : Ap (ieee.mul a b) (x * y) (i + j + 2) (X * Y) := by
  obtain ⟨q, rfl, hq, hx⟩ := ha
  obtain ⟨p, rfl, hp, hy⟩ := hb
  have h0X := hX.pos
  have h0Y := hY.pos
  simp only [Fp.mul]
  refine ap_rnd hXY (k := i + j + 1) ?_ ?_ ?_ (by linarith)
  · push_cast
    have e : (q : ℝ) * p - x * y = (q - x) * (p - y) + (q - x) * y + x * (p - y) := by ring
    rw [e]
    refine (abs_add_three _ _ _).trans ?_
    rw [abs_mul, abs_mul, abs_mul]
    have h1 : |(q : ℝ) - x| * |(p : ℝ) - y| ≤ i * (X / 2 ^ 52) * (j * (Y / 2 ^ 52)) :=
      mul_le_mul hq hp (abs_nonneg _) ((abs_nonneg _).trans hq)
    have h2 : |(q : ℝ) - x| * |y| ≤ i * (X / 2 ^ 52) * Y :=
      mul_le_mul hq hy (abs_nonneg _) ((abs_nonneg _).trans hq)
    have h3 : |x| * |(p : ℝ) - y| ≤ X * (j * (Y / 2 ^ 52)) :=
      mul_le_mul hx hp (abs_nonneg _) h0X.le
    have h4 : i * j ≤ 2 ^ 20 := by
      have := mul_le_mul hi.2 hj.2 hj.1 (by positivity)
      norm_num at this ⊢
      linarith
    have h5 : i * (X / 2 ^ 52) * (j * (Y / 2 ^ 52)) = i * j * (X * Y / 2 ^ 104) := by ring
    have h6 : i * j * (X * Y / 2 ^ 104) ≤ 2 ^ 20 * (X * Y / 2 ^ 104) :=
      mul_le_mul_of_nonneg_right h4 (by positivity)
    have h7 : (0 : ℝ) < X * Y := by positivity
    have h8 : (i + j + 1) * (X * Y / 2 ^ 52) =
      i * (X / 2 ^ 52) * Y + X * (j * (Y / 2 ^ 52)) + X * Y / 2 ^ 52 := by ring
    rw [h8]
    have h9 : 2 ^ 20 * (X * Y / 2 ^ 104) ≤ X * Y / 2 ^ 52 := by
      norm_num
      linarith
    linarith
  · rw [abs_mul]
    exact mul_le_mul hx hy (abs_nonneg _) h0X.le
  · have h1 := hi.2
    have h2 := hj.2
    norm_num at h1 h2 ⊢
    linarith

theorem Ap.add {a b : Dbl} {x y i j k X Y S : ℝ} (ha : Ap a x i X) (hb : Ap b y j Y)
    (hS : Scale S) (hxy : |x + y| ≤ S) (hk : i * X + j * Y + S ≤ k * S) (hk' : k ≤ 2 ^ 20) :
    Ap (ieee.add a b) (x + y) k S := by
  obtain ⟨q, rfl, hq, hx⟩ := ha
  obtain ⟨p, rfl, hp, hy⟩ := hb
  have h0 := hS.pos
  simp only [Fp.add]
  refine ap_rnd hS (k := k - 1) ?_ hxy (by linarith) (by linarith)
  push_cast
  have e : (q : ℝ) + p - (x + y) = (q - x) + (p - y) := by ring
  rw [e]
  refine (abs_add_le _ _).trans ?_
  have : i * (X / 2 ^ 52) + j * (Y / 2 ^ 52) ≤ (k - 1) * (S / 2 ^ 52) := by
    have h1 : i * (X / 2 ^ 52) + j * (Y / 2 ^ 52) = (i * X + j * Y) / 2 ^ 52 := by ring
    have h2 : (k - 1) * (S / 2 ^ 52) = (k * S - S) / 2 ^ 52 := by ring
    rw [h1, h2]
    gcongr
    linarith
  linarith

theorem Ap.neg {a : Dbl} {x i X : ℝ} (ha : Ap a x i X) : Ap a.neg (-x) i X := by
  obtain ⟨q, rfl, hq, hx⟩ := ha
  refine ⟨-q, rfl, ?_, by rwa [abs_neg]⟩
  push_cast
  rw [← abs_neg]
  convert hq using 2
  ring

theorem Ap.sub {a b : Dbl} {x y i j k X Y S : ℝ} (ha : Ap a x i X) (hb : Ap b y j Y)
    (hS : Scale S) (hxy : |x - y| ≤ S) (hk : i * X + j * Y + S ≤ k * S) (hk' : k ≤ 2 ^ 20) :
    Ap (ieee.sub a b) (x - y) k S := by
  have := Ap.add ha hb.neg hS (by rwa [← sub_eq_add_neg]) hk hk'
  rwa [← sub_eq_add_neg] at this

theorem Ap.sin {L : Libm} (hL : L.Correct) {a : Dbl} {x i k : ℝ} {X : ℝ} (ha : Ap a x i X)
    (hk : i * X + 1 ≤ k) : Ap (L.sin a) (Real.sin x) k 1 := by
  obtain ⟨q, rfl, hq, hx⟩ := ha
  obtain ⟨d, hd, hn, -⟩ := hL.sin.near q (Real.abs_sin_le_one _)
  refine ⟨d, hd, ?_, Real.abs_sin_le_one _⟩
  have h1 : |Real.sin q - Real.sin x| ≤ |(q : ℝ) - x| := by
    simpa [Real.dist_eq] using Real.lipschitzWith_sin.dist_le_mul (q : ℝ) x
  have h2 := abs_sub_le (d : ℝ) (Real.sin q) (Real.sin x)
  have h3 : i * (X / 2 ^ 52) = i * X / 2 ^ 52 := by ring
  norm_num at hn hq h3 ⊢
  linarith

theorem Ap.cos {L : Libm} (hL : L.Correct) {a : Dbl} {x i k : ℝ} {X : ℝ} (ha : Ap a x i X)
    (hk : i * X + 1 ≤ k) : Ap (L.cos a) (Real.cos x) k 1 := by
  obtain ⟨q, rfl, hq, hx⟩ := ha
  obtain ⟨d, hd, hn, -⟩ := hL.cos.near q (Real.abs_cos_le_one _)
  refine ⟨d, hd, ?_, Real.abs_cos_le_one _⟩
  have h1 : |Real.cos q - Real.cos x| ≤ |(q : ℝ) - x| := by
    simpa [Real.dist_eq] using Real.lipschitzWith_cos.dist_le_mul (q : ℝ) x
  have h2 := abs_sub_le (d : ℝ) (Real.cos q) (Real.cos x)
  have h3 : i * (X / 2 ^ 52) = i * X / 2 ^ 52 := by ring
  norm_num at hn hq h3 ⊢
  linarith

end MaRC
