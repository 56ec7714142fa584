import Verif.Spec.Libm
import Verif.Lemmas.Rounding
import Mathlib.Analysis.Complex.Exponential
import Mathlib.Analysis.Complex.Trigonometric

/-! Facts about correctly rounded functions; rational bounds of sine and cosine. -/

namespace MaRC

open Fp

/-! ## A correctly rounded function exists -/

theorem rnd53_multiple (q : ℚ) : ∃ m : ℤ, rnd53 q = m * (2 : ℚ) ^ (-1074 : ℤ) := by
  have hle : (-1074 : ℤ) ≤ ulpExp 53 (-1074) q := le_max_right _ _
  refine ⟨roundHalfEven (q / (2 : ℚ) ^ ulpExp 53 (-1074) q) *
    2 ^ (ulpExp 53 (-1074) q + 1074).toNat, ?_⟩
  unfold rnd53 rndP
  push_cast
  rw [mul_assoc]
  congr 1
  rw [← zpow_natCast, ← zpow_add₀ (by norm_num)]
  congr 1
  omega

theorem ieee_rnd_le_of {x y : ℚ} (h : rnd53 x ≤ rnd53 y) :
    (ieee.rnd x).le (ieee.rnd y) = true := by
  have := dblMax_pos
  rw [ieee_rnd, ieee_rnd]
  split_ifs <;> first | rfl | (exfalso; linarith) | simpa using h

theorem exists_rounded (r : ℝ) : ∃ d : Dbl, ∀ q : ℚ,
    ((q : ℝ) ≤ r → (ieee.rnd q).le d = true) ∧ (r ≤ (q : ℝ) → d.le (ieee.rnd q) = true) := by
  have h2 : (0 : ℚ) < (2 : ℚ) ^ (-1074 : ℤ) := two_zpow_pos _
  let P : ℤ → Prop := fun m => ∃ q : ℚ, (q : ℝ) ≤ r ∧ rnd53 q = m * (2 : ℚ) ^ (-1074 : ℤ)
  have hb : ∃ b : ℤ, ∀ z, P z → z ≤ b := by
    obtain ⟨b, hb⟩ := rnd53_multiple (⌈r⌉ : ℚ)
    refine ⟨b, fun z ⟨q, hq, hz⟩ => ?_⟩
    have : q ≤ (⌈r⌉ : ℚ) := by
      have : (q : ℝ) ≤ ((⌈r⌉ : ℚ) : ℝ) := by
        push_cast; exact hq.trans (Int.le_ceil r)
      exact_mod_cast this
    have := rnd53_mono this
    rw [hb, hz] at this
    exact_mod_cast le_of_mul_le_mul_right this h2
  have hi : ∃ z, P z := by
    obtain ⟨b, hb⟩ := rnd53_multiple (⌊r⌋ : ℚ)
    exact ⟨b, (⌊r⌋ : ℚ), by push_cast; exact Int.floor_le r, hb⟩
  obtain ⟨m, ⟨q0, hq0, hm⟩, hmax⟩ := Int.exists_greatest_of_bdd hb hi
  refine ⟨ieee.rnd q0, fun q => ⟨fun hq => ieee_rnd_le_of ?_, fun hq => ieee_rnd_mono ?_⟩⟩
  · obtain ⟨z, hz⟩ := rnd53_multiple q
    have := hmax z ⟨q, hq, hz⟩
    rw [hz, hm]
    have : (z : ℚ) ≤ m := by exact_mod_cast this
    gcongr
  · exact_mod_cast hq0.trans hq

theorem exists_correct : ∃ L : Libm, L.Correct := by
  classical
  choose d hd using exists_rounded
  let f : (ℝ → ℝ) → Dbl → Dbl := fun g x => match x with
    | .fin x => d (g x)
    | _ => .nan
  exact ⟨⟨f Real.sin, f Real.cos, f Real.tan, f Real.arctan⟩,
    fun x q => hd _ q, fun x q => hd _ q, fun x q => hd _ q, fun x q => hd _ q⟩

/-! ## Values -/

theorem CorrectlyRounded.eq {f : Dbl → Dbl} {g : ℝ → ℝ} (h : CorrectlyRounded f g)
    {x q1 q2 d : ℚ} (h1 : (q1 : ℝ) ≤ g x) (h2 : g x ≤ (q2 : ℝ))
    (e1 : ieee.rnd q1 = .fin d) (e2 : ieee.rnd q2 = .fin d) : f (.fin x) = .fin d := by
  have a := (h x q1).1 h1
  have b := (h x q2).2 h2
  rw [e1] at a
  rw [e2] at b
  exact Dbl.le_antisymm b a

/-- Error of a correctly rounded value of magnitude up to 1. -/
theorem CorrectlyRounded.near {f : Dbl → Dbl} {g : ℝ → ℝ} (h : CorrectlyRounded f g) (x : ℚ)
    (hg : |g x| ≤ 1) : ∃ d : ℚ, f (.fin x) = .fin d ∧ |(d : ℝ) - g x| ≤ 2 ^ (-52 : ℤ) ∧
      |d| ≤ 1 := by
  have h1 : ieee.rnd 1 = .fin 1 := by decide +kernel
  have hm1 : ieee.rnd (-1) = .fin (-1) := by decide +kernel
  have hlo := (h x (-1)).1 (by push_cast; exact (abs_le.mp hg).1)
  have hhi := (h x 1).2 (by push_cast; exact (abs_le.mp hg).2)
  rw [hm1] at hlo
  rw [h1] at hhi
  obtain ⟨d, hd⟩ : ∃ d, f (.fin x) = .fin d := by
    cases hf : f (.fin x) <;> rw [hf] at hlo hhi <;> simp [Dbl.le] at hlo hhi ⊢
  rw [hd] at hlo hhi
  simp only [Dbl.le, decide_eq_true_eq] at hlo hhi
  refine ⟨d, hd, ?_, abs_le.mpr ⟨hlo, hhi⟩⟩
  have key : ∀ q : ℚ, |q| ≤ 1 + 2 ^ (-60 : ℤ) → |rnd53 q - q| ≤ 2 ^ (-53 : ℤ) + 2 ^ (-58 : ℤ) := by
    intro q hq
    refine (rnd53_err q).trans ?_
    have h3 : (2 : ℚ) ^ (-1074 : ℤ) ≤ 2 ^ (-60 : ℤ) := zpow_le_zpow_right₀ (by norm_num) (by norm_num)
    have h4 : |q| / 2 ^ 53 ≤ (1 + 2 ^ (-60 : ℤ)) / 2 ^ 53 := by gcongr
    norm_num at h3 h4 ⊢
    linarith
  have keyR : ∀ q : ℚ, |q| ≤ 1 + 2 ^ (-60 : ℤ) →
      |(rnd53 q : ℝ) - q| ≤ 2 ^ (-53 : ℤ) + 2 ^ (-58 : ℤ) := by
    intro q hq
    have := (Rat.cast_le (K := ℝ)).mpr (key q hq)
    push_cast at this
    exact this
  have hfin : ∀ q : ℚ, |q| ≤ 1 + 2 ^ (-60 : ℤ) → ieee.rnd q = .fin (rnd53 q) := by
    intro q hq
    have hk := key q hq
    have hM := dblMax_ge
    rw [abs_le] at hq hk
    norm_num at hq hk hM
    rw [ieee_rnd, if_neg (by linarith), if_neg (by linarith)]
  have he : (0 : ℝ) < 2 ^ (-60 : ℤ) := by positivity
  obtain ⟨q1, ha1, hb1⟩ := exists_rat_btwn (sub_lt_self (g x) he)
  obtain ⟨q2, ha2, hb2⟩ := exists_rat_btwn (lt_add_of_pos_right (g x) he)
  rw [abs_le] at hg
  have hq1 : |q1| ≤ 1 + 2 ^ (-60 : ℤ) := by
    have : |(q1 : ℝ)| ≤ 1 + 2 ^ (-60 : ℤ) := by rw [abs_le]; constructor <;> linarith
    have e : ((|q1| : ℚ) : ℝ) ≤ ((1 + 2 ^ (-60 : ℤ) : ℚ) : ℝ) := by push_cast; exact this
    exact Rat.cast_le.mp e
  have hq2 : |q2| ≤ 1 + 2 ^ (-60 : ℤ) := by
    have : |(q2 : ℝ)| ≤ 1 + 2 ^ (-60 : ℤ) := by rw [abs_le]; constructor <;> linarith
    have e : ((|q2| : ℚ) : ℝ) ≤ ((1 + 2 ^ (-60 : ℤ) : ℚ) : ℝ) := by push_cast; exact this
    exact Rat.cast_le.mp e
  have h1' := (h x q1).1 hb1.le
  have h2' := (h x q2).2 ha2.le
  rw [hd, hfin _ hq1] at h1'
  rw [hd, hfin _ hq2] at h2'
  simp only [Dbl.le, decide_eq_true_eq] at h1' h2'
  have h1r : (rnd53 q1 : ℝ) ≤ d := by exact_mod_cast h1'
  have h2r : (d : ℝ) ≤ rnd53 q2 := by exact_mod_cast h2'
  have k1 := abs_le.mp (keyR q1 hq1)
  have k2 := abs_le.mp (keyR q2 hq2)
  clear h1' h2' hlo hhi key keyR hfin hq1 hq2
  rw [abs_le]
  norm_num at ha1 hb2 k1 k2 ⊢
  constructor <;> linarith

/-! ## Taylor sums -/

/-- Term of index `n` of the exponential series at `q * I`: real and imaginary parts. -/
def cisTerm (q : ℚ) : ℕ → ℚ × ℚ
  | 0 => (1, 0)
  | n + 1 => (-(cisTerm q n).2 * q / (n + 1), (cisTerm q n).1 * q / (n + 1))

/-- The next terms added to a sum; `t` is the term of index `k`. -/
def cisLoop (q : ℚ) : ℕ → ℕ → ℚ × ℚ → ℚ × ℚ → ℚ × ℚ
  | 0, _, _, s => s
  | n + 1, k, t, s =>
    cisLoop q n (k + 1) (-t.2 * q / (k + 1), t.1 * q / (k + 1)) (s.1 + t.1, s.2 + t.2)

/-- Sum of the first `n` terms. -/
def cisSum (q : ℚ) (n : ℕ) : ℚ × ℚ := cisLoop q n 0 (1, 0) (0, 0)

theorem cisTerm_eq (q : ℚ) (n : ℕ) :
    ((q : ℂ) * Complex.I) ^ n / (n.factorial : ℂ) =
      ((cisTerm q n).1 : ℂ) + ((cisTerm q n).2 : ℂ) * Complex.I := by
  induction n with
  | zero => simp [cisTerm]
  | succ n ih =>
    have : ((n : ℂ) + 1) ≠ 0 := by exact_mod_cast Nat.succ_ne_zero n
    have hf : (n.factorial : ℂ) ≠ 0 := by exact_mod_cast n.factorial_ne_zero
    have e : ((q : ℂ) * Complex.I) ^ (n + 1) / ((n + 1).factorial : ℂ) =
        (((q : ℂ) * Complex.I) ^ n / (n.factorial : ℂ)) * ((q : ℂ) * Complex.I) / (n + 1) := by
      rw [Nat.factorial_succ, pow_succ]; push_cast; field_simp
    rw [e, ih]
    simp only [cisTerm]
    push_cast
    field_simp
    linear_combination (q : ℂ) * ((cisTerm q n).2 : ℂ) * Complex.I_sq

theorem cisLoop_eq (q : ℚ) (n k : ℕ) (s : ℚ × ℚ) :
    (((cisLoop q n k (cisTerm q k) s).1 : ℂ)) +
      ((cisLoop q n k (cisTerm q k) s).2 : ℂ) * Complex.I =
    (s.1 : ℂ) + (s.2 : ℂ) * Complex.I +
      ∑ m ∈ Finset.range n, ((q : ℂ) * Complex.I) ^ (k + m) / ((k + m).factorial : ℂ) := by
  induction n generalizing k s with
  | zero => simp [cisLoop]
  | succ n ih =>
    have e : cisLoop q (n + 1) k (cisTerm q k) s =
        cisLoop q n (k + 1) (cisTerm q (k + 1)) (s.1 + (cisTerm q k).1, s.2 + (cisTerm q k).2) := rfl
    rw [e, ih, Finset.sum_range_succ']
    have e2 : ∀ m, k + 1 + m = k + (m + 1) := fun m => by ring
    simp only [e2]
    rw [show k + 0 = k from rfl, cisTerm_eq q k]
    push_cast
    ring

theorem cisSum_eq (q : ℚ) (n : ℕ) :
    ∑ m ∈ Finset.range n, ((q : ℂ) * Complex.I) ^ m / (m.factorial : ℂ) =
      ((cisSum q n).1 : ℂ) + ((cisSum q n).2 : ℂ) * Complex.I := by
  have := cisLoop_eq q n 0 (0, 0)
  simp only [Rat.cast_zero, zero_mul, add_zero, zero_add] at this
  exact this.symm

theorem cis_bound {q : ℚ} (hq : |q| ≤ 1) {n : ℕ} (hn : 0 < n) :
    |Real.cos q - (cisSum q n).1| ≤ ((n.succ / (n.factorial * n) : ℚ) : ℝ) ∧
    |Real.sin q - (cisSum q n).2| ≤ ((n.succ / (n.factorial * n) : ℚ) : ℝ) := by
  have hn1 : ‖(q : ℂ) * Complex.I‖ ≤ 1 := by
    rw [norm_mul, Complex.norm_I, mul_one]
    have : ‖(q : ℂ)‖ = |(q : ℝ)| := by
      rw [show (q : ℂ) = ((q : ℝ) : ℂ) by push_cast; rfl, Complex.norm_real, Real.norm_eq_abs]
    rw [this]
    exact_mod_cast hq
  have h := Complex.exp_bound hn1 hn
  rw [cisSum_eq] at h
  have hb : ‖(q : ℂ) * Complex.I‖ ^ n * ((n.succ : ℝ) * (n.factorial * n : ℝ)⁻¹) ≤
      ((n.succ / (n.factorial * n) : ℚ) : ℝ) := by
    push_cast
    rw [div_eq_mul_inv]
    refine mul_le_of_le_one_left (by positivity) (pow_le_one₀ (norm_nonneg _) hn1)
  have h := h.trans hb
  have hre := (Complex.abs_re_le_norm _).trans h
  have him := (Complex.abs_im_le_norm _).trans h
  have e : (q : ℂ) = ((q : ℝ) : ℂ) := by push_cast; rfl
  have e1 : ((cisSum q n).1 : ℂ) = (((cisSum q n).1 : ℝ) : ℂ) := by push_cast; rfl
  have e2 : ((cisSum q n).2 : ℂ) = (((cisSum q n).2 : ℝ) : ℂ) := by push_cast; rfl
  rw [e, e1, e2] at hre him
  simp only [Complex.sub_re, Complex.sub_im, Complex.add_re, Complex.add_im, Complex.ofReal_re,
    Complex.ofReal_im, Complex.mul_re, Complex.mul_im, Complex.I_re, Complex.I_im,
    Complex.exp_ofReal_mul_I_re, Complex.exp_ofReal_mul_I_im, mul_zero, mul_one,
    sub_zero, add_zero, zero_add] at hre him
  exact ⟨hre, him⟩

end MaRC
