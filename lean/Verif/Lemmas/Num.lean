import Verif.Model.Num
import Mathlib.Tactic.Linarith
import Mathlib.Tactic.Ring
import Mathlib.Tactic.NormNum
import Mathlib.Tactic.Positivity
import Mathlib.Tactic.FieldSimp

namespace MaRC

theorem szMul_eq {a b : ℕ} (h : a * b < 2 ^ 64) : szMul a b = a * b :=
  Nat.mod_eq_of_lt h

theorem szSub_eq {a b : ℕ} (hb : b ≤ a) (ha : a < 2 ^ 64) : szSub a b = a - b := by
  unfold szSub szMod
  have : a + (2 ^ 64 - b) = (a - b) + 2 ^ 64 := by omega
  rw [this, Nat.add_mod_right, Nat.mod_eq_of_lt (by omega)]

theorem szSub_wrap {a b : ℕ} (hb : a < b) (hb' : b < 2 ^ 64) :
    szSub a b = 2 ^ 64 - (b - a) := by
  unfold szSub szMod
  have : a + (2 ^ 64 - b) = 2 ^ 64 - (b - a) := by omega
  rw [this, Nat.mod_eq_of_lt (by omega)]

namespace Fp

theorem roundHalfEven_int (n : ℤ) : roundHalfEven (n : ℚ) = n := by
  simp [roundHalfEven]

theorem roundHalfEven_bounds (x : ℚ) :
    (⌊x⌋ : ℤ) ≤ roundHalfEven x ∧ roundHalfEven x ≤ ⌊x⌋ + 1 := by
  unfold roundHalfEven
  simp only
  split_ifs <;> constructor <;> omega

theorem abs_roundHalfEven_sub_le (x : ℚ) : |(roundHalfEven x : ℚ) - x| ≤ 1 / 2 := by
  have h1 := Int.floor_le x
  have h2 := Int.lt_floor_add_one x
  unfold roundHalfEven
  simp only
  split_ifs <;> push_cast <;> rw [abs_le] <;> constructor <;> linarith

theorem roundHalfEven_mono {x y : ℚ} (h : x ≤ y) : roundHalfEven x ≤ roundHalfEven y := by
  have hf : ⌊x⌋ ≤ ⌊y⌋ := Int.floor_mono h
  rcases hf.lt_or_eq with hlt | heq
  · have h1 := (roundHalfEven_bounds x).2
    have h2 := (roundHalfEven_bounds y).1
    omega
  · unfold roundHalfEven
    simp only [heq]
    have hq : x - (⌊y⌋ : ℚ) ≤ y - (⌊y⌋ : ℚ) := by linarith
    split_ifs <;> first | omega | (exfalso; linarith)

/-- An integer bound survives rounding (from above). -/
theorem roundHalfEven_le {x : ℚ} {n : ℤ} (h : x ≤ n) : roundHalfEven x ≤ n := by
  have := roundHalfEven_mono h
  rwa [roundHalfEven_int] at this

/-- An integer bound survives rounding (from below). -/
theorem le_roundHalfEven {x : ℚ} {n : ℤ} (h : (n : ℚ) ≤ x) : n ≤ roundHalfEven x := by
  have := roundHalfEven_mono h
  rwa [roundHalfEven_int] at this

theorem two_zpow_pos (e : ℤ) : (0 : ℚ) < (2 : ℚ) ^ e := zpow_pos (by norm_num) e

variable {p : ℕ} {emin : ℤ}

/-- Representable in the format: a multiple of the local unit in the last
place. -/
def Rep (p : ℕ) (emin : ℤ) (r : ℚ) : Prop :=
  ∃ m : ℤ, r = m * (2 : ℚ) ^ ulpExp p emin r

theorem rndP_zero : rndP p emin 0 = 0 := by
  unfold rndP
  have : roundHalfEven 0 = 0 := by simpa using roundHalfEven_int 0
  simp [this]

theorem log_lt_of_lt {q : ℚ} (hq : q ≠ 0) {e : ℤ} (h : |q| < (2 : ℚ) ^ e) :
    Int.log 2 |q| < e := by
  have := (Int.lt_zpow_iff_log_lt (b := 2) (R := ℚ) (by norm_num) (r := |q|)
    (abs_pos.mpr hq) (x := e))
  exact this.mp (by exact_mod_cast h)

/-- A multiple of a power of two stays a multiple of a smaller one. -/
theorem mul_zpow_rescale (m : ℤ) {a b : ℤ} (h : a ≤ b) :
    ∃ k : ℤ, (m : ℚ) * (2 : ℚ) ^ b = k * (2 : ℚ) ^ a := by
  obtain ⟨d, hd⟩ := Int.eq_ofNat_of_zero_le (sub_nonneg.mpr h)
  refine ⟨m * 2 ^ d, ?_⟩
  have : b = d + a := by omega
  rw [this, zpow_add₀ (by norm_num), zpow_natCast]
  push_cast
  ring

theorem log_two_zpow (e : ℤ) : Int.log 2 |(2 : ℚ) ^ e| = e := by
  rw [abs_of_pos (two_zpow_pos e)]
  have := Int.log_zpow (R := ℚ) (b := 2) (by norm_num) e
  simpa using this

theorem ulpExp_neg (x : ℚ) : ulpExp p emin (-x) = ulpExp p emin x := by simp [ulpExp]

theorem rep_zero : Rep p emin 0 := ⟨0, by simp⟩

theorem rep_neg {r : ℚ} (h : Rep p emin r) : Rep p emin (-r) := by
  obtain ⟨m, hm⟩ := h
  refine ⟨-m, ?_⟩
  rw [ulpExp_neg]
  push_cast
  linarith

/-- A power of two at or above the smallest subnormal is representable. -/
theorem rep_two_zpow (hp : 1 ≤ p) {e : ℤ} (h : emin ≤ e) : Rep p emin ((2 : ℚ) ^ e) := by
  have hu : ulpExp p emin ((2 : ℚ) ^ e) ≤ e := by
    unfold ulpExp; rw [log_two_zpow]; omega
  obtain ⟨k, hk⟩ := mul_zpow_rescale 1 hu
  refine ⟨k, ?_⟩
  rw [← hk]; simp

/-- `m * 2^e` with `|m| ≤ 2^p` and `e` at or above the subnormal limit is
representable. -/
theorem rep_mul (hp : 1 ≤ p) (m : ℤ) {e : ℤ} (he : emin ≤ e) (hm : |m| ≤ 2 ^ p) :
    Rep p emin ((m : ℚ) * (2 : ℚ) ^ e) := by
  rcases eq_or_ne m 0 with rfl | h0
  · simpa using rep_zero
  have hmq : (m : ℚ) ≠ 0 := by exact_mod_cast h0
  rcases hm.lt_or_eq with hlt | heq
  · have hab : |(m : ℚ) * (2 : ℚ) ^ e| < (2 : ℚ) ^ ((p : ℤ) + e) := by
      rw [abs_mul, abs_of_pos (two_zpow_pos e), zpow_add₀ (by norm_num), zpow_natCast]
      apply mul_lt_mul_of_pos_right _ (two_zpow_pos e)
      exact_mod_cast hlt
    have hlog := log_lt_of_lt (mul_ne_zero hmq (two_zpow_pos e).ne') hab
    have hu : ulpExp p emin ((m : ℚ) * (2 : ℚ) ^ e) ≤ e := by
      unfold ulpExp; omega
    obtain ⟨k, hk⟩ := mul_zpow_rescale m hu
    exact ⟨k, hk⟩
  · have key : Rep p emin ((2 : ℚ) ^ ((p : ℤ) + e)) := rep_two_zpow hp (by omega)
    have e1 : (2 : ℚ) ^ ((p : ℤ) + e) = (2 : ℚ) ^ p * (2 : ℚ) ^ e := by
      rw [zpow_add₀ (by norm_num), zpow_natCast]
    rw [e1] at key
    rcases abs_eq (by positivity : (0 : ℤ) ≤ 2 ^ p) |>.mp heq with h1 | h1
    · rw [h1]; push_cast; exact key
    · rw [h1]; push_cast; rw [neg_mul]; exact rep_neg key

/-- The format holds every integer of magnitude up to `2^p`. -/
theorem rep_int (hp : 1 ≤ p) (he : emin ≤ 0) {n : ℤ} (h : |n| ≤ 2 ^ p) :
    Rep p emin (n : ℚ) := by
  have := rep_mul (p := p) (emin := emin) hp n he h
  simpa using this

theorem ulpExp_le_of_abs_le {x y : ℚ} (hx : x ≠ 0) (h : |x| ≤ |y|) :
    ulpExp p emin x ≤ ulpExp p emin y := by
  unfold ulpExp
  have := Int.log_mono_right (b := 2) (R := ℚ) (abs_pos.mpr hx) h
  omega

theorem roundHalfEven_neg (x : ℚ) : roundHalfEven (-x) = -roundHalfEven x := by
  by_cases hx : ∃ n : ℤ, x = n
  · obtain ⟨n, rfl⟩ := hx
    rw [roundHalfEven_int, show (-(n : ℚ)) = ((-n : ℤ) : ℚ) by push_cast; rfl,
      roundHalfEven_int]
  · have hne : x ≠ ⌊x⌋ := fun h => hx ⟨_, h⟩
    have h1 := Int.floor_le x
    have h2 := Int.lt_floor_add_one x
    have h1' : (⌊x⌋ : ℚ) < x := lt_of_le_of_ne h1 (Ne.symm hne)
    have hf : ⌊-x⌋ = -⌊x⌋ - 1 := by
      rw [Int.floor_eq_iff]; push_cast; constructor <;> linarith
    unfold roundHalfEven
    simp only [hf]
    push_cast
    split_ifs <;> first | omega | (exfalso; linarith)

theorem rndP_neg (x : ℚ) : rndP p emin (-x) = -rndP p emin x := by
  unfold rndP
  rw [ulpExp_neg, neg_div, roundHalfEven_neg]
  push_cast
  ring

theorem rndP_nonneg {x : ℚ} (h : 0 ≤ x) : 0 ≤ rndP p emin x := by
  unfold rndP
  have : (0 : ℤ) ≤ roundHalfEven (x / (2 : ℚ) ^ ulpExp p emin x) := by
    apply le_roundHalfEven
    simpa using div_nonneg h (two_zpow_pos _).le
  exact mul_nonneg (by exact_mod_cast this) (two_zpow_pos _).le

/-- A nonnegative representable upper bound survives rounding. -/
theorem rndP_le_of_nonneg {x r : ℚ} (hr : Rep p emin r) (h0 : 0 ≤ r) (h : x ≤ r) :
    rndP p emin x ≤ r := by
  by_cases hx : x ≤ 0
  · have := rndP_nonneg (p := p) (emin := emin) (neg_nonneg.mpr hx)
    rw [rndP_neg] at this
    linarith
  · push Not at hx
    have hu : ulpExp p emin x ≤ ulpExp p emin r := by
      apply ulpExp_le_of_abs_le hx.ne'
      rw [abs_of_pos hx, abs_of_nonneg h0]; exact h
    obtain ⟨m, hm⟩ := hr
    obtain ⟨k, hk⟩ := mul_zpow_rescale m hu
    have hp := two_zpow_pos (ulpExp p emin x)
    have : roundHalfEven (x / (2 : ℚ) ^ ulpExp p emin x) ≤ k := by
      apply roundHalfEven_le
      rw [div_le_iff₀ hp, ← hk, ← hm]; exact h
    unfold rndP
    calc _ ≤ (k : ℚ) * (2 : ℚ) ^ ulpExp p emin x := by
            apply mul_le_mul_of_nonneg_right _ hp.le; exact_mod_cast this
      _ = r := by rw [← hk, ← hm]

/-- A nonnegative representable lower bound survives rounding. -/
theorem le_rndP_of_nonneg (hp1 : 1 ≤ p) {x r : ℚ} (hr : Rep p emin r) (h0 : 0 ≤ r)
    (h : r ≤ x) : r ≤ rndP p emin x := by
  rcases h0.eq_or_lt with rfl | hpos
  · exact rndP_nonneg h
  have hxpos : 0 < x := lt_of_lt_of_le hpos h
  rcases (ulpExp_le_of_abs_le (p := p) (emin := emin) hpos.ne' (y := x) (by
    rw [abs_of_pos hpos, abs_of_pos hxpos]; exact h)).lt_or_eq with hlt | heq
  · -- the binade of `x` is higher: its lower edge is representable there
    have hux : ulpExp p emin x = Int.log 2 |x| - (p - 1) := by
      unfold ulpExp at hlt ⊢; omega
    have hlog : (2 : ℚ) ^ Int.log 2 |x| ≤ x := by
      have := Int.zpow_log_le_self (b := 2) (R := ℚ) (by norm_num) (r := |x|)
        (abs_pos.mpr hxpos.ne')
      rw [abs_of_pos hxpos] at this ⊢
      exact_mod_cast this
    have hr2 : r < (2 : ℚ) ^ Int.log 2 |x| := by
      have h1 : Int.log 2 |r| < Int.log 2 |x| := by
        unfold ulpExp at hlt; omega
      have := (Int.lt_zpow_iff_log_lt (b := 2) (R := ℚ) (by norm_num) (r := |r|)
        (abs_pos.mpr hpos.ne') (x := Int.log 2 |x|)).mpr h1
      rw [abs_of_pos hpos] at this
      exact_mod_cast this
    have hp := two_zpow_pos (ulpExp p emin x)
    have hk : (2 : ℚ) ^ Int.log 2 |x| =
        ((2 ^ (p - 1) : ℤ) : ℚ) * (2 : ℚ) ^ ulpExp p emin x := by
      have e : Int.log 2 |x| = ((p - 1 : ℕ) : ℤ) + ulpExp p emin x := by omega
      conv_lhs => rw [e]
      rw [zpow_add₀ (by norm_num), zpow_natCast]
      push_cast
      rfl
    have : (2 ^ (p - 1) : ℤ) ≤ roundHalfEven (x / (2 : ℚ) ^ ulpExp p emin x) := by
      apply le_roundHalfEven
      rw [le_div_iff₀ hp, ← hk]; exact hlog
    unfold rndP
    calc r ≤ ((2 ^ (p - 1) : ℤ) : ℚ) * (2 : ℚ) ^ ulpExp p emin x := by rw [← hk]; exact hr2.le
      _ ≤ _ := by apply mul_le_mul_of_nonneg_right _ hp.le; exact_mod_cast this
  · obtain ⟨m, hm⟩ := hr
    rw [heq] at hm
    have hp := two_zpow_pos (ulpExp p emin x)
    have : m ≤ roundHalfEven (x / (2 : ℚ) ^ ulpExp p emin x) := by
      apply le_roundHalfEven
      rw [le_div_iff₀ hp, ← hm]; exact h
    unfold rndP
    calc r = (m : ℚ) * (2 : ℚ) ^ ulpExp p emin x := hm
      _ ≤ _ := by apply mul_le_mul_of_nonneg_right _ hp.le; exact_mod_cast this

/-- Any representable upper bound survives rounding. -/
theorem rndP_le (hp : 1 ≤ p) {x r : ℚ} (hr : Rep p emin r) (h : x ≤ r) :
    rndP p emin x ≤ r := by
  rcases le_total 0 r with h0 | h0
  · exact rndP_le_of_nonneg hr h0 h
  · have := le_rndP_of_nonneg hp (rep_neg hr) (by linarith) (neg_le_neg h)
    rw [rndP_neg] at this
    linarith

/-- Any representable lower bound survives rounding. -/
theorem le_rndP (hp : 1 ≤ p) {x r : ℚ} (hr : Rep p emin r) (h : r ≤ x) :
    r ≤ rndP p emin x := by
  have := rndP_le hp (rep_neg hr) (neg_le_neg h)
  rw [rndP_neg] at this
  linarith

theorem rndP_of_rep (hp : 1 ≤ p) {r : ℚ} (h : Rep p emin r) : rndP p emin r = r :=
  le_antisymm (rndP_le hp h le_rfl) (le_rndP hp h le_rfl)

/-- The result of rounding is representable. -/
theorem rep_rndP (hp : 1 ≤ p) (x : ℚ) : Rep p emin (rndP p emin x) := by
  have main : ∀ x : ℚ, 0 ≤ x → Rep p emin (rndP p emin x) := by
    intro x hx
    rcases hx.eq_or_lt with rfl | hpos
    · rw [rndP_zero]; exact rep_zero
    have h2p := two_zpow_pos (ulpExp p emin x)
    apply rep_mul hp
    · unfold ulpExp; omega
    · have h0 : 0 ≤ roundHalfEven (x / (2 : ℚ) ^ ulpExp p emin x) := by
        apply le_roundHalfEven
        simpa using div_nonneg hx h2p.le
      rw [abs_of_nonneg h0]
      apply roundHalfEven_le
      push_cast
      rw [div_le_iff₀ h2p, ← zpow_natCast, ← zpow_add₀ (by norm_num)]
      have h1 : |x| < (2 : ℚ) ^ (Int.log 2 |x| + 1) := by
        exact_mod_cast Int.lt_zpow_succ_log_self (b := 2) (R := ℚ) (by norm_num) |x|
      rw [abs_of_pos hpos] at h1
      refine h1.le.trans (zpow_le_zpow_right₀ (by norm_num) ?_)
      unfold ulpExp
      rw [abs_of_pos hpos]
      omega
  rcases le_total 0 x with h | h
  · exact main x h
  · have := rep_neg (main (-x) (by linarith))
    rwa [rndP_neg, neg_neg] at this

/-- Rounding is monotone. -/
theorem rndP_mono (hp : 1 ≤ p) {x y : ℚ} (h : x ≤ y) : rndP p emin x ≤ rndP p emin y := by
  have main : ∀ x y : ℚ, 0 < x → x ≤ y → rndP p emin x ≤ rndP p emin y := by
    intro x y hx hxy
    have hy : 0 < y := lt_of_lt_of_le hx hxy
    rcases (ulpExp_le_of_abs_le (p := p) (emin := emin) hx.ne' (y := y) (by
      rw [abs_of_pos hx, abs_of_pos hy]; exact hxy)).lt_or_eq with hlt | heq
    · -- separated by the lower edge of the binade of `y`
      have hlog : (2 : ℚ) ^ Int.log 2 |y| ≤ y := by
        have := Int.zpow_log_le_self (b := 2) (R := ℚ) (by norm_num) (r := |y|)
          (abs_pos.mpr hy.ne')
        rw [abs_of_pos hy] at this ⊢
        exact_mod_cast this
      have hx2 : x ≤ (2 : ℚ) ^ Int.log 2 |y| := by
        have h1 : Int.log 2 |x| < Int.log 2 |y| := by
          unfold ulpExp at hlt; omega
        have := (Int.lt_zpow_iff_log_lt (b := 2) (R := ℚ) (by norm_num) (r := |x|)
          (abs_pos.mpr hx.ne') (x := Int.log 2 |y|)).mpr h1
        rw [abs_of_pos hx] at this
        exact_mod_cast this.le
      have hrep : Rep p emin ((2 : ℚ) ^ Int.log 2 |y|) := by
        apply rep_two_zpow hp
        unfold ulpExp at hlt; omega
      exact (rndP_le hp hrep hx2).trans (le_rndP hp hrep hlog)
    · unfold rndP
      rw [heq]
      have h2p := two_zpow_pos (ulpExp p emin y)
      apply mul_le_mul_of_nonneg_right _ h2p.le
      exact_mod_cast roundHalfEven_mono (div_le_div_of_nonneg_right hxy h2p.le)
  rcases lt_or_ge 0 x with hx | hx
  · exact main x y hx h
  · rcases lt_or_ge y 0 with hy | hy
    · have := main (-y) (-x) (by linarith) (by linarith)
      rw [rndP_neg, rndP_neg] at this
      linarith
    · have h1 := rndP_le (x := x) hp (rep_zero (p := p) (emin := emin)) hx
      have h2 := le_rndP (x := y) hp (rep_zero (p := p) (emin := emin)) hy
      linarith

end Fp

end MaRC
