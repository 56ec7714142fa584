import Verif.Lemmas.FpError
import Verif.Props.Surface

/-! # Error of the computed centric radius and of the distance of the observer -/

namespace MaRC

open Fp

/-- Error of the length of a vector whose coordinates have relative errors. -/
theorem hypot_rel {x y a b α τ : ℝ} (hα : 0 ≤ α) (hτ : 0 ≤ τ) (ha : |a - x| ≤ α * |x| + τ)
    (hb : |b - y| ≤ α * |y| + τ) :
    |Real.sqrt (a ^ 2 + b ^ 2) - Real.sqrt (x ^ 2 + y ^ 2)| ≤
      α * Real.sqrt (x ^ 2 + y ^ 2) + 2 * τ := by
  have n : ∀ s t : ℝ, Real.sqrt (s ^ 2 + t ^ 2) = ‖(⟨s, t⟩ : ℂ)‖ := fun s t => by
    rw [Complex.norm_eq_sqrt_sq_add_sq]
  have h1 := abs_norm_sub_norm_le (⟨a, b⟩ : ℂ) ⟨x, y⟩
  have e : (⟨a, b⟩ : ℂ) - ⟨x, y⟩ = ⟨a - x, b - y⟩ := rfl
  rw [e, ← n, ← n, ← n] at h1
  refine h1.trans ?_
  obtain ⟨h, hh⟩ : ∃ h, h = Real.sqrt (x ^ 2 + y ^ 2) := ⟨_, rfl⟩
  have h0 : 0 ≤ h := by rw [hh]; exact Real.sqrt_nonneg _
  have hsq : h ^ 2 = x ^ 2 + y ^ 2 := by rw [hh]; exact Real.sq_sqrt (by positivity)
  have hx : |x| ≤ h := by rw [hh]; exact Real.abs_le_sqrt (by nlinarith [sq_nonneg y])
  have hy : |y| ≤ h := by rw [hh]; exact Real.abs_le_sqrt (by nlinarith [sq_nonneg x])
  rw [← hh]
  refine Real.sqrt_le_iff.2 ⟨by positivity, ?_⟩
  have s1 : (a - x) ^ 2 ≤ (α * |x| + τ) ^ 2 := by
    rw [← sq_abs (a - x)]; exact pow_le_pow_left₀ (abs_nonneg _) ha 2
  have s2 : (b - y) ^ 2 ≤ (α * |y| + τ) ^ 2 := by
    rw [← sq_abs (b - y)]; exact pow_le_pow_left₀ (abs_nonneg _) hb 2
  have e1 : (α * |x| + τ) ^ 2 + (α * |y| + τ) ^ 2 =
      α ^ 2 * h ^ 2 + 2 * (α * τ) * (|x| + |y|) + 2 * τ ^ 2 := by
    rw [hsq, ← sq_abs x, ← sq_abs y]; ring
  have e2 : 2 * (α * τ) * (|x| + |y|) ≤ 2 * (α * τ) * (h + h) :=
    mul_le_mul_of_nonneg_left (add_le_add hx hy) (by positivity)
  nlinarith [sq_nonneg τ]

/-- Error of the quotient of a correctly rounded value. -/
theorem quot_rel {q : ℚ} {v : ℝ} (hv : |v| ≤ 1) (hq : |(q : ℝ) - v| ≤ |v| / 2 ^ 53 + 1 / 2 ^ 199)
    {r : ℚ} (hr : 1 / 2 ^ 20 ≤ r) :
    ∃ p : ℚ, ieee.div (.fin q) (.fin r) = .fin p ∧
      |(p : ℝ) - v / r| ≤ 1.1 / 2 ^ 52 * |v / r| + 1 / 2 ^ 178 := by
  have h0 : 0 < r := lt_of_lt_of_le (by positivity) hr
  have h0R : (0 : ℝ) < r := by exact_mod_cast h0
  have hrR : (1 : ℝ) / 2 ^ 20 ≤ r := by
    have := (Rat.cast_le (K := ℝ)).mpr hr
    push_cast at this
    exact this
  obtain ⟨w, hw⟩ : ∃ w, w = v / r := ⟨_, rfl⟩
  have hwr : |v| / r = |w| := by rw [hw, abs_div, abs_of_pos h0R]
  have hinv : 1 / (r : ℝ) ≤ 2 ^ 20 := by
    rw [div_le_iff₀ h0R]
    norm_num at hrR ⊢
    linarith
  have h1 : |((q / r : ℚ) : ℝ) - w| ≤ |w| / 2 ^ 53 + 1 / 2 ^ 179 := by
    push_cast
    rw [hw, ← sub_div, abs_div, abs_of_pos h0R, ← hw]
    have : |(q : ℝ) - v| / r ≤ (|v| / 2 ^ 53 + 1 / 2 ^ 199) / r := by gcongr
    refine this.trans ?_
    have e : (|v| / 2 ^ 53 + 1 / 2 ^ 199) / (r : ℝ) = |v| / r / 2 ^ 53 + 1 / 2 ^ 199 * (1 / r) := by
      field_simp
    rw [e, hwr]
    have : 1 / 2 ^ 199 * (1 / (r : ℝ)) ≤ 1 / 2 ^ 199 * 2 ^ 20 :=
      mul_le_mul_of_nonneg_left hinv (by positivity)
    norm_num at this ⊢
    linarith
  have hwa : |w| ≤ 2 ^ 20 := by
    rw [← hwr, div_eq_mul_one_div]
    calc |v| * (1 / (r : ℝ)) ≤ 1 * 2 ^ 20 := mul_le_mul hv hinv (by positivity) (by norm_num)
      _ = 2 ^ 20 := one_mul _
  have h2 : |((q / r : ℚ) : ℝ)| ≤ |w| + (|w| / 2 ^ 53 + 1 / 2 ^ 179) := by
    have := abs_add_le (((q / r : ℚ) : ℝ) - w) w
    rw [sub_add_cancel] at this
    linarith
  have hfin : ieee.rnd (q / r) = .fin (rnd53 (q / r)) := by
    refine ieee_rnd_fin ?_
    have : |((q / r : ℚ) : ℝ)| ≤ 2 ^ 200 := by
      norm_num at h2 hwa ⊢
      linarith
    exact_mod_cast this
  refine ⟨rnd53 (q / r), ?_, ?_⟩
  · simp only [Fp.div, h0.ne', if_false, hfin]
  · rw [← hw]
    have e := rnd53_err200R (q / r)
    have h3 := abs_sub_le (rnd53 (q / r) : ℝ) ((q / r : ℚ) : ℝ) w
    generalize ((q / r : ℚ) : ℝ) = z at *
    norm_num at e h1 h2 h3 ⊢
    linarith [abs_nonneg w]

/-- The computed distance of a surface point from the centre has a relative error
below 3 units. -/
theorem centricRadiusF_near {L : LibmRoot} (hL : L.Correct) {eqRad polRad : ℚ}
    (hp : 1 / 2 ^ 20 ≤ polRad) (hle : polRad ≤ eqRad) (hbig : eqRad ≤ 2 ^ 59) (lat : ℚ) :
    ∃ c : ℚ, centricRadiusF .ieee L (.fin eqRad) (.fin polRad) (.fin lat) = .fin c ∧
      |(c : ℝ) - Spheroid.centricRadius ⟨eqRad, polRad⟩ lat| ≤
        3 / 2 ^ 52 * Spheroid.centricRadius ⟨eqRad, polRad⟩ lat := by
  have hp0 : (0 : ℚ) < polRad := lt_of_lt_of_le (by positivity) hp
  have hp0R : (0 : ℝ) < polRad := by exact_mod_cast hp0
  have hleR : (polRad : ℝ) ≤ eqRad := by exact_mod_cast hle
  have hbigR : (eqRad : ℝ) ≤ 2 ^ 59 := by exact_mod_cast hbig
  have hv : Spheroid.Valid ⟨eqRad, polRad⟩ := ⟨hp0R, hleR⟩
  have hcb := Spheroid.C34_bounds hv lat
  have hcp := Spheroid.centricRadius_pos hv lat
  obtain ⟨k, hk, hke⟩ := hL.cos.err lat ((Real.abs_cos_le_one _).trans (by norm_num))
  obtain ⟨s, hs, hse⟩ := hL.sin.err lat ((Real.abs_sin_le_one _).trans (by norm_num))
  obtain ⟨x, hx, hxe⟩ := quot_rel (Real.abs_cos_le_one _) hke (hp.trans hle)
  obtain ⟨y, hy, hye⟩ := quot_rel (Real.abs_sin_le_one _) hse hp
  have hh := hypot_rel (by positivity) (by positivity) hxe hye
  obtain ⟨h, hdef⟩ : ∃ h, h = Real.sqrt ((Real.cos lat / eqRad) ^ 2 + (Real.sin lat / polRad) ^ 2) :=
    ⟨_, rfl⟩
  have hc : Spheroid.centricRadius ⟨eqRad, polRad⟩ lat = 1 / h := by
    rw [Spheroid.centricRadius, hypot, hdef]
  rw [← hdef] at hh
  rw [hc] at hcb hcp ⊢
  have hpos : 0 < h := by
    rcases lt_trichotomy h 0 with hn | hz | hn
    · rw [hdef] at hn; exact absurd hn (not_lt.2 (Real.sqrt_nonneg _))
    · rw [hz] at hcp; simp at hcp
    · exact hn
  -- the length lies between the inverses of the radii
  have hlo : 1 / 2 ^ 59 ≤ h := by
    have h1 : 1 / h ≤ 2 ^ 59 := hcb.2.trans hbigR
    rw [div_le_iff₀ hpos] at h1
    rw [div_le_iff₀ (by positivity)]
    linarith
  have hhi : h ≤ 2 ^ 20 := by
    have h2 : (1 : ℝ) / 2 ^ 20 ≤ polRad := by
      have := (Rat.cast_le (K := ℝ)).mpr hp
      push_cast at this
      exact this
    have h1 : 1 / 2 ^ 20 ≤ 1 / h := h2.trans hcb.1
    rw [le_div_iff₀ hpos] at h1
    norm_num at h1 ⊢
    linarith
  obtain ⟨m, hm⟩ : ∃ m, m = Real.sqrt ((x : ℝ) ^ 2 + (y : ℝ) ^ 2) := ⟨_, rfl⟩
  rw [← hm] at hh
  have hm0 : 0 ≤ m := by rw [hm]; exact Real.sqrt_nonneg _
  have hmh : |m - h| ≤ 1.2 / 2 ^ 52 * h := by
    norm_num at hh hlo ⊢
    linarith
  obtain ⟨d, hd, hde⟩ := (hL.hypot x y).err (by
    rw [← hm, abs_of_nonneg hm0]
    rw [abs_le] at hmh
    norm_num at hmh hhi ⊢
    linarith)
  rw [← hm, abs_of_nonneg hm0] at hde
  have hdh : |(d : ℝ) - h| ≤ 1.8 / 2 ^ 52 * h := by
    have := abs_sub_le (d : ℝ) m h
    have h3 := (abs_le.1 hmh).2
    norm_num at hde hmh hlo this h3 ⊢
    linarith
  have hdpos : 0 < (d : ℝ) := by
    have := (abs_le.1 hdh).1
    nlinarith
  have hd0 : d ≠ 0 := by
    rintro rfl
    simp at hdpos
  have hinv : |1 / (d : ℝ) - 1 / h| ≤ 2 / 2 ^ 52 * (1 / h) := by
    have e : 1 / (d : ℝ) - 1 / h = (h - d) / d * (1 / h) := by field_simp
    rw [e, abs_mul, abs_of_pos hcp]
    refine mul_le_mul_of_nonneg_right ?_ hcp.le
    rw [abs_div, abs_of_pos hdpos, div_le_iff₀ hdpos, abs_sub_comm]
    have := (abs_le.1 hdh).1
    norm_num at hdh this ⊢
    linarith
  obtain ⟨w, hw⟩ : ∃ w, w = 1 / h := ⟨_, rfl⟩
  rw [← hw] at hinv hcp hcb ⊢
  have hwlo : 1 / 2 ^ 20 ≤ w := by
    rw [hw, div_le_div_iff₀ (by positivity) hpos]
    linarith
  have hwhi : w ≤ 2 ^ 59 := hcb.2.trans hbigR
  have hq : |((1 / d : ℚ) : ℝ)| ≤ w * (1 + 2 / 2 ^ 52) := by
    push_cast
    have := abs_add_le (1 / (d : ℝ) - w) w
    rw [sub_add_cancel, abs_of_pos hcp] at this
    norm_num at hinv this ⊢
    linarith
  have hfin : ieee.rnd (1 / d) = .fin (rnd53 (1 / d)) := by
    refine ieee_rnd_fin ?_
    have : |((1 / d : ℚ) : ℝ)| ≤ 2 ^ 200 := by
      norm_num at hq hwhi ⊢
      linarith
    exact_mod_cast this
  refine ⟨rnd53 (1 / d), ?_, ?_⟩
  · have e1 : L.cos (.fin lat) = .fin k := hk
    have e2 : L.sin (.fin lat) = .fin s := hs
    rw [centricRadiusF, e1, e2, hx, hy, hd]
    simp only [Fp.div, hd0, if_false, hfin]
  · have e := rnd53_err200R (1 / d)
    have h3 := abs_sub_le (rnd53 (1 / d) : ℝ) ((1 / d : ℚ) : ℝ) w
    have hinv' : |((1 / d : ℚ) : ℝ) - w| ≤ 2 / 2 ^ 52 * w := by push_cast; exact hinv
    generalize ((1 / d : ℚ) : ℝ) = z at *
    norm_num at e h3 hinv' hq hwlo ⊢
    linarith

end MaRC
