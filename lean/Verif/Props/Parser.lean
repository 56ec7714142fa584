import Mathlib.Data.Nat.Digits.Defs
import Mathlib.Tactic.Linarith
import Mathlib.Tactic.FieldSimp
import Mathlib.Tactic.Ring
import Mathlib.Tactic.NormNum
import Verif.Model.Parser
import Verif.Model.MapFactory
import Verif.Lemmas.Rounding
import Verif.Lemmas.DblOrder
import Verif.Lemmas.MapType

/-! # Input file properties (C51, C52) -/

namespace MaRC.Parser

open Dbl

/-- What the statements need of a floating point arithmetic: rounding keeps
the order and the numbers 0 and 1.  Holds for exact and IEEE arithmetic. -/
structure Sane (F : Fp) : Prop where
  mono : ∀ {x y : ℚ}, x ≤ y → (F.rnd x).le (F.rnd y) = true
  zero : F.rnd 0 = .fin 0
  one : F.rnd 1 = .fin 1
  c360 : F.rnd 360 = .fin 360

theorem sane_exact : Sane Fp.exact :=
  ⟨fun h => by simpa [Fp.exact] using h, rfl, rfl, rfl⟩

theorem ieee_int {n : ℤ} (h : |n| ≤ 2 ^ 53) : Fp.ieee.rnd n = .fin n := by
  have e := rnd53_int h
  have hb := Fp.dblMax_ge
  rw [Fp.ieee_rnd, e]
  have h1 : |(n : ℚ)| ≤ 2 ^ 53 := by exact_mod_cast h
  have h2 : (2 : ℚ) ^ 53 ≤ 2 ^ 100 := by norm_num
  obtain ⟨h3, h4⟩ := abs_le.mp h1
  rw [if_neg (by linarith), if_neg (by linarith)]

theorem sane_ieee : Sane Fp.ieee :=
  ⟨fun h => Fp.ieee_rnd_mono h, Fp.ieee_rnd_zero, by simpa using ieee_int (n := 1) (by norm_num),
    by simpa using ieee_int (n := 360) (by norm_num)⟩

theorem between {d : Dbl} {a b : ℚ} (h1 : (Dbl.fin a).le d = true) (h2 : d.le (.fin b) = true) :
    ∃ r, d = .fin r ∧ a ≤ r ∧ r ≤ b := by
  cases d <;> simp [Dbl.le] at h1 h2
  exact ⟨_, rfl, h1, h2⟩

/-- The complement of a flattening in `[0, 1)`. -/
theorem one_sub {F : Fp} (hF : Sane F) {f : ℚ} (h0 : 0 ≤ f) (h1 : f < 1) :
    ∃ d, F.sub (.fin 1) (.fin f) = .fin d ∧ 0 ≤ d ∧ d ≤ 1 := by
  have e : F.sub (.fin 1) (.fin f) = F.rnd (1 - f) := by
    simp [Fp.sub, Dbl.neg, Fp.add, sub_eq_add_neg]
  rw [e]
  have a := hF.mono (show (0 : ℚ) ≤ 1 - f by linarith)
  have b := hF.mono (show 1 - f ≤ (1 : ℚ) by linarith)
  rw [hF.zero] at a
  rw [hF.one] at b
  exact between a b

/-! ## C51 -/

theorem count_eq (e p f : Dbl) : (Radii.mk e p f).count =
    ((Dbl.fin 0).lt e).toNat + ((Dbl.fin 0).lt p).toNat +
      ((Dbl.fin 0).le f && f.lt (.fin 1)).toNat := by
  simp only [Radii.count, Dbl.gt, Dbl.ge, Bool.toNat, Bool.cond_eq_ite]
  rfl

/-- The radii clause of an input file is acceptable: two valid
characteristics that describe an oblate (or spherical) body. -/
def RadiiClause.Acceptable : RadiiClause → Prop
  | .eqPol e p => (Dbl.fin 0).lt p = true ∧ p.le e = true
  | .eqFlat e f => (Dbl.fin 0).lt e = true ∧ (Dbl.fin 0).le f = true ∧ f.lt (.fin 1) = true
  | .polFlat p f => (Dbl.fin 0).lt p = true ∧ (Dbl.fin 0).le f = true ∧ f.lt (.fin 1) = true

/-- The operands of the clause are finite numbers of the arithmetic. -/
def RadiiClause.Numbers (F : Fp) : RadiiClause → Prop
  | .eqPol _ _ => True
  | .eqFlat e f => ∃ a b, e = .fin a ∧ f = .fin b ∧ F.rnd a = .fin a
  | .polFlat p f => ∃ a b, p = .fin a ∧ f = .fin b ∧ F.rnd a = .fin a

/-- **C51** (acceptance).  A radii clause is accepted exactly when it is
acceptable, and the accepted radii satisfy polar ≤ equatorial; with exact
arithmetic and with IEEE arithmetic. -/
theorem C51_accepts {F : Fp} (hF : Sane F) (c : RadiiClause) (hn : c.Numbers F) :
    (c.Acceptable ↔ ∃ r, c.radii.validate F = .ok r) ∧
    ∀ r, c.radii.validate F = .ok r → r.polRad.le r.eqRad = true := by
  cases c with
  | eqPol e p =>
    have hc : (RadiiClause.eqPol e p).radii.count = 2 ↔
        (Dbl.fin 0).lt e = true ∧ (Dbl.fin 0).lt p = true := by
      have : (Dbl.fin 0).le (.fin (-1)) = false := by decide +kernel
      simp only [RadiiClause.radii, Radii.count, Dbl.gt, Dbl.ge, this]
      by_cases h1 : (Dbl.fin 0).lt e = true <;> by_cases h2 : (Dbl.fin 0).lt p = true <;>
        simp [h1, h2]
    have hle : (RadiiClause.eqPol e p).radii.count ≤ 2 := by
      have : (Dbl.fin 0).le (.fin (-1)) = false := by decide +kernel
      rw [RadiiClause.radii, count_eq, this]
      have h1 := Bool.toNat_le ((Dbl.fin 0).lt e)
      have h2 := Bool.toNat_le ((Dbl.fin 0).lt p)
      simp
      omega
    have key : ∀ r, (RadiiClause.eqPol e p).radii.validate F = .ok r →
        ((Dbl.fin 0).lt e = true ∧ (Dbl.fin 0).lt p = true) ∧ e.lt p = false ∧
          r = ⟨e, p, .fin (-1)⟩ := by
      intro r h
      simp only [Radii.validate] at h
      split_ifs at h with h1 h2
      have h2' : (RadiiClause.eqPol e p).radii.count = 2 := by omega
      have hpos := hc.mp h2'
      have he0 : e.lt (.fin 0) = false := by
        have := hpos.1; cases e <;> simp [Dbl.lt] at this ⊢; linarith
      have hp0 : p.lt (.fin 0) = false := by
        have := hpos.2; cases p <;> simp [Dbl.lt] at this ⊢; linarith
      have hfill : (RadiiClause.eqPol e p).radii.fill F = ⟨e, p, .fin (-1)⟩ := by
        simp [Radii.fill, RadiiClause.radii, he0, hp0]
      rw [hfill] at h h2
      simp at h
      exact ⟨hpos, by simpa using h2, h.symm⟩
    refine ⟨⟨?_, ?_⟩, ?_⟩
    · rintro ⟨h1, h2⟩
      have he : (Dbl.fin 0).lt e = true := Dbl.lt_of_lt_of_le h1 h2
      refine ⟨⟨e, p, .fin (-1)⟩, ?_⟩
      have he0 : e.lt (.fin 0) = false := by
        cases e <;> simp [Dbl.lt] at he ⊢; linarith
      have hp0 : p.lt (.fin 0) = false := by
        cases p <;> simp [Dbl.lt] at h1 ⊢; linarith
      have hfill : (RadiiClause.eqPol e p).radii.fill F = ⟨e, p, .fin (-1)⟩ := by
        simp [Radii.fill, RadiiClause.radii, he0, hp0]
      have hcount := hc.mpr ⟨he, h1⟩
      have hlt : e.lt p = false := by
        cases e <;> cases p <;> simp [Dbl.le, Dbl.lt] at h2 ⊢; exact h2
      simp [Radii.validate, hcount, hfill, hlt]
    · rintro ⟨r, h⟩
      obtain ⟨⟨h1, h2⟩, h3, -⟩ := key r h
      refine ⟨h2, ?_⟩
      cases e <;> cases p <;> simp [Dbl.le, Dbl.lt] at h1 h2 h3 ⊢; exact h3
    · intro r h
      obtain ⟨⟨h1, h2⟩, h3, rfl⟩ := key r h
      cases e <;> cases p <;> simp [Dbl.le, Dbl.lt] at h1 h2 h3 ⊢; exact h3
  | eqFlat e f =>
    obtain ⟨a, b, rfl, rfl, ha⟩ := hn
    have hm1 : (Dbl.fin 0).lt (.fin (-1)) = false := by decide +kernel
    have hcount : (RadiiClause.eqFlat (.fin a) (.fin b)).radii.count < 2 ↔ ¬ (0 < a ∧ 0 ≤ b ∧ b < 1) := by
      simp only [RadiiClause.radii, Radii.count, Dbl.gt, Dbl.ge, hm1]
      by_cases h1 : 0 < a <;> by_cases h2 : 0 ≤ b <;> by_cases h3 : b < 1 <;>
        simp [Dbl.lt, Dbl.le, h1, h2, h3]
    have key : 0 < a → 0 ≤ b → b < 1 → ∃ r, (RadiiClause.eqFlat (.fin a) (.fin b)).radii.validate F = .ok r ∧
        r.polRad.le r.eqRad = true := by
      intro h1 h2 h3
      obtain ⟨d, hd, d0, d1⟩ := one_sub hF h2 h3
      have hmul : ∃ x, F.mul (.fin a) (.fin d) = .fin x ∧ 0 ≤ x ∧ x ≤ a := by
        have u := hF.mono (show (0 : ℚ) ≤ a * d by positivity)
        have v := hF.mono (show a * d ≤ a by nlinarith)
        rw [hF.zero] at u
        rw [ha] at v
        exact between u v
      obtain ⟨x, hx, x0, x1⟩ := hmul
      have hfill : (RadiiClause.eqFlat (.fin a) (.fin b)).radii.fill F =
          ⟨.fin a, .fin x, .fin b⟩ := by
        have : ¬ a < 0 := by linarith
        simp [Radii.fill, RadiiClause.radii, Dbl.lt, this, hd, hx]
      refine ⟨⟨.fin a, .fin x, .fin b⟩, ?_, by simpa using x1⟩
      rw [Radii.validate, if_neg (by rw [hcount]; simp [h1, h2, h3])]
      simp [hfill, Dbl.lt, x1]
    refine ⟨⟨?_, ?_⟩, ?_⟩
    · rintro ⟨h1, h2, h3⟩
      obtain ⟨r, hr, -⟩ := key (by simpa using h1) (by simpa using h2) (by simpa using h3)
      exact ⟨r, hr⟩
    · rintro ⟨r, h⟩
      by_contra hna
      rw [Radii.validate, if_pos (by
        rw [hcount]; intro ⟨h1, h2, h3⟩
        exact hna ⟨by simpa using h1, by simpa using h2, by simpa using h3⟩)] at h
      simp at h
    · intro r h
      by_cases hacc : 0 < a ∧ 0 ≤ b ∧ b < 1
      · obtain ⟨r', hr', hle⟩ := key hacc.1 hacc.2.1 hacc.2.2
        rw [hr'] at h; simp at h; subst h; exact hle
      · rw [Radii.validate, if_pos (hcount.mpr hacc)] at h; simp at h
  | polFlat p f =>
    obtain ⟨a, b, rfl, rfl, ha⟩ := hn
    have hm1 : (Dbl.fin 0).lt (.fin (-1)) = false := by decide +kernel
    have hcount : (RadiiClause.polFlat (.fin a) (.fin b)).radii.count < 2 ↔ ¬ (0 < a ∧ 0 ≤ b ∧ b < 1) := by
      simp only [RadiiClause.radii, Radii.count, Dbl.gt, Dbl.ge, hm1]
      by_cases h1 : 0 < a <;> by_cases h2 : 0 ≤ b <;> by_cases h3 : b < 1 <;>
        simp [Dbl.lt, Dbl.le, h1, h2, h3]
    have key : 0 < a → 0 ≤ b → b < 1 → ∃ r, (RadiiClause.polFlat (.fin a) (.fin b)).radii.validate F = .ok r ∧
        r.polRad.le r.eqRad = true := by
      intro h1 h2 h3
      obtain ⟨d, hd, d0, d1⟩ := one_sub hF h2 h3
      have hdiv : (Dbl.fin a).le (F.div (.fin a) (.fin d)) = true := by
        simp only [Fp.div]
        by_cases h : d = 0
        · simp [h, Fp.signedInf, h1, Dbl.le]
        · have hd0 : 0 < d := lt_of_le_of_ne d0 (Ne.symm h)
          rw [if_neg h]
          have v := hF.mono (show a ≤ a / d by rw [le_div_iff₀ hd0]; nlinarith)
          rwa [ha] at v
      have hfill : (RadiiClause.polFlat (.fin a) (.fin b)).radii.fill F =
          ⟨F.div (.fin a) (.fin d), .fin a, .fin b⟩ := by
        simp [Radii.fill, RadiiClause.radii, Dbl.lt, hd]
      refine ⟨⟨F.div (.fin a) (.fin d), .fin a, .fin b⟩, ?_, hdiv⟩
      have hlt : (F.div (.fin a) (.fin d)).lt (.fin a) = false := by
        cases hq : F.div (.fin a) (.fin d) <;> rw [hq] at hdiv <;> simp [Dbl.le, Dbl.lt] at hdiv ⊢
        exact hdiv
      rw [Radii.validate, if_neg (by rw [hcount]; simp [h1, h2, h3])]
      simp [hfill, hlt]
    refine ⟨⟨?_, ?_⟩, ?_⟩
    · rintro ⟨h1, h2, h3⟩
      obtain ⟨r, hr, -⟩ := key (by simpa using h1) (by simpa using h2) (by simpa using h3)
      exact ⟨r, hr⟩
    · rintro ⟨r, h⟩
      by_contra hna
      rw [Radii.validate, if_pos (by
        rw [hcount]; intro ⟨h1, h2, h3⟩
        exact hna ⟨by simpa using h1, by simpa using h2, by simpa using h3⟩)] at h
      simp at h
    · intro r h
      by_cases hacc : 0 < a ∧ 0 ≤ b ∧ b < 1
      · obtain ⟨r', hr', hle⟩ := key hacc.1 hacc.2.1 hacc.2.2
        rw [hr'] at h; simp at h; subst h; exact hle
      · rw [Radii.validate, if_pos (hcount.mpr hacc)] at h; simp at h

/-- **C51** (completion).  In exact arithmetic the radius that was not given
is the one for which flattening = (equatorial - polar) / equatorial, and the
given values are kept. -/
theorem C51_completes (c : RadiiClause) (r : Radii) (hn : c.Numbers Fp.exact)
    (h : c.radii.validate Fp.exact = .ok r) :
    match c with
    | .eqPol e p => r.eqRad = e ∧ r.polRad = p
    | .eqFlat e f => r.eqRad = e ∧ ∃ a b q : ℚ, e = .fin a ∧ f = .fin b ∧ r.polRad = .fin q ∧
        (a - q) / a = b
    | .polFlat p f => r.polRad = p ∧ ∃ a b q : ℚ, p = .fin a ∧ f = .fin b ∧ r.eqRad = .fin q ∧
        (q - a) / q = b := by
  have hacc := ((C51_accepts sane_exact c hn).1.mpr ⟨r, h⟩)
  cases c with
  | eqPol e p =>
    obtain ⟨h1, h2⟩ := hacc
    have he : (Dbl.fin 0).lt e = true := Dbl.lt_of_lt_of_le h1 h2
    have he0 : e.lt (.fin 0) = false := by
      cases e <;> simp [Dbl.lt] at he ⊢; linarith
    have hp0 : p.lt (.fin 0) = false := by
      cases p <;> simp [Dbl.lt] at h1 ⊢; linarith
    have hfill : (RadiiClause.eqPol e p).radii.fill Fp.exact = ⟨e, p, .fin (-1)⟩ := by
      simp [Radii.fill, RadiiClause.radii, he0, hp0]
    simp only [Radii.validate, hfill] at h
    split_ifs at h
    simp at h; subst h
    exact ⟨rfl, rfl⟩
  | eqFlat e f =>
    obtain ⟨a, b, rfl, rfl, -⟩ := hn
    obtain ⟨h1, h2, h3⟩ := hacc
    simp at h1 h2 h3
    have hfill : (RadiiClause.eqFlat (.fin a) (.fin b)).radii.fill Fp.exact =
        ⟨.fin a, .fin (a * (1 - b)), .fin b⟩ := by
      have : ¬ a < 0 := by linarith
      simp [Radii.fill, RadiiClause.radii, Dbl.lt, this, Fp.sub, Fp.add, Fp.mul, Dbl.neg,
        Fp.exact, sub_eq_add_neg]
    simp only [Radii.validate, hfill] at h
    split_ifs at h
    simp at h; subst h
    refine ⟨rfl, a, b, _, rfl, rfl, rfl, ?_⟩
    field_simp
    ring
  | polFlat p f =>
    obtain ⟨a, b, rfl, rfl, -⟩ := hn
    obtain ⟨h1, h2, h3⟩ := hacc
    simp at h1 h2 h3
    have hb : (1 - b) ≠ 0 := by linarith
    have hfill : (RadiiClause.polFlat (.fin a) (.fin b)).radii.fill Fp.exact =
        ⟨.fin (a / (1 - b)), .fin a, .fin b⟩ := by
      have hb' : 1 + -b ≠ 0 := by rwa [← sub_eq_add_neg]
      simp [Radii.fill, RadiiClause.radii, Dbl.lt, Fp.sub, Fp.add, Fp.div, Dbl.neg,
        Fp.exact, sub_eq_add_neg, hb']
    simp only [Radii.validate, hfill] at h
    split_ifs at h
    simp at h; subst h
    refine ⟨rfl, a, b, _, rfl, rfl, rfl, ?_⟩
    field_simp
    ring

/-- **C51** (NaN).  A clause with a NaN operand is rejected. -/
theorem C51_rejects_nan (F : Fp) (x : Dbl) :
    ∀ c ∈ [RadiiClause.eqPol .nan x, .eqPol x .nan, .eqFlat .nan x, .eqFlat x .nan,
      .polFlat .nan x, .polFlat x .nan], c.radii.validate F = .throw .invalidArgument := by
  have hm1 : (Dbl.fin 0).lt (.fin (-1)) = false := by decide +kernel
  have hm2 : (Dbl.fin 0).le (.fin (-1)) = false := by decide +kernel
  have hn1 : (Dbl.fin 0).lt .nan = false := rfl
  have hn2 : (Dbl.fin 0).le .nan = false := rfl
  intro c hc
  simp only [List.mem_cons, List.not_mem_nil, or_false] at hc
  rcases hc with rfl | rfl | rfl | rfl | rfl | rfl <;>
    (rw [Radii.validate, if_pos]
     rw [RadiiClause.radii, count_eq]
     simp only [hm1, hm2, hn1, hn2]
     have h1 := Bool.toNat_le ((Dbl.fin 0).lt x)
     have h2 := Bool.toNat_le ((Dbl.fin 0).le x && x.lt (.fin 1))
     simp
     try omega)

/-- Non-vacuity: Jupiter's radii, given as equatorial radius and flattening. -/
example : (RadiiClause.eqFlat (.fin 71492) (.fin (6487 / 100000))).radii.validate Fp.exact =
    .ok ⟨.fin 71492, .fin (71492 * (93513 / 100000)), .fin (6487 / 100000)⟩ := by decide +kernel

/-- Outside what a clause can store, validation accepts nonsense: a zero or
NaN polar radius beside a valid equatorial radius and flattening, and three
values that contradict each other. -/
theorem C51_api_violated :
    (Radii.mk (.fin 5) (.fin 0) (.fin (1 / 2))).validate Fp.exact =
      .ok ⟨.fin 5, .fin 0, .fin (1 / 2)⟩ ∧
    (Radii.mk (.fin 5) .nan (.fin (1 / 2))).validate Fp.exact =
      .ok ⟨.fin 5, .nan, .fin (1 / 2)⟩ ∧
    (Radii.mk (.fin 5) (.fin 4) (.fin (9 / 10))).validate Fp.exact =
      .ok ⟨.fin 5, .fin 4, .fin (9 / 10)⟩ := by decide +kernel

/-! ## C52 -/

theorem fmod360_fin (q : ℚ) : ∃ r, fmod360 (.fin q) = .fin r ∧ -360 < r ∧ r < 360 ∧
    (0 ≤ q → 0 ≤ r) ∧ (q < 0 → r ≤ 0) ∧ ∃ k : ℤ, q = r + 360 * k := by
  refine ⟨_, rfl, ?_⟩
  simp only [truncQ]
  by_cases h : 0 ≤ q / 360
  · simp only [h, if_true]
    have h1 := Int.floor_le (q / 360)
    have h2 := Int.lt_floor_add_one (q / 360)
    have hq : 0 ≤ q := by linarith
    refine ⟨by linarith, by linarith, fun _ => by linarith, fun hn => by linarith, ⌊q / 360⌋, by ring⟩
  · simp only [h, if_false]
    have h1 := Int.le_ceil (q / 360)
    have h2 := Int.ceil_lt_add_one (q / 360)
    have hq : q < 0 := by by_contra hh; exact h (by linarith)
    refine ⟨by linarith, by linarith, fun hn => by linarith, fun _ => by linarith,
      ⌈q / 360⌉, by ring⟩

/-- **C52** (circle).  In exact arithmetic every finite angle becomes the
equivalent angle in `[0, 360)`. -/
theorem C52_circle (q : ℚ) :
    ∃ r, circleAngle Fp.exact (.fin q) = .fin r ∧ 0 ≤ r ∧ r < 360 ∧ ∃ k : ℤ, q = r + 360 * k := by
  obtain ⟨r, hr, h1, h2, -, -, k, hk⟩ := fmod360_fin q
  simp only [circleAngle, hr, Dbl.ge]
  by_cases h : 0 ≤ r
  · exact ⟨r, by simp [Dbl.le, h], h, h2, k, hk⟩
  · refine ⟨r + 360, ?_, by linarith, by linarith, k - 1, by push_cast; linarith⟩
    simp [Dbl.le, h, Fp.add, Fp.exact]

/-- **C52** (circle, rounded).  With rounding the result is still an angle in
`[0, 360]`. -/
theorem C52_circle_rounded {F : Fp} (hF : Sane F) (q : ℚ) :
    ∃ r, circleAngle F (.fin q) = .fin r ∧ 0 ≤ r ∧ r ≤ 360 := by
  obtain ⟨r, hr, h1, h2, -, -, k, hk⟩ := fmod360_fin q
  simp only [circleAngle, hr, Dbl.ge]
  by_cases h : 0 ≤ r
  · exact ⟨r, by simp [Dbl.le, h], h, h2.le⟩
  · have a := hF.mono (show (0 : ℚ) ≤ r + 360 by linarith)
    have b := hF.mono (show r + 360 ≤ (360 : ℚ) by linarith)
    rw [hF.zero] at a
    rw [hF.c360] at b
    obtain ⟨x, hx, h3, h4⟩ := between a b
    exact ⟨x, by simp [Dbl.le, h, Fp.add, hx], h3, h4⟩

/-- Disagreement: with IEEE rounding a tiny negative angle becomes 360, which
is outside the documented range `[0, 360)`. -/
theorem C52_circle_violated : circleAngle Fp.ieee (.fin (-1 / 2 ^ 80)) = .fin 360 := by
  decide +kernel

/-- The suffix opposes the direction in which the body's longitudes grow:
West for prograde rotation, East for retrograde. -/
def opposes (prograde : Bool) : Side → Bool
  | .plain => false
  | .east => prograde
  | .west => !prograde

/-- **C52** (longitude).  In exact arithmetic a longitude within one turn is
accepted; the stored value is equivalent to the entered angle, negated when
the suffix opposes the body's convention.  It lies in `[0, 360)` when not
negated and in `(0, 360]` when negated. -/
theorem C52_longitude (prograde : Bool) (side : Side) (q : ℚ) (h : |q| ≤ 360) :
    ∃ r : ℚ, longitude Fp.exact prograde side (.fin q) = some (.fin r) ∧
      (opposes prograde side = false → 0 ≤ r ∧ r < 360 ∧ ∃ k : ℤ, r = q + 360 * k) ∧
      (opposes prograde side = true → 0 < r ∧ r ≤ 360 ∧ ∃ k : ℤ, r = -q + 360 * k) := by
  obtain ⟨c, hc, h0, h1, k, hk⟩ := C52_circle q
  have hg : Dbl.gt (Dbl.abs (.fin q)) (.fin 360) = false := by
    simp [Dbl.gt, Dbl.abs, Dbl.lt]; exact h
  have hsub : Fp.exact.sub (.fin 360) (.fin c) = .fin (360 - c) := by
    simp [Fp.sub, Fp.add, Dbl.neg, Fp.exact, sub_eq_add_neg]
  have hplain : 0 ≤ c ∧ c < 360 ∧ ∃ k : ℤ, c = q + 360 * k :=
    ⟨h0, h1, -k, by push_cast; linarith⟩
  have hneg : 0 < 360 - c ∧ 360 - c ≤ 360 ∧ ∃ k : ℤ, 360 - c = -q + 360 * k :=
    ⟨by linarith, by linarith, k + 1, by push_cast; linarith⟩
  simp only [longitude, hg, hc]
  have P : ∃ r : ℚ, some (Dbl.fin c) = some (Dbl.fin r) ∧
      (false = false → 0 ≤ r ∧ r < 360 ∧ ∃ k : ℤ, r = q + 360 * k) ∧
      (false = true → 0 < r ∧ r ≤ 360 ∧ ∃ k : ℤ, r = -q + 360 * k) :=
    ⟨c, rfl, fun _ => hplain, fun h => by simp at h⟩
  have N : ∃ r : ℚ, some (Dbl.fin (360 - c)) = some (Dbl.fin r) ∧
      (true = false → 0 ≤ r ∧ r < 360 ∧ ∃ k : ℤ, r = q + 360 * k) ∧
      (true = true → 0 < r ∧ r ≤ 360 ∧ ∃ k : ℤ, r = -q + 360 * k) :=
    ⟨360 - c, rfl, fun h => by simp at h, fun _ => hneg⟩
  cases side <;> cases prograde <;> simp only [opposes, hsub]
  · simpa using P
  · simpa using P
  · simpa using P
  · simpa using N
  · simpa using N
  · simpa using P

/-- **C52** (longitude).  An angle beyond one turn is rejected. -/
theorem C52_longitude_rejects (F : Fp) (prograde : Bool) (side : Side) (x : Dbl)
    (h : x.isNaN = false) (hx : ∀ q, x = .fin q → 360 < |q|) :
    longitude F prograde side x = none := by
  have hg : Dbl.gt x.abs (.fin 360) = true := by
    cases x <;> simp [Dbl.isNaN, Dbl.gt, Dbl.abs, Dbl.lt] at h hx ⊢
    exact hx
  simp [longitude, hg]

/-- Non-vacuity and the four sign cases: 30 E and 30 W. -/
example : longitude Fp.exact true .east (.fin 30) = some (.fin 330) ∧
    longitude Fp.exact true .west (.fin 30) = some (.fin 30) ∧
    longitude Fp.exact false .east (.fin 30) = some (.fin 30) ∧
    longitude Fp.exact false .west (.fin (-30)) = some (.fin 30) := by decide +kernel

/-- Disagreement: the prime meridian written with an opposing suffix becomes
360 instead of 0. -/
theorem C52_prime_meridian_violated (F : Fp) (hF : Sane F) :
    longitude F true .east (.fin 0) = some (.fin 360) ∧
    longitude F false .west (.fin 0) = some (.fin 360) := by
  have hc : circleAngle F (.fin 0) = .fin 0 := by
    have : fmod360 (.fin 0) = .fin 0 := by decide +kernel
    simp [circleAngle, this, Dbl.ge, Dbl.le]
  have hs : F.sub (.fin 360) (.fin 0) = .fin 360 := by
    simp [Fp.sub, Fp.add, Dbl.neg, hF.c360]
  have hg : Dbl.gt (Dbl.abs (.fin 0)) (.fin 360) = false := by decide +kernel
  simp [longitude, hc, hs, hg]

/-- Disagreement: NaN passes the range check of longitudes and position
angles (`sqrt(-1)` is a NaN the calculator yields). -/
theorem C52_nan_violated (F : Fp) (prograde : Bool) (side : Side) (cw : Bool) :
    longitude F prograde side .nan = some .nan ∧ positionAngle F cw .nan = some .nan := by
  cases prograde <;> cases side <;> cases cw <;>
    simp [longitude, positionAngle, circleAngle, fmod360, Dbl.gt, Dbl.abs, Dbl.lt, Dbl.ge, Dbl.le,
      Fp.add, Fp.sub, Dbl.neg]

/-- **C52** (latitude).  A latitude is accepted exactly when it is in the
range its suffix allows - `[-90, 90]` without, `[0, 90]` with - and `S`
negates it.  NaN and infinities are rejected. -/
theorem C52_latitude (h : Hemisphere) (x y : Dbl) :
    latitudeSub h x = some y ↔ ∃ q : ℚ, x = .fin q ∧ q ≤ 90 ∧
      match h with
      | .plain => -90 ≤ q ∧ y = .fin q
      | .north => 0 ≤ q ∧ y = .fin q
      | .south => 0 ≤ q ∧ y = .fin (-q) := by
  cases h <;> cases x <;>
    simp [latitudeSub, Dbl.le, Dbl.ge, Dbl.abs, Dbl.neg, abs_le]
  all_goals
    constructor
    · rintro ⟨⟨h1, h2⟩, h3⟩
      exact ⟨h2, h1, h3.symm⟩
    · rintro ⟨h1, h2, h3⟩
      exact ⟨⟨h2, h1⟩, h3.symm⟩

/-- **C52** (position angle).  A position angle within one turn is accepted
and equivalent to the entered one, negated for `CW`. -/
theorem C52_position_angle (cw : Bool) (q : ℚ) (h : |q| ≤ 360) :
    ∃ r : ℚ, positionAngle Fp.exact cw (.fin q) = some (.fin r) ∧ 0 ≤ r ∧ r ≤ 360 ∧
      ∃ k : ℤ, r = (if cw then -q else q) + 360 * k := by
  obtain ⟨c, hc, h0, h1, k, hk⟩ := C52_circle q
  have hg : Dbl.gt (Dbl.abs (.fin q)) (.fin 360) = false := by
    simp [Dbl.gt, Dbl.abs, Dbl.lt]; exact h
  have hsub : Fp.exact.sub (.fin 360) (.fin c) = .fin (360 - c) := by
    simp [Fp.sub, Fp.add, Dbl.neg, Fp.exact, sub_eq_add_neg]
  simp only [positionAngle, hg, hc, hsub]
  cases cw
  · exact ⟨c, by simp, h0, h1.le, -k, by push_cast; simp; linarith⟩
  · exact ⟨360 - c, by simp, by linarith, by linarith, k + 1, by push_cast; simp; linarith⟩

example : positionAngle Fp.exact true (.fin 10) = some (.fin 350) := by decide +kernel

end MaRC.Parser
