import Verif.Model.CylindricalF
import Verif.Lemmas.MuAccuracy

/-! # Error of computed centers of equal parts of a range -/

namespace MaRC

open Fp

/-- The value is one that a `double` can have. -/
def IsDouble (x : ℚ) : Prop := rnd53 x = x

theorem isDouble_rnd (q : ℚ) : IsDouble (rnd53 q) := rndP_of_rep (by norm_num) (rep_rndP (by norm_num) q)

theorem isDouble_half {k : ℕ} (h : k ≤ 2 ^ 31) : IsDouble ((k : ℚ) + 1 / 2) := by
  have h1 : Rep 53 (-1074) (((2 * k + 1 : ℤ) : ℚ) * (2 : ℚ) ^ (-1 : ℤ)) := by
    refine rep_mul (by norm_num) _ (by norm_num) ?_
    rw [abs_of_nonneg (by positivity)]
    have : ((k : ℤ)) ≤ 2 ^ 31 := by exact_mod_cast h
    norm_num at this ⊢
    omega
  have e : ((2 * k + 1 : ℤ) : ℚ) * (2 : ℚ) ^ (-1 : ℤ) = (k : ℚ) + 1 / 2 := by
    rw [zpow_neg_one]; push_cast; ring
  rw [e] at h1
  exact rndP_of_rep (by norm_num) h1

theorem isDouble_nat {k : ℕ} (h : k ≤ 2 ^ 31) : IsDouble (k : ℚ) := by
  have h1 : Rep 53 (-1074) (((k : ℤ) : ℚ)) := by
    refine rep_int (by norm_num) (by norm_num) ?_
    rw [abs_of_nonneg (by positivity)]
    have : ((k : ℤ)) ≤ 2 ^ 31 := by exact_mod_cast h
    norm_num at this ⊢
    omega
  exact_mod_cast rndP_of_rep (by norm_num) h1

theorem half_eq {k : ℕ} (h : k ≤ 2 ^ 31) : CylindricalF.half .ieee k = .fin ((k : ℚ) + 1 / 2) := by
  have hk : ((k : ℚ)) ≤ 2 ^ 31 := by exact_mod_cast h
  have h0 : (0 : ℚ) ≤ k := by positivity
  have h1 : ieee.rnd (k : ℚ) = .fin k := by
    rw [ieee_rnd_fin (by rw [abs_of_nonneg h0]; exact hk.trans (by norm_num)), isDouble_nat h]
  unfold CylindricalF.half
  rw [h1]
  show ieee.rnd _ = _
  rw [ieee_rnd_fin, isDouble_half h]
  rw [abs_of_nonneg (by positivity)]
  linarith [show (2 : ℚ) ^ 31 + 1 / 2 ≤ 2 ^ 200 by norm_num]

/-- Relative error of one rounding of a number that is not tiny. -/
theorem rnd53_rel {q : ℚ} (h : 1 / 2 ^ 140 ≤ q) :
    q * (1 - 1 / 2 ^ 53 - 1 / 2 ^ 60) ≤ rnd53 q ∧ rnd53 q ≤ q * (1 + 1 / 2 ^ 53 + 1 / 2 ^ 60) := by
  have hq : 0 < q := lt_of_lt_of_le (by positivity) h
  have e := rnd53_err200 q
  rw [abs_of_pos hq, abs_le] at e
  have t : (1 : ℚ) / 2 ^ 200 ≤ q / 2 ^ 60 := by
    have : (1 : ℚ) / 2 ^ 140 / 2 ^ 60 ≤ q / 2 ^ 60 := by gcongr
    norm_num at this ⊢
    linarith
  constructor <;> linarith [e.1, e.2]

/-- The part of the range from its lower edge to the center of a cell: `p` in
`p = (k + 0.5) * cf`, `cf = (hi - lo) / n`. -/
structure Part (w : ℚ) (n k : ℕ) (p : ℚ) : Prop where
  nonneg : 0 ≤ p
  le : p ≤ w
  err : |p - (k + 1 / 2) / n * w| ≤ w / 2 ^ 51

theorem part_of {w : ℚ} {n k : ℕ} (hw : 1 / 2 ^ 60 ≤ w) (hk : k < n)
    (hn : n ≤ 2 ^ 31) : Part w n k (rnd53 ((k + 1 / 2) * rnd53 (rnd53 w / n))) := by
  have hn1 : (1 : ℚ) ≤ n := by exact_mod_cast (by omega : 1 ≤ n)
  have hn2 : (n : ℚ) ≤ 2 ^ 31 := by exact_mod_cast hn
  have hk1 : (k : ℚ) + 1 ≤ n := by exact_mod_cast hk
  have hk0 : (0 : ℚ) ≤ k := by positivity
  have hw0 : 0 < w := lt_of_lt_of_le (by positivity) hw
  have n0 : (0 : ℚ) < n := by linarith
  -- the width
  obtain ⟨d1, d2⟩ := rnd53_rel (q := w) (le_trans (by norm_num) hw)
  generalize rnd53 w = D at *
  have hD : w / 2 ≤ D := by norm_num at d1 ⊢; linarith
  have hD0 : 0 < D := by linarith
  -- the width of a cell
  have hq : 1 / 2 ^ 100 ≤ D / n := by
    rw [le_div_iff₀ n0]
    have : (1 : ℚ) / 2 ^ 100 * n ≤ 1 / 2 ^ 100 * 2 ^ 31 := by gcongr
    norm_num at this hw ⊢
    linarith
  obtain ⟨c1, c2⟩ := rnd53_rel (q := D / n) (le_trans (by norm_num) hq)
  generalize rnd53 (D / n) = cf at *
  have hcf : D / n / 2 ≤ cf := by
    have : 0 < D / n := by positivity
    norm_num at c1 ⊢
    linarith
  -- the product
  have ha : (0 : ℚ) < k + 1 / 2 := by positivity
  have hac : 1 / 2 ^ 140 ≤ (k + 1 / 2) * cf := by
    have h1 : (1 : ℚ) / 2 * (1 / 2 ^ 100 / 2) ≤ (k + 1 / 2) * cf := by
      apply mul_le_mul _ _ (by positivity) (by positivity)
      · linarith
      · refine le_trans ?_ hcf
        gcongr
    refine le_trans ?_ h1
    norm_num
  obtain ⟨p1, p2⟩ := rnd53_rel hac
  generalize rnd53 ((k + 1 / 2) * cf) = p at *
  -- exact center
  obtain ⟨t, ht⟩ : ∃ t : ℚ, t = (k + 1 / 2) / n := ⟨_, rfl⟩
  have ht0 : 0 < t := by rw [ht]; positivity
  have ht1 : t ≤ 1 - 1 / 2 ^ 32 := by
    rw [ht, div_le_iff₀ n0]
    have : (1 : ℚ) / 2 ^ 32 * n ≤ 1 / 2 ^ 32 * 2 ^ 31 := by gcongr
    norm_num at this ⊢
    linarith
  have e1 : (k + 1 / 2) * (D / n) = t * D := by rw [ht]; ring
  have c1' : t * D * (1 - 1 / 2 ^ 53 - 1 / 2 ^ 60) ≤ (k + 1 / 2) * cf := by
    rw [← e1, mul_assoc]
    exact mul_le_mul_of_nonneg_left c1 ha.le
  have c2' : (k + 1 / 2) * cf ≤ t * D * (1 + 1 / 2 ^ 53 + 1 / 2 ^ 60) := by
    rw [← e1, mul_assoc]
    exact mul_le_mul_of_nonneg_left c2 ha.le
  have hp : p ≤ t * w * (1 + 1 / 2 ^ 51) := by
    have s1 : t * D ≤ t * (w * (1 + 1 / 2 ^ 53 + 1 / 2 ^ 60)) := mul_le_mul_of_nonneg_left d2 ht0.le
    have htw : 0 < t * w := by positivity
    norm_num at *
    nlinarith
  have hp' : t * w * (1 - 1 / 2 ^ 51) ≤ p := by
    have s1 : t * (w * (1 - 1 / 2 ^ 53 - 1 / 2 ^ 60)) ≤ t * D := mul_le_mul_of_nonneg_left d1 ht0.le
    have htw : 0 < t * w := by positivity
    norm_num at *
    nlinarith
  have htw : 0 < t * w := by positivity
  have htw1 : t * w ≤ (1 - 1 / 2 ^ 32) * w := by gcongr
  refine ⟨?_, ?_, ?_⟩
  · norm_num at hp' ⊢; linarith
  · norm_num at hp htw1 ⊢; nlinarith
  · rw [← ht, abs_le]
    norm_num at hp hp' htw1 ⊢
    constructor <;> nlinarith

/-- Computed widths of cells times the number of cells before the center of one. -/
theorem step_eq {lo hi : ℚ} {n k : ℕ} (hlo : |lo| ≤ 13) (hhi : |hi| ≤ 13)
    (hw : 1 / 2 ^ 60 ≤ hi - lo) (hk : k < n) (hn : n ≤ 2 ^ 31) :
    ∃ p, ieee.mul (CylindricalF.half .ieee k)
      (ieee.div (ieee.sub (.fin hi) (.fin lo)) (ieee.rnd n)) = .fin p ∧ Part (hi - lo) n k p := by
  have hP := part_of hw hk hn
  refine ⟨_, ?_, hP⟩
  have hn2 : (n : ℚ) ≤ 2 ^ 31 := by exact_mod_cast hn
  have hn1 : (1 : ℚ) ≤ n := by exact_mod_cast (by omega : 1 ≤ n)
  have hk1 : (k : ℚ) + 1 ≤ n := by exact_mod_cast hk
  have hk0 : (0 : ℚ) ≤ k := by positivity
  rw [abs_le] at hlo hhi
  have hw0 : 0 < hi - lo := lt_of_lt_of_le (by positivity) hw
  have e1 : ieee.sub (.fin hi) (.fin lo) = .fin (rnd53 (hi - lo)) := by
    show ieee.rnd (hi + -lo) = _
    rw [← sub_eq_add_neg, ieee_rnd_fin]
    rw [abs_of_pos hw0]
    exact le_trans (b := 26) (by linarith) (by norm_num)
  have e2 : ieee.rnd (n : ℚ) = .fin n := by
    rw [ieee_rnd_fin (by rw [abs_of_pos (by linarith)]; exact hn2.trans (by norm_num)),
      isDouble_nat hn]
  obtain ⟨-, d2⟩ := rnd53_rel (q := hi - lo) (le_trans (by norm_num) hw)
  have d0 : 0 ≤ rnd53 (hi - lo) := by
    have := rnd53_mono hw0.le
    rwa [rnd53_zero] at this
  have d3 : rnd53 (hi - lo) ≤ 30 := by norm_num at d2 ⊢; linarith
  have q3 : rnd53 (hi - lo) / n ≤ 30 := by
    rw [div_le_iff₀ (by linarith)]
    nlinarith
  have q0 : 0 ≤ rnd53 (hi - lo) / n := by positivity
  have e3 : ieee.div (.fin (rnd53 (hi - lo))) (.fin (n : ℚ)) =
      .fin (rnd53 (rnd53 (hi - lo) / n)) := by
    show (if (n : ℚ) = 0 then _ else ieee.rnd _) = _
    rw [if_neg (by linarith), ieee_rnd_fin]
    rw [abs_of_nonneg q0]
    exact q3.trans (by norm_num)
  have c := rnd53_err200 (rnd53 (hi - lo) / n)
  rw [abs_of_nonneg q0, abs_le] at c
  have c0 : 0 ≤ rnd53 (rnd53 (hi - lo) / n) := by
    have := rnd53_mono q0
    rwa [rnd53_zero] at this
  have c3 : rnd53 (rnd53 (hi - lo) / n) ≤ 40 := by norm_num at c ⊢; linarith
  rw [half_eq (by omega), e1, e2, e3]
  show ieee.rnd _ = _
  rw [ieee_rnd_fin]
  rw [abs_of_nonneg (by positivity)]
  have : ((k : ℚ) + 1 / 2) * rnd53 (rnd53 (hi - lo) / n) ≤ 2 ^ 31 * 40 := by
    apply mul_le_mul _ c3 c0 (by norm_num)
    linarith
  exact this.trans (by norm_num)

/-- A computed center is within the range and near the exact one. -/
structure Center (lo hi t v : ℚ) : Prop where
  lower : lo ≤ v
  upper : v ≤ hi
  err : |v - (lo + t * (hi - lo))| ≤ (hi - lo) / 2 ^ 51 + 13 / 2 ^ 53 + 1 / 2 ^ 200

theorem center_up {lo hi : ℚ} {n k : ℕ} {p : ℚ} (hlo : |lo| ≤ 13) (hhi : |hi| ≤ 13)
    (dlo : IsDouble lo) (dhi : IsDouble hi) (h : Part (hi - lo) n k p) :
    ∃ v, ieee.add (.fin p) (.fin lo) = .fin v ∧ Center lo hi ((k + 1 / 2) / n) v := by
  have a1 : lo ≤ p + lo := by linarith [h.nonneg]
  have a2 : p + lo ≤ hi := by linarith [h.le]
  rw [abs_le] at hlo hhi
  have hb : |p + lo| ≤ 13 := by rw [abs_le]; constructor <;> linarith
  refine ⟨rnd53 (p + lo), ?_, ?_, ?_, ?_⟩
  · show ieee.rnd _ = _
    exact ieee_rnd_fin (hb.trans (by norm_num))
  · have := rnd53_mono a1; rwa [dlo] at this
  · have := rnd53_mono a2; rwa [dhi] at this
  · have e := rnd53_err200 (p + lo)
    have e2 : |p + lo| / 2 ^ 53 ≤ 13 / 2 ^ 53 := by gcongr
    have e3 := h.err
    rw [abs_le] at e e3 ⊢
    constructor <;> linarith [e.1, e.2, e3.1, e3.2]

theorem center_down {lo hi : ℚ} {n k : ℕ} {p : ℚ} (hlo : |lo| ≤ 13) (hhi : |hi| ≤ 13)
    (dlo : IsDouble lo) (dhi : IsDouble hi) (h : Part (hi - lo) n k p) :
    ∃ v, ieee.sub (.fin hi) (.fin p) = .fin v ∧ Center lo hi (1 - (k + 1 / 2) / n) v := by
  have a1 : lo ≤ hi - p := by linarith [h.le]
  have a2 : hi - p ≤ hi := by linarith [h.nonneg]
  rw [abs_le] at hlo hhi
  have hb : |hi - p| ≤ 13 := by rw [abs_le]; constructor <;> linarith
  refine ⟨rnd53 (hi - p), ?_, ?_, ?_, ?_⟩
  · show ieee.rnd (hi + -p) = _
    rw [← sub_eq_add_neg]
    exact ieee_rnd_fin (hb.trans (by norm_num))
  · have := rnd53_mono a1; rwa [dlo] at this
  · have := rnd53_mono a2; rwa [dhi] at this
  · have e := rnd53_err200 (hi - p)
    have e2 : |hi - p| / 2 ^ 53 ≤ 13 / 2 ^ 53 := by gcongr
    have e3 := h.err
    rw [abs_le] at e e3 ⊢
    constructor <;> nlinarith [e.1, e.2, e3.1, e3.2]

theorem c2pi_eq : c2pi = .fin circleQ := by decide +kernel
theorem circleQ_near : |(circleQ : ℝ) - 2 * Real.pi| ≤ 1 / 2 ^ 51 := by
  have h1 := Real.pi_gt_d20
  have h2 := Real.pi_lt_d20
  rw [abs_le]
  norm_num [circleQ] at h1 h2 ⊢
  constructor <;> linarith

/-- The double `d` is within `ε` of `x`. -/
def Edge (d : Dbl) (x ε : ℝ) : Prop := ∃ e : ℚ, d = .fin e ∧ IsDouble e ∧ |(e : ℝ) - x| ≤ ε

theorem mul_isDouble {a b r : Dbl} {e : ℚ} (h : ∃ p q, a = .fin p ∧ b = .fin q)
    (hr : ieee.mul a b = r) (he : r = .fin e) : IsDouble e := by
  obtain ⟨p, q, rfl, rfl⟩ := h
  subst hr
  rw [Fp.ieee_rnd_fin (x := p * q) he]
  exact isDouble_rnd _

theorem Edge.lat {q : ℚ} (h : |q| ≤ 90) :
    Edge (ieee.mul (.fin q) cDegree) (q * Real.pi / 180) (1 / 2 ^ 50) := by
  obtain ⟨e, he, h1, -⟩ := Ap.latDegrees h
  refine ⟨e, he, mul_isDouble ⟨_, _, rfl, cDegree_eq⟩ rfl he, h1.trans (by norm_num)⟩

theorem Edge.lon {q : ℚ} (h : |q| ≤ 360) :
    Edge (ieee.mul (.fin q) cDegree) (q * Real.pi / 180) (1 / 2 ^ 48) := by
  obtain ⟨e, he, h1, -⟩ := Ap.lonDegrees h
  refine ⟨e, he, mul_isDouble ⟨_, _, rfl, cDegree_eq⟩ rfl he, h1.trans (by norm_num)⟩

theorem Edge.turn {d : Dbl} {x : ℝ} (hx : |x| ≤ 2 * Real.pi) (h : Edge d x (1 / 2 ^ 48)) :
    Edge (ieee.add d c2pi) (x + 2 * Real.pi) (1 / 2 ^ 47) := by
  obtain ⟨e, rfl, -, he⟩ := h
  have h2 := Real.pi_lt_d20
  have hc := circleQ_near
  rw [abs_le] at hx he hc
  have hb : |((e + circleQ : ℚ) : ℝ)| ≤ 13 := by
    push_cast
    rw [abs_le]
    norm_num at h2 he hc ⊢
    constructor <;> linarith
  have hq : |e + circleQ| ≤ 13 := by exact_mod_cast hb
  rw [c2pi_eq]
  refine ⟨rnd53 (e + circleQ), ieee_rnd_fin (hq.trans (by norm_num)), isDouble_rnd _, ?_⟩
  have e1 := rnd53_err200R (e + circleQ)
  have e2 : |((e + circleQ : ℚ) : ℝ)| / 2 ^ 53 ≤ 13 / 2 ^ 53 := by gcongr
  push_cast at e1 e2 hb
  rw [abs_le] at e1 ⊢
  norm_num at he hc e1 e2 ⊢
  constructor <;> linarith

theorem Edge.unturn {d : Dbl} {x : ℝ} (hx : |x| ≤ 2 * Real.pi) (h : Edge d x (1 / 2 ^ 48)) :
    Edge (ieee.sub d c2pi) (x - 2 * Real.pi) (1 / 2 ^ 47) := by
  obtain ⟨e, rfl, -, he⟩ := h
  have h2 := Real.pi_lt_d20
  have hc := circleQ_near
  rw [abs_le] at hx he hc
  have hb : |((e - circleQ : ℚ) : ℝ)| ≤ 13 := by
    push_cast
    rw [abs_le]
    norm_num at h2 he hc ⊢
    constructor <;> linarith
  have hq : |e - circleQ| ≤ 13 := by exact_mod_cast hb
  rw [c2pi_eq]
  refine ⟨rnd53 (e - circleQ), ?_, isDouble_rnd _, ?_⟩
  · show ieee.rnd (e + -circleQ) = _
    rw [← sub_eq_add_neg]
    exact ieee_rnd_fin (hq.trans (by norm_num))
  have e1 := rnd53_err200R (e - circleQ)
  have e2 : |((e - circleQ : ℚ) : ℝ)| / 2 ^ 53 ≤ 13 / 2 ^ 53 := by gcongr
  push_cast at e1 e2 hb
  rw [abs_le] at e1 ⊢
  norm_num at he hc e1 e2 ⊢
  constructor <;> linarith

theorem fin_abs (q : ℚ) : (Dbl.fin q).abs = .fin |q| := by
  simp [Dbl.abs]

theorem almostEqual_self (x : ℚ) : almostEqual .ieee (.fin x) (.fin x) 2 = true := by
  have : ieee.sub (.fin x) (.fin x) = .fin 0 := by
    show ieee.rnd (x + -x) = _
    rw [add_neg_cancel, ieee_rnd_zero]
  unfold almostEqual
  rw [this, Bool.or_eq_true]
  right
  decide +kernel

theorem not_almost {x y : ℚ} (hx : |x| ≤ 13) (hy : |y| ≤ 13) (h : 1 / 2 ^ 40 ≤ y - x) :
    (almostEqual .ieee (.fin x) (.fin y) 2 || (almostZero .ieee (.fin x) 2 && almostZero .ieee (.fin y) 2)) = false := by
  rw [abs_le] at hx hy
  have hs : ieee.sub (.fin x) (.fin y) = .fin (rnd53 (x - y)) := by
    show ieee.rnd (x + -y) = _
    rw [← sub_eq_add_neg]
    refine ieee_rnd_fin (le_trans (b := 26) ?_ (by norm_num))
    rw [abs_le]; constructor <;> linarith
  have ha : ieee.add (.fin x) (.fin y) = .fin (rnd53 (x + y)) := by
    refine ieee_rnd_fin (le_trans (b := 26) ?_ (by norm_num))
    rw [abs_le]; constructor <;> linarith
  have b1 : 1 / 2 ^ 41 ≤ |rnd53 (x - y)| := by
    have e := rnd53_err200 (x - y)
    have hn : |x - y| = y - x := by rw [abs_sub_comm, abs_of_nonneg (by linarith [show (0:ℚ) < 1 / 2^40 by positivity])]
    rw [hn] at e
    have := abs_sub_abs_le_abs_sub (x - y) (rnd53 (x - y))
    rw [hn, abs_sub_comm (x - y)] at this
    norm_num at e h ⊢
    linarith
  have b2 : |rnd53 (x + y)| ≤ 27 := by
    have e := rnd53_err200 (x + y)
    have hn : |x + y| ≤ 26 := by rw [abs_le]; constructor <;> linarith
    have := abs_sub_abs_le_abs_sub (rnd53 (x + y)) (x + y)
    norm_num at e h ⊢
    linarith
  have m1 : ∃ r, ieee.mul (ieee.mul (.fin dblEpsilon) (Dbl.fin (rnd53 (x + y))).abs) (.fin (2 : ℤ)) = .fin r ∧ r ≤ 1 / 2 ^ 42 := by
    rw [fin_abs]
    have c1 : |dblEpsilon * (|rnd53 (x + y)|)| ≤ 27 / 2 ^ 52 := by
      rw [abs_of_nonneg (by unfold dblEpsilon; positivity)]
      unfold dblEpsilon
      rw [one_div_mul_eq_div]
      gcongr
    have m2 : ieee.mul (.fin dblEpsilon) (.fin |rnd53 (x + y)|) =
        .fin (rnd53 (dblEpsilon * |rnd53 (x + y)|)) := ieee_rnd_fin (c1.trans (by norm_num))
    rw [m2]
    have e := rnd53_err200 (dblEpsilon * |rnd53 (x + y)|)
    generalize dblEpsilon * |rnd53 (x + y)| = z at *
    have hz : |rnd53 z| ≤ 30 / 2 ^ 52 := by
      have := abs_sub_abs_le_abs_sub (rnd53 z) z
      norm_num at e c1 ⊢
      linarith
    generalize rnd53 z = z' at *
    have hz2 : |z' * ((2 : ℤ) : ℚ)| ≤ 60 / 2 ^ 52 := by
      rw [abs_mul]; norm_num at hz ⊢; linarith
    refine ⟨rnd53 (z' * ((2 : ℤ) : ℚ)), ieee_rnd_fin (hz2.trans (by norm_num)), ?_⟩
    generalize z' * ((2 : ℤ) : ℚ) = y' at *
    have e := rnd53_err200 y'
    have := le_abs_self (rnd53 y')
    have := abs_sub_abs_le_abs_sub (rnd53 y') y'
    norm_num at e hz2 ⊢
    linarith
  obtain ⟨r, hr, hr2⟩ := m1
  have z1 : ieee.mul (.fin dblEpsilon) (.fin (2 : ℤ)) = .fin (1 / 2 ^ 51) := by decide +kernel
  unfold almostEqual almostZero
  rw [hs, ha, hr, z1, fin_abs, fin_abs, fin_abs]
  have hmin : dblMin ≤ 1 / 2 ^ 41 := by
    unfold dblMin
    gcongr
    · norm_num
    · norm_num
  have n1 : (Dbl.fin |rnd53 (x - y)|).lt (.fin r) = false := by
    simp only [Dbl.lt, decide_eq_false_iff_not, not_lt]
    refine hr2.trans (le_trans ?_ b1)
    norm_num
  have n2 : (Dbl.fin |rnd53 (x - y)|).lt (.fin dblMin) = false := by
    simp only [Dbl.lt, decide_eq_false_iff_not, not_lt]
    exact hmin.trans b1
  rw [n1, n2, Bool.or_self, Bool.false_or]
  by_contra hc
  simp only [Bool.not_eq_false, Bool.and_eq_true, Dbl.lt, decide_eq_true_eq] at hc
  have h1 := (abs_lt.mp hc.1).1
  have h2 := (abs_lt.mp hc.2).2
  norm_num at h1 h2 h
  linarith

/-- Conversions of latitudes of bodies with one radius at most twice the other. -/
theorem convert_lip {s x y : ℝ} (h1 : 1 / 4 ≤ s) (h2 : s ≤ 4) (hx : |x| < Real.pi / 2)
    (hy : |y| < Real.pi / 2) :
    |Real.arctan (s * Real.tan x) - Real.arctan (s * Real.tan y)| ≤ 4 * |x - y| := by
  have hx' : x ∈ Set.Ioo (-(Real.pi / 2)) (Real.pi / 2) := abs_lt.mp hx
  have hy' : y ∈ Set.Ioo (-(Real.pi / 2)) (Real.pi / 2) := abs_lt.mp hy
  have key := Convex.norm_image_sub_le_of_norm_hasDerivWithin_le (𝕜 := ℝ) (C := 4)
    (f := fun z => Real.arctan (s * Real.tan z))
    (f' := fun z => 1 / (1 + (s * Real.tan z) ^ 2) * (s * (1 / Real.cos z ^ 2)))
    (s := Set.Ioo (-(Real.pi / 2)) (Real.pi / 2)) (x := y) (y := x) ?_ ?_
    (convex_Ioo _ _) hy' hx'
  · simpa [Real.norm_eq_abs] using key
  · intro z hz
    have hc : Real.cos z ≠ 0 := (Real.cos_pos_of_mem_Ioo hz).ne'
    exact ((Real.hasDerivAt_tan hc).const_mul s).arctan.hasDerivWithinAt
  · intro z hz
    have hc : 0 < Real.cos z := Real.cos_pos_of_mem_Ioo hz
    have e : 1 / Real.cos z ^ 2 = 1 + Real.tan z ^ 2 := by
      rw [Real.tan_eq_sin_div_cos]
      field_simp
      rw [Real.cos_sq_add_sin_sq]
    rw [e, Real.norm_eq_abs, abs_of_nonneg (by positivity), one_div, inv_mul_le_iff₀ (by positivity)]
    have ht : 0 ≤ Real.tan z ^ 2 := sq_nonneg _
    nlinarith [mul_nonneg (mul_nonneg (by linarith : 0 ≤ s) ht) (by linarith : 0 ≤ 4 * s - 1)]

/-- Edges of maps are not past the poles. -/
theorem lat_edge_le {q : ℚ} (h : |q| ≤ 90) {e : ℚ} (he : ieee.mul (.fin q) cDegree = .fin e) :
    |e| ≤ pi2Q := by
  have hd : (0 : ℚ) < degreeQ := by norm_num [degreeQ]
  rw [cDegree_eq] at he
  have he' : e = rnd53 (q * degreeQ) := Fp.ieee_rnd_fin he
  have h90 : rnd53 (90 * degreeQ) = pi2Q := by decide +kernel
  rw [abs_le] at h ⊢
  constructor
  · have := rnd53_mono (mul_le_mul_of_nonneg_right h.1 hd.le)
    rw [neg_mul, rnd53_neg, h90] at this
    rwa [he']
  · have := rnd53_mono (mul_le_mul_of_nonneg_right h.2 hd.le)
    rw [h90] at this
    rwa [he']

end MaRC
