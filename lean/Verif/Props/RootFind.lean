import Mathlib.Tactic.Linarith
import Mathlib.Tactic.NormNum
import Mathlib.Tactic.FieldSimp
import Mathlib.Tactic.Ring
import Verif.Model.RootFind
import Verif.Spec.RootFind
import Verif.Lemmas.DblOrder

/-! # Root finding (C32) -/

namespace MaRC.RootFind

open Dbl

/-- `x` lies between `a` and `b`, whichever is larger. -/
def Between (a b x : ℚ) : Prop := (a ≤ x ∧ x ≤ b) ∨ (b ≤ x ∧ x ≤ a)

/-- The loop's state: the bracket and the point are numbers, the bracket lies
in the original one and the point in the bracket; or the point is NaN. -/
def Good (lo hi : ℚ) (s : St) : Prop :=
  s.x0 = .nan ∨ ∃ a b x, s.xl = .fin a ∧ s.xh = .fin b ∧ s.x0 = .fin x ∧
    Between lo hi a ∧ Between lo hi b ∧ Between a b x

theorem derivative_nan (F : Fp) (f : Dbl → Dbl) : firstDerivative F .nan f = .nan := by
  have h : stepSize F .nan = .nan := rfl
  have h2 : F.mul (lit 12) .nan = .nan := rfl
  simp only [firstDerivative, h, h2]
  generalize F.sub _ _ = z
  cases z <;> rfl

theorem div_nan (F : Fp) (a : Dbl) : F.div a .nan = .nan := by cases a <;> rfl

theorem sub_nan (F : Fp) (a : Dbl) : F.sub a .nan = .nan := by cases a <;> rfl

theorem mul_nan (F : Fp) (a : Dbl) : F.mul a .nan = .nan := by cases a <;> rfl

theorem bisects_nan (F : Fp) (y : Dbl) (s : St) : bisects F y s .nan = false := by
  have h1 : ∀ a : Dbl, F.add (F.sub .nan a) y = .nan := by intro a; cases a <;> rfl
  have h2 : ∀ a : Dbl, a.gt .nan = false := by intro a; rfl
  simp only [bisects, mul_nan, h1]
  have h3 : Dbl.gt .nan (lit 0) = false := rfl
  have h4 : Dbl.abs .nan = .nan := rfl
  rw [h3, h4, h2]
  rfl

/-- A NaN point stays NaN, and its step is NaN. -/
theorem move_nan (F : Fp) (y : Dbl) (f : Dbl → Dbl) (s : St) (h : s.x0 = .nan) :
    (move F y f s).x0 = .nan ∧ (move F y f s).dx = .nan := by
  simp only [move, h, derivative_nan, bisects_nan, div_nan]
  exact ⟨rfl, rfl⟩

theorem between_mono {a b x lo hi : ℚ} (ha : Between lo hi a) (hb : Between lo hi b)
    (hx : Between a b x) : Between lo hi x := by
  rcases ha with ⟨_, _⟩ | ⟨_, _⟩ <;> rcases hb with ⟨_, _⟩ | ⟨_, _⟩ <;>
    rcases hx with ⟨_, _⟩ | ⟨_, _⟩ <;>
    first
      | exact Or.inl ⟨by linarith, by linarith⟩
      | exact Or.inr ⟨by linarith, by linarith⟩

theorem between_of_mul {a b x : ℚ} (h : (x - b) * (x - a) ≤ 0) : Between a b x := by
  by_cases h1 : x ≤ b
  · by_cases h2 : a ≤ x
    · exact Or.inl ⟨h2, h1⟩
    · have h3 : x - a < 0 := by linarith
      have h4 : 0 ≤ x - b := by
        by_contra h5
        have := mul_pos_of_neg_of_neg (show x - b < 0 by linarith) h3
        linarith
      exact Or.inr ⟨by linarith, by linarith⟩
  · have h3 : 0 < x - b := by linarith
    have h4 : x - a ≤ 0 := by
      by_contra h5
      have := mul_pos h3 (show 0 < x - a by linarith)
      linarith
    exact Or.inr ⟨by linarith, by linarith⟩

theorem exact_sub (a b : ℚ) : Fp.exact.sub (.fin a) (.fin b) = .fin (a - b) := by
  simp [Fp.sub, Fp.add, Dbl.neg, Fp.exact, sub_eq_add_neg]

theorem exact_mul (a b : ℚ) : Fp.exact.mul (.fin a) (.fin b) = .fin (a * b) := rfl

theorem exact_add (a b : ℚ) : Fp.exact.add (.fin a) (.fin b) = .fin (a + b) := rfl

theorem exact_div (a b : ℚ) (h : b ≠ 0) : Fp.exact.div (.fin a) (.fin b) = .fin (a / b) := by
  simp [Fp.div, h, Fp.exact]

/-- Newton's point is a number between the ends, or NaN, whenever the code
does not bisect. -/
theorem newton_good {y y0 df dxold dx : Dbl} {a b x : ℚ} (hx : Between a b x)
    (h : bisects Fp.exact y ⟨.fin a, .fin b, dxold, dx, .fin x, y0⟩ df = false) :
    Fp.exact.sub (.fin x) (Fp.exact.div (Fp.exact.sub y0 y) df) = .nan ∨
    ∃ r, Fp.exact.sub (.fin x) (Fp.exact.div (Fp.exact.sub y0 y) df) = .fin r ∧
      Between a b r := by
  simp only [bisects, Bool.or_eq_false_iff, exact_sub] at h
  obtain ⟨h, -⟩ := h
  cases df with
  | nan => left; rw [div_nan, sub_nan]
  | pinf =>
    cases y0 <;> cases y <;> simp [Fp.sub, Fp.add, Dbl.neg, Fp.div, Fp.exact] <;> exact hx
  | ninf =>
    cases y0 <;> cases y <;> simp [Fp.sub, Fp.add, Dbl.neg, Fp.div, Fp.exact] <;> exact hx
  | fin d =>
    cases y0 with
    | nan => left; rfl
    | pinf =>
      cases y <;> simp [Fp.sub, Fp.add, Dbl.neg, Fp.mul, Fp.div, Fp.exact, Dbl.gt, Dbl.lt, lit] at h ⊢
    | ninf =>
      cases y <;> simp [Fp.sub, Fp.add, Dbl.neg, Fp.mul, Fp.div, Fp.exact, Dbl.gt, Dbl.lt, lit] at h ⊢
    | fin v =>
      cases y with
      | nan => left; rfl
      | pinf => simp [Fp.sub, Fp.add, Dbl.neg, Fp.mul, Fp.exact, Dbl.gt, Dbl.lt, lit] at h
      | ninf => simp [Fp.sub, Fp.add, Dbl.neg, Fp.mul, Fp.exact, Dbl.gt, Dbl.lt, lit] at h
      | fin w =>
        simp only [exact_mul, exact_sub, exact_add, Dbl.gt, Dbl.lt, lit,
          decide_eq_false_iff_not, Int.cast_zero] at h ⊢
        rw [_root_.not_lt] at h
        by_cases hd : d = 0
        · subst hd
          have hvw : v = w := by
            have h' : (w - v) * (w - v) ≤ 0 := by linarith
            have : w - v = 0 := by
              by_contra hne
              have := mul_self_pos.mpr hne
              linarith
            linarith
          left
          simp [hvw, Fp.div, Fp.signedInf]
          rfl
        · right
          rw [exact_div _ _ hd, exact_sub]
          refine ⟨_, rfl, between_of_mul ?_⟩
          have e : ((x - b) * d - v + w) * ((x - a) * d - v + w) =
              d ^ 2 * ((x - (v - w) / d - b) * (x - (v - w) / d - a)) := by
            field_simp
            ring
          rw [e] at h
          by_contra hpos
          have h2 : 0 < d ^ 2 := by positivity
          have := mul_pos h2 (not_le.mp hpos)
          linarith

theorem move_good {lo hi : ℚ} {y : Dbl} {f : Dbl → Dbl} {s : St} (h : Good lo hi s) :
    Good lo hi (move Fp.exact y f s) := by
  rcases h with h | ⟨a, b, x, h1, h2, h3, h4, h5, h6⟩
  · exact Or.inl (move_nan Fp.exact y f s h).1
  · obtain ⟨xl, xh, dxold, dx, x0, y0⟩ := s
    simp only at h1 h2 h3
    subst h1 h2 h3
    simp only [move]
    cases hb : bisects Fp.exact y ⟨.fin a, .fin b, dxold, dx, .fin x, y0⟩
        (firstDerivative Fp.exact (.fin x) f) with
    | true =>
      right
      refine ⟨a, b, a + (b - a) / 2, rfl, rfl, ?_, h4, h5, ?_⟩
      · simp only [if_true]
        rw [exact_sub, lit, exact_div _ _ (by norm_num), exact_add]
        norm_num
      · rcases le_total a b with hab | hab
        · exact Or.inl ⟨by linarith, by linarith⟩
        · exact Or.inr ⟨by linarith, by linarith⟩
    | false =>
      rcases newton_good h6 hb with hn | ⟨r, hr, hr2⟩
      · left; exact hn
      · right; exact ⟨a, b, r, rfl, rfl, hr, h4, h5, hr2⟩

theorem narrow_good {lo hi : ℚ} {y : Dbl} {f : Dbl → Dbl} {s : St} (h : Good lo hi s) :
    Good lo hi (narrow y f s) := by
  rcases h with h | ⟨a, b, x, h1, h2, h3, h4, h5, h6⟩
  · left
    simp only [narrow]
    split <;> exact h
  · right
    have h7 := between_mono h4 h5 h6
    simp only [narrow]
    split
    · refine ⟨x, b, x, h3, h2, h3, h7, h5, ?_⟩
      rcases le_total x b with h | h
      · exact Or.inl ⟨le_rfl, h⟩
      · exact Or.inr ⟨h, le_rfl⟩
    · refine ⟨a, x, x, h1, h3, h3, h4, h7, ?_⟩
      rcases le_total a x with h | h
      · exact Or.inl ⟨h, le_rfl⟩
      · exact Or.inr ⟨le_rfl, h⟩

theorem loop_good {lo hi : ℚ} {y : Dbl} {f : Dbl → Dbl} : ∀ (n : ℕ) (s : St), Good lo hi s →
    loop Fp.exact y f n s = .throw .runtimeError ∨
      ∃ r, loop Fp.exact y f n s = .ok (.fin r) ∧ Between lo hi r := by
  intro n
  induction n with
  | zero => intro s _; exact Or.inl rfl
  | succ n ih =>
    intro s hs
    have hm := move_good (y := y) (f := f) hs
    simp only [loop]
    cases hz : almostZero Fp.exact (move Fp.exact y f s).dx 2 with
    | false => simpa using ih _ (narrow_good hm)
    | true =>
      right
      rcases hs with h | hs'
      · rw [(move_nan Fp.exact y f s h).2] at hz
        simp [almostZero, Dbl.abs, Dbl.lt] at hz
      · rcases hm with h | ⟨a, b, x, h1, h2, h3, h4, h5, h6⟩
        · -- a NaN point comes with a NaN step
          exfalso
          obtain ⟨a, b, x, h1, h2, h3, h4, h5, h6⟩ := hs'
          obtain ⟨xl, xh, dxold, dx, x0, y0⟩ := s
          simp only at h1 h2 h3
          subst h1 h2 h3
          simp only [move] at h hz
          split at h
          · rw [exact_sub, lit, exact_div _ _ (by norm_num), exact_add] at h
            simp at h
          · rename_i hb
            simp only [hb] at hz
            generalize Fp.exact.div (Fp.exact.sub y0 y)
              (firstDerivative Fp.exact (fin x) f) = d at h hz
            cases d <;> simp [Fp.sub, Fp.add, Dbl.neg, Fp.exact] at h
            simp [almostZero, Dbl.abs, Dbl.lt] at hz
        · exact ⟨x, by simp [h3], between_mono h4 h5 h6⟩

/-- **C32** (rejection).  In any arithmetic, the call rejects the bracket
exactly when the ordinates of both ends are strictly on the same side of the
target. -/
theorem C32_rejects (F : Fp) (y xl xh : Dbl) (f : Dbl → Dbl) :
    bracketed F y xl xh f = .throw .invalidArgument ↔
      (y.lt (f xl) = true ∧ y.lt (f xh) = true) ∨ ((f xl).lt y = true ∧ (f xh).lt y = true) := by
  have hl : ∀ n s, loop F y f n s ≠ .throw .invalidArgument := by
    intro n
    induction n with
    | zero => intro s; simp [loop]
    | succ n ih =>
      intro s
      simp only [loop]
      split
      · simp
      · exact ih _
  by_cases hc : (((f xl).gt y && (f xh).gt y) || ((f xl).lt y && (f xh).lt y)) = true
  · have hr : bracketed F y xl xh f = .throw .invalidArgument := by
      simp only [bracketed, hc, if_true]
    simp only [Dbl.gt, Bool.or_eq_true, Bool.and_eq_true] at hc
    exact ⟨fun _ => hc, fun _ => hr⟩
  · have hr : bracketed F y xl xh f ≠ .throw .invalidArgument := by
      rw [bracketed, if_neg hc]
      split_ifs
      · simp
      · simp
      · exact hl _ _
      · exact hl _ _
    simp only [Dbl.gt, Bool.or_eq_true, Bool.and_eq_true] at hc
    exact ⟨fun h => absurd h hr, fun h => absurd h hc⟩

theorem almost_iff {F : Fp} {a b : Dbl} : isAlmostEqual F a b = true ↔ Almost F a b := by
  simp [isAlmostEqual, almostEqual, almostZero, Almost, dblEpsilon, dblMin, ulpOne, minNormal,
    or_assoc]

/-- **C32** (ends).  In any arithmetic, a bracket end is returned when its
ordinate almost equals the target, the lower one first. -/
theorem C32_ends (F : Fp) (y xl xh : Dbl) (f : Dbl → Dbl)
    (h : ¬ ((y.lt (f xl) = true ∧ y.lt (f xh) = true) ∨
      ((f xl).lt y = true ∧ (f xh).lt y = true))) :
    (Almost F (f xl) y → bracketed F y xl xh f = .ok xl) ∧
    (¬ Almost F (f xl) y → Almost F (f xh) y → bracketed F y xl xh f = .ok xh) := by
  simp only [← almost_iff, Bool.not_eq_true]
  have hc : ¬ ((((f xl).gt y && (f xh).gt y) || ((f xl).lt y && (f xh).lt y)) = true) := by
    simp only [Dbl.gt, Bool.or_eq_true, Bool.and_eq_true]
    exact h
  constructor
  · intro h1
    simp only [bracketed, if_neg hc, h1, if_true]
  · intro h1 h2
    simp only [bracketed, if_neg hc, h1, h2, if_true]
    rfl

/-- **C32** (result).  For every function, target and finite bracket the call
ends: it throws `invalid_argument` (see `C32_rejects`), it throws
`runtime_error`, or it returns a number of the bracket - never NaN.  Exact
arithmetic; the function may return anything.  Missing: rounding, with which a point next to
the bracket may be returned (`C32_bracket_violated`). -/
theorem C32_bracket_partial (y : Dbl) (a b : ℚ) (f : Dbl → Dbl) :
    bracketed Fp.exact y (.fin a) (.fin b) f = .throw .invalidArgument ∨
    bracketed Fp.exact y (.fin a) (.fin b) f = .throw .runtimeError ∨
    ∃ r, bracketed Fp.exact y (.fin a) (.fin b) f = .ok (.fin r) ∧
      ((a ≤ r ∧ r ≤ b) ∨ (b ≤ r ∧ r ≤ a)) := by
  have hinit : ∀ l h : ℚ, Between a b l → Between a b h → Good a b (init Fp.exact f (.fin l) (.fin h)) := by
    intro l h hl hh
    right
    refine ⟨l, h, (l + h) / 2, rfl, rfl, ?_, hl, hh, ?_⟩
    · simp only [init]
      rw [exact_add, lit, exact_div _ _ (by norm_num)]
      norm_num
    · rcases le_total l h with hab | hab
      · exact Or.inl ⟨by linarith, by linarith⟩
      · exact Or.inr ⟨by linarith, by linarith⟩
  have ha : Between a b a := by
    rcases le_total a b with h | h
    · exact Or.inl ⟨le_rfl, h⟩
    · exact Or.inr ⟨h, le_rfl⟩
  have hb : Between a b b := by
    rcases le_total a b with h | h
    · exact Or.inl ⟨h, le_rfl⟩
    · exact Or.inr ⟨le_rfl, h⟩
  simp only [bracketed]
  split
  · exact Or.inl rfl
  · right
    split
    · exact Or.inr ⟨a, rfl, ha⟩
    · split
      · exact Or.inr ⟨b, rfl, hb⟩
      · split
        · rcases loop_good (y := y) (f := f) 100 _ (hinit b a hb ha) with h | ⟨r, hr, h⟩
          · exact Or.inl h
          · exact Or.inr ⟨r, hr, h⟩
        · rcases loop_good (y := y) (f := f) 100 _ (hinit a b ha hb) with h | ⟨r, hr, h⟩
          · exact Or.inl h
          · exact Or.inr ⟨r, hr, h⟩

/-- The ordinates of the bracket's ends are on either side of the target, and the
ordinate of the point is known. -/
def Sides (y : Dbl) (f : Dbl → Dbl) (s : St) : Prop :=
  (f s.xl).lt y = true ∧ (f s.xh).lt y = false ∧ s.y0 = f s.x0

/-- What the loop returns: a point `r` between ends `l`, `h` of the original bracket
whose ordinates are on either side of the target, and either the middle of two ends
that are almost equal, or reached by a Newton step of almost no length from a point
between them. -/
def Found (y : Dbl) (lo hi : ℚ) (f : Dbl → Dbl) (r : ℚ) : Prop :=
  ∃ l h : ℚ, Between lo hi l ∧ Between lo hi h ∧
    (f (.fin l)).lt y = true ∧ (f (.fin h)).lt y = false ∧ Between l h r ∧
    ((r = (l + h) / 2 ∧ |h - l| / 2 < 2 * dblEpsilon) ∨
      ∃ x d : ℚ, Between l h x ∧
        Fp.exact.div (Fp.exact.sub (f (.fin x)) y) (firstDerivative Fp.exact (.fin x) f) = .fin d ∧
        r = x - d ∧ |d| < 2 * dblEpsilon)

theorem almostZero_fin (q : ℚ) : almostZero Fp.exact (.fin q) 2 = true ↔ |q| < 2 * dblEpsilon := by
  simp [almostZero, Dbl.abs, Dbl.lt, exact_mul, mul_comm]

theorem loop_found {lo hi : ℚ} {y : Dbl} {f : Dbl → Dbl} : ∀ (n : ℕ) (s : St), Good lo hi s →
    s.x0 ≠ .nan → Sides y f s → ∀ r, loop Fp.exact y f n s = .ok (.fin r) →
    Found y lo hi f r := by
  intro n
  induction n with
  | zero => intro s _ _ _ r h; simp [loop] at h
  | succ n ih =>
    intro s hs hx hsd r hr
    have hm := move_good (y := y) (f := f) hs
    have hends : (move Fp.exact y f s).xl = s.xl ∧ (move Fp.exact y f s).xh = s.xh := by
      simp only [move]; split <;> exact ⟨rfl, rfl⟩
    simp only [loop] at hr
    cases hz : almostZero Fp.exact (move Fp.exact y f s).dx 2 with
    | false =>
      rw [hz] at hr
      simp only [Bool.false_eq_true, if_false] at hr
      by_cases hnan : (move Fp.exact y f s).x0 = .nan
      · exfalso
        have hn : ∀ (n : ℕ) (s : St), s.x0 = .nan → ∀ r, loop Fp.exact y f n s ≠ .ok (.fin r) := by
          intro n
          induction n with
          | zero => intro s _ r; simp [loop]
          | succ n ih2 =>
            intro s h r
            simp only [loop, (move_nan Fp.exact y f s h).2]
            have e : almostZero Fp.exact .nan 2 = false := rfl
            rw [e]
            simp only [Bool.false_eq_true, if_false]
            apply ih2
            simp only [narrow]
            split <;> exact (move_nan Fp.exact y f s h).1
        refine hn n _ ?_ r hr
        simp only [narrow]
        split <;> exact hnan
      · refine ih _ (narrow_good hm) ?_ ?_ r hr
        · simp only [narrow]
          split <;> exact hnan
        · obtain ⟨q1, q2, q3⟩ := hsd
          simp only [narrow]
          split
          · rename_i hlt
            exact ⟨hlt, by simp only [hends.2]; exact q2, rfl⟩
          · rename_i hlt
            exact ⟨by simp only [hends.1]; exact q1, by simpa using hlt, rfl⟩
    | true =>
      rw [hz] at hr
      simp only [if_true, Outcome.ok.injEq] at hr
      obtain ⟨q1, q2, q3⟩ := hsd
      rcases hs with h | ⟨a, b, x, h1, h2, h3, h4, h5, h6⟩
      · exact absurd h hx
      · rcases hm with h | ⟨a', b', x', h1', h2', h3', -, -, h6'⟩
        · rw [h] at hr; cases hr
        · rw [hends.1, h1] at h1'
          rw [hends.2, h2] at h2'
          rw [h3'] at hr
          injection h1' with h1'
          injection h2' with h2'
          injection hr with hr
          subst h1' h2' hr
          rw [h1] at q1
          rw [h2] at q2
          refine ⟨a, b, h4, h5, q1, q2, h6', ?_⟩
          obtain ⟨xl, xh, dxold, dx, x0, y0⟩ := s
          simp only at h1 h2 h3 q3
          subst h1 h2 h3 q3
          simp only [move] at hz h3'
          split at h3'
          · rename_i hb
            left
            rw [if_pos hb] at hz
            simp only [exact_sub, lit] at hz h3'
            rw [exact_div _ _ (by norm_num)] at hz h3'
            rw [exact_add] at h3'
            injection h3' with h3'
            rw [almostZero_fin, abs_div] at hz
            norm_num at hz h3'
            exact ⟨by rw [← h3']; ring, by linarith⟩
          · rename_i hb
            right
            rw [if_neg hb] at hz
            simp only at hz h3'
            generalize hd : Fp.exact.div (Fp.exact.sub (f (.fin x)) y)
              (firstDerivative Fp.exact (.fin x) f) = d at hz h3'
            cases d with
            | fin d =>
              rw [exact_sub] at h3'
              injection h3' with h3'
              exact ⟨x, d, h6, hd, h3'.symm, (almostZero_fin d).1 hz⟩
            | nan => simp [almostZero, Dbl.abs, Dbl.lt] at hz
            | pinf => simp [almostZero, Dbl.abs, Dbl.lt, exact_mul] at hz
            | ninf => simp [almostZero, Dbl.abs, Dbl.lt, exact_mul] at hz

/-- **C32** (what is found).  For every function with numbers at the bracket's ends
and every target: a result is an end whose ordinate almost equals the target, or a
point between two arguments of the bracket whose ordinates are on either side of the
target (`Found`).  Exact arithmetic. -/
theorem C32_root (y a b fa fb r : ℚ) (f : Dbl → Dbl) (ha : f (.fin a) = .fin fa)
    (hb : f (.fin b) = .fin fb)
    (h : bracketed Fp.exact (.fin y) (.fin a) (.fin b) f = .ok (.fin r)) :
    ((r = a ∨ r = b) ∧ Almost Fp.exact (f (.fin r)) (.fin y)) ∨ Found (.fin y) a b f r := by
  have hself : isAlmostEqual Fp.exact (.fin y) (.fin y) = true := by
    have : (0 : ℚ) < dblMin := by norm_num [dblMin]
    simp [isAlmostEqual, almostEqual, exact_sub, Dbl.abs, Dbl.lt, this]
  have hab : Between a b a := by
    rcases le_total a b with h | h
    · exact Or.inl ⟨le_rfl, h⟩
    · exact Or.inr ⟨h, le_rfl⟩
  have hbb : Between a b b := by
    rcases le_total a b with h | h
    · exact Or.inl ⟨h, le_rfl⟩
    · exact Or.inr ⟨le_rfl, h⟩
  have hinit : ∀ l h : ℚ, Between a b l → Between a b h →
      Good a b (init Fp.exact f (.fin l) (.fin h)) ∧
      (init Fp.exact f (.fin l) (.fin h)).x0 ≠ .nan := by
    intro l h hl hh
    have e : (init Fp.exact f (.fin l) (.fin h)).x0 = .fin ((l + h) / 2) := by
      simp only [init]
      rw [exact_add, lit, exact_div _ _ (by norm_num)]
      norm_num
    refine ⟨Or.inr ⟨l, h, (l + h) / 2, rfl, rfl, e, hl, hh, ?_⟩, by rw [e]; simp⟩
    rcases le_total l h with hlh | hlh
    · exact Or.inl ⟨by linarith, by linarith⟩
    · exact Or.inr ⟨by linarith, by linarith⟩
  simp only [bracketed] at h
  split at h
  · cases h
  · rename_i hc
    split at h
    · rename_i he
      simp only [Outcome.ok.injEq, Dbl.fin.injEq] at h
      subst h
      exact Or.inl ⟨Or.inl rfl, almost_iff.1 he⟩
    · rename_i hea
      split at h
      · rename_i he
        simp only [Outcome.ok.injEq, Dbl.fin.injEq] at h
        subst h
        exact Or.inl ⟨Or.inr rfl, almost_iff.1 he⟩
      · rename_i heb
        right
        rw [ha] at hea hc h
        rw [hb] at heb hc
        have na : fa ≠ y := fun e => hea (by rw [e]; exact hself)
        have nb : fb ≠ y := fun e => heb (by rw [e]; exact hself)
        simp only [Dbl.gt, Dbl.lt, Bool.or_eq_true, Bool.and_eq_true, decide_eq_true_eq, not_or,
          not_and, _root_.not_lt] at hc
        split at h
        · rename_i hgt
          simp only [Dbl.gt, Dbl.lt, decide_eq_true_eq] at hgt
          obtain ⟨g1, g2⟩ := hinit b a hbb hab
          refine loop_found 100 _ g1 g2 ⟨?_, ?_, rfl⟩ r h
          · simp only [init, hb, Dbl.lt, decide_eq_true_eq]
            exact lt_of_le_of_ne (hc.1 hgt) nb
          · simp only [init, ha, Dbl.lt, decide_eq_false_iff_not, _root_.not_lt]
            exact hgt.le
        · rename_i hgt
          simp only [Dbl.gt, Dbl.lt, decide_eq_true_eq, _root_.not_lt] at hgt
          obtain ⟨g1, g2⟩ := hinit a b hab hbb
          have hlt := lt_of_le_of_ne hgt na
          refine loop_found 100 _ g1 g2 ⟨?_, ?_, rfl⟩ r h
          · simp only [init, ha, Dbl.lt, decide_eq_true_eq]
            exact hlt
          · simp only [init, hb, Dbl.lt, decide_eq_false_iff_not, _root_.not_lt]
            exact hc.2 hlt

/-- The function `2 x`. -/
def double (x : Dbl) : Dbl := Fp.exact.mul (.fin 2) x

/-- The hypotheses of `C32_root` are met, and the point found is not an end. -/
example : Found (.fin 1) 0 10 double (1 / 2) := by
  rcases C32_root 1 0 10 0 20 (1 / 2) double (by decide +kernel) (by decide +kernel)
    (by decide +kernel) with ⟨h | h, -⟩ | h
  · norm_num at h
  · norm_num at h
  · exact h

/-- Non-vacuity: all three ways a call can end well or badly occur. -/
example : bracketed Fp.exact (.fin 1) (.fin 0) (.fin 10) double = .ok (.fin (1 / 2)) ∧
    bracketed Fp.exact (.fin 1) (.fin 10) (.fin 0) double = .ok (.fin (1 / 2)) ∧
    bracketed Fp.exact (.fin 20) (.fin 0) (.fin 10) double = .ok (.fin 10) ∧
    bracketed Fp.exact (.fin 21) (.fin 0) (.fin 10) double = .throw .invalidArgument := by
  decide +kernel

/-- The function `x * x * x`. -/
def cube (F : Fp) (x : Dbl) : Dbl := F.mul (F.mul x x) x

/-- Finding: a root that the very first midpoint hits exactly is not found
when the derivative there vanishes; the Newton step divides zero by zero and
the search fails.  `x^3 = 0` on `[-1, 1]`, in exact and in IEEE arithmetic. -/
theorem C32_flat_root_throws :
    bracketed Fp.exact (.fin 0) (.fin (-1)) (.fin 1) (cube Fp.exact) = .throw .runtimeError ∧
    bracketed Fp.ieee (.fin 0) (.fin (-1)) (.fin 1) (cube Fp.ieee) = .throw .runtimeError := by
  decide +kernel

/-- The function `3 x + 7` in floating point, but for the point `1/256`, where it is 8. -/
def spike (x : Dbl) : Dbl :=
  if x = .fin (1 / 256) then .fin 8 else Fp.ieee.add (Fp.ieee.mul (.fin 3) x) (.fin 7)

/-- With rounding the point returned may lie outside the bracket: here right of `1/256`. -/
theorem C32_bracket_violated :
    bracketed Fp.ieee (.fin (7 + 3 / 256)) (.fin 0) (.fin (1 / 256)) spike =
      .ok (.fin (1 / 256 + 12 / 2 ^ 60)) := by
  decide +kernel

theorem newton_iff {F : Fp} {y : Dbl} {f : Dbl → Dbl} {r : Dbl} : ∀ {n : ℕ} {x : Dbl},
    (newtonRaphson F y f n x = r ∧ r.isNaN = false) ↔
      ∃ k < n, Almost F ((newtonStep F y · f)^[k + 1] x) ((newtonStep F y · f)^[k] x) ∧
        (∀ j < k, ¬ Almost F ((newtonStep F y · f)^[j + 1] x) ((newtonStep F y · f)^[j] x)) ∧
        r = (newtonStep F y · f)^[k + 1] x ∧ r ≠ .nan := by
  have hnan : ∀ {r : Dbl}, r.isNaN = false ↔ r ≠ .nan := by
    intro r; cases r <;> simp [Dbl.isNaN]
  intro n
  induction n with
  | zero =>
    intro x
    simp only [newtonRaphson, not_lt_zero, false_and, exists_false, iff_false]
    rintro ⟨rfl, h⟩
    cases h
  | succ n ih =>
    intro x
    simp only [newtonRaphson]
    cases h : isAlmostEqual F (newtonStep F y x f) x with
    | true =>
      have ha := almost_iff.1 h
      simp only [if_true, hnan]
      constructor
      · rintro ⟨rfl, h2⟩
        exact ⟨0, by omega, ha, fun j hj => absurd hj (by omega), rfl, h2⟩
      · rintro ⟨k, -, -, h2, h3, h4⟩
        cases k with
        | zero => exact ⟨h3.symm, h4⟩
        | succ k => exact absurd ha (h2 0 (by omega))
    | false =>
      have ha : ¬ Almost F (newtonStep F y x f) x := by rw [← almost_iff, h]; simp
      simp only [Bool.false_eq_true, if_false]
      rw [ih]
      constructor
      · rintro ⟨k, h1, h2, h3, h4, h5⟩
        refine ⟨k + 1, by omega, h2, fun j hj => ?_, h4, h5⟩
        cases j with
        | zero => exact ha
        | succ j => exact h3 j (by omega)
      · rintro ⟨k, h1, h2, h3, h4, h5⟩
        cases k with
        | zero => exact absurd h2 ha
        | succ k => exact ⟨k, by omega, h2, fun j hj => h3 (j + 1) (by omega), h4, h5⟩

theorem newton_nan {F : Fp} {y : Dbl} {f : Dbl → Dbl} {x : Dbl} :
    (newtonRaphson F y f 20 x).isNaN = true ↔ ¬ ∃ r, Converges F (newtonStep F y · f) x r := by
  rw [← not_iff_not, not_not, Bool.not_eq_true]
  constructor
  · intro h; exact ⟨_, newton_iff.1 ⟨rfl, h⟩⟩
  · rintro ⟨r, h⟩
    obtain ⟨rfl, h⟩ := newton_iff.2 h
    exact h

theorem search_iff {F : Fp} {y : Dbl} {f : Dbl → Dbl} {stop r : Dbl} : ∀ {n : ℕ} {x : Dbl},
    search F y f stop n x = .ok r ↔ ∃ j < n,
      Converges F (newtonStep F y · f) ((F.add · (F.rnd (1 / 1000)))^[j] x) r ∧
      ∀ i < j, (¬ ∃ r', Converges F (newtonStep F y · f)
          ((F.add · (F.rnd (1 / 1000)))^[i] x) r') ∧
        ((F.add · (F.rnd (1 / 1000)))^[i + 1] x).ge stop = false := by
  intro n
  induction n with
  | zero => intro x; simp [search]
  | succ n ih =>
    intro x
    simp only [search]
    cases h : (newtonRaphson F y f 20 x).isNaN with
    | false =>
      simp only [Bool.false_eq_true, if_false, Outcome.ok.injEq]
      have hc : ∃ r, Converges F (newtonStep F y · f) x r := ⟨_, newton_iff.1 ⟨rfl, h⟩⟩
      constructor
      · rintro rfl
        exact ⟨0, by omega, newton_iff.1 ⟨rfl, h⟩, fun i hi => absurd hi (by omega)⟩
      · rintro ⟨j, -, h2, h3⟩
        cases j with
        | zero => exact (newton_iff.2 h2).1
        | succ j => exact absurd hc (h3 0 (by omega)).1
    | true =>
      have hc := newton_nan.1 h
      simp only [if_true]
      cases hs : (F.add x (F.rnd (1 / 1000))).ge stop with
      | true =>
        simp only [if_true, reduceCtorEq, false_iff]
        rintro ⟨j, -, h2, h3⟩
        cases j with
        | zero => exact hc ⟨r, h2⟩
        | succ j =>
          have := (h3 0 (by omega)).2
          simp only [zero_add, Function.iterate_one] at this
          rw [hs] at this
          cases this
      | false =>
        simp only [Bool.false_eq_true, if_false]
        rw [ih]
        constructor
        · rintro ⟨j, h1, h2, h3⟩
          refine ⟨j + 1, by omega, h2, fun i hi => ?_⟩
          cases i with
          | zero => exact ⟨hc, hs⟩
          | succ i => exact h3 i (by omega)
        · rintro ⟨j, h1, h2, h3⟩
          cases j with
          | zero => exact absurd ⟨r, h2⟩ hc
          | succ j => exact ⟨j, by omega, h2, fun i hi => h3 (i + 1) (by omega)⟩

/-- **C32** (guess).  The unbracketed search, in any arithmetic, returns what Newton's method
converges to from the guess; if it does not converge, what it converges to from the first
good one of ten points that begin at `x0 - 2 x0`, have a distance of 1/1000 and end before
`x0 + 2 x0`; and throws `runtime_error` if there is none. -/
theorem C32_guess (F : Fp) (y x0 : Dbl) (f : Dbl → Dbl) (next : Dbl → Dbl) (point : ℕ → Dbl)
    (hnext : ∀ x, next x = F.sub x (F.div (F.sub (f x) y) (firstDerivative F x f)))
    (h0 : point 0 = F.sub x0 (F.mul x0 (.fin 2)))
    (hpoint : ∀ j, point (j + 1) = F.add (point j) (F.rnd (1 / 1000))) :
    (∀ r, guess F y x0 f = .ok r ↔ Converges F next x0 r ∨
      (¬ ∃ r', Converges F next x0 r') ∧ ∃ j < 10, Converges F next (point j) r ∧
        (∀ i < j, ¬ ∃ r', Converges F next (point i) r') ∧
        ∀ i < j, (point (i + 1)).ge (F.add x0 (F.mul x0 (.fin 2))) = false) ∧
    ((¬ ∃ r, guess F y x0 f = .ok r) → guess F y x0 f = .throw .runtimeError) := by
  obtain rfl : next = (newtonStep F y · f) := funext hnext
  have hp : ∀ j, point j = (F.add · (F.rnd (1 / 1000)))^[j] (F.sub x0 (F.mul x0 (lit 2))) := by
    intro j
    induction j with
    | zero => exact h0
    | succ j ih => rw [Function.iterate_succ_apply', ← ih, hpoint]
  have e2 : Dbl.fin 2 = lit 2 := by simp [lit]
  constructor
  · intro r
    simp only [guess]
    cases h : (newtonRaphson F y f 20 x0).isNaN with
    | false =>
      have hc : ∃ r, Converges F (newtonStep F y · f) x0 r := ⟨_, newton_iff.1 ⟨rfl, h⟩⟩
      simp only [Bool.false_eq_true, if_false, Outcome.ok.injEq]
      constructor
      · rintro rfl
        exact .inl (newton_iff.1 ⟨rfl, h⟩)
      · rintro (h1 | ⟨h1, -⟩)
        · exact (newton_iff.2 h1).1
        · exact absurd hc h1
    | true =>
      have hc := newton_nan.1 h
      simp only [if_true]
      rw [search_iff]
      simp only [← hp, e2]
      constructor
      · rintro ⟨j, h1, h2, h3⟩
        exact .inr ⟨hc, j, h1, h2, fun i hi => (h3 i hi).1, fun i hi => (h3 i hi).2⟩
      · rintro (h1 | ⟨-, j, h1, h2, h3, h4⟩)
        · exact absurd ⟨r, h1⟩ hc
        · exact ⟨j, h1, h2, fun i hi => ⟨h3 i hi, h4 i hi⟩⟩
  · have hs : ∀ n x stop, search F y f stop n x = .throw .runtimeError ∨
        ∃ r, search F y f stop n x = .ok r := by
      intro n
      induction n with
      | zero => intro x stop; exact Or.inl rfl
      | succ n ih =>
        intro x stop
        simp only [search]
        split
        · split
          · exact Or.inl rfl
          · exact ih _ _
        · exact Or.inr ⟨_, rfl⟩
    intro h
    simp only [guess] at h ⊢
    split at h
    · rename_i hn
      rw [if_pos hn]
      exact (hs _ _ _).resolve_right h
    · exact absurd ⟨_, rfl⟩ h

/-- **C32** (derivative).  The slope the search uses is exact for polynomials of degree four,
but for rounding errors. -/
theorem C32_derivative (x c0 c1 c2 c3 c4 : ℚ) (f : Dbl → Dbl)
    (hf : ∀ t : ℚ, f (.fin t) = .fin (c0 + c1 * t + c2 * t ^ 2 + c3 * t ^ 3 + c4 * t ^ 4)) :
    firstDerivative Fp.exact (.fin x) f =
      .fin (c1 + 2 * c2 * x + 3 * c3 * x ^ 2 + 4 * c4 * x ^ 3) := by
  obtain ⟨h, hh, h0⟩ : ∃ h : ℚ, stepSize Fp.exact (.fin x) = .fin h ∧ h ≠ 0 := by
    unfold stepSize
    split
    · exact ⟨_, rfl, by norm_num [dblEpsilon]⟩
    · rename_i hx
      simp only [Dbl.lt, lit, decide_eq_true_eq, _root_.not_lt] at hx
      refine ⟨_, exact_mul _ _, ?_⟩
      have : (1 : ℚ) ≤ x := by exact_mod_cast hx
      have h1 : (0 : ℚ) < 2 * dblEpsilon := by norm_num [dblEpsilon]
      have h2 : 0 < x := by linarith
      exact (mul_pos h1 h2).ne'
  have h12 : ((12 : ℤ) : ℚ) * h ≠ 0 := mul_ne_zero (by norm_num) h0
  simp only [firstDerivative, hh, lit, exact_mul, exact_sub, exact_add, hf]
  rw [exact_div _ _ h12]
  congr 1
  push_cast
  field_simp
  ring

/-- Non-vacuity: the slope of `2 x`. -/
example : firstDerivative Fp.exact (.fin 3) double = .fin 2 := by
  rw [C32_derivative 3 0 2 0 0 0 double (fun t => by simp [double, exact_mul])]
  norm_num

example : guess Fp.exact (.fin 1) (.fin 3) double = .ok (.fin (1 / 2)) := by decide +kernel

end MaRC.RootFind
