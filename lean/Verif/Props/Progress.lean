import Verif.Lemmas.MapType
import Verif.Props.MapFactory

/-!
# C11: console progress
-/

namespace MaRC.Progress.Console

open Fp Dbl

/-! ## The percentage -/

theorem rnd53_mono {x y : ℚ} (h : x ≤ y) : rnd53 x ≤ rnd53 y := rndP_mono (by norm_num) h

theorem rnd53_nonneg {x : ℚ} (h : 0 ≤ x) : 0 ≤ rnd53 x := rndP_nonneg h

theorem rnd53_le_int {x : ℚ} {n : ℤ} (hn : |n| ≤ 2 ^ 53) (h : x ≤ n) : rnd53 x ≤ n := by
  rw [← rnd53_int hn]; exact rnd53_mono h

theorem two64_lt : (2 : ℚ) ^ 64 ≤ dblMax := by
  unfold dblMax
  have : (2 : ℚ) ^ 64 ≤ 2 ^ 971 := pow_le_pow_right₀ (by norm_num) (by norm_num)
  have h0 : (0 : ℚ) < 2 ^ 971 := pow_pos (by norm_num) _
  have h1 : (1 : ℚ) * 2 ^ 971 ≤ (2 ^ 53 - 1) * 2 ^ 971 :=
    mul_le_mul_of_nonneg_right (by norm_num) h0.le
  rw [one_mul] at h1
  exact this.trans h1

theorem rnd53_size {n : ℕ} (h : n < 2 ^ 64) : ieee.rnd (n : ℚ) = .fin (rnd53 n) := by
  apply ieee_rnd_of_le
  rw [abs_of_nonneg (rnd53_nonneg (by positivity))]
  have h2 : rnd53 (2 ^ 64) = 2 ^ 64 := by
    have := rndP_of_rep (by norm_num) (rep_two_zpow (p := 53) (emin := -1074) (by norm_num)
      (e := 64) (by norm_num))
    norm_num at this ⊢
    exact this
  have h3 : (n : ℚ) ≤ 2 ^ 64 := by exact_mod_cast h.le
  calc rnd53 n ≤ rnd53 (2 ^ 64) := rnd53_mono h3
    _ = 2 ^ 64 := h2
    _ ≤ dblMax := two64_lt

theorem one_le_rnd53 {n : ℕ} (h : 0 < n) : 1 ≤ rnd53 n := by
  have h1 : rnd53 ((1 : ℤ) : ℚ) = ((1 : ℤ) : ℚ) := rnd53_int (by norm_num)
  have h2 : (((1 : ℤ) : ℚ)) ≤ n := by exact_mod_cast h
  have := rnd53_mono h2
  rw [h1] at this
  exact_mod_cast this

/-- The percentage as an exact formula of roundings. -/
theorem percent_eq {size count : ℕ} (h0 : 0 < size) (hs : size < 2 ^ 64) (hc : count ≤ size) :
    ∃ p : ℕ, p ≤ 100 ∧ percent ieee size count = .ok p ∧ (count = size → p = 100) := by
  have hpos := one_le_rnd53 h0
  set a := rnd53 count with ha
  set b := rnd53 size with hb
  have ha0 : 0 ≤ a := rnd53_nonneg (by positivity)
  have hab : a ≤ b := rnd53_mono (by exact_mod_cast hc)
  have hq0 : 0 ≤ a / b := div_nonneg ha0 (by linarith)
  have hq1 : a / b ≤ 1 := by rw [div_le_one (by linarith)]; exact hab
  have hr0 := rnd53_nonneg hq0
  have hr1 : rnd53 (a / b) ≤ 1 := by
    have := rnd53_le_int (n := 1) (by norm_num) (x := a / b) (by simpa using hq1)
    simpa using this
  have hr : ieee.rnd (a / b) = .fin (rnd53 (a / b)) := by
    apply ieee_rnd_of_le
    rw [abs_of_nonneg hr0]
    exact hr1.trans ((by norm_num : (1 : ℚ) ≤ 2 ^ 64).trans two64_lt)
  have ht0 := rnd53_nonneg (mul_nonneg hr0 (by norm_num : (0 : ℚ) ≤ 100))
  have ht1 : rnd53 (rnd53 (a / b) * 100) ≤ 100 := by
    have := rnd53_le_int (n := 100) (by norm_num) (x := rnd53 (a / b) * 100) (by
      push_cast; linarith)
    simpa using this
  have ht : ieee.rnd (rnd53 (a / b) * 100) = .fin (rnd53 (rnd53 (a / b) * 100)) := by
    apply ieee_rnd_of_le
    rw [abs_of_nonneg ht0]
    exact ht1.trans ((by norm_num : (100 : ℚ) ≤ 2 ^ 64).trans two64_lt)
  have hpc : percent ieee size count =
      castInt 0 (2 ^ 64 - 1) (.fin (rnd53 (rnd53 (a / b) * 100))) := by
    unfold percent
    rw [rnd53_size hs, rnd53_size (by omega), ← ha, ← hb]
    simp only [Fp.div, if_neg (show b ≠ 0 by linarith), hr, Fp.mul, ht]
  have htr : truncQ (rnd53 (rnd53 (a / b) * 100)) = ⌊rnd53 (rnd53 (a / b) * 100)⌋ := by
    simp [truncQ, ht0]
  have hf0 : 0 ≤ ⌊rnd53 (rnd53 (a / b) * 100)⌋ := Int.floor_nonneg.mpr ht0
  have hf1 : ⌊rnd53 (rnd53 (a / b) * 100)⌋ ≤ 100 := by
    have : (⌊rnd53 (rnd53 (a / b) * 100)⌋ : ℚ) ≤ 100 := (Int.floor_le _).trans ht1
    exact_mod_cast this
  refine ⟨⌊rnd53 (rnd53 (a / b) * 100)⌋.toNat, by omega, ?_, ?_⟩
  · rw [hpc]
    show (if 0 ≤ truncQ _ ∧ truncQ _ ≤ _ then _ else _) = _
    rw [htr, if_pos ⟨hf0, by omega⟩, Int.toNat_of_nonneg hf0]
  · intro heq
    have hb0 : b ≠ 0 := by linarith
    have : a / b = 1 := by rw [ha, hb, heq]; rw [← hb]; exact div_self hb0
    rw [this]
    have h1 : rnd53 1 = 1 := by
      have := rnd53_int (n := 1) (by norm_num); simpa using this
    have h2 : rnd53 100 = 100 := by
      have := rnd53_int (n := 100) (by norm_num); simpa using this
    rw [h1, one_mul, h2]
    norm_num
    rfl

/-- C11: under IEEE rounding the percentage of any plot count not exceeding the
map size is between 0 and 100, and it is 100 for the completion
notification. -/
theorem C11_percent_bounds (size count : ℕ) (h0 : 0 < size) (hs : size < 2 ^ 64)
    (hc : count ≤ size) :
    (∃ p : ℕ, p ≤ 100 ∧ percent ieee size count = .ok p) ∧
    percent ieee size size = .ok 100 := by
  obtain ⟨p, hp, he, -⟩ := percent_eq h0 hs hc
  obtain ⟨p', -, he', hf⟩ := percent_eq h0 hs le_rfl
  refine ⟨⟨p, hp, he⟩, ?_⟩
  rw [he', hf rfl]; rfl

example : percent ieee 3 2 = .ok 66 := by decide +kernel

/-! ## The printed marks -/

/-- Specification: the text for the even percentages in `(0, p]`, in order. -/
def marksUpTo (p : ℕ) : String :=
  ((List.range (p / 2)).map fun i => mark (2 * (i + 1))).foldl (· ++ ·) ""

example : marksUpTo 7 = "..." := by decide +kernel

theorem marksUpTo_succ (k : ℕ) :
    marksUpTo (2 * (k + 1)) = marksUpTo (2 * k) ++ mark (2 * (k + 1)) := by
  unfold marksUpTo
  rw [Nat.mul_div_cancel_left _ (by norm_num), Nat.mul_div_cancel_left _ (by norm_num),
    List.range_succ, List.map_append, List.foldl_append]
  rfl

theorem marksUpTo_even (p : ℕ) : marksUpTo p = marksUpTo (2 * (p / 2)) := by
  unfold marksUpTo
  rw [Nat.mul_div_cancel_left _ (by norm_num)]

/-- Printing from the next even mark completes the marks. -/
theorem printFrom_marks : ∀ (n k p : ℕ), p + 1 - 2 * (k + 1) ≤ n →  2 * k ≤ p →
    marksUpTo (2 * k) ++ printFrom (2 * (k + 1)) p = marksUpTo p := by
  intro n
  induction n with
  | zero =>
    intro k p h hk
    rw [printFrom, if_neg (by omega)]
    rw [marksUpTo_even p, show p / 2 = k by omega]
    simp
  | succ n ih =>
    intro k p h hk
    rw [printFrom]
    by_cases hle : 2 * (k + 1) ≤ p
    · rw [if_pos hle, ← String.append_assoc, ← marksUpTo_succ,
        show 2 * (k + 1) + 2 = 2 * (k + 1 + 1) by ring]
      exact ih (k + 1) p (by omega) hle
    · rw [if_neg hle, marksUpTo_even p, show p / 2 = k by omega]
      simp

/-- What the console has written is its initial text and the marks up to the
largest percentage seen. -/
def Marked (base : String) (c : Console) : Prop :=
  c.out = base ++ marksUpTo c.old ∧ c.old ≤ 100

theorem notify_marked {base : String} {c : Console} {size count : ℕ} (h : Marked base c)
    (h0 : 0 < size) (hs : size < 2 ^ 64) (hc : count ≤ size) :
    ∃ c', notify ieee c size count = .ok c' ∧ Marked base c' ∧
      (count = size → c'.old = 100) := by
  obtain ⟨p, hp, he, hf⟩ := percent_eq h0 hs hc
  obtain ⟨h1, h2⟩ := h
  unfold notify
  rw [he, Outcome.bind_ok]
  simp only [Int.toNat_natCast]
  rw [if_neg (by omega)]
  by_cases hgt : p > c.old
  · rw [if_pos hgt]
    refine ⟨_, rfl, ⟨?_, hp⟩, hf⟩
    simp only
    rw [h1, String.append_assoc]
    congr 1
    have e : c.old + 1 + (c.old + 1) % 2 = 2 * (c.old / 2 + 1) := by omega
    rw [e, marksUpTo_even c.old]
    exact printFrom_marks _ _ p le_rfl (by omega)
  · rw [if_neg hgt]
    refine ⟨c, rfl, ⟨h1, h2⟩, fun hcs => ?_⟩
    have := hf hcs
    omega

theorem run_notifies {base : String} {size : ℕ} (h0 : 0 < size) (hs : size < 2 ^ 64) :
    ∀ (cs : List ℕ) (c : Console), (∀ n ∈ cs, n ≤ size) → Marked base c →
    ∀ rest, ∃ c', Marked base c' ∧
      run ieee c (cs.map (Event.notify size) ++ rest) = run ieee c' rest := by
  intro cs
  induction cs with
  | nil => intro c _ h rest; exact ⟨c, h, rfl⟩
  | cons n t ih =>
    intro c hle h rest
    obtain ⟨c1, h1, hm, -⟩ := notify_marked h h0 hs (hle n (by simp))
    obtain ⟨c', hc', he⟩ := ih c1 (fun m hm => hle m (by simp [hm])) hm rest
    refine ⟨c', hc', ?_⟩
    simp only [List.map_cons, List.cons_append, run, step, h1, Outcome.bind_ok, he]

/-- Specification: the marks of one complete map, a number at every 20 percent
and a period at every other even percentage. -/
def fullMarks : String := ".........20.........40.........60.........80.........100%\n"

theorem marksUpTo_100 : marksUpTo 100 = fullMarks := by decide +kernel

/-- C11: over one complete map — any notifications with counts up to the map
size, in any number and with any gaps, followed by the completion notification
and the reset — the console never fails and prints each even mark from 2 to
100 exactly once and in order; it is then ready for the next map. -/
theorem C11_complete_map (size : ℕ) (h0 : 0 < size) (hs : size < 2 ^ 64) (cs : List ℕ)
    (hcs : ∀ n ∈ cs, n ≤ size) (text : String) :
    run ieee ⟨0, text⟩ (cs.map (Event.notify size) ++ [.notify size size, .reset]) =
      .ok ⟨0, text ++ fullMarks⟩ := by
  obtain ⟨c', hm, he⟩ := run_notifies (base := text) h0 hs cs ⟨0, text⟩ hcs
    ⟨by simp [marksUpTo], by norm_num⟩
    [.notify size size, .reset]
  obtain ⟨c2, h2, hm2, hf⟩ := notify_marked hm h0 hs (le_refl size)
  rw [he]
  simp only [run, step, h2, Outcome.bind_ok, reset]
  have := hf rfl
  rw [hm2.1, this, marksUpTo_100]

/-- C11 together with C09: for the calls a console receives while any number of
maps of one size are made, it prints that many complete sets of marks. -/
theorem C11_all_planes (size visited planes : ℕ) (h0 : 0 < size) (hs : size < 2 ^ 64)
    (hv : visited ≤ size) (text : String) :
    run ieee ⟨0, text⟩ (List.replicate planes (mapEvents size visited)).flatten =
      .ok ⟨0, (List.replicate planes fullMarks).foldl (· ++ ·) text⟩ := by
  have run_append : ∀ (l1 l2 : List Event) (c : Console), run ieee c (l1 ++ l2) =
      (run ieee c l1 >>= fun c' => run ieee c' l2) := by
    intro l1
    induction l1 with
    | nil => intro l2 c; rfl
    | cons e t ih =>
      intro l2 c
      simp only [List.cons_append, run]
      cases step ieee c e with
      | ok c' => simp [ih]
      | throw e => rfl
      | ub => rfl
  induction planes generalizing text with
  | zero => rfl
  | succ k ih =>
    have h1 := C11_complete_map size h0 hs ((List.range visited).map (· + 1))
      (by intro n hn; simp at hn; obtain ⟨i, hi, rfl⟩ := hn; omega) text
    have h2 : mapEvents size visited =
        ((List.range visited).map (· + 1)).map (Event.notify size) ++
          [.notify size size, .reset] := by
      unfold mapEvents; rw [List.map_map]; rfl
    rw [List.replicate_succ, List.flatten_cons, run_append, h2, h1, Outcome.bind_ok, ← h2, ih]
    rfl

example : 2 ≤ 3 ∧ (mapEvents 3 2).length = 4 := by decide

end MaRC.Progress.Console
