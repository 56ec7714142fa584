import Verif.Model.Utility
import Verif.Lemmas.Num
import Mathlib.Tactic.Linarith
import Mathlib.Tactic.Ring
import Mathlib.Tactic.SplitIfs

namespace MaRC.Utility

open MaRC

variable {α : Type}

theorem reverseRange_ok (img : List α) (start n : ℕ) (h : start + n ≤ img.length) :
    ∃ r, reverseRange img start n = .ok r ∧ r.length = img.length ∧
      ∀ j, r[j]? = if start ≤ j ∧ j < start + n
        then img[start + (n - 1 - (j - start))]? else img[j]? := by
  refine ⟨_, if_pos h, ?_, ?_⟩
  · simp; omega
  · intro j
    have hl : (img.take start).length = start := by simp; omega
    have hl2 : ((img.drop start).take n).reverse.length = n := by simp; omega
    rw [List.append_assoc]
    by_cases h1 : j < start
    · rw [List.getElem?_append_left (by omega), if_neg (by omega),
        List.getElem?_take_of_lt h1]
    · rw [List.getElem?_append_right (by omega), hl]
      by_cases h2 : j < start + n
      · rw [if_pos ⟨by omega, h2⟩, List.getElem?_append_left (by omega),
          List.getElem?_reverse (by simp; omega)]
        rw [List.getElem?_take_of_lt (by simp; omega), List.getElem?_drop]
        congr 1
        simp
        omega
      · rw [if_neg (by omega), List.getElem?_append_right (by omega), hl2,
          List.getElem?_drop]
        congr 1
        omega

theorem invertSamplesLoop_ok (samples : ℕ) (count : ℕ) :
    ∀ (start : ℕ) (img : List α), start + count * samples ≤ img.length →
    ∃ r, invertSamplesLoop samples count start img = .ok r ∧
      r.length = img.length ∧
      (∀ j, j < start ∨ start + count * samples ≤ j → r[j]? = img[j]?) ∧
      ∀ k i, k < count → i < samples →
        r[start + (k * samples + i)]? =
          img[start + (k * samples + (samples - 1 - i))]? := by
  induction count with
  | zero =>
    intro start img _
    exact ⟨img, rfl, rfl, fun _ _ => rfl, fun k i hk => absurd hk (by omega)⟩
  | succ c ih =>
    intro start img h
    have hc : (c + 1) * samples = c * samples + samples := by ring
    rw [hc] at h
    obtain ⟨r1, hr1, hl1, hg1⟩ := reverseRange_ok img start samples (by omega)
    obtain ⟨r, hr, hl, hout, hin⟩ := ih (start + samples) r1 (by omega)
    refine ⟨r, ?_, by omega, ?_, ?_⟩
    · simp [invertSamplesLoop, hr1, hr]
    · intro j hj
      rw [hout j (by omega), hg1 j, if_neg (by omega)]
    · intro k i hk hi
      cases k with
      | zero =>
        rw [hout _ (by left; simp; omega), hg1, if_pos ⟨by omega, by simp; omega⟩]
        congr 1
        simp
      | succ k =>
        have e1 : start + ((k + 1) * samples + i) = start + samples + (k * samples + i) := by
          ring
        have e2 : start + ((k + 1) * samples + (samples - 1 - i)) =
            start + samples + (k * samples + (samples - 1 - i)) := by
          ring
        rw [e1, hin k i (by omega) hi, hg1, if_neg (by omega), e2]

theorem swapAt_ok (img : List α) (a b : ℕ) (ha : a < img.length) (hb : b < img.length) :
    ∃ r, swapAt img a b = .ok r ∧ r.length = img.length ∧
      ∀ j, r[j]? = if j = b then img[a]? else if j = a then img[b]? else img[j]? := by
  refine ⟨(img.set a img[b]).set b img[a], ?_, ?_, ?_⟩
  · simp [swapAt, List.getElem?_eq_getElem ha, List.getElem?_eq_getElem hb]
  · simp
  · intro j
    rw [List.getElem?_set, List.getElem?_set]
    by_cases h1 : b = j
    · subst h1; simp [ha, hb]
    · have h1' : ¬ j = b := fun h => h1 h.symm
      by_cases h2 : a = j
      · subst h2; simp [ha, hb, h1, h1']
      · have h2' : ¬ j = a := fun h => h2 h.symm
        simp [h1, h1', h2, h2']

theorem swapRanges_ok (n : ℕ) : ∀ (top bottom : ℕ) (img : List α),
    top + n ≤ bottom → bottom + n ≤ img.length →
    ∃ r, swapRanges n top bottom img = .ok r ∧ r.length = img.length ∧
      ∀ j, r[j]? = if top ≤ j ∧ j < top + n then img[bottom + (j - top)]?
        else if bottom ≤ j ∧ j < bottom + n then img[top + (j - bottom)]?
        else img[j]? := by
  induction n with
  | zero =>
    intro top bottom img _ _
    refine ⟨img, rfl, rfl, fun j => ?_⟩
    rw [if_neg (by omega), if_neg (by omega)]
  | succ n ih =>
    intro top bottom img h1 h2
    obtain ⟨r1, hr1, hl1, hg1⟩ := swapAt_ok img top bottom (by omega) (by omega)
    obtain ⟨r, hr, hl, hg⟩ := ih (top + 1) (bottom + 1) r1 (by omega) (by omega)
    refine ⟨r, by simp [swapRanges, hr1, hr], by omega, fun j => ?_⟩
    rw [hg j]
    by_cases c1 : top = j
    · subst c1
      rw [if_neg (by omega), if_neg (by omega), hg1, if_neg (by omega), if_pos rfl,
        if_pos (by omega)]
      simp
    · by_cases c2 : bottom = j
      · subst c2
        rw [if_neg (by omega), if_neg (by omega), hg1, if_pos rfl, if_neg (by omega),
          if_pos (by omega)]
        simp
      · by_cases c3 : top ≤ j ∧ j < top + (n + 1)
        · rw [if_pos (by omega), if_pos c3, hg1, if_neg (by omega), if_neg (by omega)]
          congr 1; omega
        · rw [if_neg (by omega), if_neg c3]
          by_cases c4 : bottom ≤ j ∧ j < bottom + (n + 1)
          · rw [if_pos (by omega), if_pos c4, hg1, if_neg (by omega), if_neg (by omega)]
            congr 1; omega
          · rw [if_neg (by omega), if_neg c4, hg1, if_neg (by omega), if_neg (by omega)]

theorem invertLinesLoop_ok (samples lines : ℕ) (count : ℕ) :
    ∀ (line : ℕ) (img : List α), line + count ≤ lines / 2 →
      img.length = samples * lines →
    ∃ r, invertLinesLoop samples lines count line img = .ok r ∧
      r.length = img.length ∧
      ∀ k i, k < lines → i < samples →
        r[k * samples + i]? =
          if (line ≤ k ∧ k < line + count) ∨
             (line ≤ lines - 1 - k ∧ lines - 1 - k < line + count)
          then img[(lines - 1 - k) * samples + i]? else img[k * samples + i]? := by
  induction count with
  | zero =>
    intro line img _ _
    refine ⟨img, rfl, rfl, fun k i _ _ => ?_⟩
    rw [if_neg (by omega)]
  | succ c ih =>
    intro line img h hlen
    have hlt : line + 1 ≤ lines - line - 1 := by omega
    have hm : line * samples + samples ≤ (lines - line - 1) * samples := by
      have := Nat.mul_le_mul_right samples hlt
      have e : (line + 1) * samples = line * samples + samples := by ring
      omega
    have hm2 : (lines - line - 1) * samples + samples ≤ img.length := by
      have : (lines - line - 1 + 1) * samples ≤ lines * samples :=
        Nat.mul_le_mul_right samples (by omega)
      have e : (lines - line - 1 + 1) * samples =
        (lines - line - 1) * samples + samples := by ring
      rw [hlen, Nat.mul_comm samples lines]
      omega
    obtain ⟨r1, hr1, hl1, hg1⟩ := swapRanges_ok samples (line * samples)
      ((lines - line - 1) * samples) img hm hm2
    obtain ⟨r, hr, hl, hg⟩ := ih (line + 1) r1 (by omega) (by omega)
    refine ⟨r, by simp [invertLinesLoop, hr1, hr], by omega, fun k i hk hi => ?_⟩
    -- position of row k relative to rows `line` and `lines - line - 1`
    have row : ∀ a b : ℕ, a < b → a * samples + samples ≤ b * samples := by
      intro a b hab
      have := Nat.mul_le_mul_right samples (show a + 1 ≤ b from hab)
      have e : (a + 1) * samples = a * samples + samples := by ring
      omega
    -- value after this iteration's swap
    have val : ∀ k, k < lines → r1[k * samples + i]? =
        if k = line ∨ k = lines - line - 1 then img[(lines - 1 - k) * samples + i]?
        else img[k * samples + i]? := by
      intro k hk
      rw [hg1]
      by_cases e1 : k = line
      · subst e1
        rw [if_pos ⟨by omega, by omega⟩, if_pos (Or.inl rfl)]
        have : lines - 1 - k = lines - k - 1 := by omega
        rw [this]; congr 1; omega
      · by_cases e2 : k = lines - line - 1
        · subst e2
          rw [if_neg (by omega), if_pos ⟨by omega, by omega⟩, if_pos (Or.inr rfl)]
          have : lines - 1 - (lines - line - 1) = line := by omega
          rw [this]; congr 1; omega
        · have hne : ¬ (line * samples ≤ k * samples + i ∧
              k * samples + i < line * samples + samples) := by
            rcases Nat.lt_or_gt_of_ne e1 with h' | h'
            · have := row _ _ h'; omega
            · have := row _ _ h'; omega
          have hne2 : ¬ ((lines - line - 1) * samples ≤ k * samples + i ∧
              k * samples + i < (lines - line - 1) * samples + samples) := by
            rcases Nat.lt_or_gt_of_ne e2 with h' | h'
            · have := row _ _ h'; omega
            · have := row _ _ h'; omega
          rw [if_neg hne, if_neg hne2, if_neg (by omega)]
    rw [hg k i hk hi, val k hk, val (lines - 1 - k) (by omega)]
    have e3 : lines - 1 - (lines - 1 - k) = k := by omega
    by_cases c1 : (line + 1 ≤ k ∧ k < line + 1 + c) ∨
        (line + 1 ≤ lines - 1 - k ∧ lines - 1 - k < line + 1 + c)
    · rw [if_pos c1, if_neg (by omega), if_pos (by omega)]
    · rw [if_neg c1]
      by_cases c2 : k = line ∨ k = lines - line - 1
      · rw [if_pos c2, if_pos (by omega)]
      · rw [if_neg c2, if_neg (by omega)]

/-- Two lists of the same length `samples * lines` agreeing at every
line/sample position are equal. -/
theorem ext_grid (samples lines : ℕ) (a b : List α)
    (ha : a.length = samples * lines) (hb : b.length = samples * lines)
    (h : ∀ k i, k < lines → i < samples → a[k * samples + i]? = b[k * samples + i]?) :
    a = b := by
  apply List.ext_getElem?
  intro j
  by_cases hj : j < samples * lines
  · have hs : 0 < samples := by
      rcases Nat.eq_zero_or_pos samples with h0 | h0
      · rw [h0] at hj; simp at hj
      · exact h0
    have hk : j / samples < lines := by
      rw [Nat.div_lt_iff_lt_mul hs, Nat.mul_comm]; exact hj
    have := h (j / samples) (j % samples) hk (Nat.mod_lt _ hs)
    rwa [Nat.mul_comm, Nat.div_add_mod] at this
  · rw [List.getElem?_eq_none (by omega), List.getElem?_eq_none (by omega)]

end MaRC.Utility
