import Verif.Model.Projection
import Mathlib.Tactic.Ring
import Mathlib.Tactic.Linarith
import Mathlib.Tactic.NormNum

/-!
# Lemmas: the plotting loops and the constants
-/

namespace MaRC.Projection

/-- What is plotted at an offset of a map with `samples` samples per line. -/
def atOffset (samples : ℕ) (point : ℕ → ℕ → Option (ℝ × ℝ)) (o : ℕ) : Option Plot :=
  (point (o / samples) (o % samples)).map fun c => (c, o)

theorem samplesLoop_eq (samples k : ℕ) (point : ℕ → ℕ → Option (ℝ × ℝ)) :
    ∀ n i, i + n ≤ samples →
      samplesLoop (point k) n i (k * samples + i) =
        (List.range' (k * samples + i) n).filterMap (atOffset samples point) := by
  intro n
  induction n with
  | zero => intro i _; rfl
  | succ n ih =>
    intro i hi
    have hdiv : (k * samples + i) / samples = k := by
      rw [Nat.mul_comm, Nat.mul_add_div (by omega), Nat.div_eq_of_lt (by omega), Nat.add_zero]
    have hmod : (k * samples + i) % samples = i := by
      rw [Nat.mul_comm, Nat.mul_add_mod, Nat.mod_eq_of_lt (by omega)]
    have := ih (i + 1) (by omega)
    rw [← Nat.add_assoc] at this
    simp only [samplesLoop, List.range'_succ, List.filterMap_cons, atOffset, hdiv, hmod, this]
    cases point k i <;> rfl

/-- The line loop, when no line throws. -/
theorem linesLoop_ok (samples : ℕ) (line : ℕ → Outcome (ℕ → Option (ℝ × ℝ)))
    (point : ℕ → ℕ → Option (ℝ × ℝ)) :
    ∀ n k, (∀ j, k ≤ j → j < k + n → line j = .ok (point j)) →
      linesLoop samples line n k (k * samples) =
        .ok ((List.range' (k * samples) (n * samples)).filterMap (atOffset samples point)) := by
  intro n
  induction n with
  | zero => intro k _; simp [linesLoop]
  | succ n ih =>
    intro k h
    have h0 := h k le_rfl (by omega)
    have h1 := ih (k + 1) fun j hj hj' => h j (by omega) (by omega)
    have h2 : (k + 1) * samples = k * samples + samples := by ring
    rw [h2] at h1
    have h3 := samplesLoop_eq samples k point samples 0 (by omega)
    rw [Nat.add_zero] at h3
    have h4 : (n + 1) * samples = samples + n * samples := by ring
    simp only [linesLoop, h0, Outcome.bind_ok, h1]
    rw [h3, h4, ← List.range'_append_1, List.filterMap_append]

/-- If the line loop succeeds then no line threw. -/
theorem linesLoop_lines (samples : ℕ) (line : ℕ → Outcome (ℕ → Option (ℝ × ℝ))) :
    ∀ n k o r, linesLoop samples line n k o = .ok r →
      ∀ j, k ≤ j → j < k + n → ∃ p, line j = .ok p := by
  intro n
  induction n with
  | zero => intro k o r _ j h1 h2; omega
  | succ n ih =>
    intro k o r h j h1 h2
    rw [linesLoop] at h
    cases hl : line k with
    | throw e => rw [hl] at h; exact absurd h (by simp)
    | ub => rw [hl] at h; exact absurd h (by simp)
    | ok p =>
      rcases Nat.eq_or_lt_of_le h1 with rfl | h3
      · exact ⟨p, hl⟩
      · rw [hl, Outcome.bind_ok] at h
        cases hr : linesLoop samples line n (k + 1) (o + samples) with
        | throw e => rw [hr] at h; exact absurd h (by simp)
        | ub => rw [hr] at h; exact absurd h (by simp)
        | ok q => exact ih _ _ _ hr j h3 (by omega)

/-- If the line loop throws then so did a line. -/
theorem linesLoop_throw (samples : ℕ) (line : ℕ → Outcome (ℕ → Option (ℝ × ℝ))) :
    ∀ n k o, (∀ r, linesLoop samples line n k o ≠ .ok r) →
      ∃ j, k ≤ j ∧ j < k + n ∧ ∀ p, line j ≠ .ok p := by
  intro n
  induction n with
  | zero => intro k o h; exact absurd rfl (h _)
  | succ n ih =>
    intro k o h
    by_cases hl : ∃ p, line k = .ok p
    · obtain ⟨p, hp⟩ := hl
      by_cases hr : ∃ r, linesLoop samples line n (k + 1) (o + samples) = .ok r
      · obtain ⟨r, hr⟩ := hr
        exact absurd (by rw [linesLoop, hp, Outcome.bind_ok, hr, Outcome.bind_ok]) (h _)
      · push Not at hr
        obtain ⟨j, h1, h2, h3⟩ := ih _ _ hr
        exact ⟨j, by omega, by omega, h3⟩
    · push Not at hl
      exact ⟨k, le_rfl, by omega, hl⟩

end MaRC.Projection
