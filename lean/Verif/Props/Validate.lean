import Verif.Model.Validate
import Verif.Lemmas.Num

/-!
# C02: angle validation
-/

namespace MaRC

/-- Specification: a `double` that is a number between `-b` and `b`. -/
def NumberWithin (b : ℚ) (d : Dbl) : Prop := ∃ q : ℚ, d = .fin q ∧ -b ≤ q ∧ q ≤ b

theorem reject_iff (b : ℚ) (d : Dbl) :
    (d.isNaN || d.lt (.fin (-b)) || d.gt (.fin b)) = true ↔ ¬ NumberWithin b d := by
  unfold NumberWithin
  cases d with
  | nan => simp [Dbl.isNaN]
  | ninf => simp [Dbl.isNaN, Dbl.lt]
  | pinf => simp [Dbl.isNaN, Dbl.lt, Dbl.gt]
  | fin q =>
    simp only [Dbl.isNaN, Dbl.lt, Dbl.gt, Bool.false_or, Bool.or_eq_true, decide_eq_true_eq,
      Dbl.fin.injEq]
    constructor
    · rintro h ⟨q', rfl, h1, h2⟩
      rcases h with h | h <;> linarith
    · intro h
      by_contra hc
      push Not at hc
      exact h ⟨q, rfl, hc.1, hc.2⟩

/-- C02: latitude validation accepts exactly the numbers in `[-90, 90]`,
returns the angle times `C::degree`, and rejects everything else (NaN and the
infinities included) with `invalid_argument`. -/
theorem C02_latitude (d : Dbl) :
    (NumberWithin 90 d → validateLatitude d = .ok (Fp.ieee.mul d cDegree)) ∧
    (¬ NumberWithin 90 d → validateLatitude d = .throw .invalidArgument) := by
  unfold validateLatitude
  have := reject_iff 90 d
  constructor <;> intro h
  · rw [if_neg (by rw [this]; exact not_not.mpr h)]
  · rw [if_pos (this.mpr h)]

/-- C02: longitude validation accepts exactly the numbers in `[-360, 360]`. -/
theorem C02_longitude (d : Dbl) :
    (NumberWithin 360 d → validateLongitude d = .ok (Fp.ieee.mul d cDegree)) ∧
    (¬ NumberWithin 360 d → validateLongitude d = .throw .invalidArgument) := by
  unfold validateLongitude
  have := reject_iff 360 d
  constructor <;> intro h
  · rw [if_neg (by rw [this]; exact not_not.mpr h)]
  · rw [if_pos (this.mpr h)]

/-- C02: position angle validation accepts exactly the numbers in
`[-360, 360]`. -/
theorem C02_position_angle (d : Dbl) :
    (NumberWithin 360 d → validatePositionAngle d = .ok (Fp.ieee.mul d cDegree)) ∧
    (¬ NumberWithin 360 d → validatePositionAngle d = .throw .invalidArgument) := by
  unfold validatePositionAngle
  have := reject_iff 360 d
  constructor <;> intro h
  · rw [if_neg (by rw [this]; exact not_not.mpr h)]
  · rw [if_pos (this.mpr h)]

/-- Both branches occur: 90 is accepted, 90.5 and NaN are not. -/
example : NumberWithin 90 (.fin 90) ∧ ¬ NumberWithin 90 (.fin (181 / 2)) ∧
    ¬ NumberWithin 90 .nan := by
  refine ⟨⟨90, rfl, by norm_num, by norm_num⟩, ?_, ?_⟩
  · rintro ⟨q, h, -, h2⟩
    simp only [Dbl.fin.injEq] at h
    subst h; norm_num at h2
  · rintro ⟨q, h, -⟩
    exact absurd h (by simp)

end MaRC
