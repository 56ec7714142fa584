import Verif.Props.OblateSpheroid
import Verif.Props.Parser

/-!
# C98: flattening and eccentricity
-/

namespace MaRC.Spheroid

open Real Geo _root_.MaRC.Parser

variable {s : Spheroid}

theorem ratio (hb : s.Valid) : 0 < s.eqRad ∧ 0 < s.polRad ∧ 0 < s.polRad / s.eqRad ∧
    s.polRad / s.eqRad ≤ 1 ∧ s.flattening = 1 - s.polRad / s.eqRad := by
  have hc := hb.pol_pos
  have ha : 0 < s.eqRad := lt_of_lt_of_le hc hb.le
  refine ⟨ha, hc, by positivity, (div_le_one ha).2 hb.le, ?_⟩
  simp only [flattening]
  field_simp

/-- **C98** (flattening).  The flattening of a body is from 0 below 1, is 0 for spheres
only, and gives the polar radius from the equatorial one. -/
theorem C98_flattening (hb : s.Valid) :
    0 ≤ s.flattening ∧ s.flattening < 1 ∧ (s.flattening = 0 ↔ s.eqRad = s.polRad) ∧
      s.polRad = s.eqRad * (1 - s.flattening) := by
  obtain ⟨ha, hc, h0, h1, e⟩ := ratio hb
  refine ⟨by linarith, by linarith, ?_, ?_⟩
  · rw [e, sub_eq_zero, eq_comm, div_eq_one_iff_eq ha.ne', eq_comm]
  · rw [e]
    field_simp
    ring

/-- **C98** (eccentricity).  The eccentricity of a body is from 0 below 1, is 0 for spheres
only, and is the one that belongs to its flattening. -/
theorem C98_eccentricity (hb : s.Valid) :
    0 ≤ s.firstEccentricity ∧ s.firstEccentricity < 1 ∧
      (s.firstEccentricity = 0 ↔ s.eqRad = s.polRad) ∧
      s.firstEccentricity ^ 2 = 1 - (1 - s.flattening) ^ 2 := by
  obtain ⟨ha, hc, h0, h1, e⟩ := ratio hb
  have hn : 0 ≤ 1 - (s.polRad / s.eqRad) ^ 2 := by nlinarith
  refine ⟨Real.sqrt_nonneg _, ?_, ?_, ?_⟩
  · rw [firstEccentricity, sqrt_lt' one_pos]
    nlinarith
  · rw [firstEccentricity, sqrt_eq_zero hn]
    constructor
    · intro h
      have h2 : s.polRad / s.eqRad = 1 := by nlinarith
      rw [div_eq_one_iff_eq ha.ne'] at h2
      exact h2.symm
    · intro h
      rw [h, div_self hc.ne']
      norm_num
  · rw [firstEccentricity, sq_sqrt hn, e]
    ring

/-- **C98** (foci).  The eccentricity is that of the meridians: for every point of the
surface, at the distance `ρ` from the axis and the height `z` above the equator, the
distances to the two points at `eccentricity * equatorial radius` on either side of the
center add up to twice the equatorial radius. -/
theorem C98_foci (hb : s.Valid) {ρ z : ℝ}
    (hp : ρ ^ 2 / s.eqRad ^ 2 + z ^ 2 / s.polRad ^ 2 = 1) :
    √((ρ - s.firstEccentricity * s.eqRad) ^ 2 + z ^ 2) +
      √((ρ + s.firstEccentricity * s.eqRad) ^ 2 + z ^ 2) = 2 * s.eqRad := by
  obtain ⟨ha, hc, h0, h1, -⟩ := ratio hb
  obtain ⟨e0, e1, -, -⟩ := C98_eccentricity hb
  have hn : 0 ≤ 1 - (s.polRad / s.eqRad) ^ 2 := by nlinarith
  have he : s.firstEccentricity ^ 2 = 1 - (s.polRad / s.eqRad) ^ 2 := by
    rw [firstEccentricity, sq_sqrt hn]
  set e := s.firstEccentricity
  have hz : z ^ 2 = s.polRad ^ 2 * (1 - ρ ^ 2 / s.eqRad ^ 2) := by
    field_simp at hp ⊢
    linarith
  have hc2 : s.polRad ^ 2 = s.eqRad ^ 2 * (1 - e ^ 2) := by
    rw [he]
    field_simp
    ring
  have hz' : z ^ 2 = (1 - e ^ 2) * (s.eqRad ^ 2 - ρ ^ 2) := by
    rw [hz, hc2]
    field_simp
  have hρ : |ρ| ≤ s.eqRad := by
    refine abs_le_of_sq_le_sq ?_ ha.le
    have hpos : 0 < 1 - e ^ 2 := by nlinarith
    have : 0 ≤ (1 - e ^ 2) * (s.eqRad ^ 2 - ρ ^ 2) := hz' ▸ sq_nonneg z
    have := nonneg_of_mul_nonneg_right this hpos
    linarith
  have hρ' := abs_le.1 hρ
  have b1 : 0 ≤ s.eqRad - e * ρ := by nlinarith
  have b2 : 0 ≤ s.eqRad + e * ρ := by nlinarith
  have k1 : (ρ - e * s.eqRad) ^ 2 + z ^ 2 = (s.eqRad - e * ρ) ^ 2 := by rw [hz']; ring
  have k2 : (ρ + e * s.eqRad) ^ 2 + z ^ 2 = (s.eqRad + e * ρ) ^ 2 := by rw [hz']; ring
  rw [k1, k2, sqrt_sq b1, sqrt_sq b2]
  ring

/-- **C98** (input).  A body whose radii are given by one radius and a flattening has that
flattening, in exact arithmetic. -/
theorem C98_given {x f eqRad polRad flat : ℚ} {c : RadiiClause}
    (hc : c = .eqFlat (.fin x) (.fin f) ∨ c = .polFlat (.fin x) (.fin f))
    (hn : c.Numbers Fp.exact)
    (h : c.radii.validate Fp.exact = .ok ⟨.fin eqRad, .fin polRad, .fin flat⟩) :
    Spheroid.flattening ⟨eqRad, polRad⟩ = f := by
  have hk := C51_completes c _ hn h
  simp only [flattening]
  rcases hc with rfl | rfl
  · obtain ⟨h1, a, b, q, h2, h3, h4, h5⟩ := hk
    simp only [Dbl.fin.injEq] at h1 h2 h3 h4
    subst h1 h2 h3 h4
    exact_mod_cast h5
  · obtain ⟨h1, a, b, q, h2, h3, h4, h5⟩ := hk
    simp only [Dbl.fin.injEq] at h1 h2 h3 h4
    subst h1 h2 h3 h4
    exact_mod_cast h5

/-- Saturn. -/
example : Valid ⟨60268, 54364⟩ ∧ ((60268 : ℝ) ^ 2 / 60268 ^ 2 + 0 ^ 2 / 54364 ^ 2 = 1) := by
  constructor
  · constructor <;> norm_num
  · norm_num

example : (RadiiClause.eqFlat (.fin 100) (.fin (1 / 10))).radii.validate Fp.exact =
    .ok ⟨.fin 100, .fin 90, .fin (1 / 10)⟩ := by decide +kernel

end MaRC.Spheroid
