import Verif.Lemmas.CylindricalF
import Verif.Spec.Cylindrical

/-!
# C96: computed positions of the cells of cylindrical maps
-/

namespace MaRC

open Fp CylinderSpec

/-! ## Lemmas -/

theorem validLat {d r : Dbl} (h : validateLatitude d = .ok r) :
    ∃ q : ℚ, d = .fin q ∧ |q| ≤ 90 ∧ r = ieee.mul d cDegree := by
  unfold validateLatitude at h
  split_ifs at h with hc
  simp only [Bool.or_eq_true, not_or] at hc
  cases d with
  | fin q =>
    refine ⟨q, rfl, ?_, by injection h with h; exact h.symm⟩
    simp [Dbl.lt, Dbl.gt] at hc
    rw [abs_le]
    exact ⟨hc.1.2, hc.2⟩
  | _ => simp [Dbl.isNaN, Dbl.lt, Dbl.gt] at hc

theorem validLon {d r : Dbl} (h : validateLongitude d = .ok r) :
    ∃ q : ℚ, d = .fin q ∧ |q| ≤ 360 ∧ r = ieee.mul d cDegree := by
  unfold validateLongitude at h
  split_ifs at h with hc
  simp only [Bool.or_eq_true, not_or] at hc
  cases d with
  | fin q =>
    refine ⟨q, rfl, ?_, by injection h with h; exact h.symm⟩
    simp [Dbl.lt, Dbl.gt] at hc
    rw [abs_le]
    exact ⟨hc.1.2, hc.2⟩
  | _ => simp [Dbl.isNaN, Dbl.lt, Dbl.gt] at hc

theorem new_fields {L : Libm} {eqRad polRad : Dbl} {prograde graphic : Bool}
    {loLat hiLat loLon hiLon : Dbl} {c : CylindricalF}
    (h : CylindricalF.new .ieee L eqRad polRad prograde loLat hiLat loLon hiLon graphic =
      .ok c) :
    ∃ a b p q : ℚ, loLat = .fin a ∧ hiLat = .fin b ∧ loLon = .fin p ∧ hiLon = .fin q ∧
      |a| ≤ 90 ∧ |b| ≤ 90 ∧ |p| ≤ 360 ∧ |q| ≤ 360 ∧
      c = ⟨prograde,
        if graphic then graphicLatitudeF .ieee L eqRad polRad (ieee.mul loLat cDegree)
          else ieee.mul loLat cDegree,
        if graphic then graphicLatitudeF .ieee L eqRad polRad (ieee.mul hiLat cDegree)
          else ieee.mul hiLat cDegree,
        (normalizeLonF .ieee (ieee.mul loLon cDegree) (ieee.mul hiLon cDegree)).1,
        (normalizeLonF .ieee (ieee.mul loLon cDegree) (ieee.mul hiLon cDegree)).2,
        graphic, eqRad, polRad⟩ := by
  unfold CylindricalF.new boundaryLatitudeF at h
  cases h1 : validateLatitude loLat with
  | throw e => rw [h1] at h; cases h
  | ub => rw [h1] at h; cases h
  | ok r1 =>
  cases h2 : validateLatitude hiLat with
  | throw e => rw [h1, h2] at h; cases h
  | ub => rw [h1, h2] at h; cases h
  | ok r2 =>
  cases h3 : validateLongitude loLon with
  | throw e => rw [h1, h2, h3] at h; cases h
  | ub => rw [h1, h2, h3] at h; cases h
  | ok r3 =>
  cases h4 : validateLongitude hiLon with
  | throw e => rw [h1, h2, h3, h4] at h; cases h
  | ub => rw [h1, h2, h3, h4] at h; cases h
  | ok r4 =>
  rw [h1, h2, h3, h4] at h
  obtain ⟨a, rfl, ha, rfl⟩ := validLat h1
  obtain ⟨b, rfl, hb, rfl⟩ := validLat h2
  obtain ⟨p, rfl, hp, rfl⟩ := validLon h3
  obtain ⟨q, rfl, hq, rfl⟩ := validLon h4
  injection h with h
  subst h
  exact ⟨a, b, p, q, rfl, rfl, rfl, rfl, ha, hb, hp, hq, rfl⟩

theorem abs_deg {q : ℚ} {b : ℚ} (h : |q| ≤ b) : |(q : ℝ) * Real.pi / 180| ≤ b * (Real.pi / 180) := by
  have : |(q : ℝ)| ≤ b := by exact_mod_cast h
  rw [mul_div_assoc, abs_mul, abs_of_pos (by positivity : 0 < Real.pi / 180)]
  gcongr

/-- Edges of the range of longitudes. -/
theorem lon_edges {p q : ℚ} (hp : |p| ≤ 360) (hq : |q| ≤ 360) (hd : Distinguishable p q) :
    ∃ lo hi : ℚ, normalizeLonF .ieee (ieee.mul (.fin p) cDegree) (ieee.mul (.fin q) cDegree) =
        (.fin lo, .fin hi) ∧ IsDouble lo ∧ IsDouble hi ∧ |lo| ≤ 13 ∧ |hi| ≤ 13 ∧
      1 / 2 ^ 60 ≤ hi - lo ∧ hi - lo ≤ 63 / 5 ∧
      |(lo : ℝ) - (lonRange p q).1 * Real.pi / 180| ≤ 1 / 2 ^ 47 ∧
      |(hi : ℝ) - (lonRange p q).2 * Real.pi / 180| ≤ 1 / 2 ^ 47 := by
  have g1 := Real.pi_gt_d20
  have g2 := Real.pi_lt_d20
  have bp := abs_deg hp
  have bq := abs_deg hq
  have bp' : |(p : ℝ) * Real.pi / 180| ≤ 2 * Real.pi := bp.trans (by push_cast; linarith)
  have bq' : |(q : ℝ) * Real.pi / 180| ≤ 2 * Real.pi := bq.trans (by push_cast; linarith)
  have ep := Edge.lon hp
  have eq := Edge.lon hq
  have tq := Edge.turn bq' eq
  have tp := Edge.unturn bp' ep
  obtain ⟨x, hx, dx, ex⟩ := ep
  obtain ⟨y, hy, dy, ey⟩ := eq
  rw [hx] at tp
  rw [hy] at tq
  rw [hx, hy]
  have near13 : ∀ (v : ℚ) (z : ℝ), |(v : ℝ) - z| ≤ 1 / 2 ^ 47 → |z| ≤ 4 * Real.pi → |v| ≤ 13 := by
    intro v z h1 h2
    have : |(v : ℝ)| ≤ 13 := by
      rw [abs_le] at h1 h2 ⊢
      norm_num at h1 g2 ⊢
      constructor <;> linarith
    exact_mod_cast this
  have ex' : |(x : ℝ) - p * Real.pi / 180| ≤ 1 / 2 ^ 47 := ex.trans (by norm_num)
  have ey' : |(y : ℝ) - q * Real.pi / 180| ≤ 1 / 2 ^ 47 := ey.trans (by norm_num)
  have x13 := near13 x _ ex' (by linarith [Real.pi_pos])
  have y13 := near13 y _ ey' (by linarith [Real.pi_pos])
  unfold normalizeLonF
  rcases hd with rfl | hlt | ⟨hgt, hgt2⟩
  · -- a whole turn
    obtain rfl : x = y := by rw [hx] at hy; injection hy
    have n1 : (Dbl.fin x).gt (.fin x) = false := by simp [Dbl.gt, Dbl.lt]
    rw [n1, almostEqual_self]
    obtain ⟨z, hz, dz, ez⟩ := tq
    simp only [Bool.false_eq_true, if_false, Bool.true_or, if_true, hz]
    have er : lonRange p p = (p, p + 360) := by simp [lonRange]
    rw [er]
    have ez' : |(z : ℝ) - (p * Real.pi / 180 + 2 * Real.pi)| ≤ 1 / 2 ^ 47 := ez
    have z13 : |z| ≤ 13 := by
      refine near13 z _ ez' ?_
      rw [abs_le] at bp' ⊢
      constructor <;> linarith [Real.pi_pos]
    refine ⟨x, z, rfl, dx, dz, x13, z13, ?_, ?_, ex', ?_⟩
    · have : (1 : ℝ) / 2 ^ 60 ≤ ((z - x : ℚ) : ℝ) := by
        push_cast
        rw [abs_le] at ez' ex'
        norm_num at ez' ex' g1 ⊢
        linarith
      have h2 : (((1 : ℚ) / 2 ^ 60 : ℚ) : ℝ) ≤ ((z - x : ℚ) : ℝ) := by push_cast at this ⊢; exact this
      exact_mod_cast h2
    · have : ((z - x : ℚ) : ℝ) ≤ ((63 / 5 : ℚ) : ℝ) := by
        push_cast
        rw [abs_le] at ez' ex'
        norm_num at ez' ex' g2 ⊢
        linarith
      exact_mod_cast this
    · have e : (((p + 360 : ℚ) : ℝ)) * Real.pi / 180 = p * Real.pi / 180 + 2 * Real.pi := by
        push_cast; ring
      simp only
      rw [e]
      exact ez'
  · -- lower below upper
    have hltR : (p : ℝ) + 1 / 10 ^ 6 ≤ q := by
      have := (Rat.cast_le (K := ℝ)).mpr hlt
      push_cast at this
      exact this
    have hgap : (1 : ℝ) / 10 ^ 8 ≤ (q : ℝ) * Real.pi / 180 - p * Real.pi / 180 := by
      have : (1 / 10 ^ 6 : ℝ) * (Real.pi / 180) ≤ (q - p) * (Real.pi / 180) := by
        gcongr
        linarith
      norm_num at this g1 ⊢
      linarith
    have hyx : (1 : ℚ) / 2 ^ 40 ≤ y - x := by
      have : (1 : ℝ) / 2 ^ 40 ≤ ((y - x : ℚ) : ℝ) := by
        push_cast
        rw [abs_le] at ex' ey'
        norm_num at ex' ey' hgap ⊢
        linarith
      have h2 : (((1 : ℚ) / 2 ^ 40 : ℚ) : ℝ) ≤ ((y - x : ℚ) : ℝ) := by push_cast at this ⊢; exact this
      exact_mod_cast h2
    have n1 : (Dbl.fin x).gt (.fin y) = false := by
      simp only [Dbl.gt, Dbl.lt, decide_eq_false_iff_not, not_lt]
      norm_num at hyx
      linarith
    rw [n1, not_almost x13 y13 hyx]
    simp only [Bool.false_eq_true, if_false]
    have er : lonRange p q = (p, q) := by
      have h1 : p ≠ q := by rintro rfl; norm_num at hlt
      have h2 : p < q := by norm_num at hlt; linarith
      simp [lonRange, h1, h2]
    rw [er]
    refine ⟨x, y, rfl, dx, dy, x13, y13, le_trans (by norm_num) hyx, ?_, ex', ey'⟩
    have : ((y - x : ℚ) : ℝ) ≤ ((63 / 5 : ℚ) : ℝ) := by
      push_cast
      rw [abs_le] at ex' ey' bp' bq'
      norm_num at ex' ey' g2 ⊢
      linarith
    exact_mod_cast this
  · -- lower above upper
    have hgtR : (q : ℝ) + 1 / 10 ^ 6 ≤ p := by
      have := (Rat.cast_le (K := ℝ)).mpr hgt
      push_cast at this
      exact this
    have hgtR2 : (p : ℝ) + 1 / 10 ^ 6 ≤ q + 360 := by
      have := (Rat.cast_le (K := ℝ)).mpr hgt2
      push_cast at this
      exact this
    have hgap : (1 : ℝ) / 10 ^ 8 ≤ (p : ℝ) * Real.pi / 180 - q * Real.pi / 180 := by
      have : (1 / 10 ^ 6 : ℝ) * (Real.pi / 180) ≤ (p - q) * (Real.pi / 180) := by
        gcongr
        linarith
      norm_num at this g1 ⊢
      linarith
    have hgap2 : (1 : ℝ) / 10 ^ 8 ≤ (q : ℝ) * Real.pi / 180 - (p * Real.pi / 180 - 2 * Real.pi) := by
      have : (1 / 10 ^ 6 : ℝ) * (Real.pi / 180) ≤ (q + 360 - p) * (Real.pi / 180) := by
        gcongr
        linarith
      norm_num at this g1 ⊢
      linarith
    obtain ⟨z, hz, dz, ez⟩ := tp
    have n1 : (Dbl.fin x).gt (.fin y) = true := by
      simp only [Dbl.gt, Dbl.lt, decide_eq_true_eq]
      have : ((y : ℚ) : ℝ) < x := by
        rw [abs_le] at ex' ey'
        norm_num at ex' ey' hgap
        linarith
      exact_mod_cast this
    rw [n1, if_pos rfl, hz]
    have er : lonRange p q = (p - 360, q) := by
      have h1 : p ≠ q := by rintro rfl; norm_num at hgt
      have h2 : ¬ p < q := by norm_num at hgt; linarith
      simp [lonRange, h1, h2]
    rw [er]
    have z13 : |z| ≤ 13 := by
      refine near13 z _ ez ?_
      rw [abs_le] at bp' ⊢
      constructor <;> linarith [Real.pi_pos]
    refine ⟨z, y, rfl, dz, dy, z13, y13, ?_, ?_, ?_, ey'⟩
    · have : (1 : ℝ) / 2 ^ 60 ≤ ((y - z : ℚ) : ℝ) := by
        push_cast
        rw [abs_le] at ez ey'
        norm_num at ez ey' hgap2 ⊢
        linarith
      have h2 : (((1 : ℚ) / 2 ^ 60 : ℚ) : ℝ) ≤ ((y - z : ℚ) : ℝ) := by push_cast at this ⊢; exact this
      exact_mod_cast h2
    · have : ((y - z : ℚ) : ℝ) ≤ ((63 / 5 : ℚ) : ℝ) := by
        push_cast
        rw [abs_le] at ez ey'
        norm_num at ez ey' g2 ⊢
        linarith
      exact_mod_cast this
    · have e : (((p - 360 : ℚ) : ℝ)) * Real.pi / 180 = p * Real.pi / 180 - 2 * Real.pi := by
        push_cast; ring
      simp only
      rw [e]
      exact ez

/-- Errors of the edges and of the computation together. -/
theorem center_total {lo hi v : ℚ} {a b : ℚ} {n k : ℕ} {ε : ℝ} (hk : k < n)
    (hc : Center lo hi ((k + 1 / 2) / n) v) (h1 : |(lo : ℝ) - a * Real.pi / 180| ≤ ε)
    (h2 : |(hi : ℝ) - b * Real.pi / 180| ≤ ε) (hw : hi - lo ≤ 63 / 5) (hε : ε ≤ 1 / 2 ^ 47) :
    |(v : ℝ) - center a b n k| ≤ 1 / 2 ^ 46 := by
  have he : |(v : ℝ) - (lo + (k + 1 / 2) / n * (hi - lo))| ≤
      (hi - lo) / 2 ^ 51 + 13 / 2 ^ 53 + 1 / 2 ^ 200 := by
    have := (Rat.cast_le (K := ℝ)).mpr hc.err
    push_cast at this
    exact this
  have hwR : (hi : ℝ) - lo ≤ 63 / 5 := by
    have := (Rat.cast_le (K := ℝ)).mpr hw
    push_cast at this
    exact this
  obtain ⟨t, ht⟩ : ∃ t : ℝ, t = ((k : ℝ) + 1 / 2) / n := ⟨_, rfl⟩
  have n0 : (0 : ℝ) < n := by exact_mod_cast (by omega : 0 < n)
  have t0 : 0 ≤ t := by rw [ht]; positivity
  have t1 : t ≤ 1 := by
    rw [ht, div_le_one n0]
    have : (k : ℝ) + 1 ≤ n := by exact_mod_cast hk
    linarith
  have ec : center a b n k = (1 - t) * (a * Real.pi / 180) + t * (b * Real.pi / 180) := by
    unfold center
    push_cast
    rw [ht]
    ring
  have e1 : (v : ℝ) - center a b n k = (v - (lo + t * (hi - lo))) +
      ((1 - t) * (lo - a * Real.pi / 180) + t * (hi - b * Real.pi / 180)) := by
    rw [ec]; ring
  have e2 : |(1 - t) * ((lo : ℝ) - a * Real.pi / 180) + t * (hi - b * Real.pi / 180)| ≤ ε := by
    refine (abs_add_le _ _).trans ?_
    rw [abs_mul, abs_mul, abs_of_nonneg t0, abs_of_nonneg (by linarith : 0 ≤ 1 - t)]
    nlinarith
  rw [← ht] at he
  rw [e1]
  refine (abs_add_le _ _).trans ?_
  have : (hi - lo : ℝ) / 2 ^ 51 ≤ 63 / 5 / 2 ^ 51 := by gcongr
  norm_num at he this hε ⊢
  linarith

theorem mem_plotMap {c : CylindricalF} {F : Fp} {L : Libm} {samples lines : ℕ} {lat lon : Dbl}
    {o : ℕ} (h : ((lat, lon), o) ∈ c.plotMap F L samples lines) :
    o / samples < lines ∧ o % samples < samples ∧ lat = c.latitude F L lines (o / samples) ∧
      lon = c.longitude F samples (o % samples) := by
  unfold CylindricalF.plotMap at h
  simp only [List.mem_flatMap, List.mem_range, List.mem_map, Prod.mk.injEq] at h
  obtain ⟨k, hk, i, hi, ⟨rfl, rfl⟩, rfl⟩ := h
  have h1 : (k * samples + i) / samples = k := by
    rw [Nat.mul_comm, Nat.mul_add_div (by omega), Nat.div_eq_of_lt hi, Nat.add_zero]
  have h2 : (k * samples + i) % samples = i := by
    rw [Nat.mul_comm, Nat.mul_add_mod, Nat.mod_eq_of_lt hi]
  rw [h1, h2]
  exact ⟨hk, hi, rfl, rfl⟩

/-- A gap between latitudes in degrees is one between the converted latitudes. -/
theorem lat_gap {a b : ℚ} (hw : a + 1 / 10 ^ 6 ≤ b) {x y : ℚ} {ε : ℝ} (hε : ε ≤ 1 / 2 ^ 40)
    (ex : |(x : ℝ) - a * Real.pi / 180| ≤ ε) (ey : |(y : ℝ) - b * Real.pi / 180| ≤ ε) :
    (1 : ℝ) / 10 ^ 8 ≤ y - x := by
  have g1 := Real.pi_gt_d20
  have hR : (a : ℝ) + 1 / 10 ^ 6 ≤ b := by
    have := (Rat.cast_le (K := ℝ)).mpr hw
    push_cast at this
    exact this
  have : (1 / 10 ^ 6 : ℝ) * (Real.pi / 180) ≤ (b - a) * (Real.pi / 180) := by
    gcongr
    linarith
  rw [abs_le] at ex ey
  norm_num at this g1 hε ⊢
  linarith

section C96

variable {L : Libm} {eqRad polRad loLat hiLat loLon hiLon : ℚ} {prograde graphic : Bool}
  {c : CylindricalF} {samples lines : ℕ}

/-- **C96** (planetocentric latitudes).  The latitude plotted for a cell on line `k` of a
simple cylindrical map is within `2^-46` radians of the center of the `k`-th of `lines`
equal parts of the range between the bounds, and not outside of the bounds. -/
theorem C96_centric
    (h : CylindricalF.new .ieee L (.fin eqRad) (.fin polRad) prograde (.fin loLat) (.fin hiLat)
      (.fin loLon) (.fin hiLon) false = .ok c)
    (hw : loLat + 1 / 10 ^ 6 ≤ hiLat) (hn : lines ≤ 2 ^ 31) (lat lon : Dbl) (o : ℕ)
    (ho : ((lat, lon), o) ∈ c.plotMap .ieee L samples lines) :
    ∃ v : ℚ, lat = .fin v ∧ |(v : ℝ) - center loLat hiLat lines (o / samples)| ≤ 1 / 2 ^ 46 ∧
      (ieee.mul (.fin loLat) cDegree).le lat = true ∧
      lat.le (ieee.mul (.fin hiLat) cDegree) = true := by
  obtain ⟨a, b, p, q, h1, h2, -, -, ha, hb, -, -, rfl⟩ := new_fields h
  injection h1 with h1
  injection h2 with h2
  subst h1 h2
  obtain ⟨hk, -, rfl, -⟩ := mem_plotMap ho
  obtain ⟨x, hx, dx, ex⟩ := Edge.lat ha
  obtain ⟨y, hy, dy, ey⟩ := Edge.lat hb
  have px := lat_edge_le ha hx
  have py := lat_edge_le hb hy
  have hp2 : pi2Q ≤ 2 := by norm_num [pi2Q]
  have gap := lat_gap hw (by norm_num) ex ey
  have hyx : (1 : ℚ) / 2 ^ 60 ≤ y - x := by
    have h2 : (((1 : ℚ) / 2 ^ 60 : ℚ) : ℝ) ≤ ((y - x : ℚ) : ℝ) := by
      push_cast
      norm_num at gap ⊢
      linarith
    exact_mod_cast h2
  have x13 : |x| ≤ 13 := px.trans (by linarith)
  have y13 : |y| ≤ 13 := py.trans (by linarith)
  obtain ⟨s, hs, hP⟩ := step_eq x13 y13 hyx hk hn
  obtain ⟨v, hv, hC⟩ := center_up x13 y13 dx dy hP
  have hlat : CylindricalF.latitude .ieee L ⟨prograde,
        if false then graphicLatitudeF .ieee L (.fin eqRad) (.fin polRad)
          (ieee.mul (.fin loLat) cDegree) else ieee.mul (.fin loLat) cDegree,
        if false then graphicLatitudeF .ieee L (.fin eqRad) (.fin polRad)
          (ieee.mul (.fin hiLat) cDegree) else ieee.mul (.fin hiLat) cDegree,
        (normalizeLonF .ieee (ieee.mul (.fin loLon) cDegree) (ieee.mul (.fin hiLon) cDegree)).1,
        (normalizeLonF .ieee (ieee.mul (.fin loLon) cDegree) (ieee.mul (.fin hiLon) cDegree)).2,
        false, .fin eqRad, .fin polRad⟩ lines (o / samples) = .fin v := by
    simp only [CylindricalF.latitude, Bool.false_eq_true, if_false]
    rw [hx, hy, hs, hv]
  rw [hlat, hx, hy]
  refine ⟨v, rfl, ?_, by simpa using hC.lower, by simpa using hC.upper⟩
  rw [abs_le] at px py
  exact center_total hk hC ex ey (by linarith) (by norm_num)

/-- **C96** (longitudes).  The longitude plotted for a cell is within `2^-46` radians of
the center of its part of the range of longitudes, which is counted from the right in
maps of prograde bodies. -/
theorem C96_longitudes
    (h : CylindricalF.new .ieee L (.fin eqRad) (.fin polRad) prograde (.fin loLat) (.fin hiLat)
      (.fin loLon) (.fin hiLon) graphic = .ok c)
    (hd : Distinguishable loLon hiLon) (hn : samples ≤ 2 ^ 31) (lat lon : Dbl) (o : ℕ)
    (ho : ((lat, lon), o) ∈ c.plotMap .ieee L samples lines) :
    ∃ v : ℚ, lon = .fin v ∧
      |(v : ℝ) - center (lonRange loLon hiLon).1 (lonRange loLon hiLon).2 samples
        (part prograde samples (o % samples))| ≤ 1 / 2 ^ 46 := by
  obtain ⟨a, b, p, q, -, -, h1, h2, -, -, hp, hq, rfl⟩ := new_fields h
  injection h1 with h1
  injection h2 with h2
  subst h1 h2
  obtain ⟨-, hi, -, rfl⟩ := mem_plotMap ho
  obtain ⟨x, y, hN, dx, dy, x13, y13, hw, hw2, ex, ey⟩ := lon_edges hp hq hd
  obtain ⟨s, hs, hP⟩ := step_eq x13 y13 hw hi hn
  cases prograde
  · obtain ⟨v, hv, hC⟩ := center_up x13 y13 dx dy hP
    refine ⟨v, ?_, center_total hi hC ex ey hw2 le_rfl⟩
    simp only [CylindricalF.longitude, hN, Bool.false_eq_true, if_false]
    rw [hs, hv]
  · obtain ⟨v, hv, hC⟩ := center_down x13 y13 dx dy hP
    have hi' : samples - 1 - o % samples < samples := by omega
    have et : 1 - (((o % samples : ℕ) : ℚ) + 1 / 2) / samples =
        (((samples - 1 - o % samples : ℕ) : ℚ) + 1 / 2) / samples := by
      rw [Nat.cast_sub (by omega), Nat.cast_sub (by omega)]
      have : (samples : ℚ) ≠ 0 := by exact_mod_cast (by omega : samples ≠ 0)
      field_simp
      push_cast
      ring
    rw [et] at hC
    refine ⟨v, ?_, center_total hi' hC ex ey hw2 le_rfl⟩
    simp only [CylindricalF.longitude, hN, if_true]
    rw [hs, hv]

/-- Converted latitudes are strictly within the poles. -/
theorem abs_lt_half_pi {q : ℚ} (h : |q| ≤ pi2Q) : |(q : ℝ)| < Real.pi / 2 := by
  have h1 : |(q : ℝ)| ≤ pi2Q := by exact_mod_cast h
  have h2 := pi2Q_lt
  have : (0 : ℝ) < 1 / 2 ^ 54 := by positivity
  linarith

/-- A computed planetographic edge of a map. -/
theorem graphic_edge (hL : L.Correct) (hp : 0 < polRad) (hle : polRad ≤ eqRad)
    (hr : eqRad ≤ 2 * polRad) {q : ℚ} (hq : |q| ≤ 90) {e : ℚ}
    (he : ieee.mul (.fin q) cDegree = .fin e) (hee : |(e : ℝ) - q * Real.pi / 180| ≤ 1 / 2 ^ 50) :
    ∃ r : ℚ, graphicLatitudeF .ieee L (.fin eqRad) (.fin polRad) (.fin e) = .fin r ∧
      |r| ≤ pi2Q ∧
      |(r : ℝ) - Spheroid.graphicLatitude ⟨eqRad, polRad⟩ e| ≤ 1 / 2 ^ 47 ∧
      |(r : ℝ) - graphicOf eqRad polRad q| ≤ 1 / 2 ^ 47 + 1 / 2 ^ 48 := by
  have hpe := lat_edge_le hq he
  obtain ⟨r, h1, h2, h3⟩ := graphicLatitudeF_near hL hp hle (hr.trans (by linarith)) hpe
  refine ⟨r, h1, h2, h3, ?_⟩
  have hpR : (0 : ℝ) < polRad := by exact_mod_cast hp
  have hleR : (polRad : ℝ) ≤ eqRad := by exact_mod_cast hle
  have hrR : (eqRad : ℝ) ≤ 2 * polRad := by exact_mod_cast hr
  have s1 : (1 : ℝ) ≤ eqRad / polRad := by rw [le_div_iff₀ hpR]; linarith
  have s2 : (eqRad : ℝ) / polRad ≤ 2 := by rw [div_le_iff₀ hpR]; linarith
  have ss1 : (1 : ℝ) ≤ ((eqRad : ℝ) / polRad) ^ 2 := by nlinarith
  have ss2 : ((eqRad : ℝ) / polRad) ^ 2 ≤ 4 := by nlinarith
  have key : |Spheroid.graphicLatitude ⟨eqRad, polRad⟩ e - graphicOf eqRad polRad q| ≤
      1 / 2 ^ 48 := by
    unfold Spheroid.graphicLatitude graphicOf
    simp only
    split_ifs with h90
    · -- a pole
      have hl : (0 : ℝ) < 1 / 2 ^ 54 := by positivity
      have pole : Real.pi / 2 - 1 / 2 ^ 48 ≤
          Real.arctan (((eqRad : ℝ) / polRad) ^ 2 * Real.tan pi2Q) := by
        have hpi : (pi2Q : ℝ) < Real.pi / 2 := by linarith [pi2Q_lt]
        have hpos : (0 : ℝ) < pi2Q := by norm_num [pi2Q]
        have ht : 0 < Real.tan pi2Q := Real.tan_pos_of_pos_of_lt_pi_div_two hpos hpi
        have : Real.arctan (Real.tan pi2Q) ≤
            Real.arctan (((eqRad : ℝ) / polRad) ^ 2 * Real.tan pi2Q) :=
          Real.arctan_strictMono.monotone (by nlinarith)
        rw [Real.arctan_tan (by linarith) hpi] at this
        have g2 := Real.pi_lt_d20
        norm_num [pi2Q] at this g2 ⊢
        linarith
      have lt := Real.arctan_lt_pi_div_two (((eqRad : ℝ) / polRad) ^ 2 * Real.tan pi2Q)
      have h90e : rnd53 (90 * degreeQ) = pi2Q := by decide +kernel
      have he' : e = rnd53 (q * degreeQ) := Fp.ieee_rnd_fin (by rw [cDegree_eq] at he; exact he)
      have hz : (0 : ℝ) ≤ 1 / 2 ^ 48 := by positivity
      rcases (abs_eq (by norm_num : (0 : ℚ) ≤ 90)).mp h90 with rfl | rfl
      · rw [h90e] at he'
        subst he'
        push_cast
        rw [abs_le]
        constructor <;> linarith
      · rw [neg_mul, rnd53_neg, h90e] at he'
        subst he'
        push_cast
        rw [Real.tan_neg, mul_neg, Real.arctan_neg, abs_le]
        constructor <;> linarith
    · have hq90 : |q| < 90 := lt_of_le_of_ne hq h90
      have hqR : |(q : ℝ) * (Real.pi / 180)| < Real.pi / 2 := by
        have : |(q : ℝ)| < 90 := by exact_mod_cast hq90
        rw [abs_mul, abs_of_pos (by positivity : 0 < Real.pi / 180)]
        have := mul_lt_mul_of_pos_right this (by positivity : 0 < Real.pi / 180)
        linarith
      have := convert_lip (by linarith) ss2 (abs_lt_half_pi hpe) hqR
      rw [← mul_div_assoc] at this ⊢
      norm_num at hee this ⊢
      linarith
  have := abs_sub_le (r : ℝ) (Spheroid.graphicLatitude ⟨eqRad, polRad⟩ e) (graphicOf eqRad polRad q)
  linarith

theorem graphicOf_le (eqRad polRad q : ℚ) :
    |graphicOf eqRad polRad q| ≤ Real.pi / 2 := by
  unfold graphicOf
  split_ifs with h
  · have : |(q : ℝ)| = 90 := by exact_mod_cast h
    rw [abs_mul, this, abs_of_pos (by positivity : 0 < Real.pi / 180)]
    linarith
  · exact (abs_lt.2 ⟨Real.neg_pi_div_two_lt_arctan _, Real.arctan_lt_pi_div_two _⟩).le

/-- **C96** (planetographic latitudes).  The latitude plotted for a cell on line `k` of a
simple cylindrical map of planetographic latitudes is within `2^-43` radians of the
planetocentric latitude of the center of the `k`-th of `lines` parts with equal ranges of
planetographic latitude, and not past the poles. -/
theorem C96_graphic (hL : L.Correct) (hp : 0 < polRad) (hle : polRad ≤ eqRad)
    (hr : eqRad ≤ 2 * polRad)
    (h : CylindricalF.new .ieee L (.fin eqRad) (.fin polRad) prograde (.fin loLat) (.fin hiLat)
      (.fin loLon) (.fin hiLon) true = .ok c)
    (hw : loLat + 1 / 10 ^ 6 ≤ hiLat) (hn : lines ≤ 2 ^ 31) (lat lon : Dbl) (o : ℕ)
    (ho : ((lat, lon), o) ∈ c.plotMap .ieee L samples lines) :
    ∃ v : ℚ, lat = .fin v ∧
      |(v : ℝ) - graphicCenter eqRad polRad loLat hiLat lines (o / samples)| ≤ 1 / 2 ^ 43 ∧
      (ieee.mul (.fin (-90)) cDegree).le lat = true ∧
      lat.le (ieee.mul (.fin 90) cDegree) = true := by
  obtain ⟨a, b, p, q, h1, h2, -, -, ha, hb, -, -, rfl⟩ := new_fields h
  injection h1 with h1
  injection h2 with h2
  subst h1 h2
  obtain ⟨hk, -, rfl, -⟩ := mem_plotMap ho
  obtain ⟨x, hx, dx, ex⟩ := Edge.lat ha
  obtain ⟨y, hy, dy, ey⟩ := Edge.lat hb
  have px := lat_edge_le ha hx
  have py := lat_edge_le hb hy
  obtain ⟨u, hu, pu, eu, fu⟩ := graphic_edge hL hp hle hr ha hx ex
  obtain ⟨w, hwv, pw, ew, fw⟩ := graphic_edge hL hp hle hr hb hy ey
  have hpR : (0 : ℝ) < polRad := by exact_mod_cast hp
  have hqR : (0 : ℝ) < eqRad := lt_of_lt_of_le hpR (by exact_mod_cast hle)
  have hleR : (polRad : ℝ) ≤ eqRad := by exact_mod_cast hle
  have hrR : (eqRad : ℝ) ≤ 2 * polRad := by exact_mod_cast hr
  have s1 : (polRad : ℝ) / eqRad ≤ 1 := by rw [div_le_iff₀ hqR]; linarith
  have s2 : (1 : ℝ) / 2 ≤ polRad / eqRad := by rw [le_div_iff₀ hqR]; linarith
  have ss1 : ((polRad : ℝ) / eqRad) ^ 2 ≤ 1 := by nlinarith
  have ss2 : (1 : ℝ) / 4 ≤ ((polRad : ℝ) / eqRad) ^ 2 := by nlinarith
  have hp2 : pi2Q ≤ 2 := by norm_num [pi2Q]
  -- the width of the map in planetographic latitudes
  have gap := lat_gap hw (by norm_num) ex ey
  have inv : ∀ z : ℚ, |z| ≤ pi2Q → Real.arctan (((polRad : ℝ) / eqRad) ^ 2 *
      Real.tan (Spheroid.graphicLatitude ⟨eqRad, polRad⟩ z)) = z := by
    intro z hz
    have hz' := abs_lt.mp (abs_lt_half_pi hz)
    unfold Spheroid.graphicLatitude
    simp only
    rw [Real.tan_arctan, ← mul_assoc]
    have : ((polRad : ℝ) / eqRad) ^ 2 * ((eqRad : ℝ) / polRad) ^ 2 = 1 := by field_simp
    rw [this, one_mul, Real.arctan_tan hz'.1 hz'.2]
  have gl : ∀ z : ℝ, |Spheroid.graphicLatitude ⟨eqRad, polRad⟩ z| < Real.pi / 2 := fun z =>
    abs_lt.2 ⟨Real.neg_pi_div_two_lt_arctan _, Real.arctan_lt_pi_div_two _⟩
  have lip := convert_lip ss2 (by linarith) (gl y) (gl x)
  rw [inv y py, inv x px] at lip
  have mono : Spheroid.graphicLatitude ⟨eqRad, polRad⟩ x ≤
      Spheroid.graphicLatitude ⟨eqRad, polRad⟩ y := by
    have hx' := abs_lt.mp (abs_lt_half_pi px)
    have hy' := abs_lt.mp (abs_lt_half_pi py)
    unfold Spheroid.graphicLatitude
    simp only
    refine Real.arctan_strictMono.monotone (mul_le_mul_of_nonneg_left ?_ (by positivity))
    have hxy : (x : ℝ) < y := by norm_num at gap; linarith
    exact (Real.tan_lt_tan_of_lt_of_lt_pi_div_two hx'.1 hy'.2 hxy).le
  have hgap : (1 : ℝ) / 10 ^ 9 ≤ w - u := by
    rw [abs_of_nonneg (by norm_num at gap; linarith : (0 : ℝ) ≤ y - x),
      abs_of_nonneg (by linarith)] at lip
    rw [abs_le] at eu ew
    norm_num at gap eu ew ⊢
    linarith
  have huw : (1 : ℚ) / 2 ^ 60 ≤ w - u := by
    have h2 : (((1 : ℚ) / 2 ^ 60 : ℚ) : ℝ) ≤ ((w - u : ℚ) : ℝ) := by
      push_cast
      norm_num at hgap ⊢
      linarith
    exact_mod_cast h2
  have u13 : |u| ≤ 13 := pu.trans (by linarith)
  have w13 : |w| ≤ 13 := pw.trans (by linarith)
  obtain ⟨s, hs, hP⟩ := step_eq u13 w13 huw hk hn
  -- the planetographic latitude of the center
  have pu' := abs_le.mp pu
  have pw' := abs_le.mp pw
  have hr90 : rnd53 pi2Q = pi2Q := by decide +kernel
  obtain ⟨g, hg⟩ : ∃ g, g = rnd53 (s + u) := ⟨_, rfl⟩
  have hsu : |s + u| ≤ pi2Q := by
    have := hP.nonneg
    have := hP.le
    rw [abs_le]
    constructor <;> linarith
  have pg : |g| ≤ pi2Q := by
    rw [abs_le] at hsu ⊢
    have m1 := rnd53_mono hsu.1
    have m2 := rnd53_mono hsu.2
    rw [rnd53_neg, hr90] at m1
    rw [hr90] at m2
    rw [hg]
    exact ⟨m1, m2⟩
  have hadd : ieee.add (.fin s) (.fin u) = .fin g := by
    rw [hg]
    exact ieee_rnd_fin (hsu.trans (hp2.trans (by norm_num)))
  obtain ⟨G, hG⟩ : ∃ G : ℝ, G = graphicOf eqRad polRad loLat +
    ((o / samples : ℕ) + 1 / 2) * (graphicOf eqRad polRad hiLat - graphicOf eqRad polRad loLat) /
      lines := ⟨_, rfl⟩
  obtain ⟨t, ht⟩ : ∃ t : ℝ, t = (((o / samples : ℕ) : ℝ) + 1 / 2) / lines := ⟨_, rfl⟩
  have n0 : (0 : ℝ) < lines := by exact_mod_cast Nat.lt_of_le_of_lt (Nat.zero_le _) hk
  have t0 : 0 < t := by rw [ht]; positivity
  have t1 : t < 1 := by
    rw [ht, div_lt_one n0]
    have : ((o / samples : ℕ) : ℝ) + 1 ≤ lines := by exact_mod_cast hk
    linarith
  have eG : G = (1 - t) * graphicOf eqRad polRad loLat + t * graphicOf eqRad polRad hiLat := by
    rw [hG, ht]; ring
  have ge : |(g : ℝ) - G| ≤ 1 / 2 ^ 46 := by
    have e1 := rnd53_err200R (s + u)
    rw [← hg] at e1
    have e2 : |((s + u : ℚ) : ℝ)| ≤ 2 := by exact_mod_cast hsu.trans hp2
    have e3 : |(s : ℝ) - t * (w - u)| ≤ (w - u) / 2 ^ 51 := by
      have := (Rat.cast_le (K := ℝ)).mpr hP.err
      push_cast at this
      rwa [← ht] at this
    have e4 : (w : ℝ) - u ≤ 4 := by
      have : w - u ≤ 4 := by linarith
      exact_mod_cast this
    have e5 : ((w : ℝ) - u) / 2 ^ 51 ≤ 4 / 2 ^ 51 := by gcongr
    have e6 : |((s + u : ℚ) : ℝ)| / 2 ^ 53 ≤ 2 / 2 ^ 53 := by gcongr
    have e7 : |(1 - t) * ((u : ℝ) - graphicOf eqRad polRad loLat) +
        t * (w - graphicOf eqRad polRad hiLat)| ≤ 1 / 2 ^ 47 + 1 / 2 ^ 48 := by
      refine (abs_add_le _ _).trans ?_
      rw [abs_mul, abs_mul, abs_of_pos t0, abs_of_pos (by linarith : 0 < 1 - t)]
      nlinarith
    have e8 : (g : ℝ) - G = (g - (s + u)) + (s - t * (w - u)) +
        ((1 - t) * ((u : ℝ) - graphicOf eqRad polRad loLat) +
          t * (w - graphicOf eqRad polRad hiLat)) := by rw [eG]; ring
    rw [e8]
    push_cast at e1 e6
    have a1 := abs_add_le ((g : ℝ) - (s + u) + (s - t * (w - u)))
      ((1 - t) * ((u : ℝ) - graphicOf eqRad polRad loLat) + t * (w - graphicOf eqRad polRad hiLat))
    have a2 := abs_add_le ((g : ℝ) - (s + u)) (s - t * (w - u))
    norm_num at e1 e3 e5 e6 e7 a1 a2 ⊢
    linarith
  have hGlt : |G| < Real.pi / 2 := by
    have b1 := abs_le.mp (graphicOf_le eqRad polRad loLat)
    have b2 := abs_le.mp (graphicOf_le eqRad polRad hiLat)
    have b3 : graphicOf eqRad polRad loLat < graphicOf eqRad polRad hiLat := by
      rw [abs_le] at fu fw
      norm_num at fu fw hgap
      linarith
    rw [eG, abs_lt]
    constructor <;> nlinarith
  -- its planetocentric latitude
  obtain ⟨v, hv, pv, ev⟩ := convertLatitudeF_near (eqRad := polRad) (polRad := eqRad) hL
    (hp.trans_le hle) (hr.trans (by linarith)) (hle.trans (by linarith)) pg
  have hlat : CylindricalF.latitude .ieee L ⟨prograde,
        if true then graphicLatitudeF .ieee L (.fin eqRad) (.fin polRad)
          (ieee.mul (.fin loLat) cDegree) else ieee.mul (.fin loLat) cDegree,
        if true then graphicLatitudeF .ieee L (.fin eqRad) (.fin polRad)
          (ieee.mul (.fin hiLat) cDegree) else ieee.mul (.fin hiLat) cDegree,
        (normalizeLonF .ieee (ieee.mul (.fin loLon) cDegree) (ieee.mul (.fin hiLon) cDegree)).1,
        (normalizeLonF .ieee (ieee.mul (.fin loLon) cDegree) (ieee.mul (.fin hiLon) cDegree)).2,
        true, .fin eqRad, .fin polRad⟩ lines (o / samples) = .fin v := by
    simp only [CylindricalF.latitude, if_true]
    rw [hx, hy, hu, hwv, hs, hadd]
    exact hv
  have d1 : ieee.mul (.fin 90) cDegree = .fin pi2Q := by decide +kernel
  have d2 : ieee.mul (.fin (-90)) cDegree = .fin (-pi2Q) := by decide +kernel
  rw [hlat, d1, d2]
  have pv' := abs_le.mp pv
  refine ⟨v, rfl, ?_, by simpa using pv'.1, by simpa using pv'.2⟩
  unfold graphicCenter
  rw [← hG]
  have lip2 := convert_lip ss2 (by linarith) (abs_lt_half_pi pg) hGlt
  have tri := abs_sub_le (v : ℝ) (Spheroid.graphicLatitude ⟨polRad, eqRad⟩ g)
    (centricOf eqRad polRad G)
  have e9 : |Spheroid.graphicLatitude ⟨polRad, eqRad⟩ g - centricOf eqRad polRad G| ≤
      4 * |(g : ℝ) - G| := lip2
  norm_num at ge ev e9 tri ⊢
  linarith

/-- Centers of parts in order. -/
theorem center_lt {lo hi : ℚ} {n j k : ℕ} (hjk : j < k) (hk : k < n)
    (hw : (n : ℚ) / 10 ^ 11 ≤ hi - lo) : center lo hi n j + 1 / 10 ^ 13 ≤ center lo hi n k := by
  have g1 := Real.pi_gt_d20
  have n0 : (0 : ℝ) < n := by exact_mod_cast Nat.lt_of_le_of_lt (Nat.zero_le _) hk
  have hwR : (n : ℝ) / 10 ^ 11 ≤ hi - lo := by
    have := (Rat.cast_le (K := ℝ)).mpr hw
    push_cast at this
    exact this
  have h1 : (1 : ℝ) / 10 ^ 11 ≤ (hi - lo) / n := by
    rw [le_div_iff₀ n0]
    linarith
  have hkj : (1 : ℝ) ≤ k - j := by
    have : (j : ℝ) + 1 ≤ k := by exact_mod_cast hjk
    linarith
  have h2 : (1 : ℝ) / 10 ^ 11 ≤ (k - j) * ((hi - lo) / n) := by
    have h0 : (0 : ℝ) ≤ (hi - lo) / n := le_trans (by positivity) h1
    nlinarith
  have e : center lo hi n k - center lo hi n j = (k - j) * ((hi - lo) / n) * (Real.pi / 180) := by
    unfold center
    push_cast
    ring
  have h3 : (1 : ℝ) / 10 ^ 11 * (Real.pi / 180) ≤ (k - j) * ((hi - lo) / n) * (Real.pi / 180) := by
    gcongr
  rw [← e] at h3
  norm_num at h3 g1 ⊢
  linarith

/-- **C96** (order of lines).  The lines of a planetocentric map whose cells are at least
`10^-11` degrees high have different latitudes, which increase with the line. -/
theorem C96_lines
    (h : CylindricalF.new .ieee L (.fin eqRad) (.fin polRad) prograde (.fin loLat) (.fin hiLat)
      (.fin loLon) (.fin hiLon) false = .ok c)
    (hw : loLat + 1 / 10 ^ 6 ≤ hiLat) (hw2 : (lines : ℚ) / 10 ^ 11 ≤ hiLat - loLat)
    (hn : lines ≤ 2 ^ 31) (lat lon lat' lon' : Dbl) (o o' : ℕ)
    (ho : ((lat, lon), o) ∈ c.plotMap .ieee L samples lines)
    (ho' : ((lat', lon'), o') ∈ c.plotMap .ieee L samples lines)
    (hlt : o / samples < o' / samples) : lat.lt lat' = true := by
  obtain ⟨v, rfl, hv, -⟩ := C96_centric h hw hn _ _ _ ho
  obtain ⟨v', rfl, hv', -⟩ := C96_centric h hw hn _ _ _ ho'
  have hc := center_lt (lo := loLat) (hi := hiLat) hlt (mem_plotMap ho').1 hw2
  have : (v : ℝ) < v' := by
    rw [abs_le] at hv hv'
    norm_num at hv hv' hc
    linarith
  simp only [Dbl.lt, decide_eq_true_eq]
  exact_mod_cast this

/-- **C96** (order of samples).  The samples of a map whose cells are at least `10^-11`
degrees wide have different longitudes, which decrease to the right in maps of prograde
bodies and increase in maps of others. -/
theorem C96_samples
    (h : CylindricalF.new .ieee L (.fin eqRad) (.fin polRad) prograde (.fin loLat) (.fin hiLat)
      (.fin loLon) (.fin hiLon) graphic = .ok c)
    (hd : Distinguishable loLon hiLon)
    (hw : (samples : ℚ) / 10 ^ 11 ≤ (lonRange loLon hiLon).2 - (lonRange loLon hiLon).1)
    (hn : samples ≤ 2 ^ 31) (lat lon lat' lon' : Dbl) (o o' : ℕ)
    (ho : ((lat, lon), o) ∈ c.plotMap .ieee L samples lines)
    (ho' : ((lat', lon'), o') ∈ c.plotMap .ieee L samples lines)
    (hlt : o % samples < o' % samples) :
    if prograde then lon'.lt lon = true else lon.lt lon' = true := by
  obtain ⟨v, rfl, hv⟩ := C96_longitudes h hd hn _ _ _ ho
  obtain ⟨v', rfl, hv'⟩ := C96_longitudes h hd hn _ _ _ ho'
  have hi := (mem_plotMap ho').2.1
  cases prograde
  · have hc := center_lt hlt hi hw
    have : (v : ℝ) < v' := by
      simp only [part, Bool.false_eq_true, if_false] at hv hv'
      rw [abs_le] at hv hv'
      norm_num at hv hv' hc
      linarith
    simp only [Dbl.lt, decide_eq_true_eq, Bool.false_eq_true, if_false]
    exact_mod_cast this
  · have hc := center_lt (by omega : samples - 1 - o' % samples < samples - 1 - o % samples)
      (by omega) hw
    have : (v' : ℝ) < v := by
      simp only [part, if_true] at hv hv'
      rw [abs_le] at hv hv'
      norm_num at hv hv' hc
      linarith
    simp only [Dbl.lt, decide_eq_true_eq, if_true]
    exact_mod_cast this

/-- **C96** (Mercator).  The longitude plotted for sample `i` of a Mercator map is within
`2^-47` radians of the center of its part of the circle and within the circle. -/
theorem C96_mercator (prograde : Bool) {samples i : ℕ} (hi : i < samples)
    (hn : samples ≤ 2 ^ 31) :
    ∃ v : ℚ, mercatorLongitudeF .ieee prograde samples i = .fin v ∧
      |(v : ℝ) - center 0 360 samples (part prograde samples i)| ≤ 1 / 2 ^ 47 ∧
      0 ≤ v ∧ (Dbl.fin v).le c2pi = true := by
  have hn1 : (1 : ℚ) ≤ samples := by exact_mod_cast (by omega : 1 ≤ samples)
  have hn2 : (samples : ℚ) ≤ 2 ^ 31 := by exact_mod_cast hn
  have hi1 : (i : ℚ) + 1 ≤ samples := by exact_mod_cast hi
  have n0 : (0 : ℚ) < samples := by linarith
  obtain ⟨t, ht⟩ : ∃ t : ℚ, t = ((i : ℚ) + 1 / 2) / samples := ⟨_, rfl⟩
  have t0 : 0 ≤ t := by rw [ht]; positivity
  have t1 : t ≤ 1 := by rw [ht, div_le_one n0]; linarith
  have one : rnd53 1 = 1 := by decide +kernel
  have hC : IsDouble circleQ := by unfold IsDouble; decide +kernel
  have c0 : (0 : ℚ) ≤ circleQ := by norm_num [circleQ]
  have c8 : circleQ ≤ 8 := by norm_num [circleQ]
  have e2 : ieee.rnd (samples : ℚ) = .fin samples := by
    rw [ieee_rnd_fin (by rw [abs_of_pos n0]; exact hn2.trans (by norm_num)), isDouble_nat hn]
  -- the part of the circle
  have d1 := rnd53_err200 t
  have r0 := rnd53_mono t0
  have r1 := rnd53_mono t1
  rw [rnd53_zero] at r0
  rw [one] at r1
  have e3 : ieee.div (.fin ((i : ℚ) + 1 / 2)) (.fin (samples : ℚ)) = .fin (rnd53 t) := by
    show (if (samples : ℚ) = 0 then _ else ieee.rnd _) = _
    rw [if_neg n0.ne', ← ht, ieee_rnd_fin]
    rw [abs_of_nonneg t0]
    exact t1.trans (by norm_num)
  generalize rnd53 t = t' at *
  -- the product
  have p0 : 0 ≤ t' * circleQ := mul_nonneg r0 c0
  have p1 : t' * circleQ ≤ circleQ := by nlinarith
  have d2 := rnd53_err200 (t' * circleQ)
  have m0 := rnd53_mono p0
  have m1 := rnd53_mono p1
  rw [rnd53_zero] at m0
  rw [hC] at m1
  have e4 : ieee.mul (.fin t') (.fin circleQ) = .fin (rnd53 (t' * circleQ)) := by
    refine ieee_rnd_fin ?_
    rw [abs_of_nonneg p0]
    exact p1.trans (c8.trans (by norm_num))
  have dm : IsDouble (rnd53 (t' * circleQ)) := isDouble_rnd _
  have z : ieee.mul (.fin 0) cDegree = .fin 0 := by decide +kernel
  generalize hm : rnd53 (t' * circleQ) = m at *
  have e5 : ieee.add (.fin m) (.fin 0) = .fin m := by
    show ieee.rnd (m + 0) = _
    rw [add_zero, ieee_rnd_fin (by rw [abs_of_nonneg m0]; exact m1.trans (c8.trans (by norm_num))),
      dm]
  have hl : ieee.add (ieee.mul (ieee.div (CylindricalF.half .ieee i) (ieee.rnd samples)) c2pi)
      (ieee.mul (.fin 0) cDegree) = .fin m := by
    rw [half_eq (by omega), e2, e3, c2pi_eq, e4, z, e5]
  -- errors
  have err : |m - t * circleQ| ≤ 16 / 2 ^ 53 + 1 / 2 ^ 190 := by
    have h1 : |t' * circleQ - t * circleQ| ≤ (t / 2 ^ 53 + 1 / 2 ^ 200) * 8 := by
      rw [← sub_mul, abs_mul, abs_of_nonneg c0]
      rw [abs_of_nonneg t0] at d1
      exact mul_le_mul d1 c8 c0 (by positivity)
    rw [abs_of_nonneg p0] at d2
    have := abs_sub_le m (t' * circleQ) (t * circleQ)
    norm_num at h1 d2 this ⊢
    linarith
  have errR : |(m : ℝ) - t * circleQ| ≤ 16 / 2 ^ 53 + 1 / 2 ^ 190 := by
    have := (Rat.cast_le (K := ℝ)).mpr err
    push_cast at this
    exact this
  have t0R : (0 : ℝ) ≤ t := by exact_mod_cast t0
  have t1R : (t : ℝ) ≤ 1 := by exact_mod_cast t1
  have hc := circleQ_near
  have hct : |(t : ℝ) * circleQ - t * (2 * Real.pi)| ≤ 1 / 2 ^ 51 := by
    rw [← mul_sub, abs_mul, abs_of_nonneg t0R]
    nlinarith [abs_nonneg ((circleQ : ℝ) - 2 * Real.pi)]
  have ct : center 0 360 samples i = t * (2 * Real.pi) := by
    unfold center
    rw [ht]
    push_cast
    ring
  unfold mercatorLongitudeF
  simp only
  rw [hl]
  cases prograde
  · refine ⟨m, rfl, ?_, m0, by rw [c2pi_eq]; simpa using m1⟩
    show |(m : ℝ) - center 0 360 samples i| ≤ _
    rw [ct]
    have := abs_sub_le (m : ℝ) (t * circleQ) (t * (2 * Real.pi))
    norm_num at errR hct this ⊢
    linarith
  · have q0 : 0 ≤ circleQ - m := by linarith
    have q1 : circleQ - m ≤ circleQ := by linarith
    have d3 := rnd53_err200R (circleQ - m)
    have s0 := rnd53_mono q0
    have s1 := rnd53_mono q1
    rw [rnd53_zero] at s0
    rw [hC] at s1
    have e6 : ieee.sub c2pi (.fin m) = .fin (rnd53 (circleQ - m)) := by
      rw [c2pi_eq]
      show ieee.rnd (circleQ + -m) = _
      rw [← sub_eq_add_neg]
      refine ieee_rnd_fin ?_
      rw [abs_of_nonneg q0]
      exact q1.trans (c8.trans (by norm_num))
    simp only [if_true]
    rw [e6]
    refine ⟨_, rfl, ?_, s0, by rw [c2pi_eq]; simpa using s1⟩
    have ct' : center 0 360 samples (part true samples i) = 2 * Real.pi - center 0 360 samples i := by
      unfold center part
      simp only [if_true]
      have hs : (samples : ℝ) ≠ 0 := by exact_mod_cast (by omega : samples ≠ 0)
      rw [Nat.cast_sub (by omega), Nat.cast_sub (by omega)]
      push_cast
      field_simp
      ring
    rw [ct', ct]
    have hb : |((circleQ - m : ℚ) : ℝ)| ≤ 8 := by
      have : |circleQ - m| ≤ 8 := by rw [abs_of_nonneg q0]; linarith
      exact_mod_cast this
    have hb' : |((circleQ - m : ℚ) : ℝ)| / 2 ^ 53 ≤ 8 / 2 ^ 53 := by gcongr
    push_cast at d3 hb'
    rw [abs_le] at d3 errR hct hc ⊢
    norm_num at d3 hb' errR hct hc ⊢
    constructor <;> linarith

end C96

/-- Hypotheses of the theorems on simple cylindrical maps are met by a map of the whole
of Jupiter, and by one over the prime meridian. -/
example (L : Libm) : ∃ c, CylindricalF.new .ieee L (.fin 71492) (.fin 66854) true (.fin (-90))
    (.fin 90) (.fin 0) (.fin 360) false = .ok c ∧
    ((c.latitude .ieee L 180 90, c.longitude .ieee 360 3), 90 * 360 + 3) ∈
      c.plotMap .ieee L 360 180 := by
  refine ⟨_, rfl, ?_⟩
  unfold CylindricalF.plotMap
  simp only [List.mem_flatMap, List.mem_range, List.mem_map, Prod.mk.injEq]
  exact ⟨90, by norm_num, 3, by norm_num, ⟨rfl, rfl⟩, rfl⟩

example : Distinguishable 350 10 ∧ lonRange 350 10 = (-10, 10) := by
  unfold Distinguishable lonRange
  norm_num

example (L : Libm) : ∃ c, CylindricalF.new .ieee L (.fin 71492) (.fin 66854) false (.fin (-30))
    (.fin 45) (.fin 350) (.fin 10) true = .ok c := ⟨_, rfl⟩

example : ∃ L : Libm, L.Correct := exists_correct

/-- The center of the middle line of five between -90 and 90 degrees is the equator. -/
example : center (-90) 90 5 2 = 0 := by
  unfold center
  norm_num

end MaRC
