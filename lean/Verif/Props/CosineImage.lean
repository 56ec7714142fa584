import Verif.Lemmas.Libm
import Verif.Model.MapFactory
import Verif.Props.VirtualImage
import Mathlib.Analysis.Real.Pi.Bounds

/-! # Incidence angle images (C79) -/

namespace MaRC

open Fp

/-! ## Sine, cosine, tangent and arc tangent at 12 degrees -/

/-- Error of the sums of 24 terms. -/
def cisErr : ℚ := 25 / (620448401733239439360000 * 24)

theorem cis24 {q : ℚ} (hq : |q| ≤ 1) :
    (((cisSum q 24).1 - cisErr : ℚ) : ℝ) ≤ Real.cos q ∧
    Real.cos q ≤ (((cisSum q 24).1 + cisErr : ℚ) : ℝ) ∧
    (((cisSum q 24).2 - cisErr : ℚ) : ℝ) ≤ Real.sin q ∧
    Real.sin q ≤ (((cisSum q 24).2 + cisErr : ℚ) : ℝ) := by
  have h := cis_bound hq (n := 24) (by norm_num)
  have e : ((Nat.succ 24 : ℕ) / ((Nat.factorial 24 : ℕ) * (24 : ℕ)) : ℚ) = cisErr := by
    norm_num [Nat.factorial, cisErr]
  rw [e, abs_le, abs_le] at h
  push_cast
  refine ⟨?_, ?_, ?_, ?_⟩ <;> linarith [h.1.1, h.1.2, h.2.1, h.2.2]

/-- 12 degrees in radians, as the program computes it. -/
def lat12 : ℚ := 3772926801081835 / 2 ^ 54

theorem lat12_eq : ieee.mul (.fin 12) cDegree = .fin lat12 := by decide +kernel

/-- Rounded sine, cosine and tangent of `lat12`. -/
def sin12 : ℚ := 3745404053171323 / 2 ^ 54
@[inherit_doc sin12] def cos12 : ℚ := 68831018284033 / 2 ^ 46
@[inherit_doc sin12] def tan12 : ℚ := 1914539303864531 / 2 ^ 53

theorem abs_lat12 : |lat12| ≤ 1 := by decide +kernel

theorem sin_lat12 {L : Libm} (h : L.Correct) : L.sin (.fin lat12) = .fin sin12 := by
  obtain ⟨-, -, h1, h2⟩ := cis24 abs_lat12
  exact h.sin.eq h1 h2 (by decide +kernel) (by decide +kernel)

theorem cos_lat12 {L : Libm} (h : L.Correct) : L.cos (.fin lat12) = .fin cos12 := by
  obtain ⟨h1, h2, -, -⟩ := cis24 abs_lat12
  exact h.cos.eq h1 h2 (by decide +kernel) (by decide +kernel)

/-- Rational bounds of the tangent. -/
theorem tan_bounds {q : ℚ} (hq : |q| ≤ 1) (hc : 0 < (cisSum q 24).1 - cisErr)
    (hs : 0 < (cisSum q 24).2 - cisErr) :
    ((((cisSum q 24).2 - cisErr) / ((cisSum q 24).1 + cisErr) : ℚ) : ℝ) ≤ Real.tan q ∧
    Real.tan q ≤ ((((cisSum q 24).2 + cisErr) / ((cisSum q 24).1 - cisErr) : ℚ) : ℝ) := by
  obtain ⟨c1, c2, s1, s2⟩ := cis24 hq
  have hc' : (0 : ℝ) < (((cisSum q 24).1 - cisErr : ℚ) : ℝ) := by exact_mod_cast hc
  have hs' : (0 : ℝ) < (((cisSum q 24).2 - cisErr : ℚ) : ℝ) := by exact_mod_cast hs
  have hcos : 0 < Real.cos q := hc'.trans_le c1
  rw [Real.tan_eq_sin_div_cos, Rat.cast_div, Rat.cast_div]
  constructor
  · exact div_le_div₀ (hs'.le.trans s1) s1 hcos c2
  · exact div_le_div₀ (hs'.le.trans (s1.trans s2)) s2 hc' c1

theorem tan_lat12 {L : Libm} (h : L.Correct) : L.tan (.fin lat12) = .fin tan12 := by
  obtain ⟨h1, h2⟩ := tan_bounds abs_lat12 (by decide +kernel) (by decide +kernel)
  exact h.tan.eq h1 h2 (by decide +kernel) (by decide +kernel)

/-- Numbers just below and above `lat12` that round to it. -/
def below12 : ℚ := lat12 - 49 / 100 / 2 ^ 55
@[inherit_doc below12] def above12 : ℚ := lat12 + 49 / 100 / 2 ^ 55

theorem lt_half_pi {q : ℚ} (h : |q| ≤ 1) : -(Real.pi / 2) < (q : ℝ) ∧ (q : ℝ) < Real.pi / 2 := by
  have h' : |(q : ℝ)| ≤ 1 := by exact_mod_cast h
  have := Real.pi_gt_three
  rw [abs_le] at h'
  constructor <;> linarith [h'.1, h'.2]

theorem atan_tan12 {L : Libm} (h : L.Correct) : L.atan (.fin tan12) = .fin lat12 := by
  have hb : |below12| ≤ 1 := by decide +kernel
  have ha : |above12| ≤ 1 := by decide +kernel
  refine h.atan.eq (q1 := below12) (q2 := above12) ?_ ?_ (by decide +kernel) (by decide +kernel)
  · have h1 := (tan_bounds hb (by decide +kernel) (by decide +kernel)).2
    have h2 : ((cisSum below12 24).2 + cisErr) / ((cisSum below12 24).1 - cisErr) ≤ tan12 := by
      decide +kernel
    have h3 : Real.tan below12 ≤ (tan12 : ℝ) := h1.trans (by exact_mod_cast h2)
    rw [← Real.arctan_tan (lt_half_pi hb).1 (lt_half_pi hb).2]
    exact Real.arctan_mono h3
  · have h1 := (tan_bounds ha (by decide +kernel) (by decide +kernel)).1
    have h2 : tan12 ≤ ((cisSum above12 24).2 - cisErr) / ((cisSum above12 24).1 + cisErr) := by
      decide +kernel
    have h3 : (tan12 : ℝ) ≤ Real.tan above12 := le_trans (by exact_mod_cast h2) h1
    rw [← Real.arctan_tan (lt_half_pi ha).1 (lt_half_pi ha).2]
    exact Real.arctan_mono h3

theorem cos_zero {L : Libm} (h : L.Correct) : L.cos (.fin 0) = .fin 1 :=
  h.cos.eq (q1 := 1) (q2 := 1) (by simp) (by simp) (by decide +kernel) (by decide +kernel)

theorem mu0_12 {L : Libm} (h : L.Correct) {r lon : ℚ} (hr : r ≠ 0) :
    mu0F .ieee L (.fin r) (.fin r) (.fin lat12) (.fin lon) (.fin lat12) (.fin lon) =
      .fin (1 + 1 / 2 ^ 52) := by
  have e0 : ieee.div (.fin r) (.fin r) = .fin 1 := by
    simp only [Fp.div, if_neg hr, div_self hr]
    decide +kernel
  have e1 : ieee.mul (ieee.mul (.fin 1) (.fin 1)) (.fin tan12) = .fin tan12 := by decide +kernel
  have e2 : ieee.sub (.fin lon) (.fin lon) = .fin 0 := by
    simp only [Fp.sub, Dbl.neg, Fp.add, add_neg_cancel]
    exact ieee_rnd_zero
  have e3 : graphicLatitudeF .ieee L (.fin r) (.fin r) (.fin lat12) = .fin lat12 := by
    rw [graphicLatitudeF, e0, tan_lat12 h, e1, atan_tan12 h]
  simp only [mu0F, e3, sin_lat12 h, cos_lat12 h, e2, cos_zero h]
  decide +kernel

/-- **C79** (violated).  However good the mathematical library: on every spherical
body, with the sun above latitude 12 degrees, the image cannot be read at the
sub-solar point, where a failed assertion ends the program. -/
theorem C79_violated {L : Libm} (h : L.Correct) {r : ℚ} (hr : r ≠ 0) (lon : ℚ) (v : VirtualImage) :
    (Mu0Image.mk (.fin r) (.fin r) (ieee.mul (.fin 12) cDegree) (.fin lon) v).readDataI .ieee L
      true (ieee.mul (.fin 12) cDegree) (.fin lon) = .ub := by
  rw [lat12_eq]
  simp only [Mu0Image.readDataI, mu0_12 h hr]
  decide +kernel

/-- Non-vacuity: there is such a library. -/
example : ∃ L : Libm, L.Correct := exists_correct

/-- The image as a map factory reads it. -/
def Mu0Image.source (L : Libm) (m : Mu0Image) : ReadData (Dbl × Dbl) := fun c old =>
  (m.readData .ieee L false c.1 c.2).bind fun d => match d with
    | some d => .ok (true, d)
    | none => .ok (false, old)

/-- A cosine above 1 by one unit in the last place: in maps of every data type its
datum is above the maximum of the factory and not plotted. -/
theorem excess_out (T : MapType) : ∃ (v : VirtualImage) (lo hi : Dbl) (e : Extrema),
    makeVirtual .ieee T (.fin (-1)) (.fin 1) = .ok (v, lo, hi) ∧
    ((Extrema.mk (some lo) (some hi)).convert T).bind (MapFactory.getExtrema T) = .ok e ∧
    (ieee.add (ieee.mul (.fin (1 + 1 / 2 ^ 52)) v.scale) v.offset).gt hi = true ∧
    e.inRange T (ieee.add (ieee.mul (.fin (1 + 1 / 2 ^ 52)) v.scale) v.offset) = false := by
  cases T
  · exact ⟨⟨.fin 100, .fin 100⟩, .fin 0, .fin 200, ⟨some (.fin 0), some (.fin 200)⟩,
      by decide +kernel, by decide +kernel, by decide +kernel, by decide +kernel⟩
  · exact ⟨⟨.fin 10000, .fin 0⟩, .fin (-10000), .fin 10000,
      ⟨some (.fin (-10000)), some (.fin 10000)⟩,
      by decide +kernel, by decide +kernel, by decide +kernel, by decide +kernel⟩
  · exact ⟨⟨.fin (10 ^ 9), .fin 0⟩, .fin (-10 ^ 9), .fin (10 ^ 9),
      ⟨some (.fin (-10 ^ 9)), some (.fin (10 ^ 9))⟩,
      by decide +kernel, by decide +kernel, by decide +kernel, by decide +kernel⟩
  · exact ⟨⟨.fin (10 ^ 18), .fin 0⟩, .fin (-10 ^ 18), .fin (10 ^ 18),
      ⟨some (.fin (-10 ^ 18)), some (.fin (10 ^ 18))⟩,
      by decide +kernel, by decide +kernel, by decide +kernel, by decide +kernel⟩
  · exact ⟨⟨.fin 1, .fin 0⟩, .fin (-1), .fin 1, ⟨some (.fin (-1)), some (.fin 1)⟩,
      by decide +kernel, by decide +kernel, by decide +kernel, by decide +kernel⟩
  · exact ⟨⟨.fin 1, .fin 0⟩, .fin (-1), .fin 1, ⟨some (.fin (-1)), some (.fin 1)⟩,
      by decide +kernel, by decide +kernel, by decide +kernel, by decide +kernel⟩

/-- **C79** (violated, without assertions).  If assertions are compiled out, the same
pixel is left blank in maps of every data type: the datum read is above the maximum
the image factory gives. -/
theorem C79_blank_violated {L : Libm} (h : L.Correct) (T : MapType) {r : ℚ} (hr : r ≠ 0)
    {lonDeg lon : ℚ} (hl : ieee.mul (.fin lonDeg) cDegree = .fin lon) :
    ∃ (m : Mu0Image) (lo hi : Dbl) (e : Extrema),
      Mu0Image.make .ieee T (.fin r) (.fin r) (.fin 12) (.fin lonDeg) = .ok (m, lo, hi) ∧
      ((Extrema.mk (some lo) (some hi)).convert T).bind (MapFactory.getExtrema T) = .ok e ∧
      (∃ d, m.readData .ieee L false (ieee.mul (.fin 12) cDegree) (.fin lon) = .ok (some d) ∧
        d.gt hi = true) ∧
      ∀ (s s' : MapFactory.State) (offset : ℕ),
        MapFactory.plot T (m.source L) e s (ieee.mul (.fin 12) cDegree, .fin lon) offset = .ok s' →
        s'.map = s.map := by
  obtain ⟨v, lo, hi, e, hv, he, hgt, hout⟩ := excess_out T
  have hread : (Mu0Image.new .ieee (.fin r) (.fin r) (.fin 12) (.fin lonDeg) v).readData .ieee L
      false (ieee.mul (.fin 12) cDegree) (.fin lon) =
      .ok (some (ieee.add (ieee.mul (.fin (1 + 1 / 2 ^ 52)) v.scale) v.offset)) := by
    simp only [Mu0Image.readData, Mu0Image.readDataI, Mu0Image.new, hl, lat12_eq, mu0_12 h hr]
    rfl
  refine ⟨_, lo, hi, e, by simp [Mu0Image.make, hv, Outcome.bind], he, ⟨_, hread, hgt⟩, ?_⟩
  intro s s' offset hp
  have hsrc : (Mu0Image.new .ieee (.fin r) (.fin r) (.fin 12) (.fin lonDeg) v).source L
      (ieee.mul (.fin 12) cDegree, .fin lon) (.fin 0) =
      .ok (true, ieee.add (ieee.mul (.fin (1 + 1 / 2 ^ 52)) v.scale) v.offset) := by
    simp only [Mu0Image.source, hread, Outcome.bind]
  simp only [MapFactory.plot, hsrc, Outcome.bind_ok, hout, Bool.and_false, Bool.false_eq_true,
    if_false] at hp
  cases hn : s.info.notifier.notifyPlotted s.map.length with
  | ok n =>
    rw [hn] at hp
    simp only [Outcome.bind_ok, Outcome.ok.injEq] at hp
    rw [← hp]
  | throw => rw [hn] at hp; simp at hp
  | ub => rw [hn] at hp; simp at hp

theorem rnd_near {q : ℚ} (hq : |q| ≤ 3) :
    ∃ r : ℚ, ieee.rnd q = .fin r ∧ |(r : ℝ) - q| ≤ 2 ^ (-51 : ℤ) := by
  have h3 : (2 : ℚ) ^ (-1074 : ℤ) ≤ 2 ^ (-60 : ℤ) := zpow_le_zpow_right₀ (by norm_num) (by norm_num)
  have h4 : |q| / 2 ^ 53 ≤ 3 / 2 ^ 53 := by gcongr
  have hk : |rnd53 q - q| ≤ 2 ^ (-51 : ℤ) := by
    refine (rnd53_err q).trans ?_
    norm_num at h3 h4 ⊢
    linarith
  refine ⟨rnd53 q, ?_, ?_⟩
  · have hM := dblMax_ge
    rw [abs_le] at hq hk
    norm_num at hq hk hM
    rw [ieee_rnd, if_neg (by linarith), if_neg (by linarith)]
  · have := (Rat.cast_le (K := ℝ)).mpr hk
    push_cast at this
    exact this

/-- Error of a product of numbers up to 1. -/
theorem mul_near {x y X Y a b : ℝ} (hx : |x| ≤ 1) (hY : |Y| ≤ 1) (h1 : |x - X| ≤ a)
    (h2 : |y - Y| ≤ b) : |x * y - X * Y| ≤ a + b := by
  have e : x * y - X * Y = x * (y - Y) + (x - X) * Y := by ring
  rw [e]
  refine (abs_add_le _ _).trans ?_
  rw [abs_mul, abs_mul]
  have := mul_le_mul hx h2 (abs_nonneg _) zero_le_one
  have := mul_le_mul h1 hY (abs_nonneg _) ((abs_nonneg _).trans h1)
  linarith

theorem cosine_le_one (a b c : ℝ) :
    |Real.sin a * Real.sin b + Real.cos a * Real.cos b * Real.cos c| ≤ 1 := by
  have h1 := Real.sin_sq_add_cos_sq a
  have h2 := Real.sin_sq_add_cos_sq b
  have h3 := Real.sin_sq_add_cos_sq c
  rw [← sq_le_one_iff_abs_le_one]
  have e : 1 - (Real.sin a * Real.sin b + Real.cos a * Real.cos b * Real.cos c) ^ 2 =
      (Real.sin a * Real.cos b * Real.cos c - Real.cos a * Real.sin b) ^ 2 +
        Real.cos b ^ 2 * Real.sin c ^ 2 := by
    linear_combination (-1 : ℝ) * h2 - (Real.sin b ^ 2 + Real.cos b ^ 2 * Real.cos c ^ 2) * h1
      - Real.cos b ^ 2 * h3
  nlinarith [sq_nonneg (Real.sin a * Real.cos b * Real.cos c - Real.cos a * Real.sin b),
    mul_nonneg (sq_nonneg (Real.cos b)) (sq_nonneg (Real.sin c))]

/-- **C79** (how far off).  With correctly rounded functions every datum is a number
that exceeds the interval from -1 to 1 by less than 2^-48, whatever the body, the
sun's place and the point, as long as the planetographic latitude and the difference
of longitudes are numbers.  Missing: the excess is not zero (`C79_violated`). -/
theorem C79_bound_partial {L : Libm} (h : L.Correct) {eqRad polRad lat subLon lon : Dbl}
    {subLat latg dlon : ℚ} (hg : graphicLatitudeF .ieee L eqRad polRad lat = .fin latg)
    (hd : ieee.sub subLon lon = .fin dlon) :
    ∃ d : ℚ, mu0F .ieee L eqRad polRad (.fin subLat) subLon lat lon = .fin d ∧
      |d| ≤ 1 + 2 ^ (-48 : ℤ) := by
  obtain ⟨s1, e1, n1, b1⟩ := h.sin.near subLat (Real.abs_sin_le_one _)
  obtain ⟨s2, e2, n2, b2⟩ := h.sin.near latg (Real.abs_sin_le_one _)
  obtain ⟨c1, e3, n3, b3⟩ := h.cos.near subLat (Real.abs_cos_le_one _)
  obtain ⟨c2, e4, n4, b4⟩ := h.cos.near latg (Real.abs_cos_le_one _)
  obtain ⟨c3, e5, n5, b5⟩ := h.cos.near dlon (Real.abs_cos_le_one _)
  have r1 : |(s1 : ℝ)| ≤ 1 := by exact_mod_cast b1
  have r2 : |(s2 : ℝ)| ≤ 1 := by exact_mod_cast b2
  have r3 : |(c1 : ℝ)| ≤ 1 := by exact_mod_cast b3
  have r4 : |(c2 : ℝ)| ≤ 1 := by exact_mod_cast b4
  have r5 : |(c3 : ℝ)| ≤ 1 := by exact_mod_cast b5
  have m1 : |s1 * s2| ≤ 1 := by rw [abs_mul]; exact mul_le_one₀ b1 (abs_nonneg _) b2
  have m2 : |c1 * c2| ≤ 1 := by rw [abs_mul]; exact mul_le_one₀ b3 (abs_nonneg _) b4
  obtain ⟨a, ea, na⟩ := rnd_near (q := s1 * s2) (by linarith)
  obtain ⟨b, eb, nb⟩ := rnd_near (q := c1 * c2) (by linarith)
  have bb : |(b : ℝ)| ≤ 3 / 2 := by
    have m2' : |((c1 * c2 : ℚ) : ℝ)| ≤ 1 := by exact_mod_cast m2
    push_cast at nb m2'
    rw [abs_le] at nb m2' ⊢
    norm_num at nb m2' ⊢
    constructor <;> linarith
  have ba : |(a : ℝ)| ≤ 3 / 2 := by
    have m1' : |((s1 * s2 : ℚ) : ℝ)| ≤ 1 := by exact_mod_cast m1
    push_cast at na m1'
    rw [abs_le] at na m1' ⊢
    norm_num at na m1' ⊢
    constructor <;> linarith
  have m3 : |(b * c3 : ℚ)| ≤ 3 / 2 := by
    have : |((b * c3 : ℚ) : ℝ)| ≤ 3 / 2 := by
      push_cast
      rw [abs_mul]
      nlinarith [abs_nonneg (b : ℝ), abs_nonneg (c3 : ℝ)]
    have : ((|(b * c3 : ℚ)| : ℚ) : ℝ) ≤ ((3 / 2 : ℚ) : ℝ) := by push_cast at this ⊢; exact this
    exact Rat.cast_le.mp this
  obtain ⟨c, ec, nc⟩ := rnd_near (q := b * c3) (by linarith)
  have f1 : |(s1 * s2 : ℝ) - Real.sin subLat * Real.sin latg| ≤ 2 ^ (-52 : ℤ) + 2 ^ (-52 : ℤ) :=
    mul_near r1 (Real.abs_sin_le_one _) n1 n2
  have f2 : |(c1 * c2 : ℝ) - Real.cos subLat * Real.cos latg| ≤ 2 ^ (-52 : ℤ) + 2 ^ (-52 : ℤ) :=
    mul_near r3 (Real.abs_cos_le_one _) n3 n4
  have f3 : |(b : ℝ) - Real.cos subLat * Real.cos latg| ≤ 2 ^ (-50 : ℤ) := by
    push_cast at nb
    rw [abs_le] at nb f2 ⊢
    norm_num at nb f2 ⊢
    constructor <;> linarith
  have f4 : |(c3 * b : ℝ) - Real.cos dlon * (Real.cos subLat * Real.cos latg)| ≤
      2 ^ (-52 : ℤ) + 2 ^ (-50 : ℤ) := by
    refine mul_near r5 ?_ n5 f3
    rw [abs_mul]
    exact mul_le_one₀ (Real.abs_cos_le_one _) (abs_nonneg _) (Real.abs_cos_le_one _)
  have hone := cosine_le_one subLat latg dlon
  have hsum : |((a + c : ℚ) : ℝ)| ≤ 1 + 13 * 2 ^ (-52 : ℤ) - 2 ^ (-51 : ℤ) := by
    push_cast at na nc ⊢
    rw [abs_le] at na nc f1 f4 hone ⊢
    norm_num at na nc f1 f4 hone ⊢
    constructor <;> linarith
  obtain ⟨d, ed, nd⟩ := rnd_near (q := a + c) (by
    have h3 : |((a + c : ℚ) : ℝ)| ≤ 3 := by norm_num at hsum ⊢; linarith
    have : ((|(a + c : ℚ)| : ℚ) : ℝ) ≤ ((3 : ℚ) : ℝ) := by push_cast at h3 ⊢; exact h3
    exact Rat.cast_le.mp this)
  refine ⟨d, ?_, ?_⟩
  · simp only [mu0F, hg, hd, e1, e2, e3, e4, e5, Fp.mul, ea, eb, ec, Fp.add, ed]
  · have : |(d : ℝ)| ≤ 1 + 2 ^ (-48 : ℤ) := by
      rw [abs_le] at nd hsum ⊢
      norm_num at nd hsum ⊢
      constructor <;> linarith
    have : ((|d| : ℚ) : ℝ) ≤ ((1 + 2 ^ (-48 : ℤ) : ℚ) : ℝ) := by push_cast; exact this
    exact Rat.cast_le.mp this

theorem asserted_iff {a : Dbl} : (!(a.ge (.fin (-1)) && a.le (.fin 1))) = false ↔
    ∃ q : ℚ, a = .fin q ∧ -1 ≤ q ∧ q ≤ 1 := by
  cases a <;> simp [Dbl.ge, Dbl.le]

/-- **C79** (which points are read).  With assertions, a point is read exactly if the cosine
computed there is a number from -1 to 1, both included, and the datum is this number through
scale and offset. -/
theorem C79_read_partial (F : Fp) (L : Libm) (m : Mu0Image) (lat lon d : Dbl) :
    m.readData F L true lat lon = .ok (some d) ↔
      ∃ q : ℚ, mu0F F L m.eqRad m.polRad m.subLat m.subLon lat lon = .fin q ∧ -1 ≤ q ∧ q ≤ 1 ∧
        d = F.add (F.mul (.fin q) m.virtual.scale) m.virtual.offset := by
  simp only [Mu0Image.readData, Mu0Image.readDataI, Bool.true_and]
  cases h : (!((mu0F F L m.eqRad m.polRad m.subLat m.subLon lat lon).ge (.fin (-1)) &&
      (mu0F F L m.eqRad m.polRad m.subLat m.subLon lat lon).le (.fin 1))) with
  | false =>
    obtain ⟨q, h1, h2, h3⟩ := asserted_iff.1 h
    simp [h1, h2, h3, Outcome.bind, VirtualImage.readData, eq_comm]
  | true =>
    simp only [if_true, Outcome.bind, reduceCtorEq, false_iff]
    rintro ⟨q, h1, h2, h3, -⟩
    have := asserted_iff.2 ⟨q, h1, h2, h3⟩
    rw [h] at this
    cases this

/-- Non-vacuity: the hypotheses are met at 12 degrees, where the bound is not 1. -/
example : ∃ L : Libm, L.Correct ∧
    graphicLatitudeF .ieee L (.fin 1) (.fin 1) (.fin lat12) = .fin lat12 ∧
    ieee.sub (.fin 2) (.fin 1) = .fin 1 := by
  obtain ⟨L, h⟩ := exists_correct
  refine ⟨L, h, ?_, by decide +kernel⟩
  have e1 : ieee.mul (ieee.mul (ieee.div (.fin 1) (.fin 1)) (ieee.div (.fin 1) (.fin 1)))
      (.fin tan12) = .fin tan12 := by decide +kernel
  rw [graphicLatitudeF, tan_lat12 h, e1, atan_tan12 h]

end MaRC
