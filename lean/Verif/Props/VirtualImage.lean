import Verif.Model.VirtualImage
import Verif.Lemmas.Rounding

/-!
# C19, C20, C56: virtual images
-/

namespace MaRC

open Fp

/-! ## C19 -/

theorem truncLog10_le {T : MapType} (hT : T = .u8 ∨ T = .i16 ∨ T = .i32) {q : ℚ} (h0 : 0 < q)
    (h : q ≤ T.unsignedMax) : truncLog10 q ≤ T.digits10 := by
  unfold truncLog10
  split_ifs with h1
  · have : q < (10 : ℕ) ^ (T.digits10 + 1) := by
      refine lt_of_le_of_lt h ?_
      rcases hT with rfl | rfl | rfl <;> norm_num [MapType.unsignedMax, MapType.digits10]
    have := (Int.lt_zpow_iff_log_lt (b := 10) (by norm_num) h0).mp this
    omega
  · have h2 : Int.clog 10 q ≤ 0 := by
      rw [← Int.le_zpow_iff_clog_le (by norm_num) h0]; simpa using (not_le.mp h1).le
    have : 0 ≤ T.digits10 := by rcases hT with rfl | rfl | rfl <;> norm_num [MapType.digits10]
    omega

/-- What a successful call returns, in exact arithmetic. -/
theorem scaleAndOffset_some {T : MapType} (hT : T.isIntegral = true) {min max : ℚ} {s o : Dbl}
    (h : scaleAndOffset .exact T (.fin min) (.fin max) = .ok (some (s, o))) :
    0 < max - min ∧ max - min ≤ T.unsignedMax ∧
    s = .fin ((10 : ℚ) ^ (T.digits10 - truncLog10 (max - min))) ∧
    (((Fp.exact.mul (.fin min) s).lt (T.toDouble (.fin T.lowest)) = true ∧
        ∃ q, s = .fin q ∧ o = .fin ((max - min) / 2 * q)) ∨
      ((Fp.exact.mul (.fin min) s).lt (T.toDouble (.fin T.lowest)) = false ∧
        (Fp.exact.mul (.fin max) s).gt (T.toDouble (.fin T.highest)) = true ∧
        ∃ q, s = .fin q ∧ o = .fin (-(max - min) / 2 * q)) ∨
      ((Fp.exact.mul (.fin min) s).lt (T.toDouble (.fin T.lowest)) = false ∧
        (Fp.exact.mul (.fin max) s).gt (T.toDouble (.fin T.highest)) = false ∧ o = .fin 0)) := by
  have hs : Fp.exact.sub (.fin max) (.fin min) = .fin (max - min) := by
    simp [Fp.sub, Fp.add, Fp.exact, Dbl.neg, sub_eq_add_neg]
  unfold scaleAndOffset at h
  rw [if_pos hT, hs] at h
  simp only at h
  split_ifs at h with h1 h2 h3 h4
  · cases h
  · push Not at h1
    simp only [Outcome.ok.injEq, Option.some.injEq, Prod.mk.injEq] at h
    obtain ⟨rfl, rfl⟩ := h
    exact ⟨lt_of_le_of_ne h1.1 (Ne.symm h2), h1.2, rfl, .inl ⟨h3, _, rfl, by
      simp [Fp.mul, Fp.div, Fp.exact]⟩⟩
  · push Not at h1
    simp only [Outcome.ok.injEq, Option.some.injEq, Prod.mk.injEq] at h
    obtain ⟨rfl, rfl⟩ := h
    exact ⟨lt_of_le_of_ne h1.1 (Ne.symm h2), h1.2, rfl, .inr (.inl ⟨by simpa using h3, h4, _, rfl, by
      simp [Fp.mul, Fp.div, Fp.exact]⟩)⟩
  · push Not at h1
    simp only [Outcome.ok.injEq, Option.some.injEq, Prod.mk.injEq] at h
    obtain ⟨rfl, rfl⟩ := h
    exact ⟨lt_of_le_of_ne h1.1 (Ne.symm h2), h1.2, rfl, .inr (.inr ⟨by simpa using h3, by simpa using h4, rfl⟩)⟩

/-- C19: the scale is always a power of ten, and at least 1 for maps of 8, 16 and
32 bit integers. -/
theorem C19_scale_partial {T : MapType} (hT : T.isIntegral = true) {min max : ℚ} {s o : Dbl}
    (h : scaleAndOffset .exact T (.fin min) (.fin max) = .ok (some (s, o))) :
    (∃ n : ℤ, s = .fin ((10 : ℚ) ^ n)) ∧ (T ≠ .i64 → (Dbl.fin 1).le s = true) := by
  obtain ⟨h1, h2, h3, -⟩ := scaleAndOffset_some hT h
  refine ⟨⟨_, h3⟩, fun hi => ?_⟩
  rw [h3, Dbl.le_fin]
  apply one_le_zpow₀ (by norm_num)
  have := truncLog10_le (T := T) (by cases T <;> simp_all [MapType.isIntegral]) h1 h2
  omega

/-- C19, the scale, is false of the code for 64 bit integer maps: a source range
of `1.2 * 10^19` is given the scale 1/10. -/
theorem C19_scale_violated :
    scaleAndOffset .exact .i64 (.fin 0) (.fin (12 * 10 ^ 18)) = .ok (some (.fin (1 / 10), .fin 0)) ∧
    scaleAndOffset .ieee .i64 (.fin 0) (.fin (12 * 10 ^ 18)) =
      .ok (some (ieee.rnd (1 / 10), .fin 0)) := by decide +kernel

/-- C19: a source range wider than the type (or an infinite, negative or NaN one)
has no scale, with any rounding. -/
theorem C19_too_wide (F : Fp) {T : MapType} (hT : T.isIntegral = true) (min max : Dbl)
    (h : ∀ r, F.sub max min = .fin r → r < 0 ∨ T.unsignedMax < r) :
    scaleAndOffset F T min max = .ok none := by
  unfold scaleAndOffset
  rw [if_pos hT]
  split
  · rename_i r hr; rw [if_pos (h r hr)]
  · rfl

example : scaleAndOffset .ieee .u8 (.fin 0) (.fin 360) = .ok none ∧
    scaleAndOffset .ieee .i16 (.fin (-dblMax)) (.fin dblMax) = .ok none ∧
    scaleAndOffset .ieee .i32 .nan (.fin 1) = .ok none := by decide +kernel

/-- C19, false of the code: for equal bounds the exponent is the conversion of an
infinity to `int`, undefined behaviour. -/
theorem C19_point_violated {T : MapType} (hT : T.isIntegral = true) (q : ℚ) :
    scaleAndOffset .ieee T (.fin q) (.fin q) = .ub := by
  have h : ieee.sub (.fin q) (.fin q) = .fin 0 := by
    simp only [Fp.sub, Fp.add, Dbl.neg]
    rw [show q + -q = 0 by ring, ieee_rnd_zero]
  have hu : ¬ ((0 : ℚ) < 0 ∨ T.unsignedMax < 0) := by
    cases T <;> norm_num [MapType.unsignedMax]
  unfold scaleAndOffset
  rw [if_pos hT, h]
  simp only [if_neg hu, if_true]

/-- C19: what the scale achieves.  A source range of at least 1 is blown up to at
least `10^digits10` and less than `10^(digits10+1)`; a smaller one to more than
`10^(digits10-1)` and at most `10^digits10`. -/
theorem C19_span {T : MapType} (hT : T.isIntegral = true) {min max : ℚ} {s o : Dbl}
    (h : scaleAndOffset .exact T (.fin min) (.fin max) = .ok (some (s, o))) :
    ∃ q, s = .fin q ∧ 0 < q ∧
      (1 ≤ max - min → (10 : ℚ) ^ T.digits10 ≤ (max - min) * q ∧
        (max - min) * q < (10 : ℚ) ^ (T.digits10 + 1)) ∧
      (max - min < 1 → (10 : ℚ) ^ (T.digits10 - 1) < (max - min) * q ∧
        (max - min) * q ≤ (10 : ℚ) ^ T.digits10) := by
  obtain ⟨h1, h2, h3, -⟩ := scaleAndOffset_some hT h
  refine ⟨_, h3, zpow_pos (by norm_num) _, ?_, ?_⟩
  · intro hr
    have hlo : ((10 : ℕ) : ℚ) ^ Int.log 10 (max - min) ≤ max - min :=
      Int.zpow_log_le_self (by norm_num) h1
    have hhi : max - min < ((10 : ℕ) : ℚ) ^ (Int.log 10 (max - min) + 1) :=
      Int.lt_zpow_succ_log_self (by norm_num) _
    push_cast at hlo hhi
    simp only [truncLog10, if_pos hr]
    have hp : (0 : ℚ) < 10 ^ (T.digits10 - Int.log 10 (max - min)) := zpow_pos (by norm_num) _
    constructor
    · calc (10 : ℚ) ^ T.digits10 = 10 ^ Int.log 10 (max - min) *
            10 ^ (T.digits10 - Int.log 10 (max - min)) := by
            rw [← zpow_add₀ (by norm_num)]; congr 1; ring
        _ ≤ _ := mul_le_mul_of_nonneg_right hlo hp.le
    · calc _ < (10 : ℚ) ^ (Int.log 10 (max - min) + 1) *
            10 ^ (T.digits10 - Int.log 10 (max - min)) := mul_lt_mul_of_pos_right hhi hp
        _ = _ := by rw [← zpow_add₀ (by norm_num)]; congr 1; ring
  · intro hr
    have hhi : max - min ≤ ((10 : ℕ) : ℚ) ^ Int.clog 10 (max - min) :=
      Int.self_le_zpow_clog (by norm_num) _
    have hlo : ((10 : ℕ) : ℚ) ^ (Int.clog 10 (max - min) - 1) < max - min :=
      Int.zpow_pred_clog_lt_self (by norm_num) h1
    push_cast at hlo hhi
    simp only [truncLog10, if_neg (not_le.mpr hr)]
    have hp : (0 : ℚ) < 10 ^ (T.digits10 - Int.clog 10 (max - min)) := zpow_pos (by norm_num) _
    constructor
    · calc (10 : ℚ) ^ (T.digits10 - 1) = 10 ^ (Int.clog 10 (max - min) - 1) *
            10 ^ (T.digits10 - Int.clog 10 (max - min)) := by
            rw [← zpow_add₀ (by norm_num)]; congr 1; ring
        _ < _ := mul_lt_mul_of_pos_right hlo hp
    · calc _ ≤ (10 : ℚ) ^ Int.clog 10 (max - min) *
            10 ^ (T.digits10 - Int.clog 10 (max - min)) := mul_le_mul_of_nonneg_right hhi hp.le
        _ = _ := by rw [← zpow_add₀ (by norm_num)]; congr 1; ring

/-- `lowest` and `highest` as doubles, except that the 64 bit maximum is rounded
up. -/
theorem toDouble_lowest {T : MapType} (hT : T.isIntegral = true) :
    T.toDouble (.fin T.lowest) = .fin T.lowest := by
  cases T <;> first | rfl | (simp [MapType.isIntegral] at hT; done) | decide +kernel

theorem toDouble_highest {T : MapType} (hT : T.isIntegral = true) (h : T ≠ .i64) :
    T.toDouble (.fin T.highest) = .fin T.highest := by
  cases T <;> first | rfl | (simp [MapType.isIntegral] at hT; done) | (simp at h)

/-- C19, fitting, as far as it holds: the transformed range fits the type
(a) if no offset was needed, (b) for a source range symmetric about zero and an
unsigned map if the span does, (c) for a source range that begins at zero if half
of the span does. -/
theorem C19_fits_partial {T : MapType} (hT : T.isIntegral = true) (hi : T ≠ .i64) {min max : ℚ}
    {s o : ℚ}
    (h : scaleAndOffset .exact T (.fin min) (.fin max) = .ok (some (.fin s, .fin o)))
    (hc : o = 0 ∨ (T = .u8 ∧ min = -max ∧ (max - min) * s ≤ 255) ∨
      (T ≠ .u8 ∧ min = 0 ∧ max / 2 * s ≤ T.highest)) :
    T.lowest ≤ min * s + o ∧ max * s + o ≤ T.highest := by
  obtain ⟨h1, h2, h3, h4⟩ := scaleAndOffset_some hT h
  rw [toDouble_lowest hT, toDouble_highest hT hi] at h4
  simp only [Fp.exact, Fp.mul, Dbl.gt] at h4
  have hs : 0 < s := by
    simp only [Dbl.fin.injEq] at h3; rw [h3]; exact zpow_pos (by norm_num) _
  have hlow : T.lowest ≤ 0 := by cases T <;> norm_num [MapType.lowest, Fp.fltMax, Fp.dblMax]
  have hhl : T ≠ .u8 → -T.highest ≥ T.lowest := by
    intro hu
    cases T <;> simp_all [MapType.isIntegral] <;> norm_num [MapType.lowest, MapType.highest]
  rcases h4 with ⟨a, q, hq, ho⟩ | ⟨a, b, q, hq, ho⟩ | ⟨a, b, ho⟩
  · simp only [Dbl.fin.injEq] at hq ho
    subst hq
    rw [Dbl.lt_fin] at a
    rcases hc with rfl | ⟨rfl, hm, hsp⟩ | ⟨-, hm, hsp⟩
    · have : 0 < (max - min) / 2 * s := by positivity
      linarith
    · simp only [MapType.lowest, MapType.highest] at *
      subst hm
      constructor <;> nlinarith
    · subst hm
      rw [zero_mul] at a
      linarith
  · simp only [Dbl.fin.injEq] at hq ho
    subst hq
    rw [Dbl.lt_fin] at b
    rw [← Bool.not_eq_true, Dbl.lt_fin, not_lt] at a
    rcases hc with rfl | ⟨rfl, hm, hsp⟩ | ⟨hu, hm, hsp⟩
    · have : 0 < (max - min) / 2 * s := by positivity
      linarith
    · simp only [MapType.lowest, MapType.highest] at *
      subst hm
      nlinarith
    · subst hm
      have := hhl hu
      constructor <;> nlinarith
  · simp only [Dbl.fin.injEq] at ho
    subst ho
    rw [← Bool.not_eq_true, Dbl.lt_fin, not_lt] at a b
    constructor <;> linarith

example : scaleAndOffset .exact .i16 (.fin 0) (.fin 360) =
    .ok (some (.fin 100, .fin (-18000))) := by decide +kernel

/-- C19, fitting, is false of the code: the range [0, 9] in a byte map gets scale
100 and offset -450, that is [-450, 450]. -/
theorem C19_fits_violated :
    scaleAndOffset .ieee .u8 (.fin 0) (.fin 9) = .ok (some (.fin 100, .fin (-450))) ∧
    scaleAndOffset .ieee .i16 (.fin (-4)) (.fin 4) = .ok (some (.fin 10000, .fin 40000)) := by
  decide +kernel

/-- C19 for the ranges the program uses (cosines, latitudes, longitudes) and all
its integral map types, in IEEE arithmetic: the call succeeds, except for
longitudes in byte maps; the scale is at least 1; and the transformed range fits. -/
theorem C19_program_ranges {T : MapType} (hT : T.isIntegral = true) {r : ℚ × ℚ}
    (hr : r ∈ virtualRanges) :
    (T = .u8 ∧ r = (0, 360) ∧ makeVirtual .ieee T (.fin r.1) (.fin r.2) = .throw .rangeError) ∨
    ∃ v lo hi, makeVirtual .ieee T (.fin r.1) (.fin r.2) = .ok (v, lo, hi) ∧
      (Dbl.fin 1).le v.scale = true ∧ (Dbl.fin T.lowest).le lo = true ∧
      lo.lt hi = true ∧ hi.le (.fin T.highest) = true := by
  have key : ∀ T ∈ [MapType.u8, .i16, .i32, .i64], ∀ r ∈ virtualRanges,
      (T = .u8 ∧ r = (0, 360) ∧ scaleAndOffset .ieee T (.fin r.1) (.fin r.2) = .ok none) ∨
      (match scaleAndOffset .ieee T (.fin r.1) (.fin r.2) with
      | .ok (some (s, o)) => (Dbl.fin 1).le s &&
          (Dbl.fin T.lowest).le (ieee.add (ieee.mul (.fin r.1) s) o) &&
          (ieee.add (ieee.mul (.fin r.1) s) o).lt (ieee.add (ieee.mul (.fin r.2) s) o) &&
          (ieee.add (ieee.mul (.fin r.2) s) o).le (.fin T.highest)
      | _ => false) = true := by decide +kernel
  rcases key T (by cases T <;> simp_all [MapType.isIntegral]) r hr with ⟨h1, h2, h3⟩ | h
  · left
    refine ⟨h1, h2, ?_⟩
    simp only [makeVirtual, h3, Outcome.bind_ok]
  · right
    split at h
    · rename_i s o hso
      simp only [Bool.and_eq_true, and_assoc] at h
      refine ⟨⟨s, o⟩, _, _, ?_, h⟩
      simp only [makeVirtual, hso, Outcome.bind_ok]
    · simp at h

/-- C19: floating point maps get the data unchanged. -/
theorem C19_floating (F : Fp) {T : MapType} (hT : T.isIntegral = false) (min max : Dbl) :
    scaleAndOffset F T min max = .ok (some (.fin 1, .fin 0)) := by
  unfold scaleAndOffset; simp [hT]

/-! ## C20 -/

/-- C20: BSCALE and BZERO of a virtual image undo its scale and offset (exact
arithmetic). -/
theorem C20_round_trip (s o d : ℚ) (hs : s ≠ 0) :
    ∃ stored, VirtualImage.readData .exact ⟨.fin s, .fin o⟩ (some (.fin d)) = some stored ∧
      Fp.exact.add (Fp.exact.mul stored (VirtualImage.bscale .exact ⟨.fin s, .fin o⟩))
        (VirtualImage.bzero .exact ⟨.fin s, .fin o⟩) = .fin d := by
  refine ⟨.fin (d * s + o), rfl, ?_⟩
  simp only [VirtualImage.bscale, VirtualImage.bzero, Fp.exact, Fp.div, Fp.mul, Fp.add, Dbl.neg, hs,
    if_false, Dbl.fin.injEq]
  field_simp
  ring

/-- C20 through an integer map: the value recovered from the truncated datum is
off by less than one BSCALE. -/
theorem C20_quantised {T : MapType} (hT : T.isIntegral = true) (s o d : ℚ) (hs : s ≠ 0)
    {stored m : Dbl}
    (h : VirtualImage.readData .exact ⟨.fin s, .fin o⟩ (some (.fin d)) = some stored)
    (hm : T.cast stored = .ok m) :
    ∃ r b, Fp.exact.add (Fp.exact.mul m (VirtualImage.bscale .exact ⟨.fin s, .fin o⟩))
        (VirtualImage.bzero .exact ⟨.fin s, .fin o⟩) = .fin r ∧
      VirtualImage.bscale .exact ⟨.fin s, .fin o⟩ = .fin b ∧ |r - d| < |b| := by
  have hst : stored = .fin (d * s + o) := by
    simp only [VirtualImage.readData, Option.map_some, Option.some.injEq] at h
    rw [← h]; rfl
  subst hst
  have hm' : m = .fin (truncQ (d * s + o)) := by
    cases T <;> simp_all [MapType.cast, castInt, MapType.isIntegral] <;> split_ifs at hm <;>
      simp_all
  subst hm'
  refine ⟨truncQ (d * s + o) * (1 / s) + 1 / s * -o, 1 / s, ?_, ?_, ?_⟩
  · simp only [VirtualImage.bscale, VirtualImage.bzero, Fp.exact, Fp.div, Fp.mul, Fp.add, Dbl.neg,
      hs, if_false]
  · simp only [VirtualImage.bscale, Fp.exact, Fp.div, hs, if_false]
  · have e : (truncQ (d * s + o) : ℚ) * (1 / s) + 1 / s * -o - d =
        (truncQ (d * s + o) - (d * s + o)) * (1 / s) := by field_simp; ring
    rw [e, abs_mul]
    have h1 : |(truncQ (d * s + o) : ℚ) - (d * s + o)| < 1 := by
      unfold truncQ
      split_ifs
      · have a := Int.floor_le (d * s + o)
        have b := Int.lt_floor_add_one (d * s + o)
        rw [abs_lt]; constructor <;> linarith
      · have a := Int.le_ceil (d * s + o)
        have b := Int.ceil_lt_add_one (d * s + o)
        rw [abs_lt]; constructor <;> linarith
    have h2 : 0 < |1 / s| := abs_pos.mpr (by simpa using hs)
    nlinarith

example : MapType.cast .i16 (.fin (45 / 7 * 100 + -18000)) = .ok (.fin (-17357)) := by
  decide +kernel

/-- C20: data the image cannot supply stays unsupplied. -/
theorem C20_none (F : Fp) (v : VirtualImage) : v.readData F none = none := rfl

/-! ## C56 -/

/-- The value of the double constant `C::circle`. -/
def circleQ : ℚ := 884279719003555 / 2 ^ 47

/-- The value of the double constant `C::degree`. -/
def degreeQ : ℚ := 5030569068109113 / 2 ^ 58

/-- The value of the double constant `C::pi_2`. -/
def pi2Q : ℚ := 884279719003555 / 2 ^ 49

theorem cCircle_eq : cCircle = .fin circleQ := by decide +kernel
theorem cDegree_eq : cDegree = .fin degreeQ := by decide +kernel
theorem cPi2_eq : cPi2 = .fin pi2Q := by decide +kernel

theorem fmodQ_abs_lt (x : ℚ) {y : ℚ} (hy : 0 < y) : |fmodQ x y| < y := by
  unfold fmodQ truncQ
  have e : x = y * (x / y) := by field_simp
  split_ifs
  · have h1 := Int.floor_le (x / y)
    have h2 := Int.lt_floor_add_one (x / y)
    rw [abs_lt]
    constructor <;> nlinarith
  · have h1 := Int.le_ceil (x / y)
    have h2 := Int.ceil_lt_add_one (x / y)
    rw [abs_lt]
    constructor <;> nlinarith

/-- 360 divided steps: the division by the degree stays within 360. -/
theorem rnd_div_degree {m : ℚ} (hm : |m| ≤ circleQ) :
    ieee.rnd (m / degreeQ) = .fin (rnd53 (m / degreeQ)) ∧ |rnd53 (m / degreeQ)| ≤ 360 := by
  have hd : 0 < degreeQ := by norm_num [degreeQ]
  have hc : rnd53 (circleQ / degreeQ) = 360 := by decide +kernel
  obtain ⟨h1, h2⟩ := abs_le.mp hm
  have a : rnd53 (m / degreeQ) ≤ 360 := by
    rw [← hc]; exact rnd53_mono (by gcongr)
  have b : -360 ≤ rnd53 (m / degreeQ) := by
    rw [← hc, ← rnd53_neg]; apply rnd53_mono; rw [← neg_div]; gcongr
  have hM : (360 : ℚ) ≤ dblMax := le_trans (by norm_num) dblMax_ge
  refine ⟨?_, abs_le.mpr ⟨b, a⟩⟩
  rw [ieee_rnd, if_neg (by linarith), if_neg (by linarith)]

theorem rnd_le_360 {x : ℚ} (h0 : 0 ≤ x) (h : x ≤ 360) :
    ieee.rnd x = .fin (rnd53 x) ∧ 0 ≤ rnd53 x ∧ rnd53 x ≤ 360 := by
  have hc : rnd53 360 = 360 := by decide +kernel
  have a : rnd53 x ≤ 360 := by rw [← hc]; exact rnd53_mono h
  have b : 0 ≤ rnd53 x := by rw [← rnd53_zero]; exact rnd53_mono h0
  have hM : (360 : ℚ) ≤ dblMax := le_trans (by norm_num) dblMax_ge
  refine ⟨?_, b, a⟩
  rw [ieee_rnd, if_neg (by linarith), if_neg (by linarith)]

/-- C56: for every finite longitude, in IEEE arithmetic, the longitude image
reports a number of degrees in [0,360] that is congruent, modulo whole turns, to
the longitude divided by one degree, up to `2^-43` degrees of rounding. -/
theorem C56_longitude (lon : ℚ) :
    ∃ d, longitudeData .ieee (.fin lon) = some (.fin d) ∧ 0 ≤ d ∧ d ≤ 360 ∧
      ∃ turns : ℤ, |d - (lon - turns * circleQ) / degreeQ| ≤ 1 / 2 ^ 43 ∨
        |d - ((lon - turns * circleQ) / degreeQ + 360)| ≤ 1 / 2 ^ 43 := by
  have hcp : 0 < circleQ := by norm_num [circleQ]
  have hdp : 0 < degreeQ := by norm_num [degreeQ]
  have hm := fmodQ_abs_lt lon hcp
  obtain ⟨hr, hb⟩ := rnd_div_degree hm.le
  have herr := rnd53_err (fmodQ lon circleQ / degreeQ)
  have hq : |fmodQ lon circleQ / degreeQ| ≤ 361 := by
    rw [abs_div, abs_of_pos hdp, div_le_iff₀ hdp]
    refine hm.le.trans ?_
    norm_num [circleQ, degreeQ]
  have htiny : (2 : ℚ) ^ (-1074 : ℤ) ≤ 1 / 2 ^ 53 := by
    have : (2 : ℚ) ^ (-1074 : ℤ) ≤ (2 : ℚ) ^ (-53 : ℤ) :=
      zpow_le_zpow_right₀ (by norm_num) (by norm_num)
    refine this.trans ?_
    rw [zpow_neg]; norm_num
  have herr1 : |rnd53 (fmodQ lon circleQ / degreeQ) - fmodQ lon circleQ / degreeQ| ≤ 1 / 2 ^ 44 := by
    refine herr.trans ?_
    have : |fmodQ lon circleQ / degreeQ| / 2 ^ 53 ≤ 361 / 2 ^ 53 := by gcongr
    linarith
  have hfm : fmodQ lon circleQ = lon - truncQ (lon / circleQ) * circleQ := by unfold fmodQ; ring
  have hdiv : ieee.div (fmod (.fin lon) cCircle) cDegree =
      .fin (rnd53 (fmodQ lon circleQ / degreeQ)) := by
    rw [cCircle_eq, cDegree_eq]
    simp only [fmod, hcp.ne', if_false, Fp.div, hdp.ne']
    exact hr
  unfold longitudeData
  rw [hdiv]
  generalize hx : rnd53 (fmodQ lon circleQ / degreeQ) = x at *
  obtain ⟨hb1, hb2⟩ := abs_le.mp hb
  by_cases h0 : x < 0
  · have hsh : shiftLongitude .ieee (.fin x) = ieee.add (.fin x) (.fin 360) := by
      unfold shiftLongitude; rw [if_pos (by rwa [Dbl.lt_fin])]
    have hadd : ieee.add (.fin x) (.fin 360) = ieee.rnd (x + 360) := rfl
    obtain ⟨e1, e2, e3⟩ := rnd_le_360 (x := x + 360) (by linarith) (by linarith)
    rw [hsh, hadd, e1]
    refine ⟨rnd53 (x + 360), ?_, e2, e3, truncQ (lon / circleQ), .inr ?_⟩
    · simp only; rw [if_pos]; simp only [Dbl.ge, Bool.and_eq_true, Dbl.le_fin]; exact ⟨e2, e3⟩
    · rw [← hfm]
      have e4 := rnd53_err (x + 360)
      rw [abs_of_nonneg (by linarith : (0 : ℚ) ≤ x + 360)] at e4
      have e5 : |rnd53 (x + 360) - (x + 360)| ≤ 1 / 2 ^ 44 := by
        refine e4.trans ?_
        have : (x + 360) / 2 ^ 53 ≤ 360 / 2 ^ 53 := by gcongr; linarith
        linarith
      rw [abs_le] at e5 herr1 ⊢
      constructor <;> linarith [e5.1, e5.2, herr1.1, herr1.2]
  · have hsh : shiftLongitude .ieee (.fin x) = .fin x := by
      unfold shiftLongitude
      rw [if_neg (by rwa [Dbl.lt_fin]), if_neg (by simp only [Dbl.gt, Dbl.lt_fin]; linarith)]
    rw [hsh]
    refine ⟨x, ?_, by linarith, hb2, truncQ (lon / circleQ), .inl ?_⟩
    · simp only; rw [if_pos]; simp only [Dbl.ge, Bool.and_eq_true, Dbl.le_fin]; exact ⟨by linarith, hb2⟩
    · rw [← hfm]
      refine herr1.trans ?_
      norm_num

/-- C56: infinite and NaN longitudes are refused. -/
theorem C56_longitude_not_finite (F : Fp) (lon : Dbl) (h : lon.isFinite = false) :
    longitudeData F lon = none := by
  have : fmod lon cCircle = .nan := by
    rw [cCircle_eq]; cases lon <;> simp_all [fmod, Dbl.isFinite]
  unfold longitudeData
  rw [this, cDegree_eq]
  rfl

/-- C56: the latitude image reports degrees in [-90,90] for every latitude in
[-pi/2,pi/2], up to `2^-46` degrees of rounding, and refuses the others
(planetocentric, or planetographic with a conversion that stays in the interval;
IEEE arithmetic). -/
theorem C56_latitude (g : Dbl → Dbl)
    (hg : ∀ q, |q| ≤ pi2Q → ∃ r, g (.fin q) = .fin r ∧ |r| ≤ pi2Q) (graphic : Bool) (lat : ℚ) :
    (|lat| ≤ pi2Q → ∃ d m, latitudeData .ieee g graphic (.fin lat) = some (.fin d) ∧ |d| ≤ 90 ∧
      (if graphic then g (.fin lat) else .fin lat) = .fin m ∧ |d - m / degreeQ| ≤ 1 / 2 ^ 46) ∧
    (pi2Q < |lat| → latitudeData .ieee g graphic (.fin lat) = none) := by
  have hdp : 0 < degreeQ := by norm_num [degreeQ]
  have hM : (90 : ℚ) ≤ dblMax := le_trans (by norm_num) dblMax_ge
  have hdiv : ∀ m : ℚ, |m| ≤ pi2Q → ∃ d, ieee.div (.fin m) cDegree = .fin d ∧ |d| ≤ 90 ∧
      |d - m / degreeQ| ≤ 1 / 2 ^ 46 := by
    intro m hm
    have herr : |rnd53 (m / degreeQ) - m / degreeQ| ≤ 1 / 2 ^ 46 := by
      refine (rnd53_err _).trans ?_
      have htiny : (2 : ℚ) ^ (-1074 : ℤ) ≤ 2 ^ (-53 : ℤ) :=
        zpow_le_zpow_right₀ (by norm_num) (by norm_num)
      have : |m / degreeQ| ≤ 91 := by
        rw [abs_div, abs_of_pos hdp, div_le_iff₀ hdp]
        refine hm.trans ?_
        norm_num [pi2Q, degreeQ]
      have : |m / degreeQ| / 2 ^ 53 ≤ 91 / 2 ^ 53 := by gcongr
      generalize (2 : ℚ) ^ (-1074 : ℤ) = τ at htiny ⊢
      norm_num at htiny this ⊢
      linarith
    have hc : rnd53 (pi2Q / degreeQ) = 90 := by decide +kernel
    obtain ⟨h1, h2⟩ := abs_le.mp hm
    have a : rnd53 (m / degreeQ) ≤ 90 := by
      rw [← hc]; exact rnd53_mono (by gcongr)
    have b : -90 ≤ rnd53 (m / degreeQ) := by
      rw [← hc, ← rnd53_neg]; apply rnd53_mono; rw [← neg_div]; gcongr
    refine ⟨rnd53 (m / degreeQ), ?_, abs_le.mpr ⟨b, a⟩, herr⟩
    rw [cDegree_eq]
    simp only [Fp.div, hdp.ne', if_false]
    rw [ieee_rnd, if_neg (by linarith), if_neg (by linarith)]
  unfold latitudeData
  rw [cPi2_eq]
  constructor
  · intro h
    obtain ⟨h1, h2⟩ := abs_le.mp h
    have hn : ¬ (((Dbl.fin lat).lt (Dbl.fin pi2Q).neg || (Dbl.fin lat).gt (.fin pi2Q)) = true) := by
      simp only [Bool.or_eq_true, Dbl.neg, Dbl.gt, Dbl.lt_fin, not_or, not_lt]
      exact ⟨h1, h2⟩
    rw [if_neg hn]
    cases graphic with
    | false => obtain ⟨d, e, hd, he⟩ := hdiv lat h; exact ⟨d, lat, by simp [e], hd, by simp, he⟩
    | true =>
      obtain ⟨r, er, hr⟩ := hg lat h
      obtain ⟨d, e, hd, he⟩ := hdiv r hr
      exact ⟨d, r, by simp [er, e], hd, by simp [er], he⟩
  · intro h
    rw [if_pos]
    simp only [Bool.or_eq_true, Dbl.neg, Dbl.gt, Dbl.lt_fin]
    rcases lt_abs.mp h with h | h
    · exact .inr h
    · left; linarith

example : ∃ g : Dbl → Dbl, ∀ q, |q| ≤ pi2Q → ∃ r, g (.fin q) = .fin r ∧ |r| ≤ pi2Q :=
  ⟨id, fun q h => ⟨q, rfl, h⟩⟩

example : longitudeData .ieee (.fin (-1 / 2 ^ 60)) = some (.fin 360) ∧
    latitudeData .ieee id false (.fin (-pi2Q)) = some (.fin (-90)) := by decide +kernel

/-- C56, refusal, is false of the code for NaN: the comparisons let it through. -/
theorem C56_nan_violated (g : Dbl → Dbl) : latitudeData .ieee g false .nan = some .nan := by
  rw [latitudeData, cPi2_eq, cDegree_eq]; rfl

end MaRC
