import Verif.Model.Pipeline
import Verif.Lemmas.Accuracy
import Verif.Props.MapFactory
import Verif.Props.CosineImage

/-!
# C83: planes of latitudes and longitudes tell where a cell is
-/

namespace MaRC

open Fp

/-! ## Specification -/

/-- What a data type loses of a number of magnitude up to 360: the fraction, the
last digits, or nothing. -/
def MapType.step : MapType → ℚ
  | f32 => 1 / 2 ^ 15
  | f64 => 0
  | _ => 1

/-- The value of an element as FITS prescribes, given the image's `BSCALE` and
`BZERO`, is within `err`, and what the data type loses, of `degrees`. -/
def ReadsAs (T : MapType) (v : VirtualImage) (element : Option Dbl) (degrees err : ℝ) : Prop :=
  ∃ x bscale bzero : ℚ, element = some (.fin x) ∧
    v.bscale .ieee = .fin bscale ∧ v.bzero .ieee = .fin bzero ∧
    |((x * bscale + bzero : ℚ) : ℝ) - degrees| ≤ ((T.step * bscale : ℚ) : ℝ) + err

/-! ## Scaling -/

/-- Facts about the scale, offset and limits of a virtual image. -/
structure Scaling (T : MapType) (low high s o lo hi a b : ℚ) : Prop where
  scale : 1 ≤ s ∧ s ≤ 10 ^ 17
  offset : |o| ≤ 360 * s
  bounds : |low| ≤ 360 ∧ |high| ≤ 360
  first : lo = rnd53 (rnd53 (low * s) + o)
  last : hi = rnd53 (rnd53 (high * s) + o)
  limits : ∃ mm v w, Extrema.convert T ⟨some (.fin lo), some (.fin hi)⟩ = .ok mm ∧
    MapFactory.getExtrema T mm = .ok ⟨some v, some w⟩ ∧
    T.toDouble v = .fin a ∧ T.toDouble w = .fin b
  within : a ≤ lo ∧ hi ≤ b
  fits : T.isIntegral = true → (T.intRange.1 : ℚ) ≤ lo ∧ hi ≤ T.intRange.2
  plain : T.isIntegral = false → s = 1 ∧ o = 0

macro "scaling" m:term "," v:term "," w:term : tactic => `(tactic|
  exact ⟨by decide +kernel, by norm_num, by norm_num [abs_of_pos], by norm_num [abs_of_pos],
    by decide +kernel, by decide +kernel,
    ⟨$m, $v, $w, by decide +kernel, by decide +kernel, by decide +kernel, by decide +kernel⟩,
    by norm_num, by norm_num [MapType.intRange, MapType.isIntegral],
    by norm_num [MapType.isIntegral]⟩)

theorem latitude_scaling (T : MapType) : ∃ s o lo hi a b : ℚ,
    makeVirtual .ieee T (.fin (-90)) (.fin 90) = .ok (⟨.fin s, .fin o⟩, .fin lo, .fin hi) ∧
      Scaling T (-90) 90 s o lo hi a b := by
  cases T
  · refine ⟨1, 90, 0, 180, 0, 180, ?_⟩
    scaling ⟨some (.fin 0), some (.fin 180)⟩, .fin 0, .fin 180
  · refine ⟨100, 0, -9000, 9000, -9000, 9000, ?_⟩
    scaling ⟨some (.fin (-9000)), some (.fin 9000)⟩, .fin (-9000), .fin 9000
  · refine ⟨10 ^ 7, 0, -900000000, 900000000, -900000000, 900000000, ?_⟩
    scaling ⟨some (.fin (-900000000)), some (.fin 900000000)⟩, .fin (-900000000), .fin 900000000
  · refine ⟨10 ^ 16, 0, -900000000000000000, 900000000000000000, -900000000000000000,
      900000000000000000, ?_⟩
    scaling ⟨some (.fin (-900000000000000000)), some (.fin 900000000000000000)⟩,
      .fin (-900000000000000000), .fin 900000000000000000
  · refine ⟨1, 0, -90, 90, -90, 90, ?_⟩
    scaling ⟨some (.fin (-90)), some (.fin 90)⟩, .fin (-90), .fin 90
  · refine ⟨1, 0, -90, 90, -90, 90, ?_⟩
    scaling ⟨some (.fin (-90)), some (.fin 90)⟩, .fin (-90), .fin 90

theorem longitude_scaling (T : MapType) (hT : T ≠ .u8) : ∃ s o lo hi a b : ℚ,
    makeVirtual .ieee T (.fin 0) (.fin 360) = .ok (⟨.fin s, .fin o⟩, .fin lo, .fin hi) ∧
      Scaling T 0 360 s o lo hi a b := by
  cases T
  · exact absurd rfl hT
  · refine ⟨100, -18000, -18000, 18000, -18000, 18000, ?_⟩
    scaling ⟨some (.fin (-18000)), some (.fin 18000)⟩, .fin (-18000), .fin 18000
  · refine ⟨10 ^ 7, -1800000000, -1800000000, 1800000000, -1800000000, 1800000000, ?_⟩
    scaling ⟨some (.fin (-1800000000)), some (.fin 1800000000)⟩, .fin (-1800000000), .fin 1800000000
  · refine ⟨10 ^ 16, 0, 0, 3600000000000000000, 0, 3600000000000000000, ?_⟩
    scaling ⟨some (.fin 0), some (.fin 3600000000000000000)⟩,
      .fin 0, .fin 3600000000000000000
  · refine ⟨1, 0, 0, 360, 0, 360, ?_⟩
    scaling ⟨some (.fin 0), some (.fin 360)⟩, .fin 0, .fin 360
  · refine ⟨1, 0, 0, 360, 0, 360, ?_⟩
    scaling ⟨some (.fin 0), some (.fin 360)⟩, .fin 0, .fin 360

variable {T : MapType} {low high s o lo hi a b : ℚ}

/-- The scaled datum. -/
theorem Scaling.datum (h : Scaling T low high s o lo hi a b) {d : ℚ} (h1 : low ≤ d) (h2 : d ≤ high) :
    ∃ x, ieee.add (ieee.mul (.fin d) (.fin s)) (.fin o) = .fin x ∧ lo ≤ x ∧ x ≤ hi ∧
      |x - (d * s + o)| ≤ s / 2 ^ 42 ∧ (s = 1 ∧ o = 0 → |x| ≤ 360 + 1 / 2 ^ 40) := by
  obtain ⟨hs1, hs2⟩ := h.scale
  have ho := h.offset
  have hd : |d| ≤ 360 := by
    have b1 := abs_le.mp h.bounds.1
    have b2 := abs_le.mp h.bounds.2
    rw [abs_le]; constructor <;> linarith
  have hds : |d * s| ≤ 360 * s := by
    rw [abs_mul, abs_of_pos (by linarith : (0 : ℚ) < s)]
    gcongr
  have e1 := rnd53_err200 (d * s)
  have hm : ieee.mul (.fin d) (.fin s) = .fin (rnd53 (d * s)) := by
    show ieee.rnd (d * s) = _
    refine ieee_rnd_fin (hds.trans ?_)
    norm_num at hs2 ⊢
    linarith
  have hbig : |rnd53 (d * s) + o| ≤ 721 * s := by
    have h3 : |rnd53 (d * s)| ≤ |d * s| + (|d * s| / 2 ^ 53 + 1 / 2 ^ 200) := by
      have := abs_sub_abs_le_abs_sub (rnd53 (d * s)) (d * s)
      linarith
    have h4 := abs_add_le (rnd53 (d * s)) o
    norm_num [-abs_mul] at h3 h4 ⊢
    linarith
  have e2 := rnd53_err200 (rnd53 (d * s) + o)
  have herr : |rnd53 (rnd53 (d * s) + o) - (d * s + o)| ≤ s / 2 ^ 42 := by
    have := abs_sub_le (rnd53 (rnd53 (d * s) + o)) (rnd53 (d * s) + o) (d * s + o)
    rw [add_sub_add_right_eq_sub] at this
    norm_num [-abs_mul] at e1 e2 this ⊢
    linarith
  refine ⟨rnd53 (rnd53 (d * s) + o), ?_, ?_, ?_, herr, ?_⟩
  · rw [hm]
    show ieee.rnd _ = _
    refine ieee_rnd_fin (hbig.trans ?_)
    norm_num at hs2 ⊢
    linarith
  · rw [h.first]
    refine rnd53_mono (add_le_add (rnd53_mono ?_) le_rfl)
    exact mul_le_mul_of_nonneg_right h1 (by linarith)
  · rw [h.last]
    refine rnd53_mono (add_le_add (rnd53_mono ?_) le_rfl)
    exact mul_le_mul_of_nonneg_right h2 (by linarith)
  · rintro ⟨rfl, rfl⟩
    rw [abs_le] at herr hd ⊢
    norm_num at herr ⊢
    constructor <;> linarith

/-- The stored element. -/
theorem Scaling.element (h : Scaling T low high s o lo hi a b) {x : ℚ} (h1 : lo ≤ x) (h2 : x ≤ hi)
    (h3 : s = 1 ∧ o = 0 → |x| ≤ 360 + 1 / 2 ^ 40) :
    ∃ n : ℚ, T.cast (.fin x) = .ok (.fin n) ∧ |n - x| ≤ T.step := by
  by_cases hT : T.isIntegral
  · obtain ⟨f1, f2⟩ := h.fits hT
    have k1 : T.intRange.1 ≤ 0 := by cases T <;> simp [MapType.intRange]
    have k2 : 0 ≤ T.intRange.2 := by cases T <;> simp [MapType.intRange]
    refine ⟨truncQ x, ?_, ?_⟩
    · have : castInt T.intRange.1 T.intRange.2 (.fin x) = .ok (truncQ x) := by
        unfold castInt
        exact if_pos ⟨(truncQ_ge k1).2 (by linarith), (truncQ_le k2).2 (by linarith)⟩
      cases T <;> first | (simp [MapType.isIntegral] at hT; done) | simp only [MapType.cast, this]
    · have : T.step = 1 := by cases T <;> first | rfl | simp [MapType.isIntegral] at hT
      rw [this, abs_le]
      unfold truncQ
      split
      · have := Int.floor_le x
        have := Int.lt_floor_add_one x
        constructor <;> linarith
      · have := Int.le_ceil x
        have := Int.ceil_lt_add_one x
        constructor <;> linarith
  · have hx := h3 (h.plain (by simpa using hT))
    cases T <;> simp only [MapType.isIntegral, not_true_eq_false, Bool.false_eq_true] at hT
    · have e := rndP_err 24 (-149) x
      have htiny : (2 : ℚ) ^ (-149 : ℤ) ≤ 2 ^ (-60 : ℤ) :=
        zpow_le_zpow_right₀ (by norm_num) (by norm_num)
      have e' : |rnd24 x - x| ≤ 1 / 2 ^ 15 := by
        refine e.trans ?_
        generalize (2 : ℚ) ^ (-149 : ℤ) = τ at htiny ⊢
        norm_num at htiny hx ⊢
        linarith
      refine ⟨rnd24 x, ?_, e'⟩
      have hF : (1000 : ℚ) ≤ fltMax := by unfold fltMax; norm_num
      rw [abs_le] at e' hx
      norm_num at e' hx
      show Outcome.ok (MapType.toFloat (.fin x)) = _
      simp only [MapType.toFloat]
      rw [if_neg (by linarith), if_neg (by linarith)]
    · exact ⟨x, rfl, by simp [MapType.step]⟩

/-- Reading the datum back. -/
theorem Scaling.back (h : Scaling T low high s o lo hi a b) {d x : ℚ} (h1 : low ≤ d) (h2 : d ≤ high)
    (hx : |x - (d * s + o)| ≤ s / 2 ^ 42) :
    ∃ bs bz : ℚ, (VirtualImage.mk (.fin s) (.fin o)).bscale .ieee = .fin bs ∧
      (VirtualImage.mk (.fin s) (.fin o)).bzero .ieee = .fin bz ∧ 0 ≤ bs ∧
      |x * bs + bz - d| ≤ 1 / 2 ^ 41 := by
  obtain ⟨hs1, hs2⟩ := h.scale
  have hs0 : 0 < s := by linarith
  have ho := h.offset
  have hd : |d| ≤ 360 := by
    have b1 := abs_le.mp h.bounds.1
    have b2 := abs_le.mp h.bounds.2
    rw [abs_le]; constructor <;> linarith
  have e1 := rnd53_err200 (1 / s)
  have hi1 : 1 / s ≤ 1 := by rw [div_le_one hs0]; exact hs1
  have hi0 : 0 < 1 / s := by positivity
  rw [abs_of_pos hi0] at e1
  obtain ⟨bs, hbs⟩ : ∃ bs, bs = rnd53 (1 / s) := ⟨_, rfl⟩
  have hbsc : (VirtualImage.mk (.fin s) (.fin o)).bscale .ieee = .fin bs := by
    unfold VirtualImage.bscale
    have : ieee.div (.fin 1) (.fin s) = ieee.rnd (1 / s) := by
      simp [Fp.div, hs0.ne']
    rw [this, ieee_rnd_fin, hbs]
    rw [abs_of_pos hi0]
    exact hi1.trans (by norm_num)
  rw [← hbs] at e1
  -- `bs * s` is almost one
  have e3 : |bs * s - 1| ≤ 1 / 2 ^ 52 := by
    have : bs * s - 1 = (bs - 1 / s) * s := by field_simp
    rw [this, abs_mul, abs_of_pos hs0]
    have h5 : (1 / s / 2 ^ 53 + 1 / 2 ^ 200) * s = 1 / 2 ^ 53 + s / 2 ^ 200 := by field_simp
    have h6 := mul_le_mul_of_nonneg_right e1 hs0.le
    rw [h5] at h6
    norm_num at h6 hs2 ⊢
    linarith
  have hbs0 : 0 ≤ bs := by
    rw [abs_le] at e3
    by_contra hneg
    have : bs * s ≤ 0 := mul_nonpos_of_nonpos_of_nonneg (by linarith) hs0.le
    norm_num at e3
    linarith
  have hbso : |bs * -o| ≤ 361 := by
    rw [abs_mul, abs_neg, abs_of_nonneg hbs0]
    have : bs * |o| ≤ bs * (360 * s) := by gcongr
    rw [abs_le] at e3
    norm_num at e3
    linarith
  refine ⟨bs, rnd53 (bs * -o), hbsc, ?_, hbs0, ?_⟩
  · unfold VirtualImage.bzero
    rw [hbsc]
    show ieee.rnd (bs * -o) = _
    exact ieee_rnd_fin (hbso.trans (by norm_num))
  · have e4 := rnd53_err200 (bs * -o)
    have : x * bs + rnd53 (bs * -o) - d = d * (bs * s - 1) + (x - (d * s + o)) * bs +
        (rnd53 (bs * -o) - bs * -o) := by ring
    rw [this]
    have t1 : |d * (bs * s - 1)| ≤ 360 * (1 / 2 ^ 52) := by
      rw [abs_mul]; gcongr
    have t2 : |(x - (d * s + o)) * bs| ≤ (1 + 1 / 2 ^ 52) / 2 ^ 42 := by
      rw [abs_mul, abs_of_nonneg hbs0]
      have : |x - (d * s + o)| * bs ≤ s / 2 ^ 42 * bs := by gcongr
      rw [abs_le] at e3
      norm_num at e3 this ⊢
      linarith
    have t3 := abs_add_le (d * (bs * s - 1) + (x - (d * s + o)) * bs) (rnd53 (bs * -o) - bs * -o)
    have t4 := abs_add_le (d * (bs * s - 1)) ((x - (d * s + o)) * bs)
    norm_num at t1 t2 t3 t4 e4 hbso ⊢
    linarith

/-- A cell of a plane of a virtual image. -/
theorem Scaling.cell {C : Type} (h : Scaling T low high s o lo hi a b) (physical : C → Option Dbl)
    {plots : ℕ → ℕ → List (C × ℕ)} {info info' : PlotInfo} {map : List Dbl}
    (hmap : MapFactory.makePlane T plots
      ⟨(VirtualImage.mk (.fin s) (.fin o)).asRead .ieee physical, ⟨some (.fin lo), some (.fin hi)⟩⟩
      info = .ok (map, info'))
    (hnodup : ((plots info.samples info.lines).map Prod.snd).Nodup) {c : C} {offset : ℕ}
    (hc : (c, offset) ∈ plots info.samples info.lines) {d : ℚ} (hd : physical c = some (.fin d))
    (h1 : low ≤ d) (h2 : d ≤ high) :
    ∃ n bs bz : ℚ, map[offset]? = some (.fin n) ∧
      (VirtualImage.mk (.fin s) (.fin o)).bscale .ieee = .fin bs ∧
      (VirtualImage.mk (.fin s) (.fin o)).bzero .ieee = .fin bz ∧
      |n * bs + bz - d| ≤ T.step * bs + 1 / 2 ^ 41 := by
  obtain ⟨x, hx, hx1, hx2, hx3, hx4⟩ := h.datum h1 h2
  obtain ⟨n, hn, hn1⟩ := h.element hx1 hx2 hx4
  obtain ⟨bs, bz, hbs, hbz, hbs0, hback⟩ := h.back h1 h2 hx3
  refine ⟨n, bs, bz, ?_, hbs, hbz, ?_⟩
  · obtain ⟨mm, v, w, hmm, hv, hva, hwb⟩ := h.limits
    simp only [MapFactory.makePlane, hmm, Outcome.bind_ok] at hmap
    obtain ⟨v', w', he, -, hcells, -⟩ := MapFactory.C06_cells _ _ _ _ _ _ _ hmap
    rw [hv] at he
    simp only [Outcome.ok.injEq, Extrema.mk.injEq, Option.some.injEq] at he
    obtain ⟨rfl, rfl⟩ := he
    obtain ⟨pre, post, hpl⟩ := List.append_of_mem hc
    refine hcells pre c offset post _ hpl ⟨.fin x, ?_, ?_, ?_, hn⟩ (fun c' hc' => ?_)
    · simp [VirtualImage.asRead, VirtualImage.readData, hd, hx]
    · rw [hva, Dbl.le_fin]; linarith [h.within.1]
    · rw [hwb, Dbl.le_fin]; linarith [h.within.2]
    · rw [hpl, List.map_append, List.nodup_append] at hnodup
      have := hnodup.2.1
      rw [List.map_cons, List.nodup_cons] at this
      exact absurd (List.mem_map.mpr ⟨(c', offset), hc', rfl⟩) this.1
  · have : n * bs + bz - d = (n - x) * bs + (x * bs + bz - d) := by ring
    rw [this]
    refine (abs_add_le _ _).trans (add_le_add ?_ hback)
    rw [abs_mul, abs_of_nonneg hbs0]
    gcongr

/-- `C::degree` is close to a degree. -/
theorem degreeQ_close (m : ℝ) (hm : |m| ≤ 8) :
    |m / (degreeQ : ℝ) - m * (180 / Real.pi)| ≤ 1 / 2 ^ 44 := by
  have h1 := Real.pi_gt_d20
  have h2 := Real.pi_lt_d20
  have hp := Real.pi_pos
  have hd : (0 : ℝ) < degreeQ := by norm_num [degreeQ]
  have e : m / (degreeQ : ℝ) - m * (180 / Real.pi) =
      m * ((Real.pi - 180 * degreeQ) / (degreeQ * Real.pi)) := by field_simp
  rw [e, abs_mul]
  have : |(Real.pi - 180 * degreeQ) / (degreeQ * Real.pi)| ≤ 1 / 2 ^ 47 := by
    rw [abs_div, abs_of_pos (by positivity : (0 : ℝ) < degreeQ * Real.pi), div_le_iff₀ (by positivity)]
    have : (degreeQ : ℝ) * 3 ≤ degreeQ * Real.pi := by
      refine mul_le_mul_of_nonneg_left ?_ hd.le
      norm_num at h1; linarith
    refine le_trans ?_ (mul_le_mul_of_nonneg_left this (by norm_num))
    rw [abs_le]
    norm_num [degreeQ] at h1 h2 ⊢
    constructor <;> linarith
  calc |m| * _ ≤ 8 * (1 / 2 ^ 47) := by gcongr
    _ = 1 / 2 ^ 44 := by norm_num

/-! ## The property -/

/-- C56: the program's own conversion to planetographic latitudes, with correctly
rounded elementary functions, keeps latitudes in the interval: the condition of
`C56_latitude` is met for every oblate spheroid that is not extremely flat. -/
theorem C56_graphic {L : Libm} (hL : L.Correct) {eqRad polRad : ℚ} (hp : 0 < polRad)
    (hle : polRad ≤ eqRad) (hratio : eqRad ≤ 2 ^ 20 * polRad) (q : ℚ) (hq : |q| ≤ pi2Q) :
    ∃ r, graphicLatitudeF .ieee L (.fin eqRad) (.fin polRad) (.fin q) = .fin r ∧ |r| ≤ pi2Q := by
  obtain ⟨r, h1, h2, -⟩ := graphicLatitudeF_near hL hp hle hratio hq
  exact ⟨r, h1, h2⟩

/-- C83: in a plane of latitudes, a cell that shows a latitude in the range of
latitudes (`plots` gives the latitude and longitude of each cell) reads, by the
plane's `BSCALE` and `BZERO`, as that latitude in degrees, planetographic if the
user asked for that, within what the data type loses and `2^-39` degrees.  For
every data type, projection and image size, in IEEE arithmetic. -/
theorem C83_latitude {L : Libm} (hL : L.Correct) {eqRad polRad : ℚ} (hp : 0 < polRad)
    (hle : polRad ≤ eqRad) (hratio : eqRad ≤ 2 ^ 20 * polRad) (T : MapType) (graphic : Bool)
    {p : MapFactory.Plane (Dbl × Dbl)} {v : VirtualImage}
    (hplane : latitudePlane .ieee T
      (graphicLatitudeF .ieee L (.fin eqRad) (.fin polRad)) graphic = .ok (p, v))
    {plots : ℕ → ℕ → List ((Dbl × Dbl) × ℕ)} {info info' : PlotInfo} {map : List Dbl}
    (hmap : MapFactory.makePlane T plots p info = .ok (map, info'))
    (hnodup : ((plots info.samples info.lines).map Prod.snd).Nodup)
    {lat : ℚ} {lon : Dbl} {offset : ℕ}
    (hc : ((.fin lat, lon), offset) ∈ plots info.samples info.lines) (hlat : |lat| ≤ pi2Q) :
    ReadsAs T v map[offset]?
      ((if graphic then Spheroid.graphicLatitude ⟨eqRad, polRad⟩ lat else lat) * (180 / Real.pi))
      (1 / 2 ^ 39) := by
  obtain ⟨s, o, lo, hi, a, b, hv, hS⟩ := latitude_scaling T
  simp only [latitudePlane, hv, Outcome.bind, Outcome.ok.injEq, Prod.mk.injEq] at hplane
  obtain ⟨rfl, rfl⟩ := hplane
  obtain ⟨d, m, hd, hd90, hm, hdm⟩ := (C56_latitude _ (C56_graphic hL hp hle hratio) graphic lat).1 hlat
  obtain ⟨n, bs, bz, h1, h2, h3, h4⟩ := hS.cell _ hmap hnodup hc hd (abs_le.mp hd90).1 (abs_le.mp hd90).2
  refine ⟨n, bs, bz, h1, h2, h3, ?_⟩
  have h4' : |((n * bs + bz : ℚ) : ℝ) - d| ≤ ((T.step * bs : ℚ) : ℝ) + 1 / 2 ^ 41 := by
    have := (Rat.cast_le (K := ℝ)).mpr h4
    push_cast at this ⊢
    exact this
  have hdm' : |(d : ℝ) - m / degreeQ| ≤ 1 / 2 ^ 46 := by
    have := (Rat.cast_le (K := ℝ)).mpr hdm
    push_cast at this
    exact this
  obtain ⟨w, hw⟩ : ∃ w : ℝ, w = if graphic then Spheroid.graphicLatitude ⟨eqRad, polRad⟩ lat else lat :=
    ⟨_, rfl⟩
  have hmw : |(m : ℝ) - w| ≤ 1 / 2 ^ 47 ∧ |(m : ℝ)| ≤ 8 := by
    have h8 : ∀ r : ℚ, |r| ≤ pi2Q → |(r : ℝ)| ≤ 8 := by
      intro r hr
      have := (Rat.cast_le (K := ℝ)).mpr (hr.trans (by norm_num [pi2Q] : pi2Q ≤ 8))
      push_cast at this
      exact this
    cases graphic
    · simp only [Bool.false_eq_true, if_false, Dbl.fin.injEq] at hm hw
      subst hm; subst hw
      simp only [sub_self, abs_zero]
      exact ⟨by norm_num, h8 _ hlat⟩
    · obtain ⟨r, hr1, hr2, hr3⟩ := graphicLatitudeF_near hL hp hle hratio hlat
      simp only [if_true] at hm hw
      rw [hr1, Dbl.fin.injEq] at hm
      subst hm; subst hw
      exact ⟨hr3, h8 _ hr2⟩
  rw [← hw]
  have hdeg := degreeQ_close m hmw.2
  have h180 : 180 / Real.pi ≤ 60 := by
    rw [div_le_iff₀ Real.pi_pos]; linarith [Real.pi_gt_three]
  have h180' : 0 ≤ 180 / Real.pi := by have := Real.pi_pos; positivity
  have hlast : |(m : ℝ) * (180 / Real.pi) - w * (180 / Real.pi)| ≤ 60 / 2 ^ 47 := by
    rw [← sub_mul, abs_mul, abs_of_nonneg h180']
    calc _ ≤ 1 / 2 ^ 47 * 60 := mul_le_mul hmw.1 h180 h180' (by norm_num)
      _ = _ := by norm_num
  have t1 := abs_sub_le (((n * bs + bz : ℚ) : ℝ)) d (w * (180 / Real.pi))
  have t2 := abs_sub_le (d : ℝ) (m / degreeQ) (w * (180 / Real.pi))
  have t3 := abs_sub_le ((m : ℝ) / degreeQ) (m * (180 / Real.pi)) (w * (180 / Real.pi))
  norm_num at h4' hdm' hdeg hlast t1 t2 t3 ⊢
  linarith

/-- C83: the same for a plane of longitudes, up to whole turns, for every data
type that has such planes (all but the unsigned bytes, `C19_program_ranges`). -/
theorem C83_longitude (T : MapType)
    {p : MapFactory.Plane (Dbl × Dbl)} {v : VirtualImage}
    (hplane : longitudePlane .ieee T = .ok (p, v))
    {plots : ℕ → ℕ → List ((Dbl × Dbl) × ℕ)} {info info' : PlotInfo} {map : List Dbl}
    (hmap : MapFactory.makePlane T plots p info = .ok (map, info'))
    (hnodup : ((plots info.samples info.lines).map Prod.snd).Nodup)
    {lat : Dbl} {lon : ℚ} {offset : ℕ}
    (hc : ((lat, .fin lon), offset) ∈ plots info.samples info.lines) (hlon : |lon| ≤ 100) :
    ∃ turns : ℤ, ReadsAs T v map[offset]? (lon * (180 / Real.pi) + 360 * turns) (1 / 2 ^ 39) := by
  have hT : T ≠ .u8 := by
    rintro rfl
    have : makeVirtual .ieee .u8 (.fin 0) (.fin 360) = .throw .rangeError := by decide +kernel
    simp [longitudePlane, this, Outcome.bind] at hplane
  obtain ⟨s, o, lo, hi, a, b, hv, hS⟩ := longitude_scaling T hT
  simp only [longitudePlane, hv, Outcome.bind, Outcome.ok.injEq, Prod.mk.injEq] at hplane
  obtain ⟨rfl, rfl⟩ := hplane
  obtain ⟨d, hd, hd0, hd360, k, hk⟩ := C56_longitude lon
  obtain ⟨n, bs, bz, h1, h2, h3, h4⟩ := hS.cell _ hmap hnodup hc hd hd0 hd360
  have h4' : |((n * bs + bz : ℚ) : ℝ) - d| ≤ ((T.step * bs : ℚ) : ℝ) + 1 / 2 ^ 41 := by
    have := (Rat.cast_le (K := ℝ)).mpr h4
    push_cast at this ⊢
    exact this
  -- one of the two cases
  obtain ⟨e, he, hk⟩ : ∃ e : ℤ, (e = 0 ∨ e = 1) ∧
      |d - ((lon - k * circleQ) / degreeQ + 360 * e)| ≤ 1 / 2 ^ 43 := by
    rcases hk with hk | hk
    · exact ⟨0, Or.inl rfl, by simpa using hk⟩
    · exact ⟨1, Or.inr rfl, by simpa using hk⟩
  have he' : (0 : ℚ) ≤ e ∧ (e : ℚ) ≤ 1 := by rcases he with rfl | rfl <;> norm_num
  have hdp : 0 < degreeQ := by norm_num [degreeQ]
  obtain ⟨m, hm⟩ : ∃ m, m = lon - k * circleQ := ⟨_, rfl⟩
  rw [← hm] at hk
  have hm8 : |m| ≤ 8 := by
    have h5 : |m / degreeQ| ≤ 361 + 1 / 2 ^ 43 := by
      rw [abs_le] at hk ⊢
      norm_num at hk ⊢
      constructor <;> linarith
    rw [abs_div, abs_of_pos hdp, div_le_iff₀ hdp] at h5
    refine h5.trans ?_
    norm_num [degreeQ]
  have hk20 : |(k : ℚ)| ≤ 20 := by
    have h6 : |(k : ℚ) * circleQ| ≤ 108 := by
      have : (k : ℚ) * circleQ = lon - m := by rw [hm]; ring
      rw [this]
      exact (abs_sub _ _).trans (by linarith)
    rw [abs_mul] at h6
    by_contra hcon
    have : 20 * |circleQ| ≤ |(k : ℚ)| * |circleQ| :=
      mul_le_mul_of_nonneg_right (by linarith) (abs_nonneg _)
    norm_num [circleQ] at this h6
    linarith
  refine ⟨e - k, n, bs, bz, h1, h2, h3, ?_⟩
  have hkR : |(d : ℝ) - (m / degreeQ + 360 * e)| ≤ 1 / 2 ^ 43 := by
    have := (Rat.cast_le (K := ℝ)).mpr hk
    push_cast at this
    exact this
  have hmR : |(m : ℝ)| ≤ 8 := by
    have := (Rat.cast_le (K := ℝ)).mpr hm8
    push_cast at this
    exact this
  have hk20R : |(k : ℝ)| ≤ 20 := by
    have := (Rat.cast_le (K := ℝ)).mpr hk20
    push_cast at this
    exact this
  have hdeg := degreeQ_close m hmR
  have hcirc : |(circleQ : ℝ) * (180 / Real.pi) - 360| ≤ 1 / 2 ^ 45 := by
    have q1 := Real.pi_gt_d20
    have q2 := Real.pi_lt_d20
    have hp := Real.pi_pos
    have e : (circleQ : ℝ) * (180 / Real.pi) - 360 = (180 * circleQ - 360 * Real.pi) / Real.pi := by
      field_simp
    rw [e, abs_div, abs_of_pos hp, div_le_iff₀ hp, abs_le]
    norm_num [circleQ] at q1 q2 ⊢
    constructor <;> linarith
  have hlast : |(m : ℝ) * (180 / Real.pi) + 360 * e - (lon * (180 / Real.pi) + 360 * (e - k))| ≤
      20 * (1 / 2 ^ 45) := by
    have : (m : ℝ) * (180 / Real.pi) + 360 * e - (lon * (180 / Real.pi) + 360 * (e - k)) =
        -(k * ((circleQ : ℝ) * (180 / Real.pi) - 360)) := by
      rw [hm]; push_cast; ring
    rw [this, abs_neg, abs_mul]
    gcongr
  have t1 := abs_sub_le (((n * bs + bz : ℚ) : ℝ)) d (lon * (180 / Real.pi) + 360 * (e - k))
  have t2 := abs_sub_le (d : ℝ) (m / degreeQ + 360 * e) (lon * (180 / Real.pi) + 360 * (e - k))
  have t3 := abs_sub_le ((m : ℝ) / degreeQ + 360 * e) (m * (180 / Real.pi) + 360 * e)
    (lon * (180 / Real.pi) + 360 * (e - k))
  rw [add_sub_add_right_eq_sub] at t3
  push_cast
  norm_num at h4' hkR hdeg hlast t1 t2 t3 ⊢
  linarith

/-- The map, if one was made. -/
def elements : Outcome (List Dbl × PlotInfo) → Option (List Dbl)
  | .ok (m, _) => some m
  | _ => none

theorem of_elements {x : Outcome (List Dbl × PlotInfo)} {m : List Dbl} (h : elements x = some m) :
    ∃ info', x = .ok (m, info') := by
  unfold elements at h
  split at h
  · cases h; exact ⟨_, rfl⟩
  · cases h

theorem latitudePlane_i16 (g : Dbl → Dbl) : latitudePlane .ieee .i16 g false =
    .ok (⟨(VirtualImage.mk (.fin 100) (.fin 0)).asRead .ieee
      (fun c => latitudeData .ieee id false c.1), ⟨some (.fin (-9000)), some (.fin 9000)⟩⟩,
      ⟨.fin 100, .fin 0⟩) := by
  have h : makeVirtual .ieee .i16 (.fin (-90)) (.fin 90) =
      .ok (⟨.fin 100, .fin 0⟩, .fin (-9000), .fin 9000) := by decide +kernel
  have hd : (fun c : Dbl × Dbl => latitudeData .ieee g false c.1) =
      fun c => latitudeData .ieee id false c.1 := by
    funext c; simp [latitudeData]
  simp only [latitudePlane, h, Outcome.bind, hd]

theorem longitudePlane_i16 : longitudePlane .ieee .i16 =
    .ok (⟨(VirtualImage.mk (.fin 100) (.fin (-18000))).asRead .ieee
      (fun c => longitudeData .ieee c.2), ⟨some (.fin (-18000)), some (.fin 18000)⟩⟩,
      ⟨.fin 100, .fin (-18000)⟩) := by
  have h : makeVirtual .ieee .i16 (.fin 0) (.fin 360) =
      .ok (⟨.fin 100, .fin (-18000)⟩, .fin (-18000), .fin 18000) := by decide +kernel
  simp only [longitudePlane, h, Outcome.bind]

/-- C83, empty cells, is false of the code: an integer map for which the user gives
no blank value has the element 0 both where the body is not and on its equator. -/
theorem C83_empty_violated (g : Dbl → Dbl) : ∃ p v info',
    latitudePlane .ieee .i16 g false = .ok (p, v) ∧
    MapFactory.makePlane .i16 (fun _ _ => [((.fin 0, .fin 0), 1)]) p (PlotInfo.new 2 1 none) =
      .ok ([.fin 0, .fin 0], info') := by
  rw [latitudePlane_i16]
  obtain ⟨info', h⟩ := of_elements (x := MapFactory.makePlane .i16
    (fun _ _ => [((.fin 0, .fin 0), 1)])
    ⟨(VirtualImage.mk (.fin 100) (.fin 0)).asRead .ieee
      (fun c : Dbl × Dbl => latitudeData .ieee id false c.1),
      ⟨some (.fin (-9000)), some (.fin 9000)⟩⟩ (PlotInfo.new 2 1 none))
    (m := [.fin 0, .fin 0]) (by decide +kernel)
  exact ⟨_, _, info', rfl, h⟩

/-- A map of three cells, two of which show the body. -/
def samplePlots : ℕ → ℕ → List ((Dbl × Dbl) × ℕ) :=
  fun _ _ => [((.fin 1, .fin 4), 0), ((.fin (-1 / 2), .fin (-2)), 2)]

example : ∃ L : Libm, L.Correct := exists_correct

example : ∃ p v info', latitudePlane .ieee .i16 id false = .ok (p, v) ∧
    MapFactory.makePlane .i16 samplePlots p (PlotInfo.new 3 1 none) =
      .ok ([.fin 5729, .fin 0, .fin (-2864)], info') ∧
    ((samplePlots 3 1).map Prod.snd).Nodup ∧ |(1 : ℚ)| ≤ pi2Q := by
  obtain ⟨info', h⟩ := of_elements (x := MapFactory.makePlane .i16 samplePlots
    ⟨(VirtualImage.mk (.fin 100) (.fin 0)).asRead .ieee
      (fun c : Dbl × Dbl => latitudeData .ieee id false c.1),
      ⟨some (.fin (-9000)), some (.fin 9000)⟩⟩ (PlotInfo.new 3 1 none))
    (m := [.fin 5729, .fin 0, .fin (-2864)]) (by decide +kernel)
  exact ⟨_, _, info', latitudePlane_i16 id, h, by decide, by norm_num [pi2Q]⟩

example : ∃ p v info', longitudePlane .ieee .i16 = .ok (p, v) ∧
    MapFactory.makePlane .i16 samplePlots p (PlotInfo.new 3 1 none) =
      .ok ([.fin 4918, .fin 0, .fin 6540], info') := by
  obtain ⟨info', h⟩ := of_elements (x := MapFactory.makePlane .i16 samplePlots
    ⟨(VirtualImage.mk (.fin 100) (.fin (-18000))).asRead .ieee
      (fun c : Dbl × Dbl => longitudeData .ieee c.2),
      ⟨some (.fin (-18000)), some (.fin 18000)⟩⟩ (PlotInfo.new 3 1 none))
    (m := [.fin 4918, .fin 0, .fin 6540]) (by decide +kernel)
  exact ⟨_, _, info', longitudePlane_i16, h⟩

end MaRC
