import Verif.Props.CylindricalF
import Verif.Props.Positions

/-!
# C97: latitudes and longitudes in cylindrical maps
-/

namespace MaRC

open Fp CylinderSpec

/-! ## Lemmas -/

theorem ReadsAs.near {T : MapType} {v : VirtualImage} {e : Option Dbl} {x y a b : ℝ}
    (h : ReadsAs T v e x a) (hxy : |x - y| ≤ b - a) : ReadsAs T v e y b := by
  obtain ⟨n, bs, bz, h1, h2, h3, h4⟩ := h
  refine ⟨n, bs, bz, h1, h2, h3, ?_⟩
  have := abs_sub_le ((n * bs + bz : ℚ) : ℝ) x y
  linarith

theorem cell_mem (c : CylindricalF) (F : Fp) (L : Libm) {samples lines k i : ℕ} (hk : k < lines)
    (hi : i < samples) :
    ((c.latitude F L lines k, c.longitude F samples i), k * samples + i) ∈
      c.plotMap F L samples lines := by
  unfold CylindricalF.plotMap
  simp only [List.mem_flatMap, List.mem_range, List.mem_map, Prod.mk.injEq]
  exact ⟨k, hk, i, hi, ⟨rfl, rfl⟩, rfl⟩

theorem plotMap_nodup (c : CylindricalF) (F : Fp) (L : Libm) (samples lines : ℕ) :
    ((c.plotMap F L samples lines).map Prod.snd).Nodup := by
  have e : (c.plotMap F L samples lines).map Prod.snd = List.range (lines * samples) := by
    unfold CylindricalF.plotMap
    induction lines with
    | zero => simp
    | succ n ih =>
      rw [List.range_succ, List.flatMap_append, List.map_append]
      have : ((List.range n).flatMap fun k => (List.range samples).map fun i =>
          ((c.latitude F L (n + 1) k, c.longitude F samples i), k * samples + i)).map Prod.snd =
          List.range (n * samples) := by
        rw [← ih, List.map_flatMap, List.map_flatMap]
        simp [Function.comp_def]
      rw [this, Nat.succ_mul, List.range_add]
      simp [Function.comp_def]
  rw [e]
  exact List.nodup_range

theorem mercator_nodup (F : Fp) (prograde : Bool) (lat : ℕ → Dbl) (samples lines : ℕ) :
    ((mercatorPlotMapF F prograde lat samples lines).map Prod.snd).Nodup := by
  have e : (mercatorPlotMapF F prograde lat samples lines).map Prod.snd =
      List.range (lines * samples) := by
    unfold mercatorPlotMapF
    induction lines with
    | zero => simp
    | succ n ih =>
      rw [List.range_succ, List.flatMap_append, List.map_append, ih, Nat.succ_mul,
        List.range_add]
      simp [Function.comp_def]
  rw [e]
  exact List.nodup_range

theorem cell_div {samples k i : ℕ} (hi : i < samples) :
    (k * samples + i) / samples = k ∧ (k * samples + i) % samples = i := by
  constructor
  · rw [Nat.mul_comm, Nat.mul_add_div (by omega), Nat.div_eq_of_lt hi, Nat.add_zero]
  · rw [Nat.mul_comm, Nat.mul_add_mod, Nat.mod_eq_of_lt hi]

theorem to_degrees {x y b : ℝ} (h : |x - y| ≤ b) :
    |x * (180 / Real.pi) - y * (180 / Real.pi)| ≤ b * 58 := by
  rw [← sub_mul, abs_mul]
  have hp := Real.pi_gt_d2
  have h1 : |180 / Real.pi| ≤ 58 := by
    rw [abs_of_pos (by positivity), div_le_iff₀ (by positivity)]
    linarith
  exact mul_le_mul h h1 (abs_nonneg _) ((abs_nonneg _).trans h)

/-- The center of a part is within the range. -/
theorem center_mem {lo hi : ℚ} {n k : ℕ} (hk : k < n) (hlt : lo < hi) :
    (lo : ℝ) * (Real.pi / 180) < center lo hi n k ∧
      center lo hi n k < hi * (Real.pi / 180) := by
  have n0 : (0 : ℝ) < n := by exact_mod_cast Nat.lt_of_le_of_lt (Nat.zero_le _) hk
  have hkn : (k : ℝ) + 1 ≤ n := by exact_mod_cast hk
  have hw : (0 : ℝ) < hi - lo := by
    have : (lo : ℝ) < hi := by exact_mod_cast hlt
    linarith
  have hp : (0 : ℝ) < Real.pi / 180 := by positivity
  have h1 : 0 < ((k : ℝ) + 1 / 2) * (hi - lo) / n := by positivity
  have h2 : ((k : ℝ) + 1 / 2) * (hi - lo) / n < hi - lo := by
    rw [div_lt_iff₀ n0]
    nlinarith
  unfold center
  push_cast
  constructor
  · have := mul_pos h1 hp
    nlinarith
  · have := mul_lt_mul_of_pos_right h2 hp
    nlinarith

/-- An error of a latitude as an error of the planetographic latitude. -/
theorem graphic_lip {eqRad polRad : ℚ} (hp : 0 < polRad) (hle : polRad ≤ eqRad)
    (hr : eqRad ≤ 2 * polRad) {x y : ℝ} (hx : |x| < Real.pi / 2) (hy : |y| < Real.pi / 2) :
    |Spheroid.graphicLatitude ⟨eqRad, polRad⟩ x - Spheroid.graphicLatitude ⟨eqRad, polRad⟩ y| ≤
      4 * |x - y| := by
  have hpR : (0 : ℝ) < polRad := by exact_mod_cast hp
  have hleR : (polRad : ℝ) ≤ eqRad := by exact_mod_cast hle
  have hrR : (eqRad : ℝ) ≤ 2 * polRad := by exact_mod_cast hr
  have h1 : 1 ≤ (eqRad : ℝ) / polRad := by rwa [le_div_iff₀ hpR, one_mul]
  have h2 : (eqRad : ℝ) / polRad ≤ 2 := by rwa [div_le_iff₀ hpR]
  have := convert_lip (s := ((eqRad : ℝ) / polRad) ^ 2) (by nlinarith) (by nlinarith) hx hy
  unfold Spheroid.graphicLatitude
  convert this using 3

theorem graphicOf_lt {eqRad polRad lo hi : ℚ} (hs : 0 < ((eqRad : ℝ) / polRad) ^ 2)
    (ha : |lo| ≤ 90) (hb : |hi| ≤ 90) (hlt : lo < hi) :
    graphicOf eqRad polRad lo < graphicOf eqRad polRad hi := by
  have hp := Real.pi_pos
  have ha' := abs_le.mp ha
  have hb' := abs_le.mp hb
  unfold graphicOf
  split_ifs with h1 h2 h2
  · have : (lo : ℝ) < hi := by exact_mod_cast hlt
    exact mul_lt_mul_of_pos_right this (by positivity)
  · have e : lo = -90 := by
      rcases eq_or_eq_neg_of_abs_eq h1 with h | h
      · linarith
      · exact h
    rw [e]
    have := Real.neg_pi_div_two_lt_arctan (((eqRad : ℝ) / polRad) ^ 2 *
      Real.tan (hi * (Real.pi / 180)))
    push_cast
    linarith
  · have e : hi = 90 := by
      rcases eq_or_eq_neg_of_abs_eq h2 with h | h
      · exact h
      · linarith
    rw [e]
    have := Real.arctan_lt_pi_div_two (((eqRad : ℝ) / polRad) ^ 2 *
      Real.tan (lo * (Real.pi / 180)))
    push_cast
    linarith
  · refine Real.arctan_strictMono (mul_lt_mul_of_pos_left ?_ hs)
    have l1 : (-90 : ℝ) < lo := by
      exact_mod_cast lt_of_le_of_ne ha'.1 fun e => h1 (by rw [← e]; norm_num)
    have l2 : (hi : ℝ) < 90 := by
      exact_mod_cast lt_of_le_of_ne hb'.2 fun e => h2 (by rw [e]; norm_num)
    have l3 : (lo : ℝ) < hi := by exact_mod_cast hlt
    refine Real.tan_lt_tan_of_lt_of_lt_pi_div_two ?_ ?_ ?_ <;> nlinarith

/-- Planetographic latitudes are at least an eighth as far apart as planetocentric ones. -/
theorem graphicOf_gap {eqRad polRad lo hi : ℚ} (hp : 0 < polRad) (hle : polRad ≤ eqRad)
    (hr : eqRad ≤ 2 * polRad) (ha : |lo| ≤ 90) (hb : |hi| ≤ 90) (hlt : lo < hi) :
    ((hi : ℝ) - lo) * (Real.pi / 180) / 8 ≤
      graphicOf eqRad polRad hi - graphicOf eqRad polRad lo := by
  have hpR : (0 : ℝ) < polRad := by exact_mod_cast hp
  have hleR : (polRad : ℝ) ≤ eqRad := by exact_mod_cast hle
  have hrR : (eqRad : ℝ) ≤ 2 * polRad := by exact_mod_cast hr
  have hqR : (0 : ℝ) < eqRad := by linarith
  have h1 : 1 / 2 ≤ (polRad : ℝ) / eqRad := by rw [le_div_iff₀ hqR]; linarith
  have h2 : (polRad : ℝ) / eqRad ≤ 1 := by rw [div_le_iff₀ hqR]; linarith
  have hs : 0 < ((eqRad : ℝ) / polRad) ^ 2 := by positivity
  have ha' := abs_le.mp ha
  have hb' := abs_le.mp hb
  obtain ⟨x, hx⟩ : ∃ x, x = lo + (hi - lo) / 4 := ⟨_, rfl⟩
  obtain ⟨y, hy⟩ : ∃ y, y = hi - (hi - lo) / 4 := ⟨_, rfl⟩
  have inner : ∀ q : ℚ, |q| < 90 → |(q : ℝ) * (Real.pi / 180)| < Real.pi / 2 ∧
      Real.arctan (((polRad : ℝ) / eqRad) ^ 2 * Real.tan (graphicOf eqRad polRad q)) =
        q * (Real.pi / 180) ∧ |graphicOf eqRad polRad q| < Real.pi / 2 := by
    intro q hq
    have hqr : |(q : ℝ)| < 90 := by exact_mod_cast hq
    have b1 : |(q : ℝ) * (Real.pi / 180)| < Real.pi / 2 := by
      rw [abs_mul, abs_of_pos (by positivity : 0 < Real.pi / 180)]
      have := Real.pi_pos
      nlinarith
    have b2 := abs_lt.mp b1
    refine ⟨b1, ?_, ?_⟩
    · unfold graphicOf
      rw [if_neg hq.ne, Real.tan_arctan]
      have e : ((polRad : ℝ) / eqRad) ^ 2 * (((eqRad : ℝ) / polRad) ^ 2 *
          Real.tan (q * (Real.pi / 180))) = Real.tan (q * (Real.pi / 180)) := by
        field_simp
      rw [e, Real.arctan_tan b2.1 b2.2]
    · unfold graphicOf
      rw [if_neg hq.ne]
      exact abs_lt.2 ⟨Real.neg_pi_div_two_lt_arctan _, Real.arctan_lt_pi_div_two _⟩
  have xi : |x| < 90 := by rw [abs_lt, hx]; constructor <;> linarith
  have yi : |y| < 90 := by rw [abs_lt, hy]; constructor <;> linarith
  obtain ⟨-, ex, gx⟩ := inner x xi
  obtain ⟨-, ey, gy⟩ := inner y yi
  have lip := convert_lip (s := ((polRad : ℝ) / eqRad) ^ 2) (by nlinarith) (by nlinarith) gy gx
  rw [ey, ex] at lip
  have m1 := graphicOf_lt hs ha xi.le (by rw [hx]; linarith)
  have m2 := graphicOf_lt hs yi.le hb (by rw [hy]; linarith)
  have m3 := graphicOf_lt hs xi.le yi.le (by rw [hx, hy]; linarith)
  rw [abs_of_pos (by linarith : 0 < graphicOf eqRad polRad y - graphicOf eqRad polRad x)] at lip
  have lip' := (le_abs_self _).trans lip
  have exy : (y : ℝ) * (Real.pi / 180) - x * (Real.pi / 180) =
      ((hi : ℝ) - lo) * (Real.pi / 180) / 2 := by
    rw [hx, hy]
    push_cast
    ring
  rw [exy] at lip'
  linarith

/-- **C96** (order of planetographic lines).  The lines of a map of planetographic
latitudes whose cells are at least `10^-9` degrees high have different latitudes, which
increase with the line. -/
theorem C96_graphic_lines {L : Libm} {eqRad polRad loLat hiLat loLon hiLon : ℚ}
    {prograde : Bool} {c : CylindricalF} {samples lines : ℕ} (hL : L.Correct) (hp : 0 < polRad)
    (hle : polRad ≤ eqRad) (hr : eqRad ≤ 2 * polRad)
    (h : CylindricalF.new .ieee L (.fin eqRad) (.fin polRad) prograde (.fin loLat) (.fin hiLat)
      (.fin loLon) (.fin hiLon) true = .ok c)
    (hw : loLat + 1 / 10 ^ 6 ≤ hiLat) (hw2 : (lines : ℚ) / 10 ^ 9 ≤ hiLat - loLat)
    (hn : lines ≤ 2 ^ 31) (lat lon lat' lon' : Dbl) (o o' : ℕ)
    (ho : ((lat, lon), o) ∈ c.plotMap .ieee L samples lines)
    (ho' : ((lat', lon'), o') ∈ c.plotMap .ieee L samples lines)
    (hlt : o / samples < o' / samples) : lat.lt lat' = true := by
  obtain ⟨v, rfl, hv, -⟩ := C96_graphic hL hp hle hr h hw hn _ _ _ ho
  obtain ⟨v', rfl, hv', -⟩ := C96_graphic hL hp hle hr h hw hn _ _ _ ho'
  obtain ⟨a, b, -, -, h1, h2, -, -, ha, hb, -⟩ := new_fields h
  injection h1 with h1
  injection h2 with h2
  subst h1 h2
  have hltq : loLat < hiLat := lt_of_lt_of_le (by norm_num) hw
  have gap := graphicOf_gap hp hle hr ha hb hltq
  have hk := (mem_plotMap ho').1
  obtain ⟨j, hj⟩ : ∃ j, j = o / samples := ⟨_, rfl⟩
  obtain ⟨k, hk'⟩ : ∃ k, k = o' / samples := ⟨_, rfl⟩
  rw [← hj] at hv hlt
  rw [← hk'] at hv' hlt hk
  have hpR : (0 : ℝ) < polRad := by exact_mod_cast hp
  have hleR : (polRad : ℝ) ≤ eqRad := by exact_mod_cast hle
  have hrR : (eqRad : ℝ) ≤ 2 * polRad := by exact_mod_cast hr
  have hqR : (0 : ℝ) < eqRad := by linarith
  have s1 : 1 ≤ (eqRad : ℝ) / polRad := by rwa [le_div_iff₀ hpR, one_mul]
  have s2 : (eqRad : ℝ) / polRad ≤ 2 := by rwa [div_le_iff₀ hpR]
  have n0 : (0 : ℝ) < lines := by exact_mod_cast Nat.lt_of_le_of_lt (Nat.zero_le _) hk
  have pi0 := Real.pi_gt_d2
  -- planetographic latitudes of the centers
  have l1 := abs_le.mp (graphicOf_le eqRad polRad loLat)
  have l2 := abs_le.mp (graphicOf_le eqRad polRad hiLat)
  obtain ⟨A, hA⟩ : ∃ A, A = graphicOf eqRad polRad loLat := ⟨_, rfl⟩
  obtain ⟨W, hW⟩ : ∃ W, W = graphicOf eqRad polRad hiLat - graphicOf eqRad polRad loLat :=
    ⟨_, rfl⟩
  have hwR : (1 : ℝ) / 10 ^ 9 * lines ≤ hiLat - loLat := by
    have := (Rat.cast_le (K := ℝ)).mpr hw2
    push_cast at this
    linarith
  rw [← hW] at gap
  have hWn : (2 : ℝ) / 10 ^ 12 * lines ≤ W := by
    have : (1 : ℝ) / 10 ^ 9 * lines * (Real.pi / 180) ≤
        ((hiLat : ℝ) - loLat) * (Real.pi / 180) := by gcongr
    have h3 : (lines : ℝ) * (3.14) ≤ lines * Real.pi := by gcongr
    norm_num at this h3 ⊢
    linarith
  have W0 : 0 < W := lt_of_lt_of_le (by positivity) hWn
  have hWn' : (2 : ℝ) / 10 ^ 12 ≤ W / lines := by rwa [le_div_iff₀ n0]
  have inr : ∀ m : ℕ, m < lines → |A + ((m : ℝ) + 1 / 2) * W / lines| < Real.pi / 2 := by
    intro m hm
    have hm' : (m : ℝ) + 1 ≤ lines := by exact_mod_cast hm
    have t0 : 0 < ((m : ℝ) + 1 / 2) / lines := by positivity
    have t1 : ((m : ℝ) + 1 / 2) / lines < 1 := by rw [div_lt_one n0]; linarith
    have e : ((m : ℝ) + 1 / 2) * W / lines = ((m : ℝ) + 1 / 2) / lines * W := by ring
    rw [e, abs_lt]
    constructor <;> nlinarith
  have inv : ∀ g : ℝ, |g| < Real.pi / 2 →
      Real.arctan (((eqRad : ℝ) / polRad) ^ 2 * Real.tan (centricOf eqRad polRad g)) = g := by
    intro g hg
    have hg' := abs_lt.mp hg
    unfold centricOf
    rw [Real.tan_arctan]
    have e : ((eqRad : ℝ) / polRad) ^ 2 * (((polRad : ℝ) / eqRad) ^ 2 * Real.tan g) =
        Real.tan g := by field_simp
    rw [e, Real.arctan_tan hg'.1 hg'.2]
  have cl : ∀ g : ℝ, |centricOf eqRad polRad g| < Real.pi / 2 := fun g =>
    abs_lt.2 ⟨Real.neg_pi_div_two_lt_arctan _, Real.arctan_lt_pi_div_two _⟩
  unfold graphicCenter at hv hv'
  rw [← hW, ← hA] at hv hv'
  obtain ⟨g, hg⟩ : ∃ g, g = A + ((j : ℝ) + 1 / 2) * W / lines := ⟨_, rfl⟩
  obtain ⟨g', hg'⟩ : ∃ g', g' = A + ((k : ℝ) + 1 / 2) * W / lines := ⟨_, rfl⟩
  have ig := inr j (hlt.trans hk)
  have ig' := inr k hk
  rw [← hg] at hv ig
  rw [← hg'] at hv' ig'
  have hstep : g + 2 / 10 ^ 12 ≤ g' := by
    have hjk : (1 : ℝ) ≤ k - j := by
      have : (j : ℝ) + 1 ≤ k := by exact_mod_cast hlt
      linarith
    have e : g' - g = (k - j) * (W / lines) := by rw [hg, hg']; ring
    have : 1 * (W / lines) ≤ (k - j) * (W / lines) :=
      mul_le_mul_of_nonneg_right hjk (by positivity)
    linarith
  have lip := convert_lip (s := ((eqRad : ℝ) / polRad) ^ 2) (by nlinarith) (by nlinarith)
    (cl g') (cl g)
  rw [inv g' ig', inv g ig] at lip
  have mono : centricOf eqRad polRad g ≤ centricOf eqRad polRad g' := by
    have a1 := abs_lt.mp ig
    have a2 := abs_lt.mp ig'
    unfold centricOf
    refine Real.arctan_strictMono.monotone (mul_le_mul_of_nonneg_left ?_ (by positivity))
    refine (Real.tan_lt_tan_of_lt_of_lt_pi_div_two a1.1 a2.2 ?_).le
    norm_num at hstep
    linarith
  rw [abs_of_nonneg (by linarith : 0 ≤ centricOf eqRad polRad g' - centricOf eqRad polRad g)]
    at lip
  have lip' := (le_abs_self _).trans lip
  have : (v : ℝ) < v' := by
    rw [abs_le] at hv hv'
    norm_num at hv hv' hstep
    linarith
  simp only [Dbl.lt, decide_eq_true_eq]
  exact_mod_cast this

/-- A map of 180 planetographic lines from pole to pole meets the conditions. -/
example : ∃ (L : Libm) (c : CylindricalF), L.Correct ∧
    CylindricalF.new .ieee L (.fin 3) (.fin 2) true (.fin (-90)) (.fin 90) (.fin 0) (.fin 360)
      true = .ok c ∧ ((180 : ℕ) : ℚ) / 10 ^ 9 ≤ 90 - (-90) ∧
    ((c.latitude .ieee L 180 3, c.longitude .ieee 360 7), 3 * 360 + 7) ∈
      c.plotMap .ieee L 360 180 := by
  obtain ⟨L, hL⟩ := exists_correct
  exact ⟨L, _, hL, rfl, by norm_num, cell_mem _ _ _ (by norm_num) (by norm_num)⟩

/-- **C96** (order of samples of Mercator maps).  The samples of a Mercator map have different
longitudes, which decrease to the right in maps of prograde bodies and increase in maps of
others. -/
theorem C96_mercator_samples {prograde : Bool} {samples i j : ℕ} (hij : i < j) (hj : j < samples)
    (hn : samples ≤ 2 ^ 31) :
    if prograde then (mercatorLongitudeF .ieee prograde samples j).lt
        (mercatorLongitudeF .ieee prograde samples i) = true
    else (mercatorLongitudeF .ieee prograde samples i).lt
        (mercatorLongitudeF .ieee prograde samples j) = true := by
  obtain ⟨v, ev, hv, -⟩ := C96_mercator prograde (hij.trans hj) hn
  obtain ⟨v', ev', hv', -⟩ := C96_mercator prograde hj hn
  have hn2 : (samples : ℚ) ≤ 2 ^ 31 := by exact_mod_cast hn
  have hw : (samples : ℚ) / 10 ^ 11 ≤ 360 - 0 := by
    rw [div_le_iff₀ (by norm_num)]
    exact hn2.trans (by norm_num)
  rw [ev, ev']
  cases prograde
  · have hc := center_lt (lo := 0) (hi := 360) hij hj hw
    simp only [part, Bool.false_eq_true, if_false] at hv hv' ⊢
    have : (v : ℝ) < v' := by
      rw [abs_le] at hv hv'
      norm_num at hv hv' hc
      linarith
    simp only [Dbl.lt, decide_eq_true_eq]
    exact_mod_cast this
  · have hc := center_lt (lo := 0) (hi := 360) (n := samples) (j := samples - 1 - j)
      (k := samples - 1 - i) (by omega) (by omega) hw
    simp only [part, if_true] at hv hv' ⊢
    have : (v' : ℝ) < v := by
      rw [abs_le] at hv hv'
      norm_num at hv hv' hc
      linarith
    simp only [Dbl.lt, decide_eq_true_eq]
    exact_mod_cast this

example : (mercatorLongitudeF .ieee true 8 7).lt (mercatorLongitudeF .ieee true 8 2) = true :=
  C96_mercator_samples (prograde := true) (i := 2) (by norm_num) (by norm_num) (by norm_num)

section C97

variable {L : Libm} {eqRad polRad loLat hiLat loLon hiLon : ℚ} {prograde mapGraphic graphic : Bool}
  {c : CylindricalF} {T : MapType} {p : MapFactory.Plane (Dbl × Dbl)} {v : VirtualImage}
  {info info' : PlotInfo} {map : List Dbl} {k i : ℕ}

/-- **C97** (latitudes).  In a plane of latitudes of a simple cylindrical map, the cell on
line `k` reads, by the plane's `BSCALE` and `BZERO`, as the latitude of the center of the
cell, in degrees, planetographic if the user asked for that, within what the data type
loses and `2^-34` degrees. -/
theorem C97_latitude (hL : L.Correct) (hp : 0 < polRad) (hle : polRad ≤ eqRad)
    (hr : eqRad ≤ 2 * polRad)
    (hnew : CylindricalF.new .ieee L (.fin eqRad) (.fin polRad) prograde (.fin loLat)
      (.fin hiLat) (.fin loLon) (.fin hiLon) mapGraphic = .ok c)
    (hw : loLat + 1 / 10 ^ 6 ≤ hiLat) (hn : info.lines ≤ 2 ^ 31)
    (hplane : latitudePlane .ieee T
      (graphicLatitudeF .ieee L (.fin eqRad) (.fin polRad)) graphic = .ok (p, v))
    (hmap : MapFactory.makePlane T (c.plotMap .ieee L) p info = .ok (map, info'))
    (hk : k < info.lines) (hi : i < info.samples) :
    ReadsAs T v map[k * info.samples + i]?
      (shown eqRad polRad graphic (if mapGraphic then
        graphicCenter eqRad polRad loLat hiLat info.lines k
        else center loLat hiLat info.lines k) * (180 / Real.pi)) (1 / 2 ^ 34) := by
  have ho := cell_mem c .ieee L hk hi
  have hd := (cell_div (k := k) hi).1
  obtain ⟨a, b, -, -, h1, h2, -, -, ha, hb, -, -, -⟩ := new_fields hnew
  injection h1 with h1
  injection h2 with h2
  subst h1 h2
  have hlt : loLat < hiLat := lt_of_lt_of_le (by norm_num) hw
  -- the computed latitude
  obtain ⟨C, hC, hCC⟩ : ∃ C : ℝ, C = (if mapGraphic then
      graphicCenter eqRad polRad loLat hiLat info.lines k
      else center loLat hiLat info.lines k) ∧ |C| < Real.pi / 2 := by
    refine ⟨_, rfl, ?_⟩
    cases mapGraphic
    · simp only [Bool.false_eq_true, if_false]
      have hm := center_mem (lo := loLat) (hi := hiLat) hk hlt
      have ha' := abs_le.mp ha
      have hb' := abs_le.mp hb
      have a1 : (-90 : ℝ) ≤ loLat := by exact_mod_cast ha'.1
      have b1 : (hiLat : ℝ) ≤ 90 := by exact_mod_cast hb'.2
      have hpi := Real.pi_pos
      rw [abs_lt]
      constructor <;> nlinarith
    · simp only [if_true]
      unfold graphicCenter centricOf
      exact abs_lt.2 ⟨Real.neg_pi_div_two_lt_arctan _, Real.arctan_lt_pi_div_two _⟩
  rw [← hC]
  obtain ⟨q, hq, hqC, hq90⟩ : ∃ q : ℚ, c.latitude .ieee L info.lines k = .fin q ∧
      |(q : ℝ) - C| ≤ 1 / 2 ^ 43 ∧ |q| ≤ pi2Q := by
    have e90 : ieee.mul (.fin 90) cDegree = .fin pi2Q := by decide +kernel
    have e90' : ieee.mul (.fin (-90)) cDegree = .fin (-pi2Q) := by decide +kernel
    cases mapGraphic
    · obtain ⟨q, h1, h2, h3, h4⟩ := C96_centric hnew hw hn _ _ _ ho
      rw [hd] at h2
      refine ⟨q, h1, ?_, ?_⟩
      · rw [hC]
        simp only [Bool.false_eq_true, if_false]
        exact h2.trans (by norm_num)
      · obtain ⟨x, hx, -⟩ := Edge.lat ha
        obtain ⟨y, hy, -⟩ := Edge.lat hb
        have px := lat_edge_le ha hx
        have py := lat_edge_le hb hy
        rw [hx, h1] at h3
        rw [hy, h1] at h4
        simp only [Dbl.le, decide_eq_true_eq] at h3 h4
        rw [abs_le] at px py ⊢
        constructor <;> linarith
    · obtain ⟨q, h1, h2, h3, h4⟩ := C96_graphic hL hp hle hr hnew hw hn _ _ _ ho
      rw [hd] at h2
      refine ⟨q, h1, ?_, ?_⟩
      · rw [hC]
        simpa using h2
      · rw [e90', h1] at h3
        rw [e90, h1] at h4
        simp only [Dbl.le, decide_eq_true_eq] at h3 h4
        exact abs_le.2 ⟨h3, h4⟩
  rw [hq] at ho
  refine (C83_latitude hL hp hle (by nlinarith) T graphic hplane hmap
    (plotMap_nodup c .ieee L _ _) ho hq90).near (b := 1 / 2 ^ 34) ?_
  have hqlt : |(q : ℝ)| < Real.pi / 2 := by
    have : |(q : ℝ)| ≤ (pi2Q : ℝ) := by exact_mod_cast hq90
    have := pi2Q_lt
    norm_num at this
    linarith
  have key : |(if graphic then Spheroid.graphicLatitude ⟨eqRad, polRad⟩ q else (q : ℝ)) -
      shown eqRad polRad graphic C| ≤ 4 / 2 ^ 43 := by
    cases graphic
    · simp only [shown, Bool.false_eq_true, if_false]
      exact hqC.trans (by norm_num)
    · simp only [shown, if_true]
      have := graphic_lip hp hle hr hqlt hCC
      unfold Spheroid.graphicLatitude at this ⊢
      simp only at this ⊢
      linarith
  have := to_degrees key
  norm_num at this ⊢
  linarith

/-- **C97** (planetographic maps).  In a map of planetographic latitudes, a plane of
planetographic latitudes has evenly spaced values from line to line. -/
theorem C97_even (hL : L.Correct) (hp : 0 < polRad) (hle : polRad ≤ eqRad)
    (hr : eqRad ≤ 2 * polRad)
    (hnew : CylindricalF.new .ieee L (.fin eqRad) (.fin polRad) prograde (.fin loLat)
      (.fin hiLat) (.fin loLon) (.fin hiLon) true = .ok c)
    (hw : loLat + 1 / 10 ^ 6 ≤ hiLat) (hn : info.lines ≤ 2 ^ 31)
    (hplane : latitudePlane .ieee T
      (graphicLatitudeF .ieee L (.fin eqRad) (.fin polRad)) true = .ok (p, v))
    (hmap : MapFactory.makePlane T (c.plotMap .ieee L) p info = .ok (map, info'))
    (hk : k < info.lines) (hi : i < info.samples) :
    ReadsAs T v map[k * info.samples + i]?
      ((graphicOf eqRad polRad loLat + (k + 1 / 2) *
        (graphicOf eqRad polRad hiLat - graphicOf eqRad polRad loLat) / info.lines) *
        (180 / Real.pi)) (1 / 2 ^ 34) := by
  have h := C97_latitude hL hp hle hr hnew hw hn hplane hmap hk hi
  have hpR : (0 : ℝ) < polRad := by exact_mod_cast hp
  have hleR : (polRad : ℝ) ≤ eqRad := by exact_mod_cast hle
  have heR : (0 : ℝ) < eqRad := by linarith
  have hG : |graphicOf eqRad polRad loLat + (k + 1 / 2) *
      (graphicOf eqRad polRad hiLat - graphicOf eqRad polRad loLat) / info.lines| <
      Real.pi / 2 := by
    have b1 := abs_le.mp (graphicOf_le eqRad polRad loLat)
    have b2 := abs_le.mp (graphicOf_le eqRad polRad hiLat)
    have n0 : (0 : ℝ) < info.lines := by exact_mod_cast Nat.lt_of_le_of_lt (Nat.zero_le _) hk
    have hkn : (k : ℝ) + 1 ≤ info.lines := by exact_mod_cast hk
    have t0 : 0 < ((k : ℝ) + 1 / 2) / info.lines := by positivity
    have t1 : ((k : ℝ) + 1 / 2) / info.lines < 1 := by rw [div_lt_one n0]; linarith
    have hlt : graphicOf eqRad polRad loLat < graphicOf eqRad polRad hiLat := by
      obtain ⟨a, b, -, -, h1, h2, -, -, ha, hb, -, -, -⟩ := new_fields hnew
      injection h1 with h1
      injection h2 with h2
      subst h1 h2
      exact graphicOf_lt (by positivity) ha hb (lt_of_lt_of_le (by norm_num) hw)
    rw [mul_div_right_comm, abs_lt]
    constructor <;> nlinarith
  have e : shown eqRad polRad true (graphicCenter eqRad polRad loLat hiLat info.lines k) =
      graphicOf eqRad polRad loLat + (k + 1 / 2) *
        (graphicOf eqRad polRad hiLat - graphicOf eqRad polRad loLat) / info.lines := by
    simp only [shown, if_true, graphicCenter, centricOf]
    rw [Real.tan_arctan, ← mul_assoc]
    have : ((eqRad : ℝ) / polRad) ^ 2 * (polRad / eqRad) ^ 2 = 1 := by
      field_simp
    rw [this, one_mul]
    exact Real.arctan_tan (abs_lt.mp hG).1 (abs_lt.mp hG).2
  simp only [if_true] at h
  rwa [e] at h

/-- **C97** (longitudes).  In a plane of longitudes of a simple cylindrical map, the cell
at sample `i` reads as the longitude of the center of the cell, in degrees and up to whole
turns, within what the data type loses and `2^-38` degrees. -/
theorem C97_longitude
    (hnew : CylindricalF.new .ieee L (.fin eqRad) (.fin polRad) prograde (.fin loLat)
      (.fin hiLat) (.fin loLon) (.fin hiLon) mapGraphic = .ok c)
    (hd : Distinguishable loLon hiLon) (hn : info.samples ≤ 2 ^ 31)
    (hplane : longitudePlane .ieee T = .ok (p, v))
    (hmap : MapFactory.makePlane T (c.plotMap .ieee L) p info = .ok (map, info'))
    (hk : k < info.lines) (hi : i < info.samples) :
    ∃ turns : ℤ, ReadsAs T v map[k * info.samples + i]?
      (center (lonRange loLon hiLon).1 (lonRange loLon hiLon).2 info.samples
        (part prograde info.samples i) * (180 / Real.pi) + 360 * turns) (1 / 2 ^ 38) := by
  have ho := cell_mem c .ieee L hk hi
  obtain ⟨-, -, a, b, -, -, h1, h2, -, -, ha, hb, -⟩ := new_fields hnew
  injection h1 with h1
  injection h2 with h2
  subst h1 h2
  obtain ⟨q, hq, hqC⟩ := C96_longitudes hnew hd hn _ _ _ ho
  rw [(cell_div (k := k) hi).2] at hqC
  rw [hq] at ho
  have hbound : |q| ≤ 100 := by
    have hm := center_mem (lo := (lonRange loLon hiLon).1) (hi := (lonRange loLon hiLon).2)
      (n := info.samples) (k := part prograde info.samples i)
      (by unfold part; split_ifs <;> omega)
      (by
        unfold lonRange Distinguishable at *
        split_ifs with e1 e2
        · simp only; linarith
        · exact e2
        · simp only
          rcases hd with h | h | h
          · exact absurd h e1
          · exact absurd (lt_of_lt_of_le (by norm_num) h) e2
          · linarith [h.2])
    have ha' := abs_le.mp ha
    have hb' := abs_le.mp hb
    have l1 : -720 ≤ (lonRange loLon hiLon).1 := by
      unfold lonRange; split_ifs <;> simp only <;> linarith
    have l2 : (lonRange loLon hiLon).2 ≤ 720 := by
      unfold lonRange; split_ifs <;> simp only <;> linarith
    have l1R : (-720 : ℝ) ≤ ((lonRange loLon hiLon).1 : ℝ) := by exact_mod_cast l1
    have l2R : ((lonRange loLon hiLon).2 : ℝ) ≤ 720 := by exact_mod_cast l2
    have hp := Real.pi_lt_four
    have hp0 := Real.pi_pos
    have : |(q : ℝ)| ≤ 100 := by
      rw [abs_le] at hqC ⊢
      norm_num at hqC
      constructor <;> nlinarith
    exact_mod_cast this
  obtain ⟨turns, h⟩ := C83_longitude T hplane hmap (plotMap_nodup c .ieee L _ _) ho hbound
  refine ⟨turns, h.near ?_⟩
  have := to_degrees hqC
  rw [add_sub_add_right_eq_sub]
  norm_num at this ⊢
  linarith

/-- **C97** (longitudes of Mercator maps).  In a plane of longitudes of a Mercator map,
whatever the latitudes of its lines, the cell at sample `i` reads as the longitude of the
center of the `i`-th of `samples` equal parts of the whole circle, up to whole turns, which
are counted from the right for prograde bodies. -/
theorem C97_mercator_longitude {lat : ℕ → Dbl} (hn : info.samples ≤ 2 ^ 31)
    (hplane : longitudePlane .ieee T = .ok (p, v))
    (hmap : MapFactory.makePlane T (mercatorPlotMapF .ieee prograde lat) p info =
      .ok (map, info'))
    (hk : k < info.lines) (hi : i < info.samples) :
    ∃ turns : ℤ, ReadsAs T v map[k * info.samples + i]?
      (center 0 360 info.samples (part prograde info.samples i) * (180 / Real.pi) +
        360 * turns) (1 / 2 ^ 38) := by
  obtain ⟨q, hq, hqC, q0, q1⟩ := C96_mercator prograde hi hn
  have ho : ((lat k, .fin q), k * info.samples + i) ∈
      mercatorPlotMapF .ieee prograde lat info.samples info.lines := by
    unfold mercatorPlotMapF
    simp only [List.mem_flatMap, List.mem_range, List.mem_map, Prod.mk.injEq]
    exact ⟨k, hk, i, hi, ⟨rfl, hq⟩, rfl⟩
  have hbound : |q| ≤ 100 := by
    have e := c2pi_eq
    have : q ≤ circleQ := by
      rw [e] at q1
      simpa [Dbl.le] using q1
    have c8 : circleQ ≤ 8 := by norm_num [circleQ]
    rw [abs_of_nonneg q0]
    linarith
  obtain ⟨turns, h⟩ := C83_longitude T hplane hmap (mercator_nodup .ieee prograde lat _ _) ho
    hbound
  refine ⟨turns, h.near ?_⟩
  have := to_degrees hqC
  rw [add_sub_add_right_eq_sub]
  norm_num at this ⊢
  linarith

end C97

/-- A Mercator map of four cells and its plane of longitudes. -/
example : ∃ (p : MapFactory.Plane (Dbl × Dbl)) (v : VirtualImage) (info' : PlotInfo),
    longitudePlane .ieee .i16 = .ok (p, v) ∧
    MapFactory.makePlane .i16 (mercatorPlotMapF .ieee false fun _ => .fin 0) p
      (PlotInfo.new 4 1 none) =
      .ok ([.fin (-13500), .fin (-4500), .fin 4500, .fin 13500], info') := by
  obtain ⟨info', h⟩ := of_elements (x := MapFactory.makePlane .i16
    (mercatorPlotMapF .ieee false fun _ => .fin 0)
    ⟨(VirtualImage.mk (.fin 100) (.fin (-18000))).asRead .ieee
      (fun c : Dbl × Dbl => longitudeData .ieee c.2),
      ⟨some (.fin (-18000)), some (.fin 18000)⟩⟩ (PlotInfo.new 4 1 none))
    (m := [.fin (-13500), .fin (-4500), .fin 4500, .fin 13500]) (by decide +kernel)
  exact ⟨_, _, info', longitudePlane_i16, h⟩

/-- A map of two cells and its plane of longitudes: the cells are at 270 and 90 degrees. -/
example : ∃ (L : Libm) (c : CylindricalF) (p : MapFactory.Plane (Dbl × Dbl)) (v : VirtualImage)
    (info' : PlotInfo),
    CylindricalF.new .ieee L (.fin 3) (.fin 2) true (.fin (-90)) (.fin 90) (.fin 0) (.fin 360)
      false = .ok c ∧
    longitudePlane .ieee .i16 = .ok (p, v) ∧
    MapFactory.makePlane .i16 (c.plotMap .ieee L) p (PlotInfo.new 2 1 none) =
      .ok ([.fin 9000, .fin (-9000)], info') := by
  let L : Libm := ⟨id, id, id, id⟩
  let c : CylindricalF := ⟨true, ieee.mul (.fin (-90)) cDegree, ieee.mul (.fin 90) cDegree,
    (normalizeLonF .ieee (ieee.mul (.fin 0) cDegree) (ieee.mul (.fin 360) cDegree)).1,
    (normalizeLonF .ieee (ieee.mul (.fin 0) cDegree) (ieee.mul (.fin 360) cDegree)).2,
    false, .fin 3, .fin 2⟩
  obtain ⟨info', h⟩ := of_elements (x := MapFactory.makePlane .i16 (c.plotMap .ieee L)
    ⟨(VirtualImage.mk (.fin 100) (.fin (-18000))).asRead .ieee
      (fun c : Dbl × Dbl => longitudeData .ieee c.2),
      ⟨some (.fin (-18000)), some (.fin 18000)⟩⟩ (PlotInfo.new 2 1 none))
    (m := [.fin 9000, .fin (-9000)]) (by decide +kernel)
  exact ⟨L, c, _, _, info', rfl, longitudePlane_i16, h⟩

/-- The same map with two lines and its plane of latitudes, at 45 degrees south and north. -/
example : ∃ (L : Libm) (c : CylindricalF) (p : MapFactory.Plane (Dbl × Dbl)) (v : VirtualImage)
    (info' : PlotInfo), L.Correct ∧
    CylindricalF.new .ieee L (.fin 3) (.fin 2) true (.fin (-90)) (.fin 90) (.fin 0) (.fin 360)
      false = .ok c ∧
    latitudePlane .ieee .i16 (graphicLatitudeF .ieee L (.fin 3) (.fin 2)) false = .ok (p, v) ∧
    MapFactory.makePlane .i16 (c.plotMap .ieee L) p (PlotInfo.new 1 2 none) =
      .ok ([.fin (-4500), .fin 4500], info') := by
  obtain ⟨L, hL⟩ := exists_correct
  let L0 : Libm := ⟨id, id, id, id⟩
  let c : CylindricalF := ⟨true, ieee.mul (.fin (-90)) cDegree, ieee.mul (.fin 90) cDegree,
    (normalizeLonF .ieee (ieee.mul (.fin 0) cDegree) (ieee.mul (.fin 360) cDegree)).1,
    (normalizeLonF .ieee (ieee.mul (.fin 0) cDegree) (ieee.mul (.fin 360) cDegree)).2,
    false, .fin 3, .fin 2⟩
  obtain ⟨info', h⟩ := of_elements (x := MapFactory.makePlane .i16 (c.plotMap .ieee L0)
    ⟨(VirtualImage.mk (.fin 100) (.fin 0)).asRead .ieee
      (fun c : Dbl × Dbl => latitudeData .ieee id false c.1),
      ⟨some (.fin (-9000)), some (.fin 9000)⟩⟩ (PlotInfo.new 1 2 none))
    (m := [.fin (-4500), .fin 4500]) (by decide +kernel)
  exact ⟨L, c, _, _, info', hL, rfl, latitudePlane_i16 _, h⟩

example : Distinguishable 0 360 ∧ center 0 360 1 (part true 1 0) = Real.pi := by
  constructor
  · unfold Distinguishable
    norm_num
  · unfold center part
    norm_num
    ring

end MaRC
