import Verif.Props.Projection

/-!
# C15, C16, C17: Mercator and polar stereographic maps
-/

namespace MaRC.Projection

open Real Set

/-! ## C15 -/

/-- **C15** (odd).  The ordinates of opposite latitudes are opposite. -/
theorem C15_odd {s : Spheroid} (h : s.Valid) {x : ℝ} (hx : x ∈ Ioo (-(π / 2)) (π / 2)) :
    mercatorX s (-x) = -mercatorX s x := by
  have hx' : -x ∈ Ioo (-(π / 2)) (π / 2) := ⟨by linarith [hx.2], by linarith [hx.1]⟩
  rw [mercatorX_eq h hx, mercatorX_eq h hx', sin_neg, isometric_odd]

/-- **C15** (increasing).  The ordinate increases strictly with the
planetographic latitude from pole to pole. -/
theorem C15_increasing {s : Spheroid} (h : s.Valid) :
    StrictMonoOn (mercatorX s) (Ioo (-(π / 2)) (π / 2)) := by
  obtain ⟨he0, he⟩ := eccentricity_bounds h
  intro x hx y hy hxy
  rw [mercatorX_eq h hx, mercatorX_eq h hy]
  exact isometric_strictMono he0 he (sin_mem hx) (sin_mem hy)
    (strictMonoOn_sin ⟨hx.1.le, hx.2.le⟩ ⟨hy.1.le, hy.2.le⟩ hxy)

/-- **C15** (one latitude per ordinate).  Every ordinate, however large, is that
of exactly one planetographic latitude between the poles. -/
theorem C15_unique {s : Spheroid} (h : s.Valid) (y : ℝ) :
    ∃! x, x ∈ Ioo (-(π / 2)) (π / 2) ∧ mercatorX s x = y := by
  obtain ⟨he0, he⟩ := eccentricity_bounds h
  obtain ⟨t, ht, hty⟩ := isometric_surj he0 he y
  have hx : arcsin t ∈ Ioo (-(π / 2)) (π / 2) :=
    ⟨neg_pi_div_two_lt_arcsin.2 ht.1, arcsin_lt_pi_div_two.2 ht.2⟩
  refine ⟨arcsin t, ⟨hx, ?_⟩, ?_⟩
  · rw [mercatorX_eq h hx, sin_arcsin ht.1.le ht.2.le, hty]
  · rintro z ⟨hz, hzy⟩
    have h1 : mercatorX s (arcsin t) = y := by
      rw [mercatorX_eq h hx, sin_arcsin ht.1.le ht.2.le, hty]
    exact (C15_increasing h).injOn hz hx (hzy.trans h1.symm)

/-- **C15** (sphere).  For a sphere the ordinate is the logarithm of the tangent
of 45 degrees plus half the latitude. -/
theorem C15_sphere {s : Spheroid} (h : s.Valid) (hs : s.polRad = s.eqRad) (x : ℝ) :
    mercatorX s x = log (tan (π / 4 + x / 2)) := by
  have : s.eqRad ≠ 0 := (lt_of_lt_of_le h.pol_pos h.le).ne'
  have he : s.firstEccentricity = 0 := by
    rw [Spheroid.firstEccentricity, hs, div_self this]; simp
  rw [mercatorX, he]
  simp

theorem mercatorX_zero {s : Spheroid} (h : s.Valid) : mercatorX s 0 = 0 := by
  have := C15_odd h (x := 0) ⟨by linarith [pi_pos], by linarith [pi_pos]⟩
  rw [neg_zero] at this
  linarith

/-- Ordinate of the centre of line `k` of a Mercator map, as the documentation
derives it: the map is `2 * pi` wide, and its middle is on the equator. -/
noncomputable def lineOrdinate (samples lines k : ℕ) : ℝ :=
  ((k : ℝ) + 1 / 2 - (lines : ℝ) / 2) * (2 * π / samples)

theorem ordinate_eq {samples lines : ℕ} (k : ℕ) (hl : 0 < lines) :
    Mercator.ordinate samples lines k = lineOrdinate samples lines k := by
  have : (lines : ℝ) ≠ 0 := by exact_mod_cast hl.ne'
  rw [Mercator.ordinate, Mercator.xmax, lineOrdinate]
  rcases Nat.eq_zero_or_pos samples with rfl | hs
  · simp
  · have : (samples : ℝ) ≠ 0 := by exact_mod_cast hs.ne'
    field_simp
    norm_num
    ring

theorem tan_ends : tan (π / 4 + π / 2 / 2) = 0 ∧ tan (π / 4 + -(π / 2) / 2) = 0 := by
  constructor
  · rw [show π / 4 + π / 2 / 2 = π / 2 by ring, tan_pi_div_two]
  · rw [show π / 4 + -(π / 2) / 2 = 0 by ring, tan_zero]

/-- **C15** (plotted latitudes, inexact root finder).  With a root finder whose
results solve the equation up to `tol`, the ordinate of the latitude plotted on
a line differs from the ordinate of the line's centre by at most `tol`. -/
theorem C15_plotted_within {s : Spheroid} (h : s.Valid) {tol : ℝ} {solve : Solver}
    (hsol : solve.Within tol)
    {prograde : Bool} {samples lines : ℕ} {plots : List Plot}
    (hp : Mercator.plotMap solve s prograde samples lines = .ok plots)
    (lat lon : ℝ) (o : ℕ) (ho : ((lat, lon), o) ∈ plots) :
    lat ∈ Ioo (-(π / 2)) (π / 2) ∧
    |mercatorX s (s.graphicLatitude lat) - lineOrdinate samples lines (o / samples)| ≤ tol := by
  obtain ⟨latg, h1, h2⟩ := mercator_plots hp
  rw [h2, List.mem_map] at ho
  obtain ⟨a, ha, he⟩ := ho
  simp only [Prod.mk.injEq] at he
  obtain ⟨⟨h3, -⟩, rfl⟩ := he
  have hk := div_lt_lines (List.mem_range.1 ha)
  obtain ⟨q1, q2, q3⟩ := hsol _ _ _ _ _ (h1 _ hk)
  rw [ordinate_eq _ (Nat.zero_lt_of_lt hk)] at q3
  have hr := (Spheroid.C33_range s (latg (a / samples))).1
  rw [h3] at hr
  refine ⟨hr, ?_⟩
  by_cases hend : latg (a / samples) ∈ Ioo (-(π / 2)) (π / 2)
  · rw [← h3, (Spheroid.C33_inverse h _ hend).1]
    exact q3
  · have hcase : latg (a / samples) = π / 2 ∨ latg (a / samples) = -(π / 2) := by
      by_contra hne
      push Not at hne
      exact hend ⟨lt_of_le_of_ne q1 (Ne.symm hne.2), lt_of_le_of_ne q2 hne.1⟩
    have hzero : mercatorX s (latg (a / samples)) = 0 := by
      rcases hcase with hc | hc <;> rw [hc, mercatorX]
      · rw [tan_ends.1]; simp
      · rw [tan_ends.2]; simp
    have hlat : lat = 0 := by
      rw [← h3, Spheroid.centricLatitude]
      rcases hcase with hc | hc <;> rw [hc]
      · simp
      · rw [tan_neg]; simp
    rw [hlat, (Spheroid.C33_odd s 0).2.2.2, mercatorX_zero h, ← hzero]
    exact q3

/-- **C15** (plotted latitudes).  With a root finder whose results solve the
equation, the latitude plotted on a line is the one and only latitude with the
line's ordinate. -/
theorem C15_plotted {s : Spheroid} (h : s.Valid) {solve : Solver} (hsol : solve.Exact)
    {prograde : Bool} {samples lines : ℕ} {plots : List Plot}
    (hp : Mercator.plotMap solve s prograde samples lines = .ok plots)
    (lat lon : ℝ) (o : ℕ) (ho : ((lat, lon), o) ∈ plots) :
    lat ∈ Ioo (-(π / 2)) (π / 2) ∧
    mercatorX s (s.graphicLatitude lat) = lineOrdinate samples lines (o / samples) ∧
    ∀ lat' ∈ Ioo (-(π / 2)) (π / 2),
      mercatorX s (s.graphicLatitude lat') = lineOrdinate samples lines (o / samples) →
        lat' = lat := by
  have hw : solve.Within 0 := by
    intro y xl xh f r hr
    obtain ⟨q1, q2, q3⟩ := hsol y xl xh f r hr
    exact ⟨q1, q2, by rw [q3]; simp⟩
  obtain ⟨hr, hk⟩ := C15_plotted_within h hw hp lat lon o ho
  have key := sub_eq_zero.1 (abs_eq_zero.1 (le_antisymm hk (abs_nonneg _)))
  refine ⟨hr, key, fun lat' hl' he' => ?_⟩
  have e1 := (C15_increasing h).injOn (Spheroid.C33_range s lat').2 (Spheroid.C33_range s lat).2
    (he'.trans key.symm)
  exact (Spheroid.C33_increasing h).2.injOn hl' hr e1

/-- A root finder as the theorems ask for exists, and it always returns a
number for the Mercator equation. -/
theorem exact_solver : ∃ solve : Solver, solve.Exact ∧
    ∀ (s : Spheroid), s.Valid → ∀ y, ∃ r, solve y (-(π / 2)) (π / 2) (mercatorX s) = .ok r := by
  classical
  refine ⟨fun y xl xh f => if h : ∃ r, xl ≤ r ∧ r ≤ xh ∧ f r = y then .ok h.choose
    else .throw .runtimeError, ?_, ?_⟩
  · intro y xl xh f r hr
    beta_reduce at hr
    split_ifs at hr with h
    injection hr with hr
    rw [← hr]
    exact h.choose_spec
  · intro s hs y
    obtain ⟨x, ⟨hx, hy⟩, -⟩ := C15_unique hs y
    have : ∃ r, -(π / 2) ≤ r ∧ r ≤ π / 2 ∧ mercatorX s r = y := ⟨x, hx.1.le, hx.2.le, hy⟩
    beta_reduce
    rw [dif_pos this]
    exact ⟨_, rfl⟩

/-- The hypotheses of `C15_plotted` and `C16` are met. -/
example : ∃ (solve : Solver) (plots : List Plot), solve.Exact ∧
    Mercator.plotMap solve ⟨71492, 66854⟩ true 720 360 = .ok plots := by
  obtain ⟨solve, h1, h2⟩ := exact_solver
  have hv : Spheroid.Valid ⟨71492, 66854⟩ := ⟨by norm_num, by norm_num⟩
  rcases C12_mercator solve ⟨71492, 66854⟩ true 720 360 with ⟨plots, hp, -⟩ | ⟨k, -, hk⟩
  · exact ⟨solve, plots, h1, hp⟩
  · obtain ⟨r, hr⟩ := h2 _ hv (Mercator.ordinate 720 360 k)
    exact absurd hr (hk r)

/-! ## C16 -/

theorem mercator_longitude_eq (prograde : Bool) {i samples : ℕ} (hi : i < samples) :
    Mercator.longitude prograde i samples =
      partCenter 0 (2 * π) samples (if prograde then samples - 1 - i else i) := by
  have hn : (samples : ℝ) ≠ 0 := by
    have : 0 < samples := by omega
    exact_mod_cast this.ne'
  rw [Mercator.longitude, partCenter]
  cases prograde
  · simp only [Bool.false_eq_true, if_false]
    norm_num
    ring
  · simp only [if_true]
    rw [Nat.cast_sub (by omega), Nat.cast_sub (by omega)]
    field_simp
    norm_num
    ring

/-- **C16** (longitudes).  With any root finder, the longitude plotted at sample
`i` is the centre of the `i`-th of `samples` equal parts of a full turn, counted
from 0 for retrograde bodies and from 360 degrees for prograde ones.  It is
strictly between 0 and 360 degrees, and different samples have different
longitudes. -/
theorem C16_longitudes {s : Spheroid} {solve : Solver} {prograde : Bool} {samples lines : ℕ}
    {plots : List Plot} (hp : Mercator.plotMap solve s prograde samples lines = .ok plots) :
    (∀ lat lon o, ((lat, lon), o) ∈ plots →
      lon = partCenter 0 (2 * π) samples
        (if prograde then samples - 1 - o % samples else o % samples) ∧
      0 < lon ∧ lon < 2 * π) ∧
    (∀ lat lon o lat' lon' o', ((lat, lon), o) ∈ plots → ((lat', lon'), o') ∈ plots →
      o % samples < o' % samples →
        (prograde = false → lon < lon') ∧ (prograde = true → lon' < lon)) := by
  obtain ⟨latg, -, h2⟩ := mercator_plots hp
  have h2pi : (0 : ℝ) < 2 * π := by linarith [pi_pos]
  have key : ∀ lat lon o, ((lat, lon), o) ∈ plots → o % samples < samples ∧
      lon = partCenter 0 (2 * π) samples
        (if prograde then samples - 1 - o % samples else o % samples) := by
    intro lat lon o ho
    rw [h2, List.mem_map] at ho
    obtain ⟨a, ha, he⟩ := ho
    simp only [Prod.mk.injEq] at he
    obtain ⟨⟨-, h3⟩, rfl⟩ := he
    have hi := mod_lt_samples (List.mem_range.1 ha)
    exact ⟨hi, by rw [← h3, mercator_longitude_eq prograde hi]⟩
  refine ⟨fun lat lon o ho => ?_, fun lat lon o lat' lon' o' ho ho' hlt => ?_⟩
  · obtain ⟨hi, h3⟩ := key _ _ _ ho
    refine ⟨h3, ?_⟩
    rw [h3]
    refine partCenter_mem h2pi ?_
    split_ifs <;> omega
  · obtain ⟨hi, h3⟩ := key _ _ _ ho
    obtain ⟨hi', h4⟩ := key _ _ _ ho'
    constructor
    · intro hpro
      simp only [hpro, Bool.false_eq_true, if_false] at h3 h4
      rw [h3, h4]
      exact partCenter_lt h2pi hlt hi'
    · intro hpro
      simp only [hpro, if_true] at h3 h4
      rw [h3, h4]
      exact partCenter_lt h2pi (by omega) (by omega)

/-- **C16** (equator).  With a root finder whose results solve the equation,
lines `k` and `lines - 1 - k` show opposite latitudes, and latitudes increase
with the line. -/
theorem C16_symmetric {s : Spheroid} (h : s.Valid) {solve : Solver} (hsol : solve.Exact)
    {prograde : Bool} {samples lines : ℕ} {plots : List Plot}
    (hp : Mercator.plotMap solve s prograde samples lines = .ok plots)
    (lat lon lat' lon' : ℝ) (o o' : ℕ) (ho : ((lat, lon), o) ∈ plots)
    (ho' : ((lat', lon'), o') ∈ plots) :
    (o / samples + o' / samples = lines - 1 → lat' = -lat) ∧
    (o / samples < o' / samples → lat < lat') := by
  obtain ⟨a1, a2, a3⟩ := C15_plotted h hsol hp _ _ _ ho
  obtain ⟨b1, b2, b3⟩ := C15_plotted h hsol hp _ _ _ ho'
  have hlt : ∀ lat lon o, ((lat, lon), o) ∈ plots → o < samples * lines := by
    intro lat lon o ho
    rcases C12_mercator solve s prograde samples lines with ⟨p, hp', hv⟩ | ⟨k, hk, hbad⟩
    · rw [hp] at hp'
      injection hp' with hp'
      subst hp'
      exact (visitsAll_inOrder hv).2 _ ho
    · obtain ⟨latg, h1, -⟩ := mercator_plots hp
      exact absurd (h1 k hk) (hbad _)
  have hk := div_lt_lines (hlt _ _ _ ho)
  have hs : (0 : ℝ) < samples := by
    have := mod_lt_samples (hlt _ _ _ ho)
    exact_mod_cast (show 0 < samples by omega)
  constructor
  · intro hsum
    refine (b3 (-lat) ⟨by linarith [a1.2], by linarith [a1.1]⟩ ?_).symm
    rw [(Spheroid.C33_odd s lat).2.1, C15_odd h (Spheroid.C33_range s lat).2, a2, lineOrdinate,
      lineOrdinate]
    have : ((o / samples : ℕ) : ℝ) + ((o' / samples : ℕ) : ℝ) = (lines : ℝ) - 1 := by
      rw [← Nat.cast_add, hsum, Nat.cast_sub (Nat.zero_lt_of_lt hk), Nat.cast_one]
    have h4 : ((o' / samples : ℕ) : ℝ) = (lines : ℝ) - 1 - ((o / samples : ℕ) : ℝ) := by linarith
    rw [h4]
    ring
  · intro hless
    by_contra hge
    have hle : lat' ≤ lat := le_of_not_gt hge
    have h5 : mercatorX s (s.graphicLatitude lat') ≤ mercatorX s (s.graphicLatitude lat) :=
      (C15_increasing h).monotoneOn (Spheroid.C33_range s lat').2 (Spheroid.C33_range s lat).2
        ((Spheroid.C33_increasing h).2.monotoneOn b1 a1 hle)
    rw [a2, b2, lineOrdinate, lineOrdinate] at h5
    have h6 : ((o / samples : ℕ) : ℝ) < ((o' / samples : ℕ) : ℝ) := by exact_mod_cast hless
    have h7 : 0 < 2 * π / samples := div_pos (by linarith [pi_pos]) hs
    have := mul_lt_mul_of_pos_right
      (show ((o / samples : ℕ) : ℝ) + 1 / 2 - lines / 2 < ((o' / samples : ℕ) : ℝ) + 1 / 2 - lines / 2
        by linarith) h7
    linarith

/-! ## C17 -/

theorem rhoCoefficient_pos {s : Spheroid} (h : s.Valid) : 0 < rhoCoefficient s := by
  obtain ⟨he0, he⟩ := eccentricity_bounds h
  have h0 : 0 < s.eqRad := lt_of_lt_of_le h.pol_pos h.le
  have h1 : 0 < 1 + s.firstEccentricity := by linarith
  have h2 : 0 < 1 - s.firstEccentricity := by linarith
  rw [rhoCoefficient]
  positivity

/-- The stereographic radius is a decreasing function of the Mercator
ordinate. -/
theorem stereo_eq {s : Spheroid} (h : s.Valid) (coeff : ℝ) {x : ℝ}
    (hx : x ∈ Ioo (-(π / 2)) (π / 2)) :
    stereoRhoImpl s coeff x = coeff * exp (-mercatorX s x) := by
  obtain ⟨he0, he⟩ := eccentricity_bounds h
  obtain ⟨-, -, h3, h4⟩ := es_bounds he0 he (sin_mem hx)
  obtain ⟨ht, -⟩ := tan_half hx
  have e1 : tan (π / 4 - x / 2) = (tan (π / 4 + x / 2))⁻¹ := by
    rw [show π / 4 - x / 2 = π / 2 - (π / 4 + x / 2) by ring, tan_pi_div_two_sub]
  have e2 : ((1 + s.firstEccentricity * sin x) / (1 - s.firstEccentricity * sin x)) ^
      (s.firstEccentricity / 2) = (((1 - s.firstEccentricity * sin x) /
        (1 + s.firstEccentricity * sin x)) ^ (s.firstEccentricity / 2))⁻¹ := by
    rw [← inv_rpow (by positivity), inv_div]
  rw [stereoRhoImpl, mercatorX, exp_neg, exp_log (by positivity), e1, e2, mul_inv, mul_assoc]

/-- **C17** (radius).  The radius on the map is zero at the pole in the middle,
positive elsewhere, and decreases strictly with the latitude towards it. -/
theorem C17_radius {s : Spheroid} (h : s.Valid) :
    stereoRhoImpl s (rhoCoefficient s) (π / 2) = 0 ∧
    (∀ x ∈ Ioo (-(π / 2)) (π / 2), 0 < stereoRhoImpl s (rhoCoefficient s) x) ∧
    StrictAntiOn (stereoRhoImpl s (rhoCoefficient s)) (Ioc (-(π / 2)) (π / 2)) := by
  have hc := rhoCoefficient_pos h
  have h0 : stereoRhoImpl s (rhoCoefficient s) (π / 2) = 0 := by
    rw [stereoRhoImpl, show π / 4 - π / 2 / 2 = 0 by ring, tan_zero]; simp
  have hpos : ∀ x ∈ Ioo (-(π / 2)) (π / 2), 0 < stereoRhoImpl s (rhoCoefficient s) x := by
    intro x hx
    rw [stereo_eq h _ hx]
    positivity
  refine ⟨h0, hpos, ?_⟩
  intro x hx y hy hxy
  have hx' : x ∈ Ioo (-(π / 2)) (π / 2) := ⟨hx.1, lt_of_lt_of_le hxy hy.2⟩
  rcases lt_or_eq_of_le hy.2 with hlt | heq
  · have hy' : y ∈ Ioo (-(π / 2)) (π / 2) := ⟨hy.1, hlt⟩
    rw [stereo_eq h _ hx', stereo_eq h _ hy']
    refine mul_lt_mul_of_pos_left (exp_lt_exp.2 ?_) hc
    have := C15_increasing h hx' hy' hxy
    linarith
  · rw [heq, h0]
    exact hpos x hx'

/-- **C17** (one latitude per radius).  Every positive radius is that of exactly
one planetographic latitude between the poles. -/
theorem C17_unique {s : Spheroid} (h : s.Valid) {rho : ℝ} (hrho : 0 < rho) :
    ∃! x, x ∈ Ioo (-(π / 2)) (π / 2) ∧ stereoRhoImpl s (rhoCoefficient s) x = rho := by
  have hc := rhoCoefficient_pos h
  obtain ⟨x, ⟨hx, hxy⟩, -⟩ := C15_unique h (-log (rho / rhoCoefficient s))
  have e : stereoRhoImpl s (rhoCoefficient s) x = rho := by
    rw [stereo_eq h _ hx, hxy, neg_neg, exp_log (by positivity)]
    field_simp
  refine ⟨x, ⟨hx, e⟩, ?_⟩
  rintro z ⟨hz, hze⟩
  exact (C17_radius h).2.2.injOn ⟨hz.1, hz.2.le⟩ ⟨hx.1, hx.2.le⟩ (hze.trans e.symm)

/-- **C17** (maximum latitude).  A maximum latitude is rejected exactly if its
magnitude is 90 degrees or more; none means 0. -/
theorem C17_maximum (body : Spheroid) (prograde north : Bool) :
    (∀ m : ℝ, Stereographic.new body prograde (some m) north = .throw .invalidArgument ↔
      90 ≤ |m|) ∧
    (∀ m : ℝ, |m| < 90 → ∃ p, Stereographic.new body prograde (some m) north = .ok p ∧
      p.maxLat = m * degree) ∧
    ∃ p, Stereographic.new body prograde none north = .ok p ∧ p.maxLat = 0 := by
  refine ⟨fun m => ?_, fun m hm => ?_, _, rfl, rfl⟩
  · simp only [Stereographic.new]
    split_ifs with h
    · exact ⟨fun _ => h, fun _ => rfl⟩
    · exact ⟨fun h' => absurd h' (by simp), fun h' => absurd h' h⟩
  · simp only [Stereographic.new, if_neg (not_le.2 hm)]
    exact ⟨_, rfl, rfl⟩

/-- What a constructed polar stereographic projection holds. -/
theorem stereographic_new {body : Spheroid} {prograde : Bool} {m : Option ℝ} {north : Bool}
    {p : Stereographic} (h : Stereographic.new body prograde m north = .ok p) :
    p.body = body ∧ p.prograde = prograde ∧ p.northPole = north ∧
    p.rhoCoeff = rhoCoefficient body ∧ p.maxLat ∈ Ioo (-(π / 2)) (π / 2) := by
  cases m with
  | none =>
    simp only [Stereographic.new, Outcome.ok.injEq] at h
    subst h
    exact ⟨rfl, rfl, rfl, rfl, by linarith [pi_pos], by linarith [pi_pos]⟩
  | some m =>
    simp only [Stereographic.new] at h
    split_ifs at h with hm
    injection h with h
    subst h
    rw [ge_iff_le, not_le, abs_lt] at hm
    exact ⟨rfl, rfl, rfl, rfl, lat_mem hm.1.le hm.2.le⟩

/-- **C17** (plotted points).  With a root finder whose results solve the
equation: a pixel whose centre is `x` pixels right of and `z` pixels above the
middle of the map shows the one latitude whose radius on the map is
proportional to the pixel's distance from the middle; half the smaller side of
the map is the radius of the maximum latitude.  Its longitude is the direction
of the pixel, measured from the upward direction, to the right or to the left
as pole and rotation have it. -/
theorem C17_plotted {body : Spheroid} (hb : body.Valid) {prograde north : Bool} {m : Option ℝ}
    {p : Stereographic} (hnew : Stereographic.new body prograde m north = .ok p)
    {solve : Solver} (hsol : solve.Exact) {samples lines : ℕ} {plots : List Plot}
    (hp : p.plotMap solve samples lines = .ok plots)
    (lat lon : ℝ) (o : ℕ) (ho : ((lat, lon), o) ∈ plots)
    (x z : ℝ) (hx : x = ((o % samples : ℕ) : ℝ) + 1 / 2 - samples / 2)
    (hz : z = ((o / samples : ℕ) : ℝ) + 1 / 2 - lines / 2) :
    (hypot x z ≠ 0 →
      lat ∈ Ioo (-(π / 2)) (π / 2) ∧
      p.stereoRho (body.graphicLatitude lat) / p.stereoRho (body.graphicLatitude p.maxLat) =
        hypot x z / ((min samples lines : ℕ) / 2) ∧
      ∀ lat' ∈ Ioo (-(π / 2)) (π / 2), p.stereoRho (body.graphicLatitude lat') =
        p.stereoRho (body.graphicLatitude lat) → lat' = lat) ∧
    z = hypot x z * cos lon ∧
    (if north = prograde then x else -x) = hypot x z * sin lon ∧
    -π < lon ∧ lon ≤ π := by
  obtain ⟨n1, n2, n3, n4, n5⟩ := stereographic_new hnew
  obtain ⟨c, h1, h2⟩ := Stereographic.plots_eq hp
  rw [h2, List.mem_map] at ho
  obtain ⟨a, ha, he⟩ := ho
  simp only [Prod.mk.injEq] at he
  obtain ⟨h3, rfl⟩ := he
  have hk := div_lt_lines (List.mem_range.1 ha)
  have hi := mod_lt_samples (List.mem_range.1 ha)
  have h4 := h1 _ hk _ hi
  rw [h3, Stereographic.pixel] at h4
  cases hs : solve (p.pixelRho samples lines (a % samples) (a / samples)) (-(π / 2)) (π / 2)
      (stereoRhoImpl p.body p.rhoCoeff) with
  | throw e => rw [hs] at h4; exact absurd h4 (by simp)
  | ub => rw [hs] at h4; exact absurd h4 (by simp)
  | ok latg =>
    rw [hs, Outcome.bind_ok, Outcome.ok.injEq, Prod.mk.injEq] at h4
    obtain ⟨h5, h6⟩ := h4
    obtain ⟨q1, q2, q3⟩ := hsol _ _ _ _ _ hs
    have hox : Stereographic.offset samples (a % samples) = x := by
      rw [hx, Stereographic.offset]; norm_num
    have hoz : Stereographic.offset lines (a / samples) = z := by
      rw [hz, Stereographic.offset]; norm_num
    rw [hox, hoz] at h6
    have hccw : p.ccw = decide (north = prograde) := by
      rw [Stereographic.ccw, n2, n3]
      cases north <;> cases prograde <;> rfl
    have hmag : ‖(⟨z, if p.ccw then x else -x⟩ : ℂ)‖ = hypot x z := by
      rw [Complex.norm_def, Complex.normSq_mk, hypot]
      congr 1
      split_ifs <;> ring
    have hre := Complex.norm_mul_cos_arg (⟨z, if p.ccw then x else -x⟩ : ℂ)
    have him := Complex.norm_mul_sin_arg (⟨z, if p.ccw then x else -x⟩ : ℂ)
    rw [hmag] at hre him
    rw [atan2] at h6
    rw [h6] at hre him
    refine ⟨fun hne => ?_, hre.symm, ?_, ?_, ?_⟩
    · rw [n1, n4] at q3
      have hc := rhoCoefficient_pos hb
      have hpos : 0 < hypot x z := lt_of_le_of_ne (sqrt_nonneg _) (Ne.symm hne)
      have hmin : (0 : ℝ) < (min samples lines : ℕ) := by
        exact_mod_cast lt_min (Nat.zero_lt_of_lt hi) (Nat.zero_lt_of_lt hk)
      have hg : ∀ y : ℝ, (if north then body.graphicLatitude y else -body.graphicLatitude y) ∈
          Ioo (-(π / 2)) (π / 2) := by
        intro y
        have := (Spheroid.C33_range body y).2
        split_ifs
        · exact this
        · exact ⟨by linarith [this.2], by linarith [this.1]⟩
      have hstereo : ∀ y, p.stereoRho (body.graphicLatitude y) =
          stereoRhoImpl body (rhoCoefficient body)
            (if north then body.graphicLatitude y else -body.graphicLatitude y) := by
        intro y; rw [Stereographic.stereoRho, n1, n3, n4]
      have hmax : 0 < p.stereoRho (body.graphicLatitude p.maxLat) := by
        rw [hstereo]
        exact (C17_radius hb).2.1 _ (hg _)
      have hrho : p.pixelRho samples lines (a % samples) (a / samples) =
          2 * p.stereoRho (body.graphicLatitude p.maxLat) / (min samples lines : ℕ) *
            hypot x z := by
        rw [Stereographic.pixelRho, Stereographic.pixConv, hox, hoz, n1]
      have hrpos : 0 < p.pixelRho samples lines (a % samples) (a / samples) := by
        rw [hrho]; positivity
      have hlatg : latg ∈ Ioo (-(π / 2)) (π / 2) := by
        refine ⟨lt_of_le_of_ne q1 fun e => ?_, lt_of_le_of_ne q2 fun e => ?_⟩
        · rw [← e, stereoRhoImpl, show π / 4 - -(π / 2) / 2 = π / 2 by ring, tan_pi_div_two,
            mul_zero, zero_mul] at q3
          linarith
        · rw [e, (C17_radius hb).1] at q3
          linarith
      have hgl : (if north then body.graphicLatitude lat else -body.graphicLatitude lat) =
          latg := by
        rw [← h5, n1, n3]
        cases north
        · simp only [Bool.false_eq_true, if_false]
          rw [(Spheroid.C33_odd body latg).1, (Spheroid.C33_odd body _).2.1, neg_neg,
            (Spheroid.C33_inverse hb _ hlatg).1]
        · simp only [if_true]
          rw [(Spheroid.C33_inverse hb _ hlatg).1]
      have hlat : lat ∈ Ioo (-(π / 2)) (π / 2) := by
        rw [← h5]; exact (Spheroid.C33_range _ _).1
      refine ⟨hlat, ?_, ?_⟩
      · rw [hstereo lat, hgl, q3, hrho]
        field_simp
      · intro lat' hl' he'
        rw [hstereo, hstereo] at he'
        have e1 := (C17_radius hb).2.2.injOn ⟨(hg lat').1, (hg lat').2.le⟩
          ⟨(hg lat).1, (hg lat).2.le⟩ he'
        have e2 : body.graphicLatitude lat' = body.graphicLatitude lat := by
          cases north <;> simpa using e1
        exact (Spheroid.C33_increasing hb).2.injOn hl' hlat e2
    · rw [hccw] at him
      rw [him]
      simp
    · rw [← h6]; exact Complex.neg_pi_lt_arg _
    · rw [← h6]; exact Complex.arg_le_pi _

/-- The hypotheses of `C17_plotted` are met by a map of an even number of
samples and lines. -/
example : ∃ (solve : Solver) (p : Stereographic) (plots : List Plot), solve.Exact ∧
    Stereographic.new ⟨71492, 66854⟩ true (some 45) true = .ok p ∧
    p.plotMap solve 2 2 = .ok plots := by
  classical
  have hv : Spheroid.Valid ⟨71492, 66854⟩ := ⟨by norm_num, by norm_num⟩
  obtain ⟨p, hp, -⟩ := (C17_maximum ⟨71492, 66854⟩ true true).2.1 45 (by norm_num)
  obtain ⟨n1, n2, n3, n4, n5⟩ := stereographic_new hp
  let solve : Solver := fun y xl xh f => if h : ∃ r, xl ≤ r ∧ r ≤ xh ∧ f r = y then .ok h.choose
    else .throw .runtimeError
  have hex : solve.Exact := by
    intro y xl xh f r hr
    simp only [solve] at hr
    split_ifs at hr with h
    injection hr with hr
    rw [← hr]
    exact h.choose_spec
  rcases C12_stereographic p solve 2 2 with ⟨plots, h, -⟩ | ⟨k, hk, i, hi, hbad⟩
  · exact ⟨solve, p, plots, hex, hp, h⟩
  · exfalso
    have hx : hypot (Stereographic.offset 2 i) (Stereographic.offset 2 k) ≠ 0 := by
      rw [hypot]
      refine (sqrt_pos.2 ?_).ne'
      have : 0 < Stereographic.offset 2 i ^ 2 := by
        have : Stereographic.offset 2 i ≠ 0 := by
          have hi' : i = 0 ∨ i = 1 := by omega
          rcases hi' with rfl | rfl <;> norm_num [Stereographic.offset]
        positivity
      positivity
    have hg := (Spheroid.C33_range ⟨71492, 66854⟩ p.maxLat).2
    have hmax : 0 < p.stereoRho (p.body.graphicLatitude p.maxLat) := by
      rw [Stereographic.stereoRho, n1, n3, n4]
      exact (C17_radius hv).2.1 _ hg
    have hpos : 0 < p.pixelRho 2 2 i k := by
      have h1 : 0 < hypot (Stereographic.offset 2 i) (Stereographic.offset 2 k) :=
        lt_of_le_of_ne (sqrt_nonneg _) (Ne.symm hx)
      rw [Stereographic.pixelRho, Stereographic.pixConv]
      simp only [min_self]
      push_cast
      positivity
    obtain ⟨x, ⟨hx1, hx2⟩, -⟩ := C17_unique hv hpos
    have hroot : ∃ r, -(π / 2) ≤ r ∧ r ≤ π / 2 ∧
        stereoRhoImpl p.body p.rhoCoeff r = p.pixelRho 2 2 i k :=
      ⟨x, hx1.1.le, hx1.2.le, by rw [n1, n4, hx2]⟩
    exact hbad hroot.choose (by simp only [solve]; rw [dif_pos hroot])

end MaRC.Projection
