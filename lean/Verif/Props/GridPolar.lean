import Verif.Props.Grid

/-!
# C73: grids of polar stereographic maps
-/

namespace MaRC.Projection

open Real Set

theorem hypot_near {x z X Z : ℝ} (hx : |x - X| ≤ 1) (hz : |z - Z| ≤ 1) :
    |√(x ^ 2 + z ^ 2) - √(X ^ 2 + Z ^ 2)| ≤ 3 / 2 := by
  have key : ∀ {x z X Z : ℝ}, |x - X| ≤ 1 → |z - Z| ≤ 1 →
      √(x ^ 2 + z ^ 2) ≤ √(X ^ 2 + Z ^ 2) + 3 / 2 := by
    intro x z X Z hx hz
    have h0 := sqrt_nonneg (X ^ 2 + Z ^ 2)
    have h1 := sq_sqrt (by positivity : 0 ≤ X ^ 2 + Z ^ 2)
    refine sqrt_le_iff.2 ⟨by linarith, ?_⟩
    set r := √(X ^ 2 + Z ^ 2)
    obtain ⟨a1, a2⟩ := abs_le.1 hx
    obtain ⟨b1, b2⟩ := abs_le.1 hz
    have hxx : (x - X) ^ 2 ≤ 1 := by nlinarith
    have hzz : (z - Z) ^ 2 ≤ 1 := by nlinarith
    have hc : X * (x - X) + Z * (z - Z) ≤ r * (3 / 2) := by
      refine abs_le_of_sq_le_sq' ?_ (by positivity) |>.2
      have : (X * (x - X) + Z * (z - Z)) ^ 2 ≤ (X ^ 2 + Z ^ 2) * ((x - X) ^ 2 + (z - Z) ^ 2) := by
        nlinarith [sq_nonneg (X * (z - Z) - Z * (x - X))]
      have h2 : (X ^ 2 + Z ^ 2) * ((x - X) ^ 2 + (z - Z) ^ 2) ≤ (X ^ 2 + Z ^ 2) * 2 :=
        mul_le_mul_of_nonneg_left (by linarith) (by positivity)
      rw [mul_pow, h1]
      nlinarith [sq_nonneg X, sq_nonneg Z]
    nlinarith
  have h1 := key hx hz
  have h2 := key (x := X) (z := Z) (X := x) (Z := z) (by rwa [abs_sub_comm]) (by rwa [abs_sub_comm])
  exact abs_le.2 ⟨by linarith, by linarith⟩

/-- The pixel nearest to a position, seen from the middle of the map. -/
theorem pixel_near {X Z : ℝ} {samples lines k i : ℕ}
    (h : PixelAt (X + samples / 2) (Z + lines / 2) k i) :
    |((i : ℝ) + 1 / 2 - samples / 2) - X| ≤ 1 ∧ |((k : ℝ) + 1 / 2 - lines / 2) - Z| ≤ 1 := by
  obtain ⟨h1, h2⟩ := h
  obtain ⟨a1, a2⟩ := abs_le.1 h1.1
  obtain ⟨b1, b2⟩ := abs_le.1 h2.1
  push_cast at a1 a2 b1 b2
  exact ⟨abs_le.2 ⟨by linarith, by linarith⟩, abs_le.2 ⟨by linarith, by linarith⟩⟩

/-- **C73**.  Where the grid of a polar stereographic map is white, either the
distance on the map of the pixel's latitude from the middle is that of a grid
latitude, to within one and a half pixels and one part in the number of pixels
across the map; or the pixel is within one and a half pixels of a diameter
in the direction of a grid longitude, as the map has it if longitudes increase to
the right (`north = prograde`) and mirrored otherwise.  Missing: that it is the
right half of the diameter, see `C73_opposite_violated`, and that it is not
mirrored, see `C73_mirrored_violated`. -/
theorem C73_drawn_partial {body : Spheroid} (hb : body.Valid) {prograde north : Bool} {m : Option ℝ}
    {p : Stereographic} (hnew : Stereographic.new body prograde m north = .ok p)
    {solve : Solver} (hsol : solve.Exact) {samples lines : ℕ}
    (hs : 2 ≤ samples) (hl : 2 ≤ lines) (hsize : samples * lines < 2 ^ 64) {plots : List Plot}
    (hp : p.plotMap solve samples lines = .ok plots) {latI lonI : ℝ} (h1 : 0 < latI) (h2 : 0 < lonI)
    {g : Grid} (hg : makeGrid (p.plotGrid samples lines latI lonI) samples lines = .ok g)
    {lat lon : ℝ} {o : ℕ} (ho : ((lat, lon), o) ∈ plots) (hw : g[o]? = some 255)
    {x z : ℝ} (hx : x = ((o % samples : ℕ) : ℝ) + 1 / 2 - samples / 2)
    (hz : z = ((o / samples : ℕ) : ℝ) + 1 / 2 - lines / 2) (hxz : hypot x z ≠ 0) :
    (∃ n, GridLatitude latI n ∧
      |p.stereoRho (body.graphicLatitude lat) - p.stereoRho (body.graphicLatitude (n * degree))| ≤
        (3 / 2 + hypot x z / (min samples lines : ℕ)) * p.gridScale samples lines) ∨
    (∃ m, GridLongitude lonI m ∧
      |hypot x z * sin (if north = prograde then lon - m * degree else lon + m * degree)| ≤
        3 / 2) := by
  obtain ⟨n1, n2, n3, n4, n5⟩ := stereographic_new hnew
  obtain ⟨hlat, hzz, hxx, -⟩ := C17_plotted hb hnew hsol hp lat lon o ho x z hx hz
  obtain ⟨-, hrho, -⟩ := hlat hxz
  obtain ⟨c, -, hpl⟩ := Stereographic.plots_eq hp
  have hoff : o < samples * lines := by
    rw [hpl, List.mem_map] at ho
    obtain ⟨a, ha, he⟩ := ho
    simp only [Prod.mk.injEq] at he
    rw [← he.2]
    exact List.mem_range.1 ha
  have hi := mod_lt_samples hoff
  have hk := div_lt_lines hoff
  obtain ⟨g', hg', hlen, hsh⟩ := C43_stereographic p hsize h1 h2
  obtain rfl : g' = g := by rw [hg] at hg'; exact (Outcome.ok.inj hg').symm
  have hoe : o / samples * samples + o % samples = o := by
    rw [mul_comm]; exact Nat.div_add_mod o samples
  have hW := (hsh (o / samples) hk (o % samples) hi).2
  rw [hoe] at hW
  -- the radius of the edge is positive
  have hR : 0 < p.stereoRho (body.graphicLatitude p.maxLat) := by
    have hr := (C17_radius hb).2.1
    have hm := Spheroid.C33_range body p.maxLat
    rw [Stereographic.stereoRho, n1, n4]
    split_ifs
    · exact hr _ ((Spheroid.C33_range body p.maxLat).2)
    · obtain ⟨q1, q2⟩ := (Spheroid.C33_range body p.maxLat).2
      exact hr _ ⟨by linarith, by linarith⟩
  set R := p.stereoRho (body.graphicLatitude p.maxLat) with hRdef
  set M := min samples lines with hM
  have hM2 : 2 ≤ M := le_min hs hl
  have hMr : (2 : ℝ) ≤ (M : ℝ) := by exact_mod_cast hM2
  have hscale : p.gridScale samples lines = 2 * R / ((M : ℝ) - 1) := by
    have e : min (samples - 1) (lines - 1) = M - 1 := by omega
    rw [Stereographic.gridScale, n1, e, Nat.cast_sub (by omega)]
    simp [hRdef]
  have hsc : 0 < p.gridScale samples lines := by
    rw [hscale]
    exact div_pos (by linarith) (by linarith)
  have hh : hypot x z = √(x ^ 2 + z ^ 2) := rfl
  have hh0 : 0 ≤ hypot x z := by rw [hh]; exact sqrt_nonneg _
  by_contra hcon
  have hblack := hW fun hwh => hcon ?_
  · rw [hw] at hblack
    exact absurd hblack (by decide)
  · rcases hwh with ⟨n, hn, t, -, hpix⟩ | ⟨m', hm', t, -, hpix⟩
    · left
      refine ⟨n, hn, ?_⟩
      have hnear := pixel_near hpix
      rw [← hx, ← hz] at hnear
      have hd := hypot_near hnear.1 hnear.2
      rw [n1] at hd
      set r := p.stereoRho (body.graphicLatitude (n * degree))
      set s := p.gridScale samples lines
      have hr0 : 0 ≤ r := by
        have hr := (C17_radius hb).2.1
        have hq := (Spheroid.C33_range body (n * degree)).2
        show 0 ≤ p.stereoRho (body.graphicLatitude (n * degree))
        rw [Stereographic.stereoRho, n1, n4]
        split_ifs
        · exact (hr _ hq).le
        · exact (hr _ ⟨by linarith [hq.2], by linarith [hq.1]⟩).le
      have e1 : √((r * sin (Stereographic.turn t) / s) ^ 2 +
          (r * cos (Stereographic.turn t) / s) ^ 2) = r / s := by
        rw [show (r * sin (Stereographic.turn t) / s) ^ 2 + (r * cos (Stereographic.turn t) / s) ^ 2
          = (r / s) ^ 2 by
            linear_combination (r / s) ^ 2 * sin_sq_add_cos_sq (Stereographic.turn t)]
        exact sqrt_sq (div_nonneg hr0 hsc.le)
      rw [e1, ← hh] at hd
      have e2 : p.stereoRho (body.graphicLatitude lat) =
          (hypot x z - hypot x z / M) * s := by
        rw [div_eq_div_iff hR.ne' (by linarith)] at hrho
        rw [hscale]
        have : (M : ℝ) - 1 ≠ 0 := by linarith
        field_simp
        linear_combination 2 * hrho
      have e3 : p.stereoRho (body.graphicLatitude lat) - r =
          (hypot x z - r / s) * s - hypot x z / M * s := by
        rw [e2]
        field_simp
        ring
      rw [e3, add_mul]
      refine (abs_sub _ _).trans (add_le_add ?_ ?_)
      · rw [abs_mul, abs_of_pos hsc]
        exact mul_le_mul_of_nonneg_right hd hsc.le
      · rw [abs_of_nonneg (by positivity)]
    · right
      refine ⟨m', hm', ?_⟩
      have hnear := pixel_near hpix
      rw [← hx, ← hz] at hnear
      set s := p.gridScale samples lines
      set r := p.stereoRho (Stereographic.turn t)
      obtain ⟨a1, b1⟩ := hnear
      have key : |x * cos (m' * degree) - z * sin (m' * degree)| ≤ 3 / 2 := by
        set dx := x - r * sin (m' * degree) / s with hdx
        set dz := z - r * cos (m' * degree) / s with hdz
        have e : x * cos (m' * degree) - z * sin (m' * degree) =
            dx * cos (m' * degree) - dz * sin (m' * degree) := by
          rw [hdx, hdz]; ring
        have q1 : dx ^ 2 ≤ 1 := by rw [← sq_abs]; nlinarith [abs_nonneg dx]
        have q2 : dz ^ 2 ≤ 1 := by rw [← sq_abs]; nlinarith [abs_nonneg dz]
        rw [e]
        refine abs_le_of_sq_le_sq ?_ (by norm_num)
        nlinarith [sq_nonneg (dx * sin (m' * degree) + dz * cos (m' * degree)),
          sin_sq_add_cos_sq (m' * degree)]
      split_ifs with hd
      · rw [if_pos hd] at hxx
        rw [sin_sub]
        rw [show hypot x z * (sin lon * cos (m' * degree) - cos lon * sin (m' * degree)) =
          x * cos (m' * degree) - z * sin (m' * degree) by
            linear_combination (-cos (m' * degree)) * hxx + sin (m' * degree) * hzz]
        exact key
      · rw [if_neg hd] at hxx
        rw [sin_add]
        rw [show hypot x z * (sin lon * cos (m' * degree) + cos lon * sin (m' * degree)) =
          -(x * cos (m' * degree) - z * sin (m' * degree)) by
            linear_combination (-cos (m' * degree)) * hxx - sin (m' * degree) * hzz, abs_neg]
        exact key

/-- A root finder as the theorems ask for exists, and with it every polar
stereographic map is plotted. -/
theorem stereographic_exists : ∃ solve : Solver, solve.Exact ∧
    ∀ {body : Spheroid}, body.Valid → ∀ {prograde north : Bool} {m : Option ℝ} {p : Stereographic},
      Stereographic.new body prograde m north = .ok p → ∀ samples lines : ℕ,
      ∃ plots, p.plotMap solve samples lines = .ok plots ∧ VisitsAll samples lines plots := by
  classical
  let solve : Solver := fun y xl xh f => if h : ∃ r, xl ≤ r ∧ r ≤ xh ∧ f r = y then .ok h.choose
    else .throw .runtimeError
  have hex : solve.Exact := by
    intro y xl xh f r hr
    simp only [solve] at hr
    split_ifs at hr with h
    injection hr with hr
    rw [← hr]
    exact h.choose_spec
  refine ⟨solve, hex, ?_⟩
  intro body hb prograde north m p hp samples lines
  obtain ⟨n1, n2, n3, n4, n5⟩ := stereographic_new hp
  rcases C12_stereographic p solve samples lines with h | ⟨k, hk, i, hi, hbad⟩
  · exact h
  · exfalso
    have hpi := pi_pos
    have hmax : 0 < p.stereoRho (p.body.graphicLatitude p.maxLat) := by
      obtain ⟨q1, q2⟩ := (Spheroid.C33_range body p.maxLat).2
      rw [Stereographic.stereoRho, n1, n4]
      split_ifs
      · exact (C17_radius hb).2.1 _ ⟨q1, q2⟩
      · exact (C17_radius hb).2.1 _ ⟨by linarith, by linarith⟩
    have hnn : 0 ≤ p.pixelRho samples lines i k := by
      rw [Stereographic.pixelRho, Stereographic.pixConv]
      exact mul_nonneg (by positivity) (sqrt_nonneg _)
    have hroot : ∃ r, -(π / 2) ≤ r ∧ r ≤ π / 2 ∧
        stereoRhoImpl p.body p.rhoCoeff r = p.pixelRho samples lines i k := by
      rcases hnn.eq_or_lt with h0 | hpos
      · exact ⟨π / 2, by linarith, le_refl _, by rw [n1, n4, (C17_radius hb).1, h0]⟩
      · obtain ⟨x, ⟨hx1, hx2⟩, -⟩ := C17_unique hb hpos
        exact ⟨x, hx1.1.le, hx1.2.le, by rw [n1, n4, hx2]⟩
    exact hbad hroot.choose (by simp only [solve]; rw [dif_pos hroot])

/-- The hypotheses of `C73_drawn_partial` are met. -/
example : ∃ (solve : Solver) (p : Stereographic) (plots : List Plot) (g : Grid), solve.Exact ∧
    Stereographic.new ⟨71492, 66854⟩ true (some 45) true = .ok p ∧
    p.plotMap solve 22 22 = .ok plots ∧
    makeGrid (p.plotGrid 22 22 30 30) 22 22 = .ok g := by
  obtain ⟨solve, h1, h2⟩ := stereographic_exists
  have hv : Spheroid.Valid ⟨71492, 66854⟩ := ⟨by norm_num, by norm_num⟩
  obtain ⟨p, hp, -⟩ := (C17_maximum ⟨71492, 66854⟩ true true).2.1 45 (by norm_num)
  obtain ⟨plots, h3, -⟩ := h2 hv hp 22 22
  obtain ⟨g, hg, -⟩ := C43_stereographic p (samples := 22) (lines := 22) (latI := 30) (lonI := 30)
    (by norm_num) (by norm_num) (by norm_num)
  exact ⟨solve, p, plots, g, h1, hp, h3, hg⟩

/-! ## Where grid and map disagree -/

/-- A map of the hemisphere around the north pole of a sphere. -/
theorem sphere_rho {prograde : Bool} {p : Stereographic}
    (hp : Stereographic.new ⟨1, 1⟩ prograde none true = .ok p) (latg : ℝ) :
    p.stereoRho latg = 2 * tan (π / 4 - latg / 2) ∧
    p.gridScale 22 22 = 4 / 21 := by
  have he : Spheroid.firstEccentricity ⟨1, 1⟩ = 0 := by simp [Spheroid.firstEccentricity]
  have h : ∀ latg, p.stereoRho latg = 2 * tan (π / 4 - latg / 2) := by
    intro latg
    simp only [Stereographic.new, Outcome.ok.injEq] at hp
    subst hp
    simp [Stereographic.stereoRho, stereoRhoImpl, rhoCoefficient, he]
  refine ⟨h latg, ?_⟩
  rw [Stereographic.gridScale, h]
  have h0 : p.maxLat = 0 := by
    simp only [Stereographic.new, Outcome.ok.injEq] at hp
    subst hp
    rfl
  rw [h0, (Spheroid.C33_odd _ 0).2.2.2, zero_div, sub_zero, tan_pi_div_four]
  norm_num

theorem degree_bounds : 0.0174532 < degree ∧ degree < 0.0174533 := by
  rw [degree, degreeQ]
  push_cast
  constructor <;> norm_num

theorem roundsTo_of {x : ℝ} {z : ℤ} (h1 : (z : ℝ) - 1 / 2 < x) (h2 : x < z + 1 / 2) :
    RoundsTo x z := by
  have : |x - z| < 1 / 2 := abs_lt.2 ⟨by linarith, by linarith⟩
  exact ⟨this.le, fun h => absurd h this.ne⟩

/-- **C73** is false of the code: on a map with longitudes increasing to the left
(the north pole of a body with retrograde rotation) meridians are drawn mirrored.
The grid longitudes are 60 and 360, and a pixel is drawn that is more than nine
pixels away from the diameters of both. -/
theorem C73_mirrored_violated :
    (∀ m, GridLongitude 300 m ↔ m = 360 ∨ m = 60) ∧ (∀ n, ¬ GridLatitude 200 n) ∧
    ∃ (p : Stereographic) (solve : Solver) (plots : List Plot) (g : Grid) (lat lon : ℝ) (o : ℕ)
      (d : ℝ),
      Stereographic.new ⟨1, 1⟩ false none true = .ok p ∧ solve.Exact ∧
      p.plotMap solve 22 22 = .ok plots ∧
      makeGrid (p.plotGrid 22 22 200 300) 22 22 = .ok g ∧
      ((lat, lon), o) ∈ plots ∧ g[o]? = some 255 ∧
      d = hypot (((o % 22 : ℕ) : ℝ) + 1 / 2 - 11) (((o / 22 : ℕ) : ℝ) + 1 / 2 - 11) ∧
      9 < |d * sin (lon - 60 * degree)| ∧ 9 < |d * sin (lon - 360 * degree)| := by
  refine ⟨?_, ?_, ?_⟩
  · intro m
    constructor
    · rintro ⟨j, rfl, hj⟩
      have : (j : ℝ) < 2 := by linarith
      have : j < 2 := by exact_mod_cast this
      have : j = 0 ∨ j = 1 := by omega
      rcases this with rfl | rfl <;> norm_num
    · rintro (rfl | rfl)
      · exact ⟨0, by norm_num, by norm_num⟩
      · exact ⟨1, by norm_num, by norm_num⟩
  · rintro n ⟨j, hj, rfl, h⟩
    have : (1 : ℝ) ≤ j := by exact_mod_cast hj
    linarith
  obtain ⟨solve, h1, h2⟩ := stereographic_exists
  have hv : Spheroid.Valid ⟨1, 1⟩ := ⟨by norm_num, by norm_num⟩
  obtain ⟨p, hp, -⟩ := (C17_maximum ⟨1, 1⟩ false true).2.2
  obtain ⟨plots, h3, h4⟩ := h2 hv hp 22 22
  obtain ⟨g, hg, -, hsh⟩ := C43_stereographic p (samples := 22) (lines := 22) (latI := 200)
    (lonI := 300) (by norm_num) (by norm_num) (by norm_num)
  obtain ⟨c, -, hpl⟩ := Stereographic.plots_eq h3
  have hmem : (c 16 20, 372) ∈ plots := by
    rw [hpl, List.mem_map]
    exact ⟨372, by simp, rfl⟩
  obtain ⟨-, hz, hx, -⟩ := C17_plotted hv hp h1 h3 (c 16 20).1 (c 16 20).2 372 hmem
    (((372 % 22 : ℕ) : ℝ) + 1 / 2 - (22 : ℕ) / 2) (((372 / 22 : ℕ) : ℝ) + 1 / 2 - (22 : ℕ) / 2) rfl rfl
  obtain ⟨d1, d2⟩ := degree_bounds
  -- angles of 60 and 360 degrees
  have p1 := pi_gt_d6
  have p2 := pi_lt_d6
  have s60 : |sin (60 * degree) - √3 / 2| ≤ 1 / 1000 := by
    rw [← sin_pi_div_three]
    refine (abs_sin_sub_sin_le _ _).trans (abs_le.2 ⟨?_, ?_⟩) <;> linarith
  have c60 : |cos (60 * degree) - 1 / 2| ≤ 1 / 1000 := by
    rw [← cos_pi_div_three]
    refine (abs_cos_sub_cos_le _ _).trans (abs_le.2 ⟨?_, ?_⟩) <;> linarith
  have s360 : |sin (360 * degree) - 0| ≤ 1 / 1000 := by
    rw [← sin_two_pi]
    refine (abs_sin_sub_sin_le _ _).trans (abs_le.2 ⟨?_, ?_⟩) <;> linarith
  have c360 : |cos (360 * degree) - 1| ≤ 1 / 1000 := by
    have := abs_cos_sub_cos_le (360 * degree) (2 * π)
    rw [cos_two_pi] at this
    refine this.trans (abs_le.2 ⟨?_, ?_⟩) <;> linarith
  have r1 : (1.732 : ℝ) < √3 := lt_sqrt_of_sq_lt (by norm_num)
  have r2 : √3 < (1.733 : ℝ) := (sqrt_lt' (by norm_num)).2 (by norm_num)
  obtain ⟨a1, a2⟩ := abs_le.1 s60
  obtain ⟨b1, b2⟩ := abs_le.1 c60
  obtain ⟨e1, e2⟩ := abs_le.1 s360
  obtain ⟨f1, f2⟩ := abs_le.1 c360
  refine ⟨p, solve, plots, g, (c 16 20).1, (c 16 20).2, 372, _, hp, h1, h3, hg, hmem, ?_, rfl, ?_, ?_⟩
  · refine (hsh 16 (by norm_num) 20 (by norm_num)).1 (Or.inr ⟨60, ⟨1, by norm_num, by norm_num⟩, 0,
      by norm_num, ?_⟩)
    have ht : Stereographic.turn 0 = 0 := by simp [Stereographic.turn]
    rw [ht, (sphere_rho hp 0).1, (sphere_rho hp 0).2, zero_div, sub_zero, tan_pi_div_four]
    constructor
    · refine roundsTo_of ?_ ?_ <;> push_cast <;> linarith
    · refine roundsTo_of ?_ ?_ <;> push_cast <;> linarith
  · rw [sin_sub]
    norm_num [abs_mul] at hx hz ⊢
    rw [← abs_mul]
    set d := hypot (19 / 2) (11 / 2)
    rw [show d * (sin (c 16 20).2 * cos (60 * degree) - cos (c 16 20).2 * sin (60 * degree)) =
      -(19 / 2 * cos (60 * degree) + 11 / 2 * sin (60 * degree)) by
        linear_combination (-cos (60 * degree)) * hx + sin (60 * degree) * hz, abs_neg]
    refine lt_of_lt_of_le ?_ (le_abs_self _)
    linarith
  · rw [sin_sub]
    norm_num [abs_mul] at hx hz ⊢
    rw [← abs_mul]
    set d := hypot (19 / 2) (11 / 2)
    rw [show d * (sin (c 16 20).2 * cos (360 * degree) - cos (c 16 20).2 * sin (360 * degree)) =
      -(19 / 2 * cos (360 * degree) + 11 / 2 * sin (360 * degree)) by
        linear_combination (-cos (360 * degree)) * hx + sin (360 * degree) * hz, abs_neg]
    refine lt_of_lt_of_le ?_ (le_abs_self _)
    linarith

/-- **C73** is false of the code: the meridian of each grid longitude is continued
beyond the pole.  The one grid longitude is 360 and there is no grid latitude, but
on the half of the map around longitude 180 a pixel is drawn. -/
theorem C73_opposite_violated :
    (∀ m, GridLongitude 360 m ↔ m = 360) ∧ (∀ n, ¬ GridLatitude 200 n) ∧
    ∃ (p : Stereographic) (solve : Solver) (plots : List Plot) (g : Grid) (lat lon : ℝ) (o : ℕ),
      Stereographic.new ⟨1, 1⟩ true none true = .ok p ∧ solve.Exact ∧
      p.plotMap solve 22 22 = .ok plots ∧
      makeGrid (p.plotGrid 22 22 200 360) 22 22 = .ok g ∧
      ((lat, lon), o) ∈ plots ∧ g[o]? = some 255 ∧ cos lon < 0 := by
  refine ⟨?_, ?_, ?_⟩
  · intro m
    constructor
    · rintro ⟨j, rfl, hj⟩
      have : (j : ℝ) < 1 := by linarith
      have : j < 1 := by exact_mod_cast this
      obtain rfl : j = 0 := by omega
      norm_num
    · rintro rfl
      exact ⟨0, by norm_num, by norm_num⟩
  · rintro n ⟨j, hj, rfl, h⟩
    have : (1 : ℝ) ≤ j := by exact_mod_cast hj
    linarith
  obtain ⟨solve, h1, h2⟩ := stereographic_exists
  have hv : Spheroid.Valid ⟨1, 1⟩ := ⟨by norm_num, by norm_num⟩
  obtain ⟨p, hp, -⟩ := (C17_maximum ⟨1, 1⟩ true true).2.2
  obtain ⟨plots, h3, h4⟩ := h2 hv hp 22 22
  obtain ⟨g, hg, -, hsh⟩ := C43_stereographic p (samples := 22) (lines := 22) (latI := 200)
    (lonI := 360) (by norm_num) (by norm_num) (by norm_num)
  obtain ⟨c, -, hpl⟩ := Stereographic.plots_eq h3
  obtain ⟨d1, d2⟩ := degree_bounds
  have p1 := pi_gt_d6
  have p2 := pi_lt_d6
  have s360 : |sin (360 * degree) - 0| ≤ 1 / 1000 := by
    rw [← sin_two_pi]
    refine (abs_sin_sub_sin_le _ _).trans (abs_le.2 ⟨?_, ?_⟩) <;> linarith
  have c360 : |cos (360 * degree) - 1| ≤ 1 / 1000 := by
    have := abs_cos_sub_cos_le (360 * degree) (2 * π)
    rw [cos_two_pi] at this
    refine this.trans (abs_le.2 ⟨?_, ?_⟩) <;> linarith
  obtain ⟨e1, e2⟩ := abs_le.1 s360
  obtain ⟨f1, f2⟩ := abs_le.1 c360
  -- the point at 135 degrees, beyond the pole
  have ht : Stereographic.turn 750 = 135 * degree := by
    rw [Stereographic.turn]; push_cast; ring
  set y := 135 * degree / 2 - π / 4 with hy
  have hy0 : 0.39 < y := by rw [hy]; linarith
  have hy1 : y < π / 4 := by rw [hy]; linarith
  have t1 : y < tan y := lt_tan (by linarith) (by linarith)
  have t2 : tan y < 1 := by
    rw [← tan_pi_div_four]
    exact tan_lt_tan_of_lt_of_lt_pi_div_two (by linarith) (by linarith) hy1
  have hrho : p.stereoRho (Stereographic.turn 750) = -(2 * tan y) := by
    rw [(sphere_rho hp _).1, ht, show π / 4 - 135 * degree / 2 = -y by rw [hy]; ring, tan_neg]
    ring
  have hscale := (sphere_rho hp 0).2
  have hz := roundsTo_cround (-(2 * tan y) * cos (360 * degree) / (4 / 21) + ((22 : ℕ) : ℝ) / 2)
  set z := cround (-(2 * tan y) * cos (360 * degree) / (4 / 21) + ((22 : ℕ) : ℝ) / 2)
  obtain ⟨z1, z2⟩ := abs_le.1 hz.1
  push_cast at z1 z2
  have m1 : tan y * cos (360 * degree) ≤ 1.001 := by nlinarith
  have m2 : 0.38 ≤ tan y * cos (360 * degree) := by nlinarith
  have m3 : |tan y * sin (360 * degree)| ≤ 1 / 1000 := by
    rw [abs_mul, abs_of_pos (by linarith : (0 : ℝ) < tan y)]
    rw [sub_zero] at s360
    nlinarith [abs_nonneg (sin (360 * degree))]
  obtain ⟨m4, m5⟩ := abs_le.1 m3
  have k1 : 0 ≤ z := by
    have : (-1 : ℝ) < z := by linarith
    have : (-1 : ℤ) < z := by exact_mod_cast this
    omega
  have k2 : z ≤ 9 := by
    have : (z : ℝ) < 10 := by linarith
    have : z < 10 := by exact_mod_cast this
    omega
  obtain ⟨k, hkz⟩ : ∃ k : ℕ, z = k := ⟨z.toNat, (Int.toNat_of_nonneg k1).symm⟩
  have hk9 : k ≤ 9 := by omega
  have hdiv : (k * 22 + 11) / 22 = k := by omega
  have hmod : (k * 22 + 11) % 22 = 11 := by omega
  have hmem : (c k 11, k * 22 + 11) ∈ plots := by
    rw [hpl, List.mem_map]
    exact ⟨k * 22 + 11, List.mem_range.2 (by omega), by rw [hdiv, hmod]⟩
  obtain ⟨-, hzc, -, -⟩ := C17_plotted hv hp h1 h3 (c k 11).1 (c k 11).2 _ hmem _ _ rfl rfl
  rw [hdiv, hmod] at hzc
  refine ⟨p, solve, plots, g, (c k 11).1, (c k 11).2, k * 22 + 11, hp, h1, h3, hg, hmem, ?_, ?_⟩
  · refine (hsh k (by omega) 11 (by norm_num)).1 (Or.inr ⟨360, ⟨0, by norm_num, by norm_num⟩, 750,
      by norm_num, ?_⟩)
    rw [hrho, hscale]
    constructor
    · refine roundsTo_of ?_ ?_ <;> push_cast <;> linarith
    · rw [hkz] at hz
      exact hz
  · by_contra hcon
    rw [not_lt] at hcon
    have h9 : (k : ℝ) ≤ 9 := by exact_mod_cast hk9
    have := mul_nonneg (sqrt_nonneg ((((11 : ℕ) : ℝ) + 1 / 2 - (22 : ℕ) / 2) ^ 2 +
      ((k : ℝ) + 1 / 2 - (22 : ℕ) / 2) ^ 2)) hcon
    rw [hypot] at hzc
    rw [← hzc] at this
    push_cast at this
    linarith

end MaRC.Projection
