import Verif.Props.Grid

/-!
# C71: grid lines are where the map has their latitudes and longitudes
-/

namespace MaRC.Projection

open Real Set

theorem partCenter_near {lo w x : ℝ} (hw : 0 < w) {n k : ℕ} (hn : 0 < n) {z : ℤ}
    (h : RoundsTo (x * (n / w)) z) (hz : z = k ∨ z = k + 1) :
    |partCenter lo (lo + w) n k - (lo + x)| ≤ w / n := by
  have hn' : (0 : ℝ) < n := by exact_mod_cast hn
  obtain ⟨h1, h2⟩ := abs_le.1 h.1
  have hwn : 0 < w / n := div_pos hw hn'
  have e : partCenter lo (lo + w) n k - (lo + x) =
      ((k : ℝ) + 1 / 2 - x * (n / w)) * (w / n) := by
    rw [partCenter]
    field_simp
    ring
  rw [e, abs_mul, abs_of_pos hwn]
  refine mul_le_of_le_one_left hwn.le (abs_le.2 ?_)
  rcases hz with rfl | rfl <;> push_cast at h1 h2 <;> constructor <;> linarith

theorem edgeSample_cases {prograde : Bool} {samples i : ℕ} (hi : i < samples) :
    edgeSample prograde samples i = ((if prograde then samples - 1 - i else i : ℕ) : ℤ) ∨
    edgeSample prograde samples i = ((if prograde then samples - 1 - i else i : ℕ) : ℤ) + 1 := by
  cases prograde
  · left; simp [edgeSample]
  · right; simp only [edgeSample, if_true]; omega

/-- The nearest integer of a number below `n - 1/2` is below `n`. -/
theorem exists_round {x : ℝ} {n : ℕ} (h0 : 0 ≤ x) (h1 : x < n - 1 / 2) :
    ∃ k < n, RoundsTo x (k : ℤ) := by
  have h := roundsTo_cround x
  obtain ⟨k, hk⟩ := Int.eq_ofNat_of_zero_le (cround_nonneg h0)
  rw [hk] at h
  refine ⟨k, ?_, h⟩
  have := (abs_le.1 h.1).1
  by_contra hn
  have hc : (n : ℝ) ≤ k := by exact_mod_cast not_lt.1 hn
  push_cast at this
  linarith

theorem exists_round' {x : ℝ} {n : ℕ} (h0 : 1 / 2 ≤ x) (h1 : x < n + 1 / 2) :
    ∃ i < n, RoundsTo x ((n : ℤ) - i) := by
  have h := roundsTo_cround x
  obtain ⟨k, hk⟩ := Int.eq_ofNat_of_zero_le (cround_nonneg (by linarith : 0 ≤ x))
  rw [hk] at h
  have ha := abs_le.1 h.1
  push_cast at ha
  have hpos : 0 < k := by
    by_contra hn
    obtain rfl : k = 0 := by omega
    have hx : x = 1 / 2 := by
      have := ha.2
      push_cast at this
      linarith
    have := h.2 (by rw [hx]; norm_num)
    rw [hx] at this
    norm_num at this
  have hle : k ≤ n := by
    by_contra hn
    have hc : (n : ℝ) + 1 ≤ k := by exact_mod_cast not_le.1 hn
    linarith [ha.1]
  refine ⟨n - k, by omega, ?_⟩
  rw [show ((n : ℤ) - ((n - k : ℕ) : ℤ)) = k by omega]
  exact h

/-! ## Simple cylindrical -/

/-- The latitude a map of the given kind is drawn in. -/
noncomputable def mapLatitude (body : Spheroid) (graphic : Bool) (lat : ℝ) : ℝ :=
  if graphic then body.graphicLatitude lat else lat

theorem mapLatitude_eq {body : Spheroid} (hb : body.Valid) {prograde : Bool}
    {loLat hiLat loLon hiLon : ℝ} {graphic : Bool} {c : Cylindrical}
    (h : Cylindrical.new body prograde loLat hiLat loLon hiLon graphic = .ok c)
    (hlat : loLat < hiLat) {samples lines : ℕ} {plots : List Plot}
    (hp : c.plotMap samples lines = .ok plots) :
    c.loLat < c.hiLat ∧ c.prograde = prograde ∧
    ∀ lat lon o, ((lat, lon), o) ∈ plots →
      mapLatitude body graphic lat = partCenter c.loLat c.hiLat lines (o / samples) := by
  obtain ⟨q1, q2, q3, q4, -, -, -, -, hc⟩ := cylindrical_new h
  have hlr : loLat * degree < hiLat * degree := mul_lt_mul_of_pos_right hlat degree_pos
  cases graphic
  · refine ⟨by rw [hc]; simpa using hlr, by rw [hc], fun lat lon o ho => ?_⟩
    rw [mapLatitude, if_neg (by simp), ((C13_centric h hlat hp).1 lat lon o ho).1, hc]
    simp
  · have hinc := (Spheroid.C33_increasing hb).2 (lat_mem q1 q2) (lat_mem q3 q4) hlr
    refine ⟨by rw [hc]; simpa using hinc, by rw [hc], fun lat lon o ho => ?_⟩
    rw [mapLatitude, if_pos rfl, ((C13_graphic hb h hlat hp).1 lat lon o ho).1, hc]
    simp

theorem cylindrical_offset {c : Cylindrical} {samples lines : ℕ} {plots : List Plot}
    (hp : c.plotMap samples lines = .ok plots) {lat lon : ℝ} {o : ℕ}
    (ho : ((lat, lon), o) ∈ plots) : o < samples * lines := by
  rw [cylindrical_plots] at hp
  injection hp with hp
  rw [← hp, List.mem_map] at ho
  obtain ⟨a, ha, he⟩ := ho
  simp only [Prod.mk.injEq] at he
  rw [← he.2]
  exact List.mem_range.1 ha

/-- A longitude given in degrees, or the same a turn before. -/
def SameMeridian (a b : ℝ) : Prop := a = b ∨ a = b - 360

/-- If there is a grid no grid longitude is before the edge of the map. -/
theorem clear_of_ok {c : Cylindrical} {samples lines : ℕ} {latI lonI : ℝ} {g : Grid} (h2 : 0 < lonI)
    (hlon : c.loLon < c.hiLon)
    (hg : makeGrid (c.plotGrid samples lines latI lonI) samples lines = .ok g) (m : ℝ)
    (hm : GridLongitude lonI m) :
    -(1 / 2) < (m - c.loLon / degree) * (samples / ((c.hiLon - c.loLon) / degree)) := by
  by_contra hn
  rw [C43_edge_violated c samples lines h2 hlon hm (not_lt.1 hn)] at hg
  exact absurd hg (by simp)

/-- **C71** (simple cylindrical, nothing else).  Where the grid is white, the map
shows a latitude within one line of a grid latitude or a longitude within one
sample of a grid longitude. -/
theorem C71_cylindrical_only {body : Spheroid} (hb : body.Valid) {prograde : Bool}
    {loLat hiLat loLon hiLon : ℝ} {graphic : Bool} {c : Cylindrical}
    (h : Cylindrical.new body prograde loLat hiLat loLon hiLon graphic = .ok c)
    (hlat : loLat < hiLat) (hlon : c.loLon < c.hiLon)
    {samples lines : ℕ} (hs : samples < 2 ^ 64) (hsize : samples * lines < 2 ^ 64)
    (hspan : 1000 * (samples / ((c.hiLon - c.loLon) / degree)) ≤ 2 ^ 63)
    {latI lonI : ℝ} (h1 : 0 < latI) (h2 : 0 < lonI) {plots : List Plot} {g : Grid}
    (hp : c.plotMap samples lines = .ok plots)
    (hg : makeGrid (c.plotGrid samples lines latI lonI) samples lines = .ok g)
    {lat lon : ℝ} {o : ℕ} (ho : ((lat, lon), o) ∈ plots) (hw : g[o]? = some 255) :
    (∃ n, GridLatitude latI n ∧
      |mapLatitude body graphic lat - n * degree| ≤ (c.hiLat - c.loLat) / lines) ∨
    (∃ m m', GridLongitude lonI m ∧ SameMeridian m' m ∧
      |lon - m' * degree| ≤ (c.hiLon - c.loLon) / samples) := by
  have hd := degree_pos
  obtain ⟨hll, hpro, hml⟩ := mapLatitude_eq hb h hlat hp
  obtain ⟨g', hg', hlen, hsh⟩ := C43_cylindrical_partial c hs hsize hll hlon (edge_low h)
    (clear_of_ok h2 hlon hg) hspan h1 h2
  obtain rfl : g' = g := by rw [hg] at hg'; exact (Outcome.ok.inj hg').symm
  have hoff := cylindrical_offset hp ho
  have hi := mod_lt_samples hoff
  have hk := div_lt_lines hoff
  have hoe : o / samples * samples + o % samples = o := by
    rw [mul_comm]; exact Nat.div_add_mod o samples
  have hW := (hsh (o / samples) hk (o % samples) hi).2
  rw [hoe] at hW
  by_contra hcon
  have hblack := hW fun hwh => hcon ?_
  · rw [hw] at hblack
    exact absurd hblack (by decide)
  · rcases hwh with ⟨n, hn, hr⟩ | ⟨m, hm, hr⟩
    · refine .inl ⟨n, hn, ?_⟩
      have e : (n - c.loLat / degree) * (lines / ((c.hiLat - c.loLat) / degree)) =
          (n * degree - c.loLat) * (lines / (c.hiLat - c.loLat)) := by
        field_simp
      rw [e] at hr
      have := partCenter_near (lo := c.loLat) (sub_pos.2 hll) (Nat.pos_of_ne_zero (by rintro rfl; exact absurd hk (Nat.not_lt_zero _))) hr
        (.inl rfl)
      rw [hml _ _ _ ho]
      rwa [add_sub_cancel, add_sub_cancel] at this
    · have e : fromEdge (c.loLon / degree) m * (samples / ((c.hiLon - c.loLon) / degree)) =
          (fromEdge (c.loLon / degree) m * degree) * (samples / (c.hiLon - c.loLon)) := by
        field_simp
      rw [e] at hr
      have := partCenter_near (lo := c.loLon) (sub_pos.2 hlon) (show 0 < samples by omega) hr
        (edgeSample_cases hi)
      rw [add_sub_cancel, ← (C14_pixels c hp _ _ _ ho).1] at this
      right
      rw [fromEdge] at this
      split_ifs at this
      · refine ⟨m, m - 360, hm, .inr rfl, ?_⟩
        rwa [show c.loLon + (m - c.loLon / degree - 360) * degree = (m - 360) * degree by
          field_simp; ring] at this
      · refine ⟨m, m, hm, .inl rfl, ?_⟩
        rwa [show c.loLon + (m - c.loLon / degree) * degree = m * degree by
          field_simp; ring] at this

/-- **C71** (simple cylindrical, every latitude).  Every grid latitude of the map,
but for the last half line, has a line of the map that is white from end to end and
that shows the latitude to within one line. -/
theorem C71_cylindrical_latitudes {body : Spheroid} (hb : body.Valid) {prograde : Bool}
    {loLat hiLat loLon hiLon : ℝ} {graphic : Bool} {c : Cylindrical}
    (h : Cylindrical.new body prograde loLat hiLat loLon hiLon graphic = .ok c)
    (hlat : loLat < hiLat) (hlon : c.loLon < c.hiLon)
    {samples lines : ℕ} (hs : samples < 2 ^ 64) (hsize : samples * lines < 2 ^ 64)
    (hspan : 1000 * (samples / ((c.hiLon - c.loLon) / degree)) ≤ 2 ^ 63)
    {latI lonI : ℝ} (h1 : 0 < latI) (h2 : 0 < lonI) {plots : List Plot} {g : Grid}
    (hp : c.plotMap samples lines = .ok plots)
    (hg : makeGrid (c.plotGrid samples lines latI lonI) samples lines = .ok g)
    {n : ℝ} (hn : GridLatitude latI n) (hl : 0 < lines) (hlo : c.loLat ≤ n * degree)
    (hhi : n * degree < c.hiLat - (c.hiLat - c.loLat) / (2 * lines)) :
    ∃ k < lines, (∀ i < samples, g[k * samples + i]? = some 255) ∧
      ∀ lat lon o, ((lat, lon), o) ∈ plots → o / samples = k →
        |mapLatitude body graphic lat - n * degree| ≤ (c.hiLat - c.loLat) / lines := by
  have hd := degree_pos
  obtain ⟨hll, hpro, hml⟩ := mapLatitude_eq hb h hlat hp
  obtain ⟨g', hg', hlen, hsh⟩ := C43_cylindrical_partial c hs hsize hll hlon (edge_low h)
    (clear_of_ok h2 hlon hg) hspan h1 h2
  obtain rfl : g' = g := by rw [hg] at hg'; exact (Outcome.ok.inj hg').symm
  have hl' : (0 : ℝ) < lines := by exact_mod_cast hl
  have e : (n - c.loLat / degree) * (lines / ((c.hiLat - c.loLat) / degree)) =
      (n * degree - c.loLat) * (lines / (c.hiLat - c.loLat)) := by
    field_simp
  have hpos : 0 < c.hiLat - c.loLat := sub_pos.2 hll
  have x0 : 0 ≤ (n * degree - c.loLat) * (lines / (c.hiLat - c.loLat)) :=
    mul_nonneg (by linarith) (div_nonneg hl'.le hpos.le)
  have x1 : (n * degree - c.loLat) * (lines / (c.hiLat - c.loLat)) < lines - 1 / 2 := by
    have : (n * degree - c.loLat) * (lines / (c.hiLat - c.loLat)) <
        ((c.hiLat - c.loLat) - (c.hiLat - c.loLat) / (2 * lines)) *
          (lines / (c.hiLat - c.loLat)) :=
      mul_lt_mul_of_pos_right (by linarith) (div_pos hl' hpos)
    refine this.trans_eq ?_
    field_simp
  obtain ⟨k, hk, hr⟩ := exists_round x0 x1
  refine ⟨k, hk, fun i hi => (hsh k hk i hi).1 (.inl ⟨n, hn, by rw [e]; exact hr⟩),
    fun lat lon o ho hok => ?_⟩
  have := partCenter_near (lo := c.loLat) hpos hl hr (.inl rfl)
  rw [hml _ _ _ ho, hok]
  rwa [add_sub_cancel, add_sub_cancel] at this

/-- **C71** (simple cylindrical, every longitude).  Every grid longitude of the
map has a column that is white from end to end and that shows the longitude to
within one sample; but for half a sample at the lower end of the range of a
prograde body's map and at the upper end of a retrograde one's.  The full statement
has no such exception; see `C71_meridian_violated`. -/
theorem C71_cylindrical_longitudes_partial {body : Spheroid} (hb : body.Valid) {prograde : Bool}
    {loLat hiLat loLon hiLon : ℝ} {graphic : Bool} {c : Cylindrical}
    (h : Cylindrical.new body prograde loLat hiLat loLon hiLon graphic = .ok c)
    (hlat : loLat < hiLat) (hlon : c.loLon < c.hiLon)
    {samples lines : ℕ} (hs : samples < 2 ^ 64) (hsize : samples * lines < 2 ^ 64)
    (hspan : 1000 * (samples / ((c.hiLon - c.loLon) / degree)) ≤ 2 ^ 63)
    {latI lonI : ℝ} (h1 : 0 < latI) (h2 : 0 < lonI) {plots : List Plot} {g : Grid}
    (hp : c.plotMap samples lines = .ok plots)
    (hg : makeGrid (c.plotGrid samples lines latI lonI) samples lines = .ok g)
    {m m' : ℝ} (hm : GridLongitude lonI m) (hs0 : 0 < samples)
    (hm' : m' = if m - c.loLon / degree > 360 then m - 360 else m)
    (hin : if prograde
      then c.loLon + (c.hiLon - c.loLon) / (2 * samples) ≤ m' * degree ∧ m' * degree ≤ c.hiLon
      else c.loLon ≤ m' * degree ∧ m' * degree < c.hiLon - (c.hiLon - c.loLon) / (2 * samples)) :
    ∃ i < samples, (∀ k < lines, g[k * samples + i]? = some 255) ∧
      ∀ lat lon o, ((lat, lon), o) ∈ plots → o % samples = i →
        |lon - m' * degree| ≤ (c.hiLon - c.loLon) / samples := by
  have hd := degree_pos
  obtain ⟨hll, hpro, -⟩ := mapLatitude_eq hb h hlat hp
  obtain ⟨g', hg', hlen, hsh⟩ := C43_cylindrical_partial c hs hsize hll hlon (edge_low h)
    (clear_of_ok h2 hlon hg) hspan h1 h2
  obtain rfl : g' = g := by rw [hg] at hg'; exact (Outcome.ok.inj hg').symm
  have hs' : (0 : ℝ) < samples := by exact_mod_cast hs0
  have hpos : 0 < c.hiLon - c.loLon := sub_pos.2 hlon
  have e : fromEdge (c.loLon / degree) m * (samples / ((c.hiLon - c.loLon) / degree)) =
      (m' * degree - c.loLon) * (samples / (c.hiLon - c.loLon)) := by
    have : fromEdge (c.loLon / degree) m = m' - c.loLon / degree := by
      rw [fromEdge, hm']
      split_ifs <;> ring
    rw [this]
    field_simp
  have hsw : 0 < (samples : ℝ) / (c.hiLon - c.loLon) := div_pos hs' hpos
  have key : ∃ i < samples, RoundsTo ((m' * degree - c.loLon) * (samples / (c.hiLon - c.loLon)))
      (edgeSample c.prograde samples i) := by
    rw [hpro]
    cases prograde
    · simp only [Bool.false_eq_true, if_false] at hin
      simp only [edgeSample, Bool.false_eq_true, if_false]
      refine exists_round (mul_nonneg (by linarith) hsw.le) ?_
      have : (m' * degree - c.loLon) * (samples / (c.hiLon - c.loLon)) <
          ((c.hiLon - c.loLon) - (c.hiLon - c.loLon) / (2 * samples)) *
            (samples / (c.hiLon - c.loLon)) := mul_lt_mul_of_pos_right (by linarith) hsw
      refine this.trans_eq ?_
      field_simp
    · simp only [if_true] at hin
      simp only [edgeSample, if_true]
      refine exists_round' ?_ ?_
      · have : ((c.hiLon - c.loLon) / (2 * samples)) * (samples / (c.hiLon - c.loLon)) ≤
            (m' * degree - c.loLon) * (samples / (c.hiLon - c.loLon)) :=
          mul_le_mul_of_nonneg_right (by linarith) hsw.le
        refine Eq.trans_le ?_ this
        field_simp
      · have : (m' * degree - c.loLon) * (samples / (c.hiLon - c.loLon)) ≤
            (c.hiLon - c.loLon) * (samples / (c.hiLon - c.loLon)) :=
          mul_le_mul_of_nonneg_right (by linarith) hsw.le
        have e' : (c.hiLon - c.loLon) * (samples / (c.hiLon - c.loLon)) = samples := by
          field_simp
        linarith
  obtain ⟨i, hi, hr⟩ := key
  refine ⟨i, hi, fun k hk => (hsh k hk i hi).1 (.inr ⟨m, hm, by rw [e]; exact hr⟩),
    fun lat lon o ho hoi => ?_⟩
  have := partCenter_near (lo := c.loLon) hpos hs0 hr (edgeSample_cases hi)
  rw [(C14_pixels c hp _ _ _ ho).1, hoi]
  rwa [add_sub_cancel, add_sub_cancel] at this

/-- The hypotheses are met by a full map of Jupiter, 720 by 360 pixels, with
lines every 10 degrees. -/
example (prograde graphic : Bool) : ∃ c plots g,
    Cylindrical.new ⟨71492, 66854⟩ prograde (-90) 90 0 360 graphic = .ok c ∧
    c.loLon < c.hiLon ∧
    1000 * (((720 : ℕ) : ℝ) / ((c.hiLon - c.loLon) / degree)) ≤ 2 ^ 63 ∧
    c.plotMap 720 360 = .ok plots ∧
    makeGrid (c.plotGrid 720 360 10 10) 720 360 = .ok g ∧
    GridLatitude 10 30 ∧ GridLongitude 10 120 := by
  have hb : Spheroid.Valid ⟨71492, 66854⟩ := ⟨by norm_num, by norm_num⟩
  obtain ⟨c, hc⟩ := cylindrical_exists ⟨71492, 66854⟩ prograde (loLat := -90) (hiLat := 90)
    (loLon := 0) (hiLon := 360) graphic (by norm_num) (by norm_num) (by norm_num) (by norm_num)
  have hd := degree_pos
  have hr := C14_range_partial hc (by norm_num)
  have hspan : 1000 * (((720 : ℕ) : ℝ) / ((c.hiLon - c.loLon) / degree)) ≤ 2 ^ 63 := by
    have h1 := hr.2.2.2 (by norm_num)
    have h2 : (360 : ℝ) ≤ (c.hiLon - c.loLon) / degree := by
      rw [le_div_iff₀ hd, h1.1]
      rcases h1.2 with e | e <;> rw [e] <;> linarith [pi_pos]
    have h3 : ((720 : ℕ) : ℝ) / ((c.hiLon - c.loLon) / degree) ≤ 2 := by
      rw [div_le_iff₀ (by linarith)]
      push_cast
      linarith
    calc 1000 * (((720 : ℕ) : ℝ) / ((c.hiLon - c.loLon) / degree)) ≤ 1000 * 2 := by linarith
      _ ≤ 2 ^ 63 := by norm_num
  obtain ⟨g, hg, -⟩ := C43_cylindrical_partial c (samples := 720) (lines := 360) (latI := 10)
    (lonI := 10) (by norm_num) (by norm_num)
    (mapLatitude_eq hb hc (by norm_num) (cylindrical_plots c 720 360)).1 hr.1
    (edge_low hc) (edge_clear (by norm_num) hr.1 (edge_bounds hc (.inl le_rfl)).2) hspan (by norm_num) (by norm_num)
  exact ⟨c, _, g, hc, hr.1, hspan, cylindrical_plots c 720 360, hg,
    ⟨12, by norm_num, by norm_num, by norm_num⟩, ⟨24, by norm_num, by norm_num⟩⟩

/-! ## Mercator -/

theorem mercator_offset {solve : Solver} {body : Spheroid} {prograde : Bool} {samples lines : ℕ}
    {plots : List Plot} (hp : Mercator.plotMap solve body prograde samples lines = .ok plots)
    {lat lon : ℝ} {o : ℕ} (ho : ((lat, lon), o) ∈ plots) : o < samples * lines := by
  obtain ⟨latg, -, h2⟩ := mercator_plots hp
  rw [h2, List.mem_map] at ho
  obtain ⟨a, ha, he⟩ := ho
  simp only [Prod.mk.injEq] at he
  rw [← he.2]
  exact List.mem_range.1 ha

/-- The Mercator ordinate of a latitude given in degrees. -/
noncomputable def ordinateOf (body : Spheroid) (n : ℝ) : ℝ :=
  mercatorX body (body.graphicLatitude (n * degree))

theorem ordinate_near {samples lines : ℕ} (hs : 0 < samples) {x : ℝ} {k : ℕ}
    (hr : RoundsTo (x / (2 * π / samples) + lines / 2) k) :
    |lineOrdinate samples lines k - x| ≤ 2 * π / samples := by
  have hs' : (0 : ℝ) < samples := by exact_mod_cast hs
  have hc : 0 < 2 * π / samples := div_pos (by linarith [pi_pos]) hs'
  obtain ⟨h1, h2⟩ := abs_le.1 hr.1
  push_cast at h1 h2
  have e : lineOrdinate samples lines k - x =
      ((k : ℝ) + 1 / 2 - (x / (2 * π / samples) + lines / 2)) * (2 * π / samples) := by
    have hx : x / (2 * π / samples) * (2 * π / samples) = x := div_mul_cancel₀ _ hc.ne'
    rw [lineOrdinate]
    linear_combination hx
  rw [e, abs_mul, abs_of_pos hc]
  exact mul_le_of_le_one_left hc.le (abs_le.2 ⟨by linarith, by linarith⟩)

theorem meridian_near {samples i : ℕ} {prograde : Bool} (hi : i < samples) {m : ℝ}
    (hr : RoundsTo (m * samples / 360) (edgeSample prograde samples i)) :
    |partCenter 0 (2 * π) samples (if prograde then samples - 1 - i else i) - m / 360 * (2 * π)| ≤
      2 * π / samples := by
  have h2pi : (0 : ℝ) < 2 * π := by linarith [pi_pos]
  have e : m * samples / 360 = (m / 360 * (2 * π)) * (samples / (2 * π)) := by
    field_simp
  rw [e] at hr
  have := partCenter_near (lo := 0) h2pi (show 0 < samples by omega) hr (edgeSample_cases hi)
  simpa only [zero_add] using this

/-- **C71** (Mercator, nothing else).  Where the grid is white, the map shows a
latitude whose ordinate is within one line of a grid latitude's, or a longitude
within one sample of a grid longitude. -/
theorem C71_mercator_only {body : Spheroid} (hb : body.Valid) {solve : Solver} (hsol : solve.Exact)
    {prograde : Bool} {samples lines : ℕ} (hs : samples < 2 ^ 63) (hsize : samples * lines < 2 ^ 64)
    {latI lonI : ℝ} (h1 : 0 < latI) (h2 : 0 < lonI) {plots : List Plot} {g : Grid}
    (hp : Mercator.plotMap solve body prograde samples lines = .ok plots)
    (hg : makeGrid (Mercator.plotGrid body prograde samples lines latI lonI) samples lines = .ok g)
    {lat lon : ℝ} {o : ℕ} (ho : ((lat, lon), o) ∈ plots) (hw : g[o]? = some 255) :
    (∃ n, GridLatitude latI n ∧
      |mercatorX body (body.graphicLatitude lat) - ordinateOf body n| ≤ 2 * π / samples) ∨
    (∃ m, GridLongitude lonI m ∧ |lon - m / 360 * (2 * π)| ≤ 2 * π / samples) := by
  have hoff := mercator_offset hp ho
  have hi := mod_lt_samples hoff
  have hk := div_lt_lines hoff
  obtain ⟨g', hg', hlen, hsh⟩ := C43_mercator body prograde (Nat.zero_lt_of_lt hk) hs hsize h1 h2
  obtain rfl : g' = g := by rw [hg] at hg'; exact (Outcome.ok.inj hg').symm
  have hoe : o / samples * samples + o % samples = o := by
    rw [mul_comm]; exact Nat.div_add_mod o samples
  have hW := (hsh (o / samples) hk (o % samples) hi).2
  rw [hoe] at hW
  by_contra hcon
  have hblack := hW fun hwh => hcon ?_
  · rw [hw] at hblack
    exact absurd hblack (by decide)
  · rcases hwh with ⟨n, hn, hr⟩ | ⟨m, hm, hr⟩
    · refine .inl ⟨n, hn, ?_⟩
      rw [(C15_plotted hb hsol hp _ _ _ ho).2.1]
      exact ordinate_near (Nat.zero_lt_of_lt hi) hr
    · refine .inr ⟨m, hm, ?_⟩
      rw [((C16_longitudes hp).1 _ _ _ ho).1]
      exact meridian_near hi hr

/-- **C71** (Mercator, every latitude).  Every grid latitude on the map, but for the
last half line, has a line of the map that is white from end to end and that shows
the latitude to within one line. -/
theorem C71_mercator_latitudes {body : Spheroid} (hb : body.Valid) {solve : Solver}
    (hsol : solve.Exact) {prograde : Bool} {samples lines : ℕ} (hs0 : 0 < samples)
    (hl : 0 < lines) (hs : samples < 2 ^ 63) (hsize : samples * lines < 2 ^ 64)
    {latI lonI : ℝ} (h1 : 0 < latI) (h2 : 0 < lonI) {plots : List Plot} {g : Grid}
    (hp : Mercator.plotMap solve body prograde samples lines = .ok plots)
    (hg : makeGrid (Mercator.plotGrid body prograde samples lines latI lonI) samples lines = .ok g)
    {n : ℝ} (hn : GridLatitude latI n)
    (hlo : -(lines / 2 * (2 * π / samples)) ≤ ordinateOf body n)
    (hhi : ordinateOf body n < (lines / 2 - 1 / 2) * (2 * π / samples)) :
    ∃ k < lines, (∀ i < samples, g[k * samples + i]? = some 255) ∧
      ∀ lat lon o, ((lat, lon), o) ∈ plots → o / samples = k →
        |mercatorX body (body.graphicLatitude lat) - ordinateOf body n| ≤ 2 * π / samples := by
  obtain ⟨g', hg', hlen, hsh⟩ := C43_mercator body prograde hl hs hsize h1 h2
  obtain rfl : g' = g := by rw [hg] at hg'; exact (Outcome.ok.inj hg').symm
  have hs' : (0 : ℝ) < samples := by exact_mod_cast hs0
  have hc : 0 < 2 * π / samples := div_pos (by linarith [pi_pos]) hs'
  have x0 : -(lines / 2 : ℝ) ≤ ordinateOf body n / (2 * π / samples) := by
    rw [le_div_iff₀ hc]; linarith
  have x1 : ordinateOf body n / (2 * π / samples) < lines / 2 - 1 / 2 := by
    rwa [div_lt_iff₀ hc]
  obtain ⟨k, hk, hr⟩ := exists_round (n := lines)
    (x := ordinateOf body n / (2 * π / samples) + lines / 2) (by linarith) (by linarith)
  refine ⟨k, hk, fun i hi => (hsh k hk i hi).1 (.inl ⟨n, hn, hr⟩), fun lat lon o ho hok => ?_⟩
  rw [(C15_plotted hb hsol hp _ _ _ ho).2.1, hok]
  exact ordinate_near hs0 hr

/-- **C71** (Mercator, every longitude).  Every grid longitude, but for half a
sample at the lower end of a prograde body's map and at the upper end of a
retrograde one's, has a column that is white from end to end and that shows the
longitude to within one sample.  The full statement has no such exception; see
`C71_meridian_violated`. -/
theorem C71_mercator_longitudes_partial {body : Spheroid} {solve : Solver}
    {prograde : Bool} {samples lines : ℕ}
    (hl : 0 < lines) (hs : samples < 2 ^ 63) (hsize : samples * lines < 2 ^ 64)
    {latI lonI : ℝ} (h1 : 0 < latI) (h2 : 0 < lonI) {plots : List Plot} {g : Grid}
    (hp : Mercator.plotMap solve body prograde samples lines = .ok plots)
    (hg : makeGrid (Mercator.plotGrid body prograde samples lines latI lonI) samples lines = .ok g)
    {m : ℝ} (hm : GridLongitude lonI m)
    (hin : if prograde then 1 / 2 ≤ m * samples / 360 else m * samples / 360 < samples - 1 / 2) :
    ∃ i < samples, (∀ k < lines, g[k * samples + i]? = some 255) ∧
      ∀ lat lon o, ((lat, lon), o) ∈ plots → o % samples = i →
        |lon - m / 360 * (2 * π)| ≤ 2 * π / samples := by
  obtain ⟨g', hg', hlen, hsh⟩ := C43_mercator body prograde hl hs hsize h1 h2
  obtain rfl : g' = g := by rw [hg] at hg'; exact (Outcome.ok.inj hg').symm
  obtain ⟨m0, m1⟩ := hm.le h2
  have hs' : (0 : ℝ) ≤ samples := by positivity
  have key : ∃ i < samples, RoundsTo (m * samples / 360) (edgeSample prograde samples i) := by
    cases prograde
    · simp only [Bool.false_eq_true, if_false] at hin
      simp only [edgeSample, Bool.false_eq_true, if_false]
      exact exists_round (by positivity) hin
    · simp only [if_true] at hin
      simp only [edgeSample, if_true]
      refine exists_round' hin ?_
      have : m * samples ≤ 360 * samples := mul_le_mul_of_nonneg_right m1 hs'
      linarith
  obtain ⟨i, hi, hr⟩ := key
  refine ⟨i, hi, fun k hk => (hsh k hk i hi).1 (.inr ⟨m, hm, hr⟩), fun lat lon o ho hoi => ?_⟩
  rw [((C16_longitudes hp).1 _ _ _ ho).1, hoi]
  exact meridian_near hi hr

/-- The hypotheses are met by a map of Jupiter. -/
example (prograde : Bool) : ∃ (solve : Solver) (plots : List Plot) (g : Grid), solve.Exact ∧
    Mercator.plotMap solve ⟨71492, 66854⟩ prograde 720 360 = .ok plots ∧
    makeGrid (Mercator.plotGrid ⟨71492, 66854⟩ prograde 720 360 90 10) 720 360 = .ok g ∧
    GridLatitude 90 0 ∧ -((360 : ℕ) / 2 * (2 * π / (720 : ℕ))) ≤ ordinateOf ⟨71492, 66854⟩ 0 ∧
    ordinateOf ⟨71492, 66854⟩ 0 < ((360 : ℕ) / 2 - 1 / 2) * (2 * π / (720 : ℕ)) ∧
    GridLongitude 10 120 ∧
    (if prograde then (1 : ℝ) / 2 ≤ 120 * (720 : ℕ) / 360
      else (120 : ℝ) * (720 : ℕ) / 360 < (720 : ℕ) - 1 / 2) := by
  obtain ⟨solve, q1, q2⟩ := exact_solver
  have hv : Spheroid.Valid ⟨71492, 66854⟩ := ⟨by norm_num, by norm_num⟩
  have h0 : ordinateOf ⟨71492, 66854⟩ 0 = 0 := by
    rw [ordinateOf, zero_mul, (Spheroid.C33_odd _ 0).2.2.2, mercatorX_zero hv]
  obtain ⟨g, hg, -⟩ := C43_mercator ⟨71492, 66854⟩ prograde (samples := 720) (lines := 360)
    (latI := 90) (lonI := 10) (by norm_num) (by norm_num) (by norm_num) (by norm_num) (by norm_num)
  have hpi := pi_pos
  rcases C12_mercator solve ⟨71492, 66854⟩ prograde 720 360 with ⟨plots, hp, -⟩ | ⟨k, -, hk⟩
  · refine ⟨solve, plots, g, q1, hp, hg, ⟨1, by norm_num, by norm_num, by norm_num⟩, ?_, ?_,
      ⟨24, by norm_num, by norm_num⟩, ?_⟩
    · rw [h0]; push_cast; linarith
    · rw [h0]; push_cast; linarith
    · cases prograde <;> norm_num
  · obtain ⟨r, hr⟩ := q2 _ hv (Mercator.ordinate 720 360 k)
    exact absurd hr (hk r)

/-- **C71** is violated by maps of retrograde bodies: 360 degrees is a grid
longitude, but no column that shows it, on either side of the map, is drawn. -/
theorem C71_meridian_violated {body : Spheroid} (hb : body.Valid) {solve : Solver}
    {plots : List Plot} (hp : Mercator.plotMap solve body false 720 360 = .ok plots) :
    GridLongitude 90 360 ∧
    ∃ g, makeGrid (Mercator.plotGrid body false 720 360 90 90) 720 360 = .ok g ∧
      ∀ lat lon o, ((lat, lon), o) ∈ plots → o / 720 ≠ 180 →
        (lon ≤ 10 * (2 * π / 720) ∨ 2 * π - 10 * (2 * π / 720) ≤ lon) → g[o]? = some 0 := by
  obtain ⟨g, hg, hlen, hsh⟩ := C43_mercator body false (samples := 720) (lines := 360)
    (latI := 90) (lonI := 90) (by norm_num) (by norm_num) (by norm_num) (by norm_num) (by norm_num)
  refine ⟨⟨0, by norm_num, by norm_num⟩, g, hg, fun lat lon o ho hline hlon => ?_⟩
  have hoff := mercator_offset hp ho
  have hi := mod_lt_samples hoff
  have hk := div_lt_lines hoff
  have hoe : o / 720 * 720 + o % 720 = o := by omega
  have hW := (hsh (o / 720) hk (o % 720) hi).2
  rw [hoe] at hW
  refine hW ?_
  have hpi := pi_pos
  rintro (⟨n, ⟨j, hj, hn, hlt⟩, hr⟩ | ⟨m, ⟨j, hm, hpos⟩, hr⟩)
  · have hj2 : j < 2 := by
      have : (j : ℝ) < 2 := by linarith
      exact_mod_cast this
    obtain rfl : j = 1 := by omega
    have hn0 : n = 0 := by rw [hn]; norm_num
    rw [hn0, zero_mul, (Spheroid.C33_odd _ 0).2.2.2, mercatorX_zero hb] at hr
    have h180 : RoundsTo (0 / (2 * π / ((720 : ℕ) : ℝ)) + ((360 : ℕ) : ℝ) / 2) (180 : ℤ) := by
      rw [RoundsTo]; norm_num
    have := RoundsTo.unique hr h180
    omega
  · have hj4 : j < 4 := by
      have : (j : ℝ) < 4 := by linarith
      exact_mod_cast this
    simp only [edgeSample, Bool.false_eq_true, if_false] at hr
    have e : m * ((720 : ℕ) : ℝ) / 360 = ((720 - 180 * j : ℤ) : ℝ) := by
      rw [hm]; push_cast; ring
    have h' : RoundsTo (m * ((720 : ℕ) : ℝ) / 360) (720 - 180 * j : ℤ) := by
      rw [e, RoundsTo]; simp
    have hu := RoundsTo.unique hr h'
    have hlo := ((C16_longitudes hp).1 _ _ _ ho).1
    simp only [Bool.false_eq_true, if_false, partCenter] at hlo
    have hoc : (180 : ℝ) ≤ ((o % 720 : ℕ) : ℝ) ∧ ((o % 720 : ℕ) : ℝ) ≤ 540 := by
      constructor
      · have : 180 ≤ o % 720 := by omega
        exact_mod_cast this
      · have : o % 720 ≤ 540 := by omega
        exact_mod_cast this
    rw [hlo] at hlon
    push_cast at hlon hoc
    rcases hlon with hl | hl
    · nlinarith [hoc.1]
    · nlinarith [hoc.2]

end MaRC.Projection
