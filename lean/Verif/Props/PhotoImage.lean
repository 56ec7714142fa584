import Verif.Lemmas.PhotoImage
import Verif.Lemmas.DblOrder
import Verif.Model.Compositing

/-!
# C24, C25, C26, C27: photo images
-/

namespace MaRC.Photo

variable {C : Type}

/-- Specification: a photo `p` built from the given image and dimensions, whose
dimensions are those of an image that fits in memory and whose nibble amounts
do not exceed them. -/
structure Built (image : List Dbl) (samples lines : ℕ) (c : Params) (g : Geometry C)
    (p : Img C) : Prop where
  constructed : new image samples lines (some c) (some g) = .ok p
  memory : samples * lines < 2 ^ 64
  nibbleRight : c.nibbleRight ≤ samples
  nibbleBottom : c.nibbleBottom ≤ lines

/-- Specification: the pixel coordinates the viewing geometry reports are
numbers that a `std::size_t` can hold the integer part of. -/
def Geometry.Bounded (g : Geometry C) : Prop :=
  ∀ loc x z, g.latlon2pix loc = (true, x, z) →
    ∃ a b : ℚ, x = .fin a ∧ z = .fin b ∧ a < 2 ^ 64 ∧ b < 2 ^ 64

/-- Specification: one of the two interpolation strategies of MaRC, set up for
the photo as `PhotoImageFactory` does. -/
def Params.StandardInterpolation (c : Params) (samples lines : ℕ) : Prop :=
  c.interpolate = Bilinear.null ∨ ∃ F, c.interpolate = Bilinear.interpolate F
    (Bilinear.new samples lines c.nibbleLeft c.nibbleRight c.nibbleTop c.nibbleBottom)

/-! ## Helper facts -/

theorem Built.facts {image : List Dbl} {samples lines : ℕ} {c : Params} {g : Geometry C}
    {p : Img C} (h : Built image samples lines c g p) :
    p = ⟨image, samples, lines, c.nibbleLeft, samples - c.nibbleRight, c.nibbleTop,
        lines - c.nibbleBottom, c, g, if c.removeSky then g.bodyMask samples lines else []⟩ ∧
      2 ≤ samples ∧ 2 ≤ lines ∧ image.length = samples * lines ∧
      samples < 2 ^ 64 ∧ lines < 2 ^ 64 := by
  obtain ⟨h1, h2, h3, h4⟩ := h
  obtain ⟨c', g', hc, hg, hp, hs, hl, hi, -, -⟩ := new_ok h1
  cases hc; cases hg
  have hs' : samples < 2 ^ 64 := by nlinarith
  have hl' : lines < 2 ^ 64 := by nlinarith
  rw [szSub_eq h3 hs', szSub_eq h4 hl'] at hp
  rw [szMul_eq h2] at hi
  exact ⟨hp, hs, hl, hi, hs', hl'⟩

theorem bilinear_safe (F : Fp) {image : List Dbl} {samples lines : ℕ} {left right top bottom : ℕ}
    (hlen : image.length = samples * lines) (hmem : samples * lines < 2 ^ 64)
    (hr : right ≤ samples) (hb : bottom ≤ lines) {a b : ℚ} (ha0 : 0 ≤ a) (hb0 : 0 ≤ b)
    (ha : ⌊a⌋.toNat < samples) (hb1 : ⌊b⌋.toNat < lines) (hs : samples < 2 ^ 64)
    (hl : lines < 2 ^ 64) (d : Dbl) :
    ∃ r, Bilinear.interpolate F ⟨samples, left, right, top, bottom⟩ image (.fin a) (.fin b) d
      = .ok r := by
  have ha2 : a < 2 ^ 64 := by
    have h1 := Int.lt_floor_add_one a
    have h2 : ⌊a⌋ + 1 ≤ 2 ^ 64 := by have := Int.floor_nonneg.mpr ha0; omega
    have h3 : ((⌊a⌋ + 1 : ℤ) : ℚ) ≤ 2 ^ 64 := by exact_mod_cast h2
    push_cast at h3; linarith
  have hb2 : b < 2 ^ 64 := by
    have h1 := Int.lt_floor_add_one b
    have h2 : ⌊b⌋ + 1 ≤ 2 ^ 64 := by have := Int.floor_nonneg.mpr hb0; omega
    have h3 : ((⌊b⌋ + 1 : ℤ) : ℚ) ≤ 2 ^ 64 := by exact_mod_cast h2
    push_cast at h3; linarith
  unfold Bilinear.interpolate
  rw [castSize_fin ha0 ha2, castSize_fin hb0 hb2]
  simp only [Outcome.bind_ok]
  rw [szAdd_eq (a := ⌊a⌋.toNat) (b := 1) (by omega), szAdd_eq (a := ⌊b⌋.toNat) (b := 1) (by omega)]
  split
  · exact ⟨_, rfl⟩
  · rename_i hn
    set i := ⌊a⌋.toNat
    set k := ⌊b⌋.toNat
    have hi1 : i + 1 < samples := by omega
    have hk1 : k + 1 < lines := by omega
    have e1 := index_lt hi1 hb1
    have e2 := index_lt ha hb1
    have e3 := index_lt hi1 hk1
    have e4 := index_lt ha hk1
    rw [szMul_eq (a := k) (by omega), szMul_eq (a := k + 1) (by omega),
      szAdd_eq (by omega), szAdd_eq (by omega), szAdd_eq (by omega), szAdd_eq (by omega),
      arrayAt_ok (by omega), arrayAt_ok (by omega), arrayAt_ok (by omega), arrayAt_ok (by omega)]
    simp only [Outcome.bind_ok]
    split <;> exact ⟨_, rfl⟩

theorem scanSamples_ok (p : Img C) {line left right w : ℕ}
    (h : line * p.samples + right ≤ p.mask.length) (h2 : left ≤ right) :
    ∃ r, scanSamples p line left right w = .ok r := by
  unfold scanSamples
  rw [if_neg (by omega)]
  simp only
  split <;> exact ⟨_, rfl⟩

theorem scanLinesLoop_ok (p : Img C) {i : ℕ} (n line : ℕ)
    (h : ∀ l, line ≤ l → l < line + n → l * p.samples + i < p.mask.length) :
    ∃ r, scanLinesLoop p i n line = .ok r := by
  induction n generalizing line with
  | zero => exact ⟨_, rfl⟩
  | succ n ih =>
    unfold scanLinesLoop
    rw [arrayAt_ok (h line le_rfl (by omega))]
    simp only [Outcome.bind_ok]
    split
    · exact ih _ fun l h1 h2 => h l (by omega) (by omega)
    · exact ⟨_, rfl⟩

theorem scanLines_ok (p : Img C) {i top bottom w : ℕ}
    (h : ∀ l, top ≤ l → l < bottom → l * p.samples + i < p.mask.length) :
    ∃ r, scanLines p i top bottom w = .ok r := by
  unfold scanLines
  obtain ⟨r, hr⟩ := scanLinesLoop_ok p (bottom - top) top (i := i)
    fun l h1 h2 => h l h1 (by omega)
  rw [hr]
  simp only [Outcome.bind_ok]
  split <;> exact ⟨_, rfl⟩

/-! ## C24 -/

/-- C24: reading a photo never accesses memory outside the image (nor runs into
any other undefined behaviour), whatever the location and the caller's
variables. -/
theorem C24_no_out_of_bounds {image : List Dbl} {samples lines : ℕ} {c : Params}
    {g : Geometry C} {p : Img C} (h : Built image samples lines c g p)
    (hint : c.StandardInterpolation samples lines) (hcor : ∀ d, c.correct d ≠ .ub)
    (hg : g.Bounded) (loc : C) (data weight : Dbl) (scan : Bool) :
    readWeighted p loc data weight scan ≠ .ub := by
  have hr := h.nibbleRight
  have hb := h.nibbleBottom
  have hmem := h.memory
  obtain ⟨hp, hs2, hl2, hlen, hs, hl⟩ := h.facts
  have hmask : p.mask = [] ∨ p.mask.length = samples * lines := by
    rw [hp]; simp only
    split
    · exact .inr (bodyMask_length _ _ _)
    · exact .inl rfl
  have hps : p.samples = samples := by rw [hp]
  have hpr : p.right = samples - c.nibbleRight := by rw [hp]
  have hpb : p.bottom = lines - c.nibbleBottom := by rw [hp]
  have hpi : p.image = image := by rw [hp]
  have hpc : p.config = c := by rw [hp]
  have hpg : p.geometry = g := by rw [hp]
  unfold readWeighted
  rw [hpg]
  rcases hxz : g.latlon2pix loc with ⟨ok, x, z⟩
  simp only
  split
  · intro hh; cases hh
  rename_i hcond
  simp only [Bool.or_eq_true, Bool.not_eq_true', not_or, Bool.not_eq_true, Bool.not_eq_false] at hcond
  obtain ⟨⟨hok, hx⟩, hz⟩ := hcond
  subst hok
  obtain ⟨a, b, rfl, rfl, ha, hb'⟩ := hg loc x z hxz
  have ha0 : 0 ≤ a := by simpa [Dbl.lt] using hx
  have hb0 : 0 ≤ b := by simpa [Dbl.lt] using hz
  rw [castSize_floor ha0 ha, castSize_floor hb0 hb']
  simp only [Outcome.bind_ok]
  split
  · intro hh; cases hh
  rename_i hin
  have hi : ⌊a⌋.toNat < samples := by omega
  have hk : ⌊b⌋.toNat < lines := by omega
  have hidx := index_lt hi hk
  rw [hps, szMul_eq (by omega), szAdd_eq (by omega)]
  have hsky : ∃ s, (if p.mask.isEmpty then Outcome.ok false else do
        let m ← arrayAt p.mask (⌊b⌋.toNat * samples + ⌊a⌋.toNat)
        .ok (!m)) = .ok s := by
    rcases hmask with hm | hm
    · rw [hm]; exact ⟨_, rfl⟩
    · rw [arrayAt_ok (by omega)]
      split <;> exact ⟨_, rfl⟩
  obtain ⟨s, hs'⟩ := hsky
  rw [hs', hpi, arrayAt_ok (by omega)]
  simp only [Outcome.bind_ok]
  split
  · intro hh; cases hh
  have hI : ∃ r, p.config.interpolate image (.fin a) (.fin b)
      image[⌊b⌋.toNat * samples + ⌊a⌋.toNat] = .ok r := by
    rw [hpc]
    rcases hint with h1 | ⟨F, h1⟩
    · rw [h1]; exact ⟨_, rfl⟩
    · rw [h1]
      unfold Bilinear.new
      exact bilinear_safe F hlen hmem (by rw [szSub_eq hr hs]; omega)
        (by rw [szSub_eq hb hl]; omega) ha0 hb0 hi hk hs hl _
  obtain ⟨⟨ok1, d1⟩, hI⟩ := hI
  rw [hI]
  simp only [Outcome.bind_ok]
  split
  · intro hh; cases hh
  rw [hpc]
  obtain hc' | ⟨e, hc'⟩ | hc' : (∃ r, c.correct d1 = .ok r) ∨ (∃ e, c.correct d1 = .throw e) ∨
      c.correct d1 = .ub := by cases c.correct d1 <;> simp
  · obtain ⟨⟨ok2, d2⟩, hc'⟩ := hc'
    rw [hc']
    simp only [Outcome.bind_ok]
    split
    · intro hh; cases hh
    split
    · have : ∃ w, dataWeight p ⌊a⌋.toNat ⌊b⌋.toNat = .ok w := by
        unfold dataWeight
        simp only
        split
        · exact ⟨_, rfl⟩
        · rename_i hne
          have hm : p.mask.length = samples * lines := by
            rcases hmask with hm | hm
            · rw [hm] at hne; simp at hne
            · exact hm
          have hrow : ⌊b⌋.toNat * p.samples + samples ≤ p.mask.length := by
            rw [hm, hps, show ⌊b⌋.toNat * samples + samples = samples * (⌊b⌋.toNat + 1) by ring]
            exact Nat.mul_le_mul_left _ hk
          obtain ⟨w1, h1⟩ := scanSamples_ok p (line := ⌊b⌋.toNat) (left := p.left)
            (right := ⌊a⌋.toNat) (w := min ⌊a⌋.toNat (min (szSub p.samples ⌊a⌋.toNat)
              (min ⌊b⌋.toNat (szSub p.lines ⌊b⌋.toNat)))) (by omega) (by omega)
          obtain ⟨w2, h2⟩ := scanSamples_ok p (line := ⌊b⌋.toNat) (left := ⌊a⌋.toNat)
            (right := p.right) (w := w1) (by omega) (by omega)
          obtain ⟨w3, h3⟩ := scanLines_ok p (i := ⌊a⌋.toNat) (top := p.top)
            (bottom := ⌊b⌋.toNat) (w := w2)
            (fun l _ h => by rw [hm, hps]; exact index_lt hi (by omega))
          obtain ⟨w4, h4⟩ := scanLines_ok p (i := ⌊a⌋.toNat) (top := ⌊b⌋.toNat)
            (bottom := p.bottom) (w := w3)
            (fun l _ h => by rw [hm, hps]; exact index_lt hi (by omega))
          rw [h1]; simp only [Outcome.bind_ok]
          rw [h2]; simp only [Outcome.bind_ok]
          rw [h3]; simp only [Outcome.bind_ok]
          exact ⟨_, h4⟩
      obtain ⟨w, hw⟩ := this
      rw [hw]
      intro hh; cases hh
    · intro hh; cases hh
  · rw [hc']; intro hh; cases hh
  · exact absurd hc' (hcor d1)

/-- A 2 by 2 photo of a body filling the image, read at its pixel coordinates. -/
def demoGeometry : Geometry (ℚ × ℚ) where
  latlon2pix c := (true, .fin c.1, .fin c.2)
  onBody _ _ := true

/-- Parameters without nibbling, interpolation or correction. -/
def demoParams (removeSky : Bool) : Params :=
  ⟨0, 0, 0, 0, removeSky, Bilinear.null, nullCorrect⟩

/-- A geometry that sees the body only on pixels with even sample plus line, and
nothing outside of `[0, 1000)`. -/
def boundedGeometry : Geometry (ℚ × ℚ) where
  latlon2pix c := (decide (c.1 < 1000 ∧ c.2 < 1000), .fin c.1, .fin c.2)
  onBody i k := (i + k) % 2 == 0

example : ∃ p, Built [.fin 1, .fin 2, .fin 3, .fin 4, .nan, .fin 6] 3 2
      ⟨1, 0, 0, 0, true, Bilinear.interpolate .ieee (Bilinear.new 3 2 1 0 0 0), nullCorrect⟩
      boundedGeometry p ∧
    Params.StandardInterpolation ⟨1, 0, 0, 0, true,
      Bilinear.interpolate .ieee (Bilinear.new 3 2 1 0 0 0), nullCorrect⟩ 3 2 ∧
    boundedGeometry.Bounded := by
  refine ⟨_, ⟨rfl, by norm_num, by simp, by simp⟩, .inr ⟨.ieee, rfl⟩, ?_⟩
  rintro ⟨x, z⟩ a b h
  simp only [boundedGeometry, Prod.mk.injEq, decide_eq_true_eq] at h
  refine ⟨x, z, h.2.1.symm, h.2.2.symm, ?_, ?_⟩
  · exact h.1.1.trans (by norm_num)
  · exact h.1.2.trans (by norm_num)

/-- C24 fails when a nibble amount exceeds the image: nibbling 3 samples off the
right of a 2 by 2 image passes the constructor's validation, and reading at
sample 100 then reads outside of the image. -/
theorem C24_nibble_violated :
    ∃ p, new [.fin 1, .fin 2, .fin 3, .fin 4] 2 2
        (some { demoParams false with nibbleRight := 3 }) (some demoGeometry) = .ok p ∧
      readWeighted p (100, 0) (.fin 0) (.fin 1) false = .ub := by
  refine ⟨_, rfl, ?_⟩
  decide +kernel

/-- A null configuration is undefined behaviour instead of the documented
exception, although a null geometry is rejected. -/
theorem C24_null_config_violated (image : List Dbl) (samples lines : ℕ) (c : Params)
    (g : Option (Geometry C)) :
    new image samples lines none g = .ub ∧
    new image samples lines (some c) (none : Option (Geometry C)) = .throw .invalidArgument :=
  ⟨rfl, rfl⟩

/-- The constructor rejects an image whose element count is not
`samples * lines`, an image with fewer than two samples or lines, and nibbling
that leaves nothing. -/
theorem C24_constructor_rejects (image : List Dbl) (samples lines : ℕ) (c : Params)
    (g : Geometry C) (hmem : samples * lines < 2 ^ 64) (hs : samples < 2 ^ 64)
    (hl : lines < 2 ^ 64) (hr : c.nibbleRight ≤ samples) (ht : c.nibbleTop ≤ lines) :
    (∃ p, new image samples lines (some c) (some g) = .ok p) ↔
      2 ≤ samples ∧ 2 ≤ lines ∧ image.length = samples * lines ∧
      c.nibbleLeft + c.nibbleRight < samples ∧ c.nibbleTop + c.nibbleBottom < lines := by
  unfold new
  simp only [szMul_eq hmem]
  unfold Params.validate
  rw [szSub_eq hr hs, szSub_eq ht hl]
  constructor
  · rintro ⟨p, h⟩
    split at h
    · cases h
    split at h
    · cases h
    split at h
    · cases h
    split at h
    · cases h
    rename_i h1 h2 h3 h4
    exact ⟨by omega, by omega, by simpa using h2, by omega, by omega⟩
  · rintro ⟨h1, h2, h3, h4, h5⟩
    rw [if_neg (by omega), if_neg (by omega), if_neg (by omega), if_neg (by omega)]
    exact ⟨_, rfl⟩

/-! ## C25 -/

/-- What a successful read went through. -/
theorem read_true {image : List Dbl} {samples lines : ℕ} {c : Params}
    {g : Geometry C} {p : Img C} (h : Built image samples lines c g p)
    {loc : C} {data weight d w : Dbl} {scan : Bool}
    (hr : readWeighted p loc data weight scan = .ok (true, d, w)) :
    ∃ a b : ℚ, g.latlon2pix loc = (true, .fin a, .fin b) ∧ 0 ≤ a ∧ 0 ≤ b ∧
      c.nibbleLeft ≤ ⌊a⌋.toNat ∧ ⌊a⌋.toNat < samples - c.nibbleRight ∧
      c.nibbleTop ≤ ⌊b⌋.toNat ∧ ⌊b⌋.toNat < lines - c.nibbleBottom ∧
      (c.removeSky = true → g.onBody ⌊a⌋.toNat ⌊b⌋.toNat = true) ∧
      data.isNaN = false ∧ d.isNaN = false ∧
      ∃ v d1, image[⌊b⌋.toNat * samples + ⌊a⌋.toNat]? = some v ∧
        c.interpolate image (.fin a) (.fin b) v = .ok (true, d1) ∧
        c.correct d1 = .ok (true, d) ∧
        (if scan then ∃ n, dataWeight p ⌊a⌋.toNat ⌊b⌋.toNat = .ok n ∧ w = .fin n
          else w = weight) := by
  have hr' := h.nibbleRight
  have hb' := h.nibbleBottom
  have hmem := h.memory
  obtain ⟨hp, hs2, hl2, hlen, hs, hl⟩ := h.facts
  have hps : p.samples = samples := by rw [hp]
  have hpr : p.right = samples - c.nibbleRight := by rw [hp]
  have hpb : p.bottom = lines - c.nibbleBottom := by rw [hp]
  have hpt : p.top = c.nibbleTop := by rw [hp]
  have hpl : p.left = c.nibbleLeft := by rw [hp]
  have hpi : p.image = image := by rw [hp]
  have hpc : p.config = c := by rw [hp]
  have hpg : p.geometry = g := by rw [hp]
  have hpm : p.mask = if c.removeSky then g.bodyMask samples lines else [] := by rw [hp]
  unfold readWeighted at hr
  rw [hpg] at hr
  rcases hxz : g.latlon2pix loc with ⟨ok, x, z⟩
  rw [hxz] at hr
  simp only at hr
  split at hr
  · cases hr
  rename_i hcond
  simp only [Bool.or_eq_true, Bool.not_eq_true', not_or, Bool.not_eq_true, Bool.not_eq_false]
    at hcond
  obtain ⟨⟨hok, hx⟩, hz⟩ := hcond
  subst hok
  cases hci : castSize x.floor with
  | throw e => rw [hci] at hr; cases hr
  | ub => rw [hci] at hr; cases hr
  | ok i =>
  cases hck : castSize z.floor with
  | throw e => rw [hci, hck] at hr; cases hr
  | ub => rw [hci, hck] at hr; cases hr
  | ok k =>
  rw [hci, hck] at hr
  simp only [Outcome.bind_ok] at hr
  have hxi : ∃ a, x = .fin a ∧ 0 ≤ a ∧ i = ⌊a⌋.toNat := by
    obtain ⟨q, hq, hq1, hq2, -⟩ := castSize_ok hci
    cases x with
    | fin a =>
      have ha0 : 0 ≤ a := by simpa [Dbl.lt] using hx
      refine ⟨a, rfl, ha0, ?_⟩
      simp only [Dbl.floor, Dbl.fin.injEq] at hq
      subst hq
      have : (0:ℚ) ≤ (⌊a⌋ : ℚ) := by exact_mod_cast Int.floor_nonneg.mpr ha0
      simp only [truncQ, this, if_true, Int.floor_intCast] at hq2
      omega
    | _ => simp [Dbl.floor] at hq
  have hzk : ∃ a, z = .fin a ∧ 0 ≤ a ∧ k = ⌊a⌋.toNat := by
    obtain ⟨q, hq, hq1, hq2, -⟩ := castSize_ok hck
    cases z with
    | fin a =>
      have ha0 : 0 ≤ a := by simpa [Dbl.lt] using hz
      refine ⟨a, rfl, ha0, ?_⟩
      simp only [Dbl.floor, Dbl.fin.injEq] at hq
      subst hq
      have : (0:ℚ) ≤ (⌊a⌋ : ℚ) := by exact_mod_cast Int.floor_nonneg.mpr ha0
      simp only [truncQ, this, if_true, Int.floor_intCast] at hq2
      omega
    | _ => simp [Dbl.floor] at hq
  obtain ⟨a, rfl, ha0, rfl⟩ := hxi
  obtain ⟨b, rfl, hb0, rfl⟩ := hzk
  split at hr
  · cases hr
  rename_i hin
  have hi : ⌊a⌋.toNat < samples := by omega
  have hk : ⌊b⌋.toNat < lines := by omega
  have hidx := index_lt hi hk
  rw [hps, szMul_eq (by omega), szAdd_eq (by omega), hpi] at hr
  have hsky : (if p.mask.isEmpty then Outcome.ok false else do
        let m ← arrayAt p.mask (⌊b⌋.toNat * samples + ⌊a⌋.toNat)
        .ok (!m)) = .ok (c.removeSky && !g.onBody ⌊a⌋.toNat ⌊b⌋.toNat) := by
    rw [hpm]
    cases hcs : c.removeSky with
    | false => rfl
    | true =>
      simp only [if_true]
      have hl := bodyMask_length g samples lines
      have hne : (g.bodyMask samples lines).isEmpty = false := by
        cases hm : g.bodyMask samples lines with
        | nil => rw [hm] at hl; simp at hl; omega
        | cons _ _ => rfl
      have hget := bodyMask_get g hi hk
      rw [hne]
      unfold arrayAt
      rw [hget]
      rfl
  rw [hsky, arrayAt_ok (by omega)] at hr
  simp only [Outcome.bind_ok] at hr
  split at hr
  · cases hr
  rename_i hnsky
  simp only [Bool.or_eq_true, not_or, Bool.not_eq_true] at hnsky
  rw [hpc] at hr
  cases hint : c.interpolate image (.fin a) (.fin b) image[⌊b⌋.toNat * samples + ⌊a⌋.toNat] with
  | throw e => rw [hint] at hr; cases hr
  | ub => rw [hint] at hr; cases hr
  | ok r1 =>
  obtain ⟨ok1, d1⟩ := r1
  rw [hint] at hr
  simp only [Outcome.bind_ok] at hr
  split at hr
  · cases hr
  rename_i hok1
  cases hcor : c.correct d1 with
  | throw e => rw [hcor] at hr; cases hr
  | ub => rw [hcor] at hr; cases hr
  | ok r2 =>
  obtain ⟨ok2, d2⟩ := r2
  rw [hcor] at hr
  simp only [Outcome.bind_ok] at hr
  split at hr
  · cases hr
  rename_i hok2
  simp only [Bool.or_eq_true, Bool.not_eq_true', not_or, Bool.not_eq_true, Bool.not_eq_false]
    at hok2 hok1
  obtain ⟨rfl, hnan⟩ := hok2
  subst hok1
  have hfin : d2 = d ∧ (if scan then ∃ n, dataWeight p ⌊a⌋.toNat ⌊b⌋.toNat = .ok n ∧ w = .fin n
          else w = weight) := by
    cases scan with
    | false => simp at hr; simp [hr.1, hr.2]
    | true =>
      simp only [if_true] at hr ⊢
      cases hw : dataWeight p ⌊a⌋.toNat ⌊b⌋.toNat with
      | throw e => rw [hw] at hr; cases hr
      | ub => rw [hw] at hr; cases hr
      | ok n =>
        rw [hw] at hr
        simp at hr
        exact ⟨hr.1, n, rfl, hr.2.symm⟩
  obtain ⟨rfl, hfin⟩ := hfin
  refine ⟨a, b, rfl, ha0, hb0, by omega, by omega, by omega, by omega, ?_, hnsky.2, hnan,
    image[⌊b⌋.toNat * samples + ⌊a⌋.toNat], d1, List.getElem?_eq_getElem _, hint, hcor, hfin⟩
  intro hc
  simpa [hc] using hnsky.1

/-- C25: a successful read implies that the pixel containing the projected
coordinate lies inside the un-nibbled rectangle, that it is on the body when
sky removal is on, and that the datum is not NaN. -/
theorem C25_successful_read {image : List Dbl} {samples lines : ℕ} {c : Params}
    {g : Geometry C} {p : Img C} (h : Built image samples lines c g p)
    {loc : C} {data weight d w : Dbl} {scan : Bool}
    (hr : readWeighted p loc data weight scan = .ok (true, d, w)) :
    ∃ (a b : ℚ) (i k : ℕ), g.latlon2pix loc = (true, .fin a, .fin b) ∧
      (i : ℚ) ≤ a ∧ a < i + 1 ∧ (k : ℚ) ≤ b ∧ b < k + 1 ∧
      c.nibbleLeft ≤ i ∧ i + c.nibbleRight < samples ∧
      c.nibbleTop ≤ k ∧ k + c.nibbleBottom < lines ∧
      (c.removeSky = true → g.onBody i k = true) ∧ d ≠ .nan := by
  obtain ⟨a, b, h1, h2, h3, h4, h5, h6, h7, h8, -, h9, -⟩ := read_true h hr
  have e1 : ((⌊a⌋.toNat : ℕ) : ℚ) = (⌊a⌋ : ℚ) := by
    exact_mod_cast Int.toNat_of_nonneg (Int.floor_nonneg.mpr h2)
  have e2 : ((⌊b⌋.toNat : ℕ) : ℚ) = (⌊b⌋ : ℚ) := by
    exact_mod_cast Int.toNat_of_nonneg (Int.floor_nonneg.mpr h3)
  refine ⟨a, b, ⌊a⌋.toNat, ⌊b⌋.toNat, h1, ?_, ?_, ?_, ?_, h4, by omega, h6, by omega, h8, ?_⟩
  · rw [e1]; exact Int.floor_le a
  · rw [e1]; exact Int.lt_floor_add_one a
  · rw [e2]; exact Int.floor_le b
  · rw [e2]; exact Int.lt_floor_add_one b
  · rintro rfl; cases h9

/-- C25: without interpolation and correction the datum is exactly the pixel
containing the projected coordinate. -/
theorem C25_datum {image : List Dbl} {samples lines : ℕ} {c : Params}
    {g : Geometry C} {p : Img C} (h : Built image samples lines c g p)
    (hi : c.interpolate = Bilinear.null) (hc : c.correct = nullCorrect)
    {loc : C} {data d : Dbl} (hr : read p loc data = .ok (true, d)) :
    ∃ (a b : ℚ) (i k : ℕ), g.latlon2pix loc = (true, .fin a, .fin b) ∧
      (i : ℚ) ≤ a ∧ a < i + 1 ∧ (k : ℚ) ≤ b ∧ b < k + 1 ∧ i < samples ∧ k < lines ∧
      image[k * samples + i]? = some d := by
  unfold read at hr
  cases hw : readWeighted p loc data (.fin 1) false with
  | throw e => rw [hw] at hr; cases hr
  | ub => rw [hw] at hr; cases hr
  | ok r =>
    obtain ⟨f, d', w⟩ := r
    rw [hw] at hr
    simp only [Outcome.bind_ok, Outcome.ok.injEq, Prod.mk.injEq] at hr
    obtain ⟨rfl, rfl⟩ := hr
    obtain ⟨a, b, h1, h2, h3, h4, h5, h6, h7, h8, -, h9, v, d1, hv, hi', hc', -⟩ := read_true h hw
    have e1 : ((⌊a⌋.toNat : ℕ) : ℚ) = (⌊a⌋ : ℚ) := by
      exact_mod_cast Int.toNat_of_nonneg (Int.floor_nonneg.mpr h2)
    have e2 : ((⌊b⌋.toNat : ℕ) : ℚ) = (⌊b⌋ : ℚ) := by
      exact_mod_cast Int.toNat_of_nonneg (Int.floor_nonneg.mpr h3)
    rw [hi] at hi'
    rw [hc] at hc'
    simp only [Bilinear.null, nullCorrect, Outcome.ok.injEq, Prod.mk.injEq, true_and] at hi' hc'
    rw [← hi'] at hc'
    rw [hc'] at hv
    refine ⟨a, b, ⌊a⌋.toNat, ⌊b⌋.toNat, h1, ?_, ?_, ?_, ?_, by omega, by omega, hv⟩
    · rw [e1]; exact Int.floor_le a
    · rw [e1]; exact Int.lt_floor_add_one a
    · rw [e2]; exact Int.floor_le b
    · rw [e2]; exact Int.lt_floor_add_one b

/-- C25, the converse: a pixel in the un-nibbled rectangle, on the body if sky
removal is on, and defined, is read. -/
theorem C25_readable {image : List Dbl} {samples lines : ℕ} {c : Params}
    {g : Geometry C} {p : Img C} (h : Built image samples lines c g p)
    (hi : c.interpolate = Bilinear.null) (hc : c.correct = nullCorrect)
    {loc : C} {data : Dbl} (hdata : data ≠ .nan) {a b : ℚ} {i k : ℕ}
    (hg : g.latlon2pix loc = (true, .fin a, .fin b))
    (ha : (i : ℚ) ≤ a) (ha' : a < i + 1) (hb : (k : ℚ) ≤ b) (hb' : b < k + 1)
    (h1 : c.nibbleLeft ≤ i) (h2 : i + c.nibbleRight < samples)
    (h3 : c.nibbleTop ≤ k) (h4 : k + c.nibbleBottom < lines)
    (h5 : c.removeSky = true → g.onBody i k = true)
    {v : Dbl} (hv : image[k * samples + i]? = some v) (hvn : v ≠ .nan) :
    read p loc data = .ok (true, v) := by
  have hr' := h.nibbleRight
  have hb'' := h.nibbleBottom
  have hmem := h.memory
  obtain ⟨hp, hs2, hl2, hlen, hs, hl⟩ := h.facts
  have fa : ⌊a⌋.toNat = i := by
    have : ⌊a⌋ = (i : ℤ) := by rw [Int.floor_eq_iff]; push_cast; exact ⟨ha, ha'⟩
    rw [this]; rfl
  have fb : ⌊b⌋.toNat = k := by
    have : ⌊b⌋ = (k : ℤ) := by rw [Int.floor_eq_iff]; push_cast; exact ⟨hb, hb'⟩
    rw [this]; rfl
  have ha0 : 0 ≤ a := le_trans (by positivity) ha
  have hb0 : 0 ≤ b := le_trans (by positivity) hb
  have hi' : i < samples := by omega
  have hk' : k < lines := by omega
  have hidx := index_lt hi' hk'
  have ha2 : a < 2 ^ 64 := by
    refine ha'.trans_le ?_
    exact_mod_cast (by omega : i + 1 ≤ 2 ^ 64)
  have hb2 : b < 2 ^ 64 := by
    refine hb'.trans_le ?_
    exact_mod_cast (by omega : k + 1 ≤ 2 ^ 64)
  have hd : data.isNaN = false := by cases data <;> simp_all [Dbl.isNaN]
  have hvn' : v.isNaN = false := by cases v <;> simp_all [Dbl.isNaN]
  have hsky : (if (if c.removeSky then g.bodyMask samples lines else []).isEmpty
        then Outcome.ok false else do
        let m ← arrayAt (if c.removeSky then g.bodyMask samples lines else [])
          (k * samples + i)
        .ok (!m)) = .ok false := by
    cases hcs : c.removeSky with
    | false => rfl
    | true =>
      simp only [if_true]
      have hget := bodyMask_get g hi' hk'
      split
      · rfl
      · unfold arrayAt
        rw [hget, h5 hcs]; rfl
  have hx : Dbl.lt (.fin a) (.fin 0) = false := by simp [Dbl.lt, ha0]
  have hz : Dbl.lt (.fin b) (.fin 0) = false := by simp [Dbl.lt, hb0]
  have hat : arrayAt image (k * samples + i) = .ok v := by unfold arrayAt; rw [hv]
  unfold read readWeighted
  subst hp
  simp only [hg, hx, hz, castSize_floor ha0 ha2, castSize_floor hb0 hb2, Outcome.bind_ok, fa, fb]
  simp only [Bool.not_true, Bool.or_false, Bool.false_eq_true, if_false]
  rw [if_neg (by omega), szMul_eq (by omega), szAdd_eq (by omega), hsky, hat, hi, hc]
  simp [Bilinear.null, nullCorrect, hd, hvn']

example : ∃ p, Built [.fin 1, .fin 2, .fin 3, .fin 4, .nan, .fin 6] 3 2
      { demoParams true with nibbleLeft := 1 } boundedGeometry p ∧
    read p (1/2, 1/2) (.fin 0) = .ok (false, .fin 0) ∧
    read p (3/2, 3/2) (.fin 0) = .ok (false, .nan) ∧
    read p (5/2, 1/3) (.fin 0) = .ok (true, .fin 3) ∧
    read p (5/2, 4/3) (.fin 0) = .ok (false, .fin 0) := by
  refine ⟨_, ⟨rfl, by norm_num, by simp [demoParams], by simp [demoParams]⟩, ?_, ?_, ?_, ?_⟩ <;>
    decide +kernel

/-! ## C26 -/

/-- Specification: what a caller learns from a read: nothing, or a datum. -/
def Observed : Outcome (Bool × Dbl) → Outcome (Option Dbl)
  | .ok (true, d) => .ok (some d)
  | .ok (false, _) => .ok none
  | .throw e => .throw e
  | .ub => .ub

/-- C26: false of the code.  The same photo read at the same location succeeds
or fails depending on whether the caller's variable holds NaN. -/
theorem C26_violated :
    ∃ p, Built [.fin 1, .fin 2, .fin 3, .fin 4] 2 2 (demoParams false) demoGeometry p ∧
      Observed (read p (1/2, 1/2) (.fin 0)) = .ok (some (.fin 1)) ∧
      Observed (read p (1/2, 1/2) .nan) = .ok none := by
  refine ⟨_, ⟨rfl, by norm_num, by simp [demoParams], by simp [demoParams]⟩, ?_, ?_⟩ <;>
    decide +kernel

/-- C26, its consequence for mosaics: a NaN pixel in the first photo of a
first-read mosaic hides the datum of the second one, which can be read on its
own. -/
theorem C26_mosaic_violated :
    ∃ p q, Built [.nan, .fin 2, .fin 3, .fin 4] 2 2 (demoParams false) demoGeometry p ∧
      Built [.fin 5, .fin 6, .fin 7, .fin 8] 2 2 (demoParams false) demoGeometry q ∧
      Observed (Compositing.mosaicRead (Compositing.firstRead [read q (1/2, 1/2)]) (.fin 0)) =
        .ok (some (.fin 5)) ∧
      Observed (Compositing.mosaicRead (Compositing.firstRead
        [read p (1/2, 1/2), read q (1/2, 1/2)]) (.fin 0)) = .ok none := by
  refine ⟨_, _, ⟨rfl, by norm_num, by simp [demoParams], by simp [demoParams]⟩,
    ⟨rfl, by norm_num, by simp [demoParams], by simp [demoParams]⟩, ?_, ?_⟩ <;>
    decide +kernel

/-- C26, as far as it holds: reads do not depend on the caller's variable as
long as it does not hold NaN. -/
theorem C26_partial (p : Img C) (loc : C) (d d' : Dbl) (hd : d ≠ .nan) (hd' : d' ≠ .nan) :
    Observed (read p loc d) = Observed (read p loc d') := by
  have h1 : d.isNaN = false := by cases d <;> simp_all [Dbl.isNaN]
  have h2 : d'.isNaN = false := by cases d' <;> simp_all [Dbl.isNaN]
  unfold read readWeighted
  rcases p.geometry.latlon2pix loc with ⟨ok, x, z⟩
  simp only [h1, h2, Bool.or_false]
  split
  · rfl
  cases castSize x.floor with
  | throw e => rfl
  | ub => rfl
  | ok i =>
  cases castSize z.floor with
  | throw e => rfl
  | ub => rfl
  | ok k =>
  simp only [Outcome.bind_ok]
  split
  · rfl
  cases (if p.mask.isEmpty then Outcome.ok false else do
        let m ← arrayAt p.mask (szAdd (szMul k p.samples) i)
        .ok (!m)) with
  | throw e => rfl
  | ub => rfl
  | ok s => cases s <;> rfl

example : ∃ p, Built [.fin 1, .fin 2, .fin 3, .fin 4] 2 2 (demoParams false) demoGeometry p ∧
    Observed (read p (1/2, 1/2) (.fin 7)) = .ok (some (.fin 1)) := by
  refine ⟨_, ⟨rfl, by norm_num, by simp [demoParams], by simp [demoParams]⟩, ?_⟩
  decide +kernel

/-! ## C27 -/

/-- C27 without sky removal: the weight is the distance
`min (i, samples - i, k, lines - k)` to the nearest image edge. -/
theorem C27_no_sky_partial {image : List Dbl} {samples lines : ℕ} {c : Params}
    {g : Geometry C} {p : Img C} (h : Built image samples lines c g p)
    (hsky : c.removeSky = false) {loc : C} {data weight d w : Dbl}
    (hr : readWeighted p loc data weight true = .ok (true, d, w)) :
    ∃ (a b : ℚ) (i k : ℕ), g.latlon2pix loc = (true, .fin a, .fin b) ∧
      (i : ℚ) ≤ a ∧ a < i + 1 ∧ (k : ℚ) ≤ b ∧ b < k + 1 ∧
      w = .fin (min i (min (samples - i) (min k (lines - k))) : ℕ) := by
  obtain ⟨a, b, h1, h2, h3, h4, h5, h6, h7, -, -, -, -, -, -, -, -, hw⟩ := read_true h hr
  obtain ⟨hp, hs2, hl2, hlen, hs, hl⟩ := h.facts
  simp only [if_true] at hw
  obtain ⟨n, hn, rfl⟩ := hw
  have e1 : ((⌊a⌋.toNat : ℕ) : ℚ) = (⌊a⌋ : ℚ) := by
    exact_mod_cast Int.toNat_of_nonneg (Int.floor_nonneg.mpr h2)
  have e2 : ((⌊b⌋.toNat : ℕ) : ℚ) = (⌊b⌋ : ℚ) := by
    exact_mod_cast Int.toNat_of_nonneg (Int.floor_nonneg.mpr h3)
  refine ⟨a, b, ⌊a⌋.toNat, ⌊b⌋.toNat, h1, ?_, ?_, ?_, ?_, ?_⟩
  · rw [e1]; exact Int.floor_le a
  · rw [e1]; exact Int.lt_floor_add_one a
  · rw [e2]; exact Int.floor_le b
  · rw [e2]; exact Int.lt_floor_add_one b
  · rw [hp] at hn
    unfold dataWeight at hn
    simp only [hsky, Bool.false_eq_true, if_false, List.isEmpty_nil, if_true,
      Outcome.ok.injEq] at hn
    rw [szSub_eq (by omega) hs, szSub_eq (by omega) hl] at hn
    rw [← hn]

example : ∃ p, Built ((List.range 20).map fun n => Dbl.fin n) 5 4 (demoParams false)
      demoGeometry p ∧
    readWeighted p (5/2, 3/2) (.fin 0) (.fin 1) true = .ok (true, .fin 7, .fin 1) := by
  refine ⟨_, ⟨rfl, by norm_num, by simp [demoParams], by simp [demoParams]⟩, ?_⟩
  decide +kernel

theorem scanSamples_le {p : Img C} {line left right w r : ℕ}
    (h : scanSamples p line left right w = .ok r) : r ≤ w := by
  unfold scanSamples at h
  simp only at h
  split at h
  · cases h
  · split at h <;> cases h
    · exact Nat.min_le_right _ _
    · exact le_rfl

theorem scanLines_le {p : Img C} {i top bottom w r : ℕ}
    (h : scanLines p i top bottom w = .ok r) : r ≤ w := by
  unfold scanLines at h
  cases hl : scanLinesLoop p i (bottom - top) top with
  | throw e => rw [hl] at h; cases h
  | ub => rw [hl] at h; cases h
  | ok l =>
    rw [hl] at h
    simp only [Outcome.bind_ok] at h
    split at h <;> cases h
    · exact Nat.min_le_right _ _
    · exact le_rfl

theorem scanLinesLoop_body {p : Img C} {i n line : ℕ}
    (h : ∀ j < n, p.mask[(line + j) * p.samples + i]? = some true) :
    scanLinesLoop p i n line = .ok (line + n) := by
  induction n generalizing line with
  | zero => rfl
  | succ n ih =>
    have h0 := h 0 (by omega)
    rw [Nat.add_zero] at h0
    rw [scanLinesLoop, arrayAt, h0]
    simp only [Outcome.bind_ok, if_true]
    rw [ih fun j hj => by
      have := h (j + 1) (by omega)
      rwa [show line + (j + 1) = line + 1 + j by omega] at this]
    congr 1; omega

theorem scanLinesLoop_sky {p : Img C} {i n line m : ℕ} (hm : m < n)
    (h : ∀ j < m, p.mask[(line + j) * p.samples + i]? = some true)
    (hs : p.mask[(line + m) * p.samples + i]? = some false) :
    scanLinesLoop p i n line = .ok (line + m) := by
  induction n generalizing line m with
  | zero => omega
  | succ n ih =>
    rw [scanLinesLoop, arrayAt]
    cases m with
    | zero =>
      rw [Nat.add_zero] at hs
      rw [hs]
      rfl
    | succ m =>
      have h0 := h 0 (by omega)
      rw [Nat.add_zero] at h0
      rw [h0]
      simp only [Outcome.bind_ok, if_true]
      rw [ih (m := m) (by omega) (fun j hj => by
        have := h (j + 1) (by omega)
        rwa [show line + (j + 1) = line + 1 + j by omega] at this) (by
        rwa [show line + (m + 1) = line + 1 + m by omega] at hs)]
      congr 1; omega

/-- **C27**, the scan down a column: a weight is lowered to the number of body pixels
above the first pixel of the sky, counted from the first line looked at.  Missing: that
this line is the pixel's own; above the pixel the scan starts at the edge of the image,
and `C27_sky_violated` shows what becomes of the weight. -/
theorem C27_column_partial {p : Img C} {i top bottom weight : ℕ}
    (hb : top ≤ bottom) :
    ((∀ line, top ≤ line → line < bottom → p.mask[line * p.samples + i]? = some true) →
      scanLines p i top bottom weight = .ok weight) ∧
    ∀ sky, top ≤ sky → sky < bottom → p.mask[sky * p.samples + i]? = some false →
      (∀ line, top ≤ line → line < sky → p.mask[line * p.samples + i]? = some true) →
      scanLines p i top bottom weight = .ok (min (sky - top) weight) := by
  refine ⟨fun h => ?_, fun sky h1 h2 h3 h4 => ?_⟩
  · rw [scanLines, scanLinesLoop_body fun j hj => h _ (by omega) (by omega)]
    simp only [Outcome.bind_ok]
    rw [if_neg (by omega)]
  · rw [scanLines, scanLinesLoop_sky (m := sky - top) (by omega)
      (fun j hj => h4 _ (by omega) (by omega)) (by rwa [show top + (sky - top) = sky by omega])]
    simp only [Outcome.bind_ok]
    rw [if_pos (by omega)]
    congr 2; omega

/-- A column with the sky in its third line. -/
example : scanLines (C := ℕ) ⟨[], 1, 5, 0, 1, 0, 5, ⟨0, 0, 0, 0, true, Bilinear.null, nullCorrect⟩,
    ⟨fun _ => (false, .nan, .nan), fun _ _ => true⟩, [true, true, false, true, true]⟩ 0 0 5 9 =
    .ok 2 := by decide +kernel

/-- C27 with sky removal is false of the code: the weight of *every* pixel that
is read is zero, however far the sky is, since the sample scan looks for body
pixels and starts at the pixel itself. -/
theorem C27_sky_violated {image : List Dbl} {samples lines : ℕ} {c : Params}
    {g : Geometry C} {p : Img C} (h : Built image samples lines c g p)
    (hsky : c.removeSky = true) {loc : C} {data weight d w : Dbl}
    (hr : readWeighted p loc data weight true = .ok (true, d, w)) : w = .fin 0 := by
  obtain ⟨a, b, h1, h2, h3, h4, h5, h6, h7, hbody, -, -, -, -, -, -, -, hw⟩ := read_true h hr
  obtain ⟨hp, hs2, hl2, hlen, hs, hl⟩ := h.facts
  simp only [if_true] at hw
  obtain ⟨n, hn, rfl⟩ := hw
  have hpm : p.mask = g.bodyMask samples lines := by rw [hp]; simp [hsky]
  have hps : p.samples = samples := by rw [hp]
  have hpr : p.right = samples - c.nibbleRight := by rw [hp]
  unfold dataWeight at hn
  have hne : p.mask.isEmpty = false := by
    have hl := bodyMask_length g samples lines
    rw [hpm]
    cases hm : g.bodyMask samples lines with
    | nil =>
      rw [hm] at hl
      have := index_lt (show (1:ℕ) < samples by omega) (show 1 < lines by omega)
      simp only [List.length_nil] at hl; omega
    | cons _ _ => rfl
  simp only [hne, Bool.false_eq_true, if_false] at hn
  generalize hw0 : min ⌊a⌋.toNat (min (szSub p.samples ⌊a⌋.toNat) (min ⌊b⌋.toNat
    (szSub p.lines ⌊b⌋.toNat))) = w0 at hn
  cases hc1 : scanSamples p ⌊b⌋.toNat p.left ⌊a⌋.toNat w0 with
  | throw e => rw [hc1] at hn; cases hn
  | ub => rw [hc1] at hn; cases hn
  | ok w1 =>
  rw [hc1] at hn
  simp only [Outcome.bind_ok] at hn
  cases hc2 : scanSamples p ⌊b⌋.toNat ⌊a⌋.toNat p.right w1 with
  | throw e => rw [hc2] at hn; cases hn
  | ub => rw [hc2] at hn; cases hn
  | ok w2 =>
  rw [hc2] at hn
  simp only [Outcome.bind_ok] at hn
  cases hc3 : scanLines p ⌊a⌋.toNat p.top ⌊b⌋.toNat w2 with
  | throw e => rw [hc3] at hn; cases hn
  | ub => rw [hc3] at hn; cases hn
  | ok w3 =>
  rw [hc3] at hn
  simp only [Outcome.bind_ok] at hn
  have l3 := scanLines_le hc3
  have l4 := scanLines_le hn
  suffices hz : w2 = 0 by
    have : n = 0 := by omega
    rw [this]; rfl
  have hget := bodyMask_get g (show ⌊a⌋.toNat < samples by omega)
    (show ⌊b⌋.toNat < lines by omega)
  rw [hbody hsky] at hget
  unfold scanSamples at hc2
  simp only [hps, hpr, hpm] at hc2
  split at hc2
  · cases hc2
  have hdrop : (g.bodyMask samples lines).drop (⌊b⌋.toNat * samples + ⌊a⌋.toNat) =
      true :: (g.bodyMask samples lines).drop (⌊b⌋.toNat * samples + ⌊a⌋.toNat + 1) := by
    obtain ⟨hlt, he⟩ := List.getElem?_eq_some_iff.mp hget
    rw [← he, List.getElem_cons_drop]
  rw [hdrop, show samples - c.nibbleRight - ⌊a⌋.toNat =
    (samples - c.nibbleRight - ⌊a⌋.toNat - 1) + 1 by omega, List.take_succ_cons] at hc2
  simp [List.findIdx?_cons] at hc2
  exact hc2.symm

/-- C27 with sky removal, a concrete photo: in a 5 by 5 image without any sky
the centre pixel, two pixels away from the nearest edge, gets weight zero. -/
theorem C27_sky_witness_violated :
    ∃ p, Built ((List.range 25).map fun n => Dbl.fin n) 5 5 (demoParams true) demoGeometry p ∧
      (∀ i k, demoGeometry.onBody i k = true) ∧
      readWeighted p (5/2, 5/2) (.fin 0) (.fin 1) true = .ok (true, .fin 12, .fin 0) := by
  refine ⟨_, ⟨rfl, by norm_num, by simp [demoParams], by simp [demoParams]⟩, fun _ _ => rfl, ?_⟩
  decide +kernel

end MaRC.Photo
