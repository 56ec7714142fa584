import Verif.Lemmas.ProgramData
import Verif.Props.InputAccepted
import Verif.Spec.Computed

/-! # Runs of the program that succeed -/

namespace MaRC.Program

open Source Execute Grammar MaRC.Calc MaRC.Scan MapParams _root_.MaRC.Fits MapFactory MapCommand
  Progress
open MaRC.InputMeaning (Part entries parts upTo has get int bitpix words IsCommand AreCommands
  ArePlanes IsPlane Shows ValidFile)
open MaRC.InputFile (Item Written)
open MaRC.Props (Reached)
open MaRC.ProgramSpec

variable {M : Machine}

/-! ## Planes -/

/-- An image that can be read everywhere, with limits that hold for its data type. -/
def GoodImage (T : MapType) (im : MapFactory.Plane Loc) : Prop :=
  (∀ c, ∃ r, im.read c (.fin 0) = .ok r) ∧
  ∃ mm a b, im.minmax.convert T = .ok mm ∧ getExtrema T mm = .ok ⟨some a, some b⟩ ∧
    ∀ d, (T.toDouble a).le d = true → d.le (T.toDouble b) = true → ∃ v, T.cast d = .ok v

/-- Plotting information before a plane. -/
structure GoodInfo (T : MapType) (samples lines : ℕ) (info : PlotInfo) : Prop where
  samples : info.samples = samples
  lines : info.lines = lines
  count : info.notifier.count = 0
  blank : ∀ b, T.isIntegral = true → info.blank = some b → T.intRange.1 ≤ b ∧ b ≤ T.intRange.2

theorem makePlane_total {T : MapType} {plots : ℕ → ℕ → List (Loc × ℕ)} {samples lines : ℕ}
    {info : PlotInfo} {im : MapFactory.Plane Loc} (hi : GoodInfo T samples lines info)
    (him : GoodImage T im) (hpos : 0 < szMul samples lines)
    (hoff : ∀ p ∈ plots samples lines, p.2 < szMul samples lines)
    (hlen : (plots samples lines).length ≤ szMul samples lines) :
    ∃ map info', makePlane T plots im info = .ok (map, info') ∧
      GoodInfo T samples lines info' := by
  obtain ⟨hread, mm, a, b, h1, h2, hcast⟩ := him
  have hb : ∃ bl, blankValue T info.blank = .ok bl := by
    unfold blankValue
    cases h : T.isIntegral <;> cases hbl : info.blank <;> simp
    have := hi.blank _ h hbl
    rw [if_neg (by omega)]
    exact ⟨_, rfl⟩
  obtain ⟨bl, hbl⟩ := hb
  obtain ⟨s, hs⟩ := plotAll_total (T := T) (read := im.read) (a := a) (b := b) hread hcast
    (plots info.samples info.lines)
    ⟨List.replicate (szMul info.samples info.lines) bl, info⟩
    (by rw [hi.samples, hi.lines]; simpa using hoff)
    (by rw [hi.samples, hi.lines, hi.count]; simpa using hlen)
  have hl : s.map.length ≠ 0 := by
    rw [(plotAll_ok _ hs).1, foldl_set_length, List.length_replicate, hi.samples, hi.lines]
    omega
  have h : ∃ r, makePlane T plots im info = .ok r := by
    unfold makePlane makeMap
    simp only [h1, hbl, h2, hs, Outcome.bind_ok, Notifier.notifyDone, if_neg hl]
    exact ⟨_, rfl⟩
  obtain ⟨⟨map, info'⟩, h⟩ := h
  refine ⟨map, info', h, ?_⟩
  unfold makePlane at h
  simp only [h1, Outcome.bind_ok] at h
  obtain ⟨_, _, _, -, -, s', g1, -, -, g2, g3, g4, -, g5⟩ := makeMap_ok h
  obtain ⟨-, -, -, -, -, k1, k2, k3⟩ := plotAll_ok _ g1
  exact ⟨by rw [g2, k1]; exact hi.samples, by rw [g3, k2]; exact hi.lines, by rw [g5],
    by rw [g4, k3]; exact hi.blank⟩

theorem write_total {im : Image} {ok : Bool} {data : List Dbl}
    (h : im.fpixel + im.nelements < 2 ^ 63) (h0 : 0 ≤ im.nelements) :
    ∃ r im', im.write ok data = .ok (r, im') ∧ im'.nelements = im.nelements ∧
      im'.fpixel ≤ im.fpixel + im.nelements := by
  unfold Image.write
  split
  · exact ⟨_, _, rfl, rfl, by omega⟩
  split
  · exact ⟨_, _, rfl, rfl, by omega⟩
  split
  · exact ⟨_, _, rfl, rfl, by omega⟩
  rw [if_neg (by omega)]
  exact ⟨_, _, rfl, rfl, le_refl _⟩

/-- A factory that makes such an image. -/
def GoodFactory (T : MapType) (f : Execute.Factory Loc) : Prop :=
  ∃ im, f.make T = .ok (some im) ∧ GoodImage T im.1

theorem planes_total {F : Fp} {T : MapType} {c : Execute.Command Loc} {env : Execute.Env}
    {p : Params} (hpos : 0 < szMul c.samples c.lines)
    (hoff : ∀ p ∈ c.plots c.samples c.lines, p.2 < szMul c.samples c.lines)
    (hlen : (c.plots c.samples c.lines).length ≤ szMul c.samples c.lines) :
    ∀ (fs : List (Execute.Factory Loc)) (s : PlaneState), (∀ f ∈ fs, GoodFactory T f) →
      GoodInfo T c.samples c.lines s.loop.info → 0 ≤ s.loop.image.nelements →
      s.loop.image.fpixel + s.loop.image.nelements * fs.length < 2 ^ 63 →
      ∃ s', Execute.planes F T c env p fs s = .ok (s', none)
  | [], s, _, _, _, _ => ⟨s, rfl⟩
  | f :: fs, s, hf, hi, h0, hx => by
    obtain ⟨im, h1, h2⟩ := hf f (by simp)
    obtain ⟨map, info', h3, h4⟩ := makePlane_total hi h2 hpos hoff hlen
    have hx' : s.loop.image.fpixel + s.loop.image.nelements +
        s.loop.image.nelements * fs.length < 2 ^ 63 := by
      rw [List.length_cons] at hx
      push_cast at hx
      linarith
    have hn : 0 ≤ s.loop.image.nelements * fs.length := by positivity
    obtain ⟨r, im', h5, h6, h7⟩ := write_total (im := s.loop.image)
      (ok := env.plane s.loop.planeCount) (data := map) (by omega) h0
    rw [Execute.planes]
    simp only [h1, planeStep, h3, h5]
    exact planes_total hpos hoff hlen fs _ (fun g hg => hf g (by simp [hg])) h4
      (by simp only [h6]; exact h0) (by simp only [h6]; omega)

/-! ## Parameters -/

/-- Parameters that say nothing on data types and blank values. -/
def Silent (p : Params) : Prop := p.bitpix = 0 ∧ p.blank = none

theorem merge_silent {F : Fp} {p q : Params} (hq : Silent q) :
    ∃ r, merge F p q = .ok r ∧ r.bitpix = p.bitpix ∧ r.blank = p.blank := by
  have h : ∃ r, merge F p q = .ok r := by
    unfold merge mergeBitpix
    rw [if_neg (by simp [hq.1])]
    exact ⟨_, rfl⟩
  obtain ⟨r, h⟩ := h
  obtain ⟨-, -, h1, -, -, -, h2, -, -⟩ := merge_ok h
  refine ⟨r, h, ?_, ?_⟩
  · rw [h1, bitpixAfter, if_neg (by simp [hq.1])]
  · rw [h2, hq.2]
    split
    · rename_i hx; exact hx.2.symm
    · rfl

/-- A factory that says nothing of that kind. -/
def SilentFactory (f : Execute.Factory Loc) : Prop :=
  ∀ k : ℤ, ∃ q, f.populate (fresh k) = .ok (some q) ∧ Silent q

theorem populateLoop_total {F : Fp} : ∀ (fs : List (Execute.Factory Loc)) (k : ℕ) (m : Params),
    (∀ f ∈ fs, SilentFactory f) → Silent m →
    ∃ m', populateLoop F fs k m = .ok (some m') ∧ Silent m'
  | [], k, m, _, hm => ⟨m, rfl, hm⟩
  | f :: fs, k, m, hf, hm => by
    obtain ⟨q, h1, h2⟩ := hf f (by simp) k
    obtain ⟨r, h3, h4, h5⟩ := merge_silent (F := F) (p := m) h2
    obtain ⟨m', h6, h7⟩ := populateLoop_total (F := F) fs (k + 1) r (fun g hg => hf g (by simp [hg]))
      ⟨by rw [h4]; exact hm.1, by rw [h5]; exact hm.2⟩
    exact ⟨m', by simp only [populateLoop, h1, Outcome.bind_ok, h3, h6], h7⟩

theorem populate_total {F : Fp} {c : Execute.Command Loc}
    (hf : ∀ f ∈ c.factories, SilentFactory f) :
    ∃ p, populateParameters F c = .ok (some p) ∧ p.bitpix = c.params.bitpix ∧
      p.blank = c.params.blank := by
  obtain ⟨m, h1, h2⟩ := populateLoop_total (F := F) c.factories 1 (fresh 0) hf ⟨rfl, rfl⟩
  obtain ⟨p, h3, h4, h5⟩ := merge_silent (F := F) (p := c.params) h2
  exact ⟨p, by simp only [populateParameters, h1, Outcome.bind_ok, h3], h4, h5⟩

/-! ## Commands -/

theorem szMul_small {a b : ℕ} (h : a * b < 2 ^ 64) : szMul a b = a * b := by
  unfold szMul szMod
  exact Nat.mod_eq_of_lt h

theorem execute_total {F : Fp} {c : Execute.Command Loc} {env : Execute.Env} {w : World}
    {T : MapType} (h1 : env.create = true) (h2 : env.map = true) (h3 : env.grid = true)
    (hT : bitpixType c.params.bitpix = some T)
    (hb : ∀ b, T.isIntegral = true → c.params.blank = some b → T.intRange.1 ≤ b ∧ b ≤ T.intRange.2)
    (hs : ∀ f ∈ c.factories, SilentFactory f) (hg : ∀ f ∈ c.factories, GoodFactory T f)
    (hpos : 0 < c.samples * c.lines) (hsize : c.samples * c.lines < 2 ^ 63 - 1)
    (hall : c.samples * c.lines * c.factories.length < 2 ^ 63 - 1)
    (hoff : ∀ p ∈ c.plots c.samples c.lines, p.2 < c.samples * c.lines)
    (hlen : (c.plots c.samples c.lines).length ≤ c.samples * c.lines)
    (hgrid : ∀ g, c.grid = some g → ∃ data, g = .ok data) :
    ∃ w', execute F c env w = .ok (w', .returned 0) := by
  obtain ⟨p, hp, hp1, hp2⟩ := populate_total (F := F) hs
  have hsz : szMul c.samples c.lines = c.samples * c.lines := szMul_small (by omega)
  have hne : (Image.new c.samples c.lines c.factories.length).nelements =
      ((c.samples * c.lines : ℕ) : ℤ) := by
    simp only [Image.new, hsz, toLL]
    rw [if_pos (by omega)]
  have hvalid : getBitpix p = .ok p.bitpix := by
    have h := (bitpixType_iff _ _).1 hT
    unfold getBitpix
    rw [hp1, if_neg]
    generalize c.params.bitpix = n at h
    cases h <;> decide
  have hmap : ∃ hdu, makeMapHdu F T c env p = .ok (hdu, none) := by
    unfold makeMapHdu
    simp only
    obtain ⟨s, h⟩ := planes_total (F := F) (T := T) (c := c) (env := env) (p := p)
      (by rw [hsz]; exact hpos) (by rw [hsz]; exact hoff) (by rw [hsz]; exact hlen) c.factories
      ⟨⟨1, { PlotInfo.new c.samples c.lines p.blank with
          notifier := { (PlotInfo.new c.samples c.lines p.blank).notifier with observers := [[]] } },
        (Hdu.new p.bitpix c.samples c.lines c.factories.length none).image, 0, [], []⟩,
        mapHeader T c p (Hdu.new p.bitpix c.samples c.lines c.factories.length none).header⟩
      hg ⟨rfl, rfl, rfl, by simp only [PlotInfo.new, hp2]; exact hb⟩
      (by simp only [Hdu.new, hne]; positivity)
      (by
        simp only [Hdu.new, hne]
        simp only [Image.new]
        have : ((c.samples * c.lines * c.factories.length : ℕ) : ℤ) < 2 ^ 63 - 1 := by
          have := (Nat.cast_lt (α := ℤ)).2 hall
          exact this
        push_cast at this ⊢
        linarith)
    rw [h]
    simp only [Outcome.bind_ok, dataKeywords]
    split
    · rename_i hd
      unfold PlotInfo.dataMapped Extrema.isValid at hd
      cases hmin : s.loop.info.extrema.min with
      | none => simp [hmin] at hd
      | some x =>
        cases hmax : s.loop.info.extrema.max with
        | none => simp [hmin, hmax] at hd
        | some y => simp
    · simp
  obtain ⟨hdu, hmap⟩ := hmap
  unfold execute
  simp only [hp, create, h1, h2, hvalid, Bool.not_true, Bool.false_eq_true, if_false]
  rw [hp1, hT]
  simp only [hmap, Outcome.bind_ok, finish]
  cases hcg : c.grid with
  | none => exact ⟨_, rfl⟩
  | some g =>
    obtain ⟨data, rfl⟩ := hgrid g hcg
    have hne1 : (Image.new c.samples c.lines 1).nelements = ((c.samples * c.lines : ℕ) : ℤ) := by
      simp only [Image.new, hsz, toLL]
      rw [if_pos (by omega)]
    obtain ⟨r, im', hw, -, -⟩ := write_total (im := Image.new c.samples c.lines 1)
      (ok := env.gridData) (data := data)
      (by
        rw [hne1]
        have := (Nat.cast_lt (α := ℤ)).2 hsize
        have h2 : ((2 ^ 63 - 1 : ℕ) : ℤ) = 2 ^ 63 - 1 := by norm_num
        rw [h2] at this
        show (1 : ℤ) + _ < _
        linarith)
      (by rw [hne1]; positivity)
    simp only [h3, Bool.not_true, Bool.false_eq_true, if_false, makeGridHdu, Hdu.new, hw,
      Outcome.bind_ok]
    exact ⟨_, rfl⟩

theorem runCommands_total {F : Fp} {env : ℕ → Execute.Env} :
    ∀ {cs : List (Execute.Command Loc)} {i : ℕ} {w : World},
    (∀ c ∈ cs, ∀ i w, ∃ w', execute F c (env i) w = .ok (w', .returned 0)) →
    ∃ w', runCommands F env i cs w 0 = .ok (w', 0)
  | [], i, w, _ => ⟨w, rfl⟩
  | c :: cs, i, w, h => by
    obtain ⟨w', h1⟩ := h c (by simp) i w
    obtain ⟨w2, h2⟩ := runCommands_total (cs := cs) (i := i + 1) (w := w')
      fun d hd => h d (by simp [hd])
    exact ⟨w2, by simp only [runCommands, h1, ne_eq, not_true_eq_false, if_false, h2]⟩

/-! ## Computed images -/

/-- The limits of a computed image hold for its data type. -/
theorem limits_good {T : MapType} {lo hi : Dbl} {a b : ℚ} {n m : ℤ}
    (h1 : (Extrema.convert T ⟨some lo, some hi⟩) = .ok ⟨some (.fin a), some (.fin b)⟩)
    (h2 : getExtrema T ⟨some (.fin a), some (.fin b)⟩ = .ok ⟨some (.fin a), some (.fin b)⟩)
    (h3 : T.toDouble (.fin a) = .fin a ∧ T.toDouble (.fin b) = .fin b)
    (h4 : a = n ∧ b = m ∧ T.intRange.1 ≤ n ∧ m ≤ T.intRange.2 ∨ T.isIntegral = false) :
    ∃ mm a b, Extrema.convert T ⟨some lo, some hi⟩ = .ok mm ∧
      getExtrema T mm = .ok ⟨some a, some b⟩ ∧
      ∀ d, (T.toDouble a).le d = true → d.le (T.toDouble b) = true → ∃ v, T.cast d = .ok v := by
  refine ⟨_, _, _, h1, h2, fun d g1 g2 => ?_⟩
  rw [h3.1] at g1
  rw [h3.2] at g2
  rcases h4 with ⟨rfl, rfl, k1, k2⟩ | h4
  · obtain ⟨q, rfl, q1, q2⟩ := Dbl.fin_of_between g1 g2
    by_cases hT : T.isIntegral = true
    · obtain ⟨e1, e2⟩ := T.intRange_cast hT
      have h1' : T.lowest ≤ (n : ℚ) := by rw [← e1]; exact_mod_cast k1
      have h2' : (m : ℚ) ≤ T.highest := by rw [← e2]; exact_mod_cast k2
      exact ⟨_, by rw [T.cast_integral hT, if_pos ⟨by linarith, by linarith⟩]⟩
    · cases T <;> simp [MapType.isIntegral] at hT
      · exact ⟨_, rfl⟩
      · exact ⟨_, rfl⟩
  · cases T <;> simp [MapType.isIntegral] at h4
    · exact ⟨_, rfl⟩
    · exact ⟨_, rfl⟩

theorem virtual_good {kind : Kind} {low high : Dbl} {physical : Loc → Option Dbl} {T : MapType}
    {v : VirtualImage} {lo hi : Dbl} {a b : ℚ} {n m : ℤ}
    (hm : makeVirtual .ieee T low high = .ok (v, lo, hi))
    (hlo : lo.isNaN = false) (hhi : hi.isNaN = false)
    (h1 : (Extrema.convert T ⟨some lo, some hi⟩) = .ok ⟨some (.fin a), some (.fin b)⟩)
    (h2 : getExtrema T ⟨some (.fin a), some (.fin b)⟩ = .ok ⟨some (.fin a), some (.fin b)⟩)
    (h3 : T.toDouble (.fin a) = .fin a ∧ T.toDouble (.fin b) = .fin b)
    (h4 : a = n ∧ b = m ∧ T.intRange.1 ≤ n ∧ m ≤ T.intRange.2 ∨ T.isIntegral = false) :
    GoodFactory T (virtualFactory .ieee kind low high .empty physical) := by
  refine ⟨⟨⟨v.asRead .ieee physical, ⟨some lo, some hi⟩⟩, some v⟩, ?_, ?_, limits_good h1 h2 h3 h4⟩
  · simp only [virtualFactory, hm, Outcome.bind_ok, MaRC.Factory.setMinimum,
      MaRC.Factory.setMaximum, Extrema.empty, Option.isNone_none, if_true, Extrema.setMinimum,
      Extrema.setMaximum, Extrema.validateMinimum, Extrema.validateMaximum, hlo, hhi,
      MapType.minimum, MapType.maximum, Bool.false_eq_true, if_false]
  · intro c
    simp only [VirtualImage.asRead]
    split
    · exact ⟨_, rfl⟩
    · exact ⟨_, rfl⟩

theorem latitude_good (T : MapType) (physical : Loc → Option Dbl) :
    GoodFactory T (virtualFactory .ieee .degrees (.fin (-90)) (.fin 90) .empty physical) := by
  cases T
  · exact virtual_good (v := ⟨.fin 1, .fin 90⟩) (lo := .fin 0) (hi := .fin 180) (a := 0) (b := 180)
      (n := 0) (m := 180) (by decide +kernel) rfl rfl (by decide +kernel) (by decide +kernel)
      (by decide +kernel) (.inl (by decide +kernel))
  · exact virtual_good (v := ⟨.fin 100, .fin 0⟩) (lo := .fin (-9000)) (hi := .fin 9000)
      (a := -9000) (b := 9000) (n := -9000) (m := 9000) (by decide +kernel) rfl rfl
      (by decide +kernel) (by decide +kernel) (by decide +kernel) (.inl (by decide +kernel))
  · exact virtual_good (v := ⟨.fin (10 ^ 7), .fin 0⟩) (lo := .fin (-90 * 10 ^ 7))
      (hi := .fin (90 * 10 ^ 7)) (a := -90 * 10 ^ 7) (b := 90 * 10 ^ 7) (n := -90 * 10 ^ 7)
      (m := 90 * 10 ^ 7) (by decide +kernel) rfl rfl
      (by decide +kernel) (by decide +kernel) (by decide +kernel) (.inl (by decide +kernel))
  · exact virtual_good (v := ⟨.fin (10 ^ 16), .fin 0⟩) (lo := .fin (-90 * 10 ^ 16))
      (hi := .fin (90 * 10 ^ 16)) (a := -90 * 10 ^ 16) (b := 90 * 10 ^ 16) (n := -90 * 10 ^ 16)
      (m := 90 * 10 ^ 16) (by decide +kernel) rfl rfl
      (by decide +kernel) (by decide +kernel) (by decide +kernel) (.inl (by decide +kernel))
  all_goals
    exact virtual_good (v := ⟨.fin 1, .fin 0⟩) (lo := .fin (-90)) (hi := .fin 90)
      (a := -90) (b := 90) (n := 0) (m := 0) (by decide +kernel) rfl rfl
      (by decide +kernel) (by decide +kernel) (by decide +kernel) (.inr rfl)

theorem longitude_good {T : MapType} (hT : T ≠ .u8) (physical : Loc → Option Dbl) :
    GoodFactory T (virtualFactory .ieee .degrees (.fin 0) (.fin 360) .empty physical) := by
  cases T
  · exact absurd rfl hT
  · exact virtual_good (v := ⟨.fin 100, .fin (-18000)⟩) (lo := .fin (-18000)) (hi := .fin 18000)
      (a := -18000) (b := 18000) (n := -18000) (m := 18000) (by decide +kernel) rfl rfl
      (by decide +kernel) (by decide +kernel) (by decide +kernel) (.inl (by decide +kernel))
  · exact virtual_good (v := ⟨.fin (10 ^ 7), .fin (-180 * 10 ^ 7)⟩) (lo := .fin (-180 * 10 ^ 7))
      (hi := .fin (180 * 10 ^ 7)) (a := -180 * 10 ^ 7) (b := 180 * 10 ^ 7) (n := -180 * 10 ^ 7)
      (m := 180 * 10 ^ 7) (by decide +kernel) rfl rfl
      (by decide +kernel) (by decide +kernel) (by decide +kernel) (.inl (by decide +kernel))
  · exact virtual_good (v := ⟨.fin (10 ^ 16), .fin 0⟩) (lo := .fin 0)
      (hi := .fin (360 * 10 ^ 16)) (a := 0) (b := 360 * 10 ^ 16) (n := 0)
      (m := 360 * 10 ^ 16) (by decide +kernel) rfl rfl
      (by decide +kernel) (by decide +kernel) (by decide +kernel) (.inl (by decide +kernel))
  all_goals
    exact virtual_good (v := ⟨.fin 1, .fin 0⟩) (lo := .fin 0) (hi := .fin 360)
      (a := 0) (b := 360) (n := 0) (m := 0) (by decide +kernel) rfl rfl
      (by decide +kernel) (by decide +kernel) (by decide +kernel) (.inr rfl)

theorem cosine_good (T : MapType) (physical : Loc → Option Dbl) :
    GoodFactory T (virtualFactory .ieee .plain (.fin (-1)) (.fin 1) .empty physical) := by
  cases T
  · exact virtual_good (v := ⟨.fin 100, .fin 100⟩) (lo := .fin 0) (hi := .fin 200) (a := 0)
      (b := 200) (n := 0) (m := 200) (by decide +kernel) rfl rfl (by decide +kernel)
      (by decide +kernel) (by decide +kernel) (.inl (by decide +kernel))
  · exact virtual_good (v := ⟨.fin 10000, .fin 0⟩) (lo := .fin (-10000)) (hi := .fin 10000)
      (a := -10000) (b := 10000) (n := -10000) (m := 10000) (by decide +kernel) rfl rfl
      (by decide +kernel) (by decide +kernel) (by decide +kernel) (.inl (by decide +kernel))
  · exact virtual_good (v := ⟨.fin (10 ^ 9), .fin 0⟩) (lo := .fin (-10 ^ 9))
      (hi := .fin (10 ^ 9)) (a := -10 ^ 9) (b := 10 ^ 9) (n := -10 ^ 9)
      (m := 10 ^ 9) (by decide +kernel) rfl rfl
      (by decide +kernel) (by decide +kernel) (by decide +kernel) (.inl (by decide +kernel))
  · exact virtual_good (v := ⟨.fin (10 ^ 18), .fin 0⟩) (lo := .fin (-10 ^ 18))
      (hi := .fin (10 ^ 18)) (a := -10 ^ 18) (b := 10 ^ 18) (n := -10 ^ 18)
      (m := 10 ^ 18) (by decide +kernel) rfl rfl
      (by decide +kernel) (by decide +kernel) (by decide +kernel) (.inl (by decide +kernel))
  all_goals
    exact virtual_good (v := ⟨.fin 1, .fin 0⟩) (lo := .fin (-1)) (hi := .fin 1)
      (a := -1) (b := 1) (n := 0) (m := 0) (by decide +kernel) rfl rfl
      (by decide +kernel) (by decide +kernel) (by decide +kernel) (.inr rfl)

/-- The factory of a computed plane. -/
theorem planeFactory_total (hM : Working M) {T : MapType} {b : Body} {a : Parser.Averaging}
    {d : Parser.Nibbles} {g : Bool} {es : Part} {p : PlaneImage}
    (h : IsPlane M.E b a d g es p) (h0 : parts "IMAGE" es = [])
    (hl : has "DATA_MIN" es = false ∧ has "DATA_MAX" es = false)
    (hb : "LONGITUDE" ∈ es.flatMap (words ·.2) → T ≠ .u8) :
    ∃ f, planeFactory M b p = .ok f ∧ SilentFactory f ∧ GoodFactory T f := by
  have hno : ∀ k, has k es = false → InputMeaning.real M.E k es = none := by
    intro k hk
    unfold has at hk
    exact InputMeaning.real_none (Option.isSome_eq_false_iff.1 hk |> Option.isNone_iff_eq_none.1)
  have h1 : p.minimum = none := h.minimum.trans (hno _ hl.1)
  have h2 : p.maximum = none := h.maximum.trans (hno _ hl.2)
  have hp : planeFactory M b p = sourceFactory M b .empty p.source := by
    simp only [planeFactory, h1, h2, MaRC.Factory.optMinimum, MaRC.Factory.optMaximum,
      Outcome.bind_ok]
  rw [hp]
  have hF := hM.ieee
  have hs := h.source
  cases hs' : p.source with
  | photos ps =>
    rw [hs'] at hs
    cases hs with
    | photo hp _ => rw [h0] at hp; cases hp
    | photos hc hf => rw [h0] at hf; cases hf; simp at hc
  | latitude g =>
    refine ⟨_, rfl, fun k => ⟨_, rfl, ?_, ?_⟩, by rw [hF]; exact latitude_good T _⟩
    · simp only [setStr, lock]; split <;> rfl
    · simp only [setStr, lock]; split <;> rfl
  | longitude =>
    rw [hs'] at hs
    cases hs with
    | longitude hw =>
      refine ⟨_, rfl, fun k => ⟨_, rfl, ?_, ?_⟩, by rw [hF]; exact longitude_good (hb hw) _⟩
      · simp only [setStr, lock]; split <;> rfl
      · simp only [setStr, lock]; split <;> rfl
  | _ => exact ⟨_, rfl, fun k => ⟨_, rfl, rfl, rfl⟩, by rw [hF]; exact cosine_good T _⟩

theorem planeFactories_total (hM : Working M) {T : MapType} {b : Body} {a : Parser.Averaging}
    {d : Parser.Nibbles} {g : Bool} {ess : List Part} {ps : List PlaneImage}
    (h : ArePlanes M.E b a d g ess ps) (h0 : ∀ es ∈ ess, parts "IMAGE" es = [])
    (hl : ∀ es ∈ ess, has "DATA_MIN" es = false ∧ has "DATA_MAX" es = false)
    (hb : ∀ es ∈ ess, "LONGITUDE" ∈ es.flatMap (words ·.2) → T ≠ .u8) :
    ∃ fs, planeFactories M b ps = .ok fs ∧ fs.length = ess.length ∧
      ∀ f ∈ fs, SilentFactory f ∧ GoodFactory T f := by
  induction h with
  | nil => exact ⟨[], rfl, rfl, by simp⟩
  | @cons g es ess p ps h1 _ ih =>
    obtain ⟨fs, k1, k2, k3⟩ := ih (fun e he => h0 e (by simp [he])) (fun e he => hl e (by simp [he]))
      (fun e he => hb e (by simp [he]))
    obtain ⟨f, k4, k5⟩ := planeFactory_total hM h1 (h0 es (by simp)) (hl es (by simp))
      (hb es (by simp))
    refine ⟨f :: fs, by simp only [planeFactories, k4, k1, Outcome.bind_ok], by simp [k2], ?_⟩
    intro x hx
    rcases List.mem_cons.1 hx with rfl | hx
    · exact k5
    · exact k3 x hx

theorem int_bounds {k : String} {es : Part} {n : ℤ} (h : int k es = some n) :
    -(2 ^ 63) ≤ n ∧ n < 2 ^ 63 := by
  unfold InputMeaning.int at h
  cases hg : get k es with
  | none => simp [hg] at h
  | some v =>
    simp only [hg, Option.bind_some] at h
    split at h
    · unfold Parser.integer at h
      split at h
      · cases h
      · split at h
        · cases h; assumption
        · cases h
    · cases h

/-- A command of computed images can be made and always succeeds. -/
theorem command_total (hM : Working M) {d : InputMeaning.Defaults} {g : Bool} {es : Part}
    {c : Grammar.Command} (h : IsCommand M.E d g es c) (hc : Computed es)
    (hb : InputMeaning.Given "DATA_BLANK" (upTo "PLANE" es) (int "DATA_BLANK" (upTo "PLANE" es))
      (InputMeaning.BlankFor (bitpix (upTo "PLANE" es)))) :
    ∃ x, command M c = .ok x ∧
      ∀ i w, ∃ w', execute M.E.F x (M.cfitsio i) w = .ok (w', .returned 0) := by
  obtain ⟨T, hT⟩ : ∃ T, bitpixType (bitpix (upTo "PLANE" es)) = some T := by
    have := hc.type
    unfold InputMeaning.bitpix at this ⊢
    split at this <;> first | exact ⟨_, rfl⟩ | exact absurd rfl this
  have hu8 : bitpix (upTo "PLANE" es) ≠ 8 → T ≠ .u8 := by
    rintro h8 rfl
    have := (bitpixType_iff _ _).1 hT
    generalize bitpix (upTo "PLANE" es) = n at this h8
    cases this
    exact h8 rfl
  obtain ⟨fs, h1, h2, h3⟩ := planeFactories_total (T := T) hM h.planes hc.photos hc.limits
    (fun p hp hw => hu8 (hc.bytes p hp hw))
  have hs := h.samples
  have hl := h.lines
  have es1 : c.samples = (c.samples.toNat : ℤ) := by omega
  have el1 : c.lines = (c.lines.toNat : ℤ) := by omega
  have hpar : c.params.bitpix = bitpix (upTo "PLANE" es) := by rw [h.params]; rfl
  have hblk : c.params.blank = int "DATA_BLANK" (upTo "PLANE" es) := by rw [h.params]; rfl
  have hpos : 0 < c.samples.toNat * c.lines.toNat := Nat.mul_pos (by omega) (by omega)
  have hmax : c.samples.toNat * c.lines.toNat * max 1 fs.length < 2 ^ 63 - 1 := by
    have := hc.size _ _ hs.1 hl.1
    rw [es1, el1, ← h2] at this
    have h' : ((c.samples.toNat * c.lines.toNat * max 1 fs.length : ℕ) : ℤ) <
        ((2 ^ 63 - 1 : ℕ) : ℤ) := by
      rw [Nat.cast_mul, Nat.cast_mul]
      exact this
    exact_mod_cast h'
  have hall : c.samples.toNat * c.lines.toNat * fs.length < 2 ^ 63 - 1 :=
    lt_of_le_of_lt (Nat.mul_le_mul_left _ (le_max_right _ _)) hmax
  refine ⟨_, by simp only [command, h1, Outcome.bind_ok]; rfl, fun i w => ?_⟩
  refine execute_total (T := T) (hM.create i) (hM.map i) (hM.grid i) (by rw [← hT, ← hpar])
    ?_ (fun f hf => (h3 f hf).1) (fun f hf => (h3 f hf).2) hpos ?_ hall
    (hM.offsets _ _ _ _) (hM.count _ _ _ _) ?_
  · intro b hi hb'
    have hb' : int "DATA_BLANK" (upTo "PLANE" es) = some b := by rw [← hblk]; exact hb'
    have hbd := int_bounds hb'
    obtain ⟨b1, hb1, hb2⟩ := hb (has_of_int hb')
    rw [hb'] at hb1
    cases hb1
    have := (bitpixType_iff _ _).1 hT
    generalize bitpix (upTo "PLANE" es) = n at this hb2
    cases this <;> simp [InputMeaning.BlankFor, MapType.intRange, MapType.isIntegral] at hb2 hi ⊢ <;> omega
  · exact lt_of_le_of_lt (Nat.le_mul_of_pos_right _ (by omega)) hmax
  · intro gr hg
    cases hcg : c.grid with
    | none => simp [hcg] at hg
    | some i =>
      simp only [hcg, Option.map_some, Option.some.injEq] at hg
      rw [← hg]
      exact hM.grids _ _ _ _ _

/-! ## Input files -/

/-- Commands that can be made and always succeed. -/
def Succeeds (M : Machine) (x : Execute.Command Loc) : Prop :=
  ∀ i w, ∃ w', execute M.E.F x (M.cfitsio i) w = .ok (w', .returned 0)

theorem commands_total (hM : Working M) {d : InputMeaning.Defaults} {g : Bool} {ess : List Part}
    {cs : List Grammar.Command} (h : AreCommands M.E d g ess cs) (hc : ∀ es ∈ ess, Computed es)
    (hv : InputMeaning.ValidMaps M.E g ess) :
    ∃ xs, commands M cs = .ok xs ∧ ∀ x ∈ xs, Succeeds M x := by
  induction h with
  | nil => exact ⟨[], rfl, by simp⟩
  | @cons g es ess c cs h1 _ ih =>
    cases hv with
    | cons v1 v2 =>
    obtain ⟨b, hh, -, -⟩ := v1
    obtain ⟨xs, k1, k2⟩ := ih (fun e he => hc e (by simp [he])) v2
    obtain ⟨x, k3, k4⟩ := command_total hM h1 (hc es (by simp)) hh.blank
    refine ⟨x :: xs, by simp only [commands, k3, k1, Outcome.bind_ok], ?_⟩
    intro y hy
    rcases List.mem_cons.1 hy with rfl | hy
    · exact k4
    · exact k2 y hy

theorem tree_parses {text : List Char} {f : File} (h : Parses (scan symrec text) f) :
    ∃ f', tree text = some f' ∧ Parses (scan symrec text) f' := by
  have hx : ∃ f, Parses (scan symrec text) f := ⟨f, h⟩
  exact ⟨hx.choose, by unfold tree; rw [dif_pos hx], hx.choose_spec⟩

/-- A file that is in the grammar, with values in their ranges, and asks for computed maps. -/
structure GoodFile (M : Machine) (l : List Item) (n : String) : Prop where
  read : ∃ t f, M.text n = some t ∧ Written l t ∧ Parses (scan symrec t) f
  valid : ∀ g, ValidFile M.E g (entries l)
  maps : ∀ es ∈ parts "MAP" (entries l), Computed es

theorem parseFile_total (hM : Working M) {l : List Item} {n : String} {s : Grammar.State}
    (hs : Reached M.E s) (h : GoodFile M l n) :
    ∃ s' cs, parseFile M n s = .ok (some (s', cs)) ∧ Reached M.E s' ∧ ∀ x ∈ cs, Succeeds M x := by
  obtain ⟨t, f, h1, h2, h3⟩ := h.read
  obtain ⟨f', h4, h5⟩ := tree_parses h3
  obtain ⟨s', gs, h6, h7, h8⟩ := Props.C92_commands h2 h5 hs (h.valid _)
  obtain ⟨xs, h9, h10⟩ := commands_total hM h8 h.maps (h.valid _).1
  refine ⟨s', xs, ?_, h7, h10⟩
  unfold parseFile
  simp only [h1, h4]
  have h6 : f'.run M.E s = .ok (some (s', gs)) := h6
  simp only [h6, h9, Outcome.bind_ok]

theorem parseFiles_total (hM : Working M) {items : String → List Item} :
    ∀ {ns : List String} {s : Grammar.State}, Reached M.E s → (∀ n ∈ ns, GoodFile M (items n) n) →
    ∃ s' cs, parseFiles M ns s = .ok (some (s', cs)) ∧ ∀ x ∈ cs, Succeeds M x
  | [], s, _, _ => ⟨s, [], rfl, by simp⟩
  | n :: ns, s, hs, h => by
    obtain ⟨s1, cs, h1, h2, h3⟩ := parseFile_total hM hs (h n (by simp))
    obtain ⟨s2, ds, h4, h5⟩ := parseFiles_total hM (ns := ns) h2
      fun m hm => h m (by simp [hm])
    refine ⟨s2, cs ++ ds, by simp only [parseFiles, h1, h4, Outcome.bind_ok], ?_⟩
    intro x hx
    rcases List.mem_append.1 hx with hx | hx
    · exact h3 x hx
    · exact h5 x hx

theorem main_total (hM : Working M) {config : String} {names : List String}
    {items : String → List Item} (w : World)
    (hc : M.text config = none → M.absent config = true)
    (h : ∀ n ∈ inputs M config names, GoodFile M (items n) n) :
    ∃ w', main M config (some names) w = .ok (w', 0) := by
  have files : ∀ {s : Grammar.State} {cs : List (Execute.Command Loc)}, Reached M.E s →
      (∀ x ∈ cs, Succeeds M x) → (∀ n ∈ names, GoodFile M (items n) n) →
      ∃ w', mainFiles M (some names) s cs w = .ok (w', 0) := by
    intro s cs hs hcs hn
    obtain ⟨s', ds, h1, h2⟩ := parseFiles_total hM hs hn
    unfold mainFiles
    simp only [h1]
    refine runCommands_total fun x hx => ?_
    rcases List.mem_append.1 hx with hx | hx
    · exact hcs x hx
    · exact h2 x hx
  unfold inputs at h
  unfold main
  cases ht : M.text config with
  | none =>
    rw [if_pos ht] at h
    have hp : parseFile M config .start = .ok none := by unfold parseFile; simp only [ht]
    simp only [hp]
    rw [if_pos ⟨trivial, hc ht⟩]
    exact files .start (by simp) fun n hn => h n (by simpa using hn)
  | some t =>
    rw [if_neg (by rw [ht]; simp)] at h
    obtain ⟨s, cs, h1, h2, h3⟩ := parseFile_total hM (s := .start) .start (h config (by simp))
    simp only [h1]
    exact files h2 h3 fun n hn => h n (by simp [hn])

end MaRC.Program
