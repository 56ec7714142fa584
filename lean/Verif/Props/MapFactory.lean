import Verif.Lemmas.MapFactory
import Verif.Spec.Map
import Verif.Props.Extrema

/-!
# C06, C07, C08, C09, C10: map creation and progress notification
-/

namespace MaRC.MapFactory

open Progress Dbl

variable {C : Type}

/-! ## Supporting facts -/

theorem fltMax_rep : Fp.rnd24 Fp.fltMax = Fp.fltMax := by
  unfold Fp.rnd24 Fp.fltMax
  apply Fp.rndP_of_rep (by norm_num)
  have := Fp.rep_mul (p := 24) (emin := -149) (by norm_num) (2 ^ 24 - 1) (e := 104)
    (by norm_num) (by norm_num)
  norm_num at this ⊢
  exact this

theorem fltMax_pos : (0 : ℚ) < Fp.fltMax := by
  unfold Fp.fltMax; norm_num

theorem toFloat_of_value {q : ℚ} (h1 : |q| ≤ Fp.fltMax) (h2 : Fp.rnd24 q = q) :
    MapType.toFloat (.fin q) = .fin q := by
  obtain ⟨h3, h4⟩ := abs_le.mp h1
  simp [MapType.toFloat, h2, not_lt.mpr h3, not_lt.mpr h4]

theorem isValue_lowLimit {T : MapType} {e : Extrema} (h : IsRange T e) :
    IsValue T (lowLimit T e) := by
  unfold lowLimit
  cases he : e.min with
  | some v => exact h.1 v he
  | none =>
    cases T <;> simp only [Option.getD_none, IsValue, MapType.lowest, MapType.intRange]
    · exact ⟨0, by norm_num⟩
    · exact ⟨-2 ^ 15, by norm_num⟩
    · exact ⟨-2 ^ 31, by norm_num⟩
    · exact ⟨-2 ^ 63, by norm_num⟩
    · refine ⟨_, rfl, ?_, ?_⟩
      · rw [abs_neg, abs_of_pos fltMax_pos]
      · unfold Fp.rnd24; rw [Fp.rndP_neg]; exact congrArg _ fltMax_rep
    · rfl

theorem isValue_highLimit {T : MapType} {e : Extrema} (h : IsRange T e) :
    IsValue T (highLimit T e) := by
  unfold highLimit
  cases he : e.max with
  | some v => exact h.2 v he
  | none =>
    cases T <;> simp only [Option.getD_none, IsValue, MapType.highest, MapType.intRange]
    · exact ⟨2 ^ 8 - 1, by norm_num⟩
    · exact ⟨2 ^ 15 - 1, by norm_num⟩
    · exact ⟨2 ^ 31 - 1, by norm_num⟩
    · exact ⟨2 ^ 63 - 1, by norm_num⟩
    · refine ⟨_, rfl, ?_, ?_⟩
      · rw [abs_of_pos fltMax_pos]
      · exact fltMax_rep
    · rfl

theorem toDouble_of_ne (T : MapType) (h : T ≠ .i64) (v : Dbl) : T.toDouble v = v := by
  cases T <;> first | rfl | exact absurd rfl h

theorem validateMinimum_value {T : MapType} {v : Dbl} (h : IsValue T v) :
    Extrema.validateMinimum T v = .ok v := by
  by_cases hT : T.isIntegral = true
  · obtain ⟨n, rfl, h1, h2⟩ : ∃ n : ℤ, v = .fin n ∧ T.intRange.1 ≤ n ∧ n ≤ T.intRange.2 := by
      cases T <;> first | exact h | simp [MapType.isIntegral] at hT
    obtain ⟨e1, e2⟩ := T.intRange_cast hT
    have h1' : T.lowest ≤ n := by rw [← e1]; exact_mod_cast h1
    have h2' : (n : ℚ) ≤ T.highest := by rw [← e2]; exact_mod_cast h2
    rw [Extrema.C05_minimum_integral T hT _ rfl, if_pos (by simp [lt]; linarith)]
    simp [Extrema.clipLow, not_lt.mpr h1', truncQ_int]
  · cases T <;> simp [MapType.isIntegral] at hT
    · obtain ⟨q, rfl, h1, h2⟩ := h
      have h3 := (abs_le.mp h1).1
      have : (Dbl.fin q).lt (.fin (-Fp.fltMax)) = false := by simp [lt, h3]
      simp only [Extrema.validateMinimum, isNaN, MapType.minimum, MapType.toDouble,
        MapType.lowest, this, MapType.cast]
      exact congrArg Outcome.ok (toFloat_of_value h1 h2)
    · have h' : v.isNaN = false := h
      simp [Extrema.validateMinimum, h', MapType.minimum]

theorem validateMaximum_value {T : MapType} (h64 : T ≠ .i64) {v : Dbl} (h : IsValue T v) :
    Extrema.validateMaximum T v = .ok v := by
  by_cases hT : T.isIntegral = true
  · obtain ⟨n, rfl, h1, h2⟩ : ∃ n : ℤ, v = .fin n ∧ T.intRange.1 ≤ n ∧ n ≤ T.intRange.2 := by
      cases T <;> first | exact h | simp [MapType.isIntegral] at hT
    obtain ⟨e1, e2⟩ := T.intRange_cast hT
    have h1' : T.lowest ≤ n := by rw [← e1]; exact_mod_cast h1
    have h2' : (n : ℚ) ≤ T.highest := by rw [← e2]; exact_mod_cast h2
    rw [Extrema.C05_maximum_integral T hT h64 _ rfl, if_pos (by simp [lt]; linarith)]
    simp [Extrema.clipHigh, not_lt.mpr h2', truncQ_int]
  · cases T <;> simp [MapType.isIntegral] at hT
    · obtain ⟨q, rfl, h1, h2⟩ := h
      have h3 := (abs_le.mp h1).2
      have : (Dbl.fin Fp.fltMax).lt (.fin q) = false := by simp [lt, h3]
      simp only [Extrema.validateMaximum, isNaN, MapType.maximum, MapType.toDouble,
        MapType.highest, this, MapType.cast]
      exact congrArg Outcome.ok (toFloat_of_value h1 h2)
    · have h' : v.isNaN = false := h
      simp [Extrema.validateMaximum, h', MapType.maximum]

theorem stores_iff {T : MapType} {read : ReadData C} {a b : Dbl} {c : C} {v : Dbl} :
    value T read ⟨some a, some b⟩ c = some v ↔
      Stores T (T.toDouble a) (T.toDouble b) read c v := by
  unfold value Stores
  constructor
  · intro h
    split at h
    · rename_i d hr
      split at h
      · rename_i hin
        rw [Extrema.C05_in_range] at hin
        split at h
        · rename_i w hw
          cases h
          exact ⟨d, hr, hin.1, hin.2, hw⟩
        · cases h
      · cases h
    · cases h
  · rintro ⟨d, hr, h1, h2, hc⟩
    have hin := (Extrema.C05_in_range T a b d).mpr ⟨h1, h2⟩
    simp [hr, hin, hc]

theorem cast_notNaN {T : MapType} {d v : Dbl} (h : T.cast d = .ok v) (hd : d.isNaN = false) :
    v.isNaN = false := by
  by_cases hT : T.isIntegral = true
  · cases d with
    | nan => simp [isNaN] at hd
    | ninf => rw [(T.cast_integral_inf hT).2.1] at h; cases h
    | pinf => rw [(T.cast_integral_inf hT).1] at h; cases h
    | fin q =>
      rw [T.cast_integral hT] at h
      split at h <;> cases h
      rfl
  · cases T <;> simp [MapType.isIntegral] at hT
    · simp only [MapType.cast, Outcome.ok.injEq] at h
      subst h
      cases d with
      | fin q =>
        simp only [MapType.toFloat]
        split
        · rfl
        · split <;> rfl
      | _ => simpa [MapType.toFloat] using hd
    · simp only [MapType.cast, Outcome.ok.injEq] at h
      subst h; exact hd

/-- Decomposition of a successful `make_map`. -/
theorem makeMap_ok {T : MapType} {plots : ℕ → ℕ → List (C × ℕ)} {read : ReadData C}
    {minmax : Extrema} {info info' : PlotInfo} {map : List Dbl}
    (h : makeMap T plots read minmax info = .ok (map, info')) :
    ∃ blank a b, blankValue T info.blank = .ok blank ∧
      getExtrema T minmax = .ok ⟨some a, some b⟩ ∧
      ∃ s, plotAll T read ⟨some a, some b⟩
          ⟨List.replicate (szMul info.samples info.lines) blank, info⟩
          (plots info.samples info.lines) = .ok s ∧
        map = s.map ∧ info'.extrema = s.info.extrema ∧ info'.samples = s.info.samples ∧
        info'.lines = s.info.lines ∧ info'.blank = s.info.blank ∧
        s.map.length ≠ 0 ∧
        info'.notifier = ⟨0, s.info.notifier.observers.map
          (· ++ [.notify s.map.length s.map.length, .reset])⟩ := by
  unfold makeMap at h
  cases hb : blankValue T info.blank with
  | throw e => simp [hb] at h
  | ub => simp [hb] at h
  | ok blank =>
    simp only [hb, Outcome.bind_ok] at h
    cases he : getExtrema T minmax with
    | throw e => simp [he] at h
    | ub => simp [he] at h
    | ok e =>
      obtain ⟨a, b, rfl, -, -⟩ := Extrema.C05_make_ordered T _ _ e he
      simp only [he, Outcome.bind_ok] at h
      cases hp : plotAll T read ⟨some a, some b⟩
          ⟨List.replicate (szMul info.samples info.lines) blank, info⟩
          (plots info.samples info.lines) with
      | throw e => simp [hp] at h
      | ub => simp [hp] at h
      | ok s =>
        simp only [hp, Outcome.bind_ok] at h
        unfold Notifier.notifyDone at h
        by_cases hz : s.map.length = 0
        · simp [hz] at h
        · simp only [hz, if_false, Outcome.bind_ok, Outcome.ok.injEq, Prod.mk.injEq] at h
          obtain ⟨rfl, rfl⟩ := h
          exact ⟨blank, a, b, rfl, rfl, s, hp, rfl, rfl, rfl, rfl, rfl, hz, rfl⟩

/-! ## C06 -/

/-- C06: the limits in force.  For every data type but 64-bit integers, and
limits that are values of the type, the limits used are the user's, or the
type's own where the user gave none; they are refused exactly when out of
order. -/
theorem C06_limits (T : MapType) (h64 : T ≠ .i64) (e : Extrema) (h : IsRange T e) :
    getExtrema T e =
      if (lowLimit T e).le (highLimit T e) then
        .ok ⟨some (lowLimit T e), some (highLimit T e)⟩
      else .throw .invalidArgument := by
  have h1 := validateMinimum_value (isValue_lowLimit h)
  have h2 := validateMaximum_value h64 (isValue_highLimit h)
  unfold getExtrema Extrema.make
  rw [toDouble_of_ne T h64, toDouble_of_ne T h64]
  show (Extrema.validateMinimum T (lowLimit T e) >>= _) = _
  rw [h1, Outcome.bind_ok]
  show (Extrema.validateMaximum T (highLimit T e) >>= _) = _
  rw [h2]
  rfl

/-- C06: the map has `samples * lines` cells; each holds the datum of the last
successful in-range plot at its offset, or the blank value when there is none.
`a` and `b` are the limits in force (see `C06_limits`). -/
theorem C06_cells (T : MapType) (plots : ℕ → ℕ → List (C × ℕ)) (read : ReadData C)
    (minmax : Extrema) (info info' : PlotInfo) (map : List Dbl)
    (h : makeMap T plots read minmax info = .ok (map, info')) :
    ∃ a b, getExtrema T minmax = .ok ⟨some a, some b⟩ ∧
      map.length = szMul info.samples info.lines ∧
      (∀ pre c o post v, plots info.samples info.lines = pre ++ (c, o) :: post →
        Stores T (T.toDouble a) (T.toDouble b) read c v →
        (∀ c', (c', o) ∈ post → ∀ v', ¬ Stores T (T.toDouble a) (T.toDouble b) read c' v') →
        map[o]? = some v) ∧
      (∀ o < map.length,
        (∀ c, (c, o) ∈ plots info.samples info.lines →
          ∀ v, ¬ Stores T (T.toDouble a) (T.toDouble b) read c v) →
        map[o]? = some (if T.isIntegral then .fin (info.blank.getD 0) else .nan)) := by
  obtain ⟨blank, a, b, hb, he, s, hp, rfl, -, -, -, -, -, -⟩ := makeMap_ok h
  obtain ⟨hmap, -, hoff, -⟩ := plotAll_ok _ hp
  have hlen : s.map.length = szMul info.samples info.lines := by
    rw [hmap, foldl_set_length]; simp
  simp only at hmap hoff
  refine ⟨a, b, he, hlen, ?_, ?_⟩
  · intro pre c o post v hpl hs hlast
    have hv := stores_iff.mpr hs
    have hst : stored T read ⟨some a, some b⟩ (plots info.samples info.lines) =
        stored T read ⟨some a, some b⟩ pre ++ (o, v) :: stored T read ⟨some a, some b⟩ post := by
      rw [hpl]
      simp [stored, List.filterMap_append, hv]
    rw [hst] at hmap hoff
    rw [hmap]
    apply foldl_set_last
    · exact hoff (o, v) (by simp)
    · intro p hp' hpo
      obtain ⟨⟨c', o'⟩, hc', hv'⟩ := List.mem_filterMap.mp hp'
      obtain ⟨w, hw, rfl⟩ := Option.map_eq_some_iff.mp hv'
      simp only at hpo hw
      subst hpo
      exact hlast c' hc' w (stores_iff.mp hw)
  · intro o ho hno
    rw [hmap, foldl_set_other]
    · rw [hlen] at ho
      simp only [List.getElem?_replicate, ho, if_true]
      congr 1
      unfold blankValue at hb
      cases hi : T.isIntegral <;> cases hbl : info.blank <;>
        simp [hi, hbl, MapType.emptyValue] at hb ⊢
      · exact hb.symm
      · exact hb.symm
      · exact hb.symm
      · split at hb
        · cases hb
        · cases hb; rfl
    · intro p hp' hpo
      obtain ⟨⟨c', o'⟩, hc', hv'⟩ := List.mem_filterMap.mp hp'
      obtain ⟨w, hw, rfl⟩ := Option.map_eq_some_iff.mp hv'
      simp only at hpo hw
      subst hpo
      exact hno c' hc' w (stores_iff.mp hw)

/-- C06 for projections that visit no offset twice, with the limits written
out: a visited cell holds its datum when there is one in range, every other
cell is blank. -/
theorem C06_cells_each_visited_once (T : MapType) (h64 : T ≠ .i64)
    (plots : ℕ → ℕ → List (C × ℕ)) (read : ReadData C)
    (minmax : Extrema) (hr : IsRange T minmax) (info info' : PlotInfo) (map : List Dbl)
    (hnodup : ((plots info.samples info.lines).map Prod.snd).Nodup)
    (h : makeMap T plots read minmax info = .ok (map, info')) :
    (∀ c o v, (c, o) ∈ plots info.samples info.lines →
      Stores T (lowLimit T minmax) (highLimit T minmax) read c v → map[o]? = some v) ∧
    (∀ o < map.length,
      (∀ c, (c, o) ∈ plots info.samples info.lines →
        ∀ v, ¬ Stores T (lowLimit T minmax) (highLimit T minmax) read c v) →
      map[o]? = some (if T.isIntegral then .fin (info.blank.getD 0) else .nan)) := by
  obtain ⟨a, b, he, -, h1, h2⟩ := C06_cells T plots read minmax info info' map h
  rw [C06_limits T h64 minmax hr] at he
  split at he
  · simp only [Outcome.ok.injEq, Extrema.mk.injEq, Option.some.injEq] at he
    obtain ⟨rfl, rfl⟩ := he
    simp only [toDouble_of_ne T h64] at h1 h2
    refine ⟨fun c o v hc hs => ?_, h2⟩
    obtain ⟨pre, post, hpl⟩ := List.append_of_mem hc
    refine h1 pre c o post v hpl hs (fun c' hc' => ?_)
    rw [hpl, List.map_append, List.nodup_append] at hnodup
    have := hnodup.2.1
    rw [List.map_cons, List.nodup_cons] at this
    exact absurd (List.mem_map.mpr ⟨(c', o), hc', rfl⟩) this.1
  · cases he

/-- The user's `double` limits, converted to the map's type, are values of it
(for `float` maps, provided they do not lie beyond the opposite end of the
type's range). -/
theorem C06_converted_limits (T : MapType) (h64 : T ≠ .i64) (e mm : Extrema)
    (h32 : T = .f32 → (∀ m, e.min = some m → m.le (.fin Fp.fltMax) = true) ∧
      (∀ m, e.max = some m → (Dbl.fin (-Fp.fltMax)).le m = true))
    (h : e.convert T = .ok mm) : IsRange T mm := by
  obtain ⟨emin, emax⟩ := e
  have key : (∀ m a, emin = some m → Extrema.validateMinimum T m = .ok a → IsValue T a) ∧
      (∀ m a, emax = some m → Extrema.validateMaximum T m = .ok a → IsValue T a) := by
    have hint : ∀ (hT : T.isIntegral = true) (v : Dbl),
        (∃ n : ℤ, v = .fin n ∧ T.intRange.1 ≤ n ∧ n ≤ T.intRange.2) → IsValue T v := by
      intro hT v hv
      cases T <;> first | exact hv | simp [MapType.isIntegral] at hT
    have hflt : ∀ q : ℚ, |q| ≤ Fp.fltMax → IsValue .f32 (MapType.toFloat (.fin q)) := by
      intro q hq
      obtain ⟨h1, h2⟩ := abs_le.mp hq
      have hrep : Fp.Rep 24 (-149) Fp.fltMax := by
        have := Fp.rep_rndP (p := 24) (emin := -149) (by norm_num) Fp.fltMax
        rwa [show Fp.rndP 24 (-149) Fp.fltMax = Fp.fltMax from fltMax_rep] at this
      have u1 : Fp.rnd24 q ≤ Fp.fltMax := Fp.rndP_le (by norm_num) hrep h2
      have u2 : -Fp.fltMax ≤ Fp.rnd24 q := Fp.le_rndP (by norm_num) (Fp.rep_neg hrep) h1
      have u3 : Fp.rnd24 (Fp.rnd24 q) = Fp.rnd24 q :=
        Fp.rndP_of_rep (by norm_num) (Fp.rep_rndP (by norm_num) q)
      refine ⟨Fp.rnd24 q, ?_, abs_le.mpr ⟨u2, u1⟩, u3⟩
      simp [MapType.toFloat, not_lt.mpr u1, not_lt.mpr u2]
    constructor
    · intro m a hm ha
      have hnan : m.isNaN = false := by
        cases hn : m.isNaN
        · rfl
        · simp [Extrema.validateMinimum, hn] at ha
      by_cases hT : T.isIntegral = true
      · rw [Extrema.C05_minimum_integral T hT m hnan] at ha
        split at ha
        · rename_i hlt
          cases ha
          apply hint hT
          exact (Extrema.C05_clip_in_type T hT m (.fin 0) hnan rfl hlt (by
            have := T.lowest_le_zero hT; simp [lt]; linarith)).1
        · cases ha
      · cases T <;> simp [MapType.isIntegral] at hT
        · have hle := (h32 rfl).1 m hm
          simp only [Extrema.validateMinimum, hnan, MapType.minimum, MapType.toDouble,
            MapType.lowest, MapType.cast, Bool.false_eq_true, if_false, Outcome.ok.injEq] at ha
          subst ha
          cases m with
          | nan => simp [isNaN] at hnan
          | pinf => simp [le] at hle
          | ninf =>
            simp only [lt, if_true]
            exact hflt _ (by rw [abs_neg, abs_of_pos fltMax_pos])
          | fin q =>
            have hq : q ≤ Fp.fltMax := by simpa using hle
            by_cases hl : q < -Fp.fltMax
            · simp only [lt, hl, decide_true, if_true]
              exact hflt _ (by rw [abs_neg, abs_of_pos fltMax_pos])
            · simp only [lt, hl, decide_false, Bool.false_eq_true, if_false]
              exact hflt _ (abs_le.mpr ⟨by linarith, hq⟩)
        · simp [Extrema.validateMinimum, hnan, MapType.minimum] at ha
          subst ha; exact hnan
    · intro m a hm ha
      have hnan : m.isNaN = false := by
        cases hn : m.isNaN
        · rfl
        · simp [Extrema.validateMaximum, hn] at ha
      by_cases hT : T.isIntegral = true
      · rw [Extrema.C05_maximum_integral T hT h64 m hnan] at ha
        split at ha
        · rename_i hlt
          cases ha
          apply hint hT
          exact (Extrema.C05_clip_in_type T hT (.fin 0) m rfl hnan (by
            have := T.highest_pos hT; simp [lt]; linarith) hlt).2
        · cases ha
      · cases T <;> simp [MapType.isIntegral] at hT
        · have hle := (h32 rfl).2 m hm
          simp only [Extrema.validateMaximum, hnan, MapType.maximum, MapType.toDouble,
            MapType.highest, MapType.cast, Bool.false_eq_true, if_false, Outcome.ok.injEq] at ha
          subst ha
          cases m with
          | nan => simp [isNaN] at hnan
          | ninf => simp [le] at hle
          | pinf =>
            simp only [lt, if_true]
            exact hflt _ (by rw [abs_of_pos fltMax_pos])
          | fin q =>
            have hq : -Fp.fltMax ≤ q := by simpa using hle
            by_cases hl : Fp.fltMax < q
            · simp only [lt, hl, decide_true, if_true]
              exact hflt _ (by rw [abs_of_pos fltMax_pos])
            · simp only [lt, hl, decide_false, Bool.false_eq_true, if_false]
              exact hflt _ (abs_le.mpr ⟨hq, by linarith⟩)
        · simp [Extrema.validateMaximum, hnan, MapType.maximum] at ha
          subst ha; exact hnan
  unfold Extrema.convert at h
  cases emin with
  | none =>
    cases emax with
    | none =>
      simp at h; subst h
      exact ⟨by simp, by simp⟩
    | some M =>
      cases hM : Extrema.validateMaximum T M <;> simp [hM] at h
      subst h
      refine ⟨by simp, fun v hv => ?_⟩
      simp at hv; subst hv
      exact key.2 M _ rfl hM
  | some m =>
    cases hm : Extrema.validateMinimum T m <;> simp [hm] at h
    cases emax with
    | none =>
      simp at h; subst h
      refine ⟨fun v hv => ?_, by simp⟩
      simp at hv; subst hv
      exact key.1 m _ rfl hm
    | some M =>
      cases hM : Extrema.validateMaximum T M <;> simp [hM] at h
      subst h
      refine ⟨fun v hv => ?_, fun v hv => ?_⟩
      · simp at hv; subst hv
        exact key.1 m _ rfl hm
      · simp at hv; subst hv
        exact key.2 M _ rfl hM

/-- A datum between limits that are values of the type can be stored in it. -/
theorem cast_in_limits {T : MapType} {a b d : Dbl} (ha : IsValue T a) (hb : IsValue T b)
    (h1 : a.le d = true) (h2 : d.le b = true) : ∃ v, T.cast d = .ok v := by
  by_cases hT : T.isIntegral = true
  · obtain ⟨n, rfl, hn1, -⟩ : ∃ n : ℤ, a = .fin n ∧ T.intRange.1 ≤ n ∧ n ≤ T.intRange.2 := by
      cases T <;> first | exact ha | simp [MapType.isIntegral] at hT
    obtain ⟨m, rfl, -, hm2⟩ : ∃ n : ℤ, b = .fin n ∧ T.intRange.1 ≤ n ∧ n ≤ T.intRange.2 := by
      cases T <;> first | exact hb | simp [MapType.isIntegral] at hT
    obtain ⟨q, rfl, hq1, hq2⟩ := fin_of_between h1 h2
    obtain ⟨e1, e2⟩ := T.intRange_cast hT
    have h1' : T.lowest ≤ n := by rw [← e1]; exact_mod_cast hn1
    have h2' : (m : ℚ) ≤ T.highest := by rw [← e2]; exact_mod_cast hm2
    exact ⟨_, by rw [T.cast_integral hT, if_pos ⟨by linarith, by linarith⟩]⟩
  · cases T <;> simp [MapType.isIntegral] at hT
    · exact ⟨_, rfl⟩
    · exact ⟨_, rfl⟩

theorem plotAll_total {T : MapType} {read : ReadData C} {a b : Dbl}
    (hread : ∀ c, ∃ r, read c (.fin 0) = .ok r)
    (hcast : ∀ d, (T.toDouble a).le d = true → d.le (T.toDouble b) = true → ∃ v, T.cast d = .ok v) :
    ∀ (plots : List (C × ℕ)) (s : State), (∀ p ∈ plots, p.2 < s.map.length) →
      s.info.notifier.count + plots.length ≤ s.map.length →
      ∃ s', plotAll T read ⟨some a, some b⟩ s plots = .ok s' := by
  intro plots
  induction plots with
  | nil => intro s _ _; exact ⟨s, rfl⟩
  | cons p rest ih =>
    obtain ⟨c, o⟩ := p
    intro s hoff hcnt
    simp only [List.length_cons] at hcnt
    have ho : o < s.map.length := hoff (c, o) (by simp)
    have hnot : s.info.notifier.notifyPlotted s.map.length =
        .ok ⟨s.info.notifier.count + 1, s.info.notifier.observers.map
          (· ++ [.notify s.map.length (s.info.notifier.count + 1)])⟩ := by
      unfold Notifier.notifyPlotted
      rw [if_neg (by omega), if_neg (by omega)]
    have hplot : ∃ s1, plot T read ⟨some a, some b⟩ s c o = .ok s1 ∧
        s1.map.length = s.map.length ∧ s1.info.notifier.count = s.info.notifier.count + 1 := by
      obtain ⟨⟨found, d⟩, hr⟩ := hread c
      unfold plot
      rw [hr]
      simp only [Outcome.bind_ok]
      by_cases hf : (found && Extrema.inRange T ⟨some a, some b⟩ d) = true
      · have hin := ((Extrema.C05_in_range T a b d).mp (by simp at hf; exact hf.2))
        obtain ⟨v, hv⟩ := hcast d hin.1 hin.2
        simp only [hf, if_true, hv, Outcome.bind_ok, ho, PlotInfo.updateExtrema,
          List.length_set, hnot]
        exact ⟨_, rfl, by simp, rfl⟩
      · simp only [hf, Outcome.bind_ok, hnot]
        exact ⟨_, rfl, rfl, rfl⟩
    obtain ⟨s1, hs1, hl, hc⟩ := hplot
    obtain ⟨s', hs'⟩ := ih s1 (fun p hp => by rw [hl]; exact hoff p (by simp [hp]))
      (by rw [hl, hc]; omega)
    exact ⟨s', by simp only [plotAll, hs1, Outcome.bind_ok, hs']⟩

/-- C06: map creation cannot fail or run into undefined behaviour when the
reads are total, the limits are in order, the blank value fits, and the
projection stays within the map and visits at most `samples * lines` cells. -/
theorem C06_no_failure (T : MapType) (h64 : T ≠ .i64)
    (plots : ℕ → ℕ → List (C × ℕ)) (read : ReadData C)
    (hread : ∀ c, ∃ r, read c (.fin 0) = .ok r)
    (minmax : Extrema) (hr : IsRange T minmax)
    (hord : (lowLimit T minmax).le (highLimit T minmax) = true)
    (info : PlotInfo) (hc : info.notifier.count = 0)
    (hpos : 0 < szMul info.samples info.lines)
    (hoff : ∀ p ∈ plots info.samples info.lines, p.2 < szMul info.samples info.lines)
    (hlen : (plots info.samples info.lines).length ≤ szMul info.samples info.lines)
    (hblank : ∀ b, T.isIntegral = true → info.blank = some b →
      T.intRange.1 ≤ b ∧ b ≤ T.intRange.2) :
    ∃ r, makeMap T plots read minmax info = .ok r := by
  have hb : ∃ bl, blankValue T info.blank = .ok bl := by
    unfold blankValue
    cases hi : T.isIntegral <;> cases hbl : info.blank <;> simp
    have := hblank _ hi hbl
    rw [if_neg (by omega)]
    exact ⟨_, rfl⟩
  obtain ⟨bl, hbl⟩ := hb
  obtain ⟨s, hs⟩ := plotAll_total (T := T) (read := read) (a := lowLimit T minmax)
    (b := highLimit T minmax) hread
    (fun d h1 h2 => by
      rw [toDouble_of_ne T h64] at h1 h2
      exact cast_in_limits (isValue_lowLimit hr) (isValue_highLimit hr) h1 h2)
    (plots info.samples info.lines)
    ⟨List.replicate (szMul info.samples info.lines) bl, info⟩
    (by simpa using hoff) (by simp [hc, hlen])
  have hl : s.map.length = szMul info.samples info.lines := by
    rw [(plotAll_ok _ hs).1, foldl_set_length]; simp
  unfold makeMap
  simp only [hbl, Outcome.bind_ok, C06_limits T h64 minmax hr, hord, if_true, hs,
    Notifier.notifyDone]
  rw [if_neg (by omega)]
  exact ⟨_, rfl⟩

/-- For 64-bit integer maps C06 fails: without a user supplied maximum the
limits cannot be computed without undefined behaviour, so no map is ever made,
whatever the projection and image. -/
theorem C06_i64_violated (plots : ℕ → ℕ → List (C × ℕ)) (read : ReadData C)
    (minmax : Extrema) (hmin : minmax.min = none) (hmax : minmax.max = none)
    (info : PlotInfo) (hb : info.blank = none) :
    makeMap .i64 plots read minmax info = .ub := by
  have hge : getExtrema .i64 minmax = .ub := by
    unfold getExtrema Extrema.make
    rw [hmin, hmax]
    simp only [Option.getD_none]
    rw [MapType.toDouble_highest_i64, MapType.toDouble_lowest]
    have h1 := validateMinimum_value (T := .i64) (v := .fin MapType.i64.lowest)
      ⟨-2 ^ 63, by norm_num [MapType.lowest, MapType.intRange]⟩
    have h2 := Extrema.C05_maximum_i64_violated (.fin (2 ^ 63)) (by simp)
    rw [h1, Outcome.bind_ok, h2, Outcome.bind_ub]
  unfold makeMap
  rw [hb, hge]
  rfl

/-- Example for C06: a 2×1 8-bit map whose second cell has no datum. -/
example : makeMap (C := ℕ) .u8 (fun _ _ => [(0, 0), (1, 1)])
    (fun c _ => .ok (decide (c = 0), .fin 7)) ⟨some (.fin 1), some (.fin 9)⟩
    ⟨2, 1, .empty, some 200, ⟨0, [[]]⟩⟩ =
    .ok ([.fin 7, .fin 200],
      ⟨2, 1, ⟨some (.fin 7), some (.fin 7)⟩, some 200,
        ⟨0, [[.notify 2 1, .notify 2 2, .notify 2 2, .reset]]⟩⟩) := by
  decide +kernel

/-! ## C07 -/

/-- The limits in force for a plane, from the factory's `double` limits. -/
def PlaneLimits (T : MapType) (minmax : Extrema) (lo hi : Dbl) : Prop :=
  ∃ mm a b, minmax.convert T = .ok mm ∧ getExtrema T mm = .ok ⟨some a, some b⟩ ∧
    lo = T.toDouble a ∧ hi = T.toDouble b

/-- `v` is a datum stored in some plane. -/
def StoredIn (T : MapType) (cells : List (C × ℕ)) (planes : List (Plane C)) (v : Dbl) : Prop :=
  ∃ p ∈ planes, ∃ lo hi, PlaneLimits T p.minmax lo hi ∧
    ∃ c o, (c, o) ∈ cells ∧ Stores T lo hi p.read c v

theorem makePlanes_tracks {T : MapType} {plots : ℕ → ℕ → List (C × ℕ)} :
    ∀ (planes : List (Plane C)) (info info' : PlotInfo) (maps : List (List Dbl))
      (seen : List Dbl), (∀ d ∈ seen, d.isNaN = false) → Extrema.Tracks info.extrema seen →
    makePlanes T plots info planes = .ok (maps, info') →
    ∃ more, (∀ d ∈ more, d.isNaN = false) ∧
      (∀ v, v ∈ more ↔ StoredIn T (plots info.samples info.lines) planes v) ∧
      Extrema.Tracks info'.extrema (seen ++ more) := by
  intro planes
  induction planes with
  | nil =>
    intro info info' maps seen _ ht h
    simp only [makePlanes, Outcome.ok.injEq, Prod.mk.injEq] at h
    obtain ⟨-, rfl⟩ := h
    exact ⟨[], by simp, by simp [StoredIn], by simpa using ht⟩
  | cons p ps ih =>
    intro info info' maps seen hseen ht h
    simp only [makePlanes, makePlane] at h
    cases hcv : p.minmax.convert T with
    | throw e => simp [hcv] at h
    | ub => simp [hcv] at h
    | ok mm =>
      simp only [hcv, Outcome.bind_ok] at h
      cases hmk : makeMap T plots p.read mm info with
      | throw e => simp [hmk] at h
      | ub => simp [hmk] at h
      | ok r =>
        obtain ⟨m, info1⟩ := r
        simp only [hmk, Outcome.bind_ok] at h
        cases hrest : makePlanes T plots info1 ps with
        | throw e => simp [hrest] at h
        | ub => simp [hrest] at h
        | ok r2 =>
          obtain ⟨ms, info2⟩ := r2
          simp only [hrest, Outcome.bind_ok, Outcome.ok.injEq, Prod.mk.injEq] at h
          obtain ⟨-, rfl⟩ := h
          obtain ⟨blank, a, b, hb, he, s, hp, -, hext, hsam, hlin, -⟩ := makeMap_ok hmk
          obtain ⟨-, hext', -, -, -, hsam', hlin', -⟩ := plotAll_ok _ hp
          simp only at hext' hsam' hlin'
          set vs := (stored T p.read ⟨some a, some b⟩
            (plots info.samples info.lines)).map Prod.snd with hvs
          have hmem : ∀ v, v ∈ vs ↔ ∃ c o, (c, o) ∈ plots info.samples info.lines ∧
              Stores T (T.toDouble a) (T.toDouble b) p.read c v := by
            intro v
            rw [hvs]
            simp only [stored, List.mem_map, List.mem_filterMap]
            constructor
            · rintro ⟨⟨o, w⟩, ⟨⟨c, o'⟩, hc, hv⟩, rfl⟩
              obtain ⟨u, hu, heq⟩ := Option.map_eq_some_iff.mp hv
              cases heq
              exact ⟨c, _, hc, stores_iff.mp hu⟩
            · rintro ⟨c, o, hc, hs⟩
              exact ⟨(o, v), ⟨(c, o), hc, by simp [stores_iff.mpr hs]⟩, rfl⟩
          have hvsn : ∀ d ∈ vs, d.isNaN = false := by
            intro d hd
            obtain ⟨c, o, -, d', -, hd1, -, hcast⟩ := (hmem d).mp hd
            exact cast_notNaN hcast (notNaN_of_le_right hd1)
          have ht1 : Extrema.Tracks info1.extrema (seen ++ vs) := by
            rw [hext, hext']
            exact Extrema.tracks_foldl vs seen _ hseen hvsn ht
          obtain ⟨more, hm1, hm2, hm3⟩ := ih info1 info2 ms (seen ++ vs)
            (by intro d hd
                rcases List.mem_append.mp hd with hd | hd
                · exact hseen d hd
                · exact hvsn d hd) ht1 hrest
          have hdim : plots info1.samples info1.lines = plots info.samples info.lines := by
            rw [hsam, hlin, hsam', hlin']
          refine ⟨vs ++ more, ?_, ?_, ?_⟩
          · intro d hd
            rcases List.mem_append.mp hd with hd | hd
            · exact hvsn d hd
            · exact hm1 d hd
          · intro v
            rw [List.mem_append, hmem, hm2, hdim]
            constructor
            · rintro (⟨c, o, hc, hs⟩ | ⟨p', hp', rest⟩)
              · exact ⟨p, by simp, _, _, ⟨mm, a, b, hcv, he, rfl, rfl⟩, c, o, hc, hs⟩
              · exact ⟨p', by simp [hp'], rest⟩
            · rintro ⟨p', hp', lo, hi, hlim, c, o, hc, hs⟩
              rcases List.mem_cons.mp hp' with rfl | hp'
              · left
                obtain ⟨mm', a', b', h1, h2, rfl, rfl⟩ := hlim
                rw [hcv] at h1
                cases h1
                rw [he] at h2
                cases h2
                exact ⟨c, o, hc, hs⟩
              · right
                exact ⟨p', hp', lo, hi, hlim, c, o, hc, hs⟩
          · rw [← List.append_assoc]; exact hm3

/-- C07: after all planes were made, the extrema that become DATAMIN and
DATAMAX are exactly the least and greatest datum stored in any plane, and they
are absent (and "no data mapped" reported) exactly when none was stored. -/
theorem C07_extrema_over_planes (T : MapType) (plots : ℕ → ℕ → List (C × ℕ))
    (samples lines : ℕ) (blank : Option ℤ) (obs : List (List Event))
    (planes : List (Plane C)) (maps : List (List Dbl)) (info' : PlotInfo)
    (h : makePlanes T plots ⟨samples, lines, .empty, blank, ⟨0, obs⟩⟩ planes =
      .ok (maps, info')) :
    ((∃ v, StoredIn T (plots samples lines) planes v) →
      ∃ m M, info'.extrema = ⟨some m, some M⟩ ∧
        StoredIn T (plots samples lines) planes m ∧
        StoredIn T (plots samples lines) planes M ∧
        ∀ v, StoredIn T (plots samples lines) planes v → m.le v = true ∧ v.le M = true) ∧
    ((¬ ∃ v, StoredIn T (plots samples lines) planes v) → info'.extrema = ⟨none, none⟩) ∧
    (info'.dataMapped = true ↔ ∃ v, StoredIn T (plots samples lines) planes v) := by
  obtain ⟨more, -, hm2, hm3⟩ := makePlanes_tracks planes _ _ _ [] (by simp)
    (Or.inl ⟨rfl, rfl⟩) h
  rw [List.nil_append] at hm3
  simp only at hm2
  rcases hm3 with ⟨h1, h2⟩ | ⟨m, M, he, ⟨hm, hm'⟩, ⟨hM, hM'⟩⟩
  · have hno : ¬ ∃ v, StoredIn T (plots samples lines) planes v := by
      rintro ⟨v, hv⟩
      rw [← hm2, h1] at hv
      simp at hv
    refine ⟨fun hx => absurd hx hno, fun _ => h2, ?_⟩
    constructor
    · intro hx
      rw [PlotInfo.dataMapped, h2] at hx
      cases hx
    · intro hx; exact absurd hx hno
  · have hyes : ∃ v, StoredIn T (plots samples lines) planes v := ⟨m, (hm2 m).mp hm⟩
    refine ⟨fun _ => ⟨m, M, he, (hm2 m).mp hm, (hm2 M).mp hM, fun v hv => ?_⟩,
      fun hx => absurd hyes hx, fun _ => hyes, fun _ => ?_⟩
    · rw [← hm2] at hv
      exact ⟨hm' v hv, hM' v hv⟩
    · rw [PlotInfo.dataMapped, he]
      exact hM' m hm

/-- Example for C07: two planes of a `double` map. -/
example : ∃ maps info', makePlanes (C := ℕ) .f64 (fun _ _ => [(0, 0), (1, 1)])
    ⟨2, 1, .empty, none, ⟨0, []⟩⟩
    [⟨fun c _ => .ok (true, .fin c), .empty⟩, ⟨fun c _ => .ok (decide (c = 1), .fin (-5)), .empty⟩]
      = .ok (maps, info') ∧ info'.extrema = ⟨some (.fin (-5)), some (.fin 1)⟩ :=
  ⟨[[.fin 0, .fin 1], [.nan, .fin (-5)]],
    ⟨2, 1, ⟨some (.fin (-5)), some (.fin 1)⟩, none, ⟨0, []⟩⟩, by decide +kernel, rfl⟩

/-! ## C08 -/

/-- C08: a user supplied blank value outside an integral type's range makes map
creation throw, whatever the projection, image and limits. -/
theorem C08_blank_must_fit (T : MapType) (hT : T.isIntegral = true)
    (plots : ℕ → ℕ → List (C × ℕ)) (read : ReadData C) (minmax : Extrema) (info : PlotInfo)
    (b : ℤ) (hb : info.blank = some b) (hout : b < T.intRange.1 ∨ T.intRange.2 < b) :
    makeMap T plots read minmax info = .throw .invalidArgument := by
  unfold makeMap blankValue
  rw [hT, hb]
  simp [hout]

/-- C08: a map in which nothing is plotted is uniformly blank: the user's value
for an integral type that was given one, 0 without one, NaN for floating
types. -/
theorem C08_unplotted_blank (T : MapType) (plots : ℕ → ℕ → List (C × ℕ)) (read : ReadData C)
    (minmax : Extrema) (info info' : PlotInfo) (map : List Dbl)
    (h : makeMap T plots read minmax info = .ok (map, info')) (o : ℕ) (ho : o < map.length)
    (hno : ∀ c, (c, o) ∉ plots info.samples info.lines) :
    (T.isIntegral = true → ∀ b, info.blank = some b →
      map[o]? = some (.fin b) ∧ T.intRange.1 ≤ b ∧ b ≤ T.intRange.2) ∧
    (T.isIntegral = true → info.blank = none → map[o]? = some (.fin 0)) ∧
    (T.isIntegral = false → map[o]? = some .nan) := by
  obtain ⟨a, b, -, -, -, h2⟩ := C06_cells T plots read minmax info info' map h
  have := h2 o ho (fun c hc => absurd hc (hno c))
  refine ⟨fun hT b hb => ⟨by simpa [hT, hb] using this, ?_⟩, fun hT hb => by simpa [hT, hb] using this,
    fun hT => by simpa [hT] using this⟩
  obtain ⟨bl, -, -, hbv, -⟩ := makeMap_ok h
  unfold blankValue at hbv
  rw [hT, hb] at hbv
  simp only at hbv
  split at hbv
  · cases hbv
  · rename_i hn; omega

example : makeMap (C := ℕ) .i16 (fun _ _ => []) (fun _ _ => .ub) .empty
    ⟨2, 1, .empty, some 40000, ⟨0, []⟩⟩ = .throw .invalidArgument :=
  C08_blank_must_fit .i16 rfl _ _ _ _ 40000 rfl (by decide)

/-! ## C09 -/

/-- C09: while one map is made, every observer receives the counts 1, 2, …, up
to the number of visited cells, then one notification equal to the map size
and a reset; the counter is back at zero. -/
theorem C09_one_map (T : MapType) (plots : ℕ → ℕ → List (C × ℕ)) (read : ReadData C)
    (minmax : Extrema) (info info' : PlotInfo) (map : List Dbl)
    (hc : info.notifier.count = 0)
    (h : makeMap T plots read minmax info = .ok (map, info')) :
    info'.notifier.count = 0 ∧
    info'.notifier.observers = info.notifier.observers.map
      (· ++ mapEvents map.length (plots info.samples info.lines).length) ∧
    (plots info.samples info.lines).length ≤ map.length := by
  obtain ⟨blank, a, b, -, -, s, hp, rfl, -, -, -, -, hne, hn⟩ := makeMap_ok h
  obtain ⟨hmap, -, -, hnot, hcnt, -⟩ := plotAll_ok _ hp
  have hlen : s.map.length = szMul info.samples info.lines := by
    rw [hmap, foldl_set_length]; simp
  refine ⟨by rw [hn], ?_, ?_⟩
  · rw [hn, hnot]
    simp only [List.map_map, hc]
    apply List.map_congr_left
    intro l _
    simp [mapEvents, events, hlen, List.append_assoc]
  · by_cases hpl : plots info.samples info.lines = []
    · simp [hpl]
    · have := hcnt hpl
      simp only [hc, List.length_replicate] at this
      omega

/-- C09: over any number of planes the observers see one such sequence per
plane. -/
theorem C09_planes (T : MapType) (plots : ℕ → ℕ → List (C × ℕ)) :
    ∀ (planes : List (Plane C)) (info info' : PlotInfo) (maps : List (List Dbl)),
    info.notifier.count = 0 → makePlanes T plots info planes = .ok (maps, info') →
    info'.notifier.count = 0 ∧
    info'.notifier.observers = info.notifier.observers.map
      (· ++ (List.replicate planes.length
        (mapEvents (szMul info.samples info.lines)
          (plots info.samples info.lines).length)).flatten) := by
  intro planes
  induction planes with
  | nil =>
    intro info info' maps hc h
    simp only [makePlanes, Outcome.ok.injEq, Prod.mk.injEq] at h
    obtain ⟨-, rfl⟩ := h
    simp [hc]
  | cons p ps ih =>
    intro info info' maps hc h
    simp only [makePlanes, makePlane] at h
    cases hcv : p.minmax.convert T with
    | throw e => simp [hcv] at h
    | ub => simp [hcv] at h
    | ok mm =>
      simp only [hcv, Outcome.bind_ok] at h
      cases hmk : makeMap T plots p.read mm info with
      | throw e => simp [hmk] at h
      | ub => simp [hmk] at h
      | ok r =>
        obtain ⟨m, info1⟩ := r
        simp only [hmk, Outcome.bind_ok] at h
        cases hrest : makePlanes T plots info1 ps with
        | throw e => simp [hrest] at h
        | ub => simp [hrest] at h
        | ok r2 =>
          obtain ⟨ms, info2⟩ := r2
          simp only [hrest, Outcome.bind_ok, Outcome.ok.injEq, Prod.mk.injEq] at h
          obtain ⟨-, rfl⟩ := h
          obtain ⟨h1, h2, -⟩ := C09_one_map T plots p.read mm info info1 m hc hmk
          obtain ⟨-, -, -, hl, -⟩ := C06_cells T plots p.read mm info info1 m hmk
          obtain ⟨_, _, _, _, _, s, hp, -, -, hsam, hlin, -⟩ := makeMap_ok hmk
          obtain ⟨-, -, -, -, -, hsam', hlin', -⟩ := plotAll_ok _ hp
          obtain ⟨h3, h4⟩ := ih info1 info2 ms h1 hrest
          refine ⟨h3, ?_⟩
          rw [h4, h2, hsam, hlin, hsam', hlin', hl, List.map_map]
          apply List.map_congr_left
          intro l _
          simp [List.replicate_succ, List.append_assoc]

theorem subscribe_observers (obs : List (List Event)) :
    ∀ n : Notifier, (obs.foldl Notifier.subscribe n).observers = n.observers ++ obs ∧
      (obs.foldl Notifier.subscribe n).count = n.count := by
  induction obs with
  | nil => intro n; simp
  | cons o os ih =>
    intro n
    obtain ⟨h1, h2⟩ := ih (n.subscribe o)
    rw [List.foldl_cons, h1, h2]
    simp [Notifier.subscribe]

/-- C09: every one of any number of observers subscribed to a new notifier
receives one such sequence per plane, and nothing else. -/
theorem C09_subscribed (T : MapType) (plots : ℕ → ℕ → List (C × ℕ)) (planes : List (Plane C))
    (info info' : PlotInfo) (maps : List (List Dbl)) (n : ℕ)
    (hs : info.notifier = (List.replicate n []).foldl Notifier.subscribe Notifier.new)
    (h : makePlanes T plots info planes = .ok (maps, info')) :
    info'.notifier.observers = List.replicate n
      (List.replicate planes.length (mapEvents (szMul info.samples info.lines)
        (plots info.samples info.lines).length)).flatten := by
  obtain ⟨h1, h2⟩ := subscribe_observers (List.replicate n []) Notifier.new
  obtain ⟨-, h3⟩ := C09_planes T plots planes info info' maps (by rw [hs, h2]; rfl) h
  rw [h3, hs, h1]
  simp [Notifier.new]

example : mapEvents 4 2 = [.notify 4 1, .notify 4 2, .notify 4 4, .reset] := by decide

/-! ## C10 -/

theorem counts_mapEvents (size m : ℕ) :
    counts (mapEvents size m) = (List.range m).map (· + 1) ++ [size] := by
  unfold counts mapEvents
  rw [List.filterMap_append, List.filterMap_map]
  congr 1
  rw [← List.filterMap_eq_map]
  rfl

/-- C10, the part that holds: when some cell of the map is not visited the
counts an observer sees for that map increase strictly.  Missing: maps whose
every cell is visited (`C10_violated`). -/
theorem C10_strictly_increasing_partial (size m : ℕ) (h : m < size) :
    (counts (mapEvents size m)).Pairwise (· < ·) := by
  rw [counts_mapEvents, List.pairwise_append]
  refine ⟨?_, by simp, ?_⟩
  · rw [List.pairwise_map]
    exact List.pairwise_lt_range.imp (by intro a b h; omega)
  · intro a ha b hb
    simp at ha hb
    obtain ⟨i, hi, rfl⟩ := ha
    subst hb; omega

/-- C10 is false of every map all of whose cells are visited: the last two
notifications carry the same count. -/
theorem C10_violated (size : ℕ) (hpos : 0 < size) :
    ¬ (counts (mapEvents size size)).Pairwise (· < ·) ∧
    ∃ pre, counts (mapEvents size size) = pre ++ [size, size] := by
  have h : counts (mapEvents size size) =
      (List.range (size - 1)).map (· + 1) ++ [size, size] := by
    rw [counts_mapEvents]
    obtain ⟨k, rfl⟩ : ∃ k, size = k + 1 := ⟨size - 1, by omega⟩
    simp [List.range_succ, List.append_assoc]
  refine ⟨fun hp => ?_, _, h⟩
  rw [h, List.pairwise_append] at hp
  simpa using hp.2.1

example : counts (mapEvents 2 2) = [1, 2, 2] := by decide

end MaRC.MapFactory
