import Verif.Props.SourceValues
import Verif.Lemmas.Accuracy

/-!
# C89: maps whose data type the user gives hold the physical values of their photo
-/

namespace MaRC.Source

open MapParams Execute MapFactory MapCommand Utility

variable {C : Type}

/-! ## Specification -/

/-- The blank value of a map of a photo: the user's, or else the photo's. -/
def blankOf (c : Command C) (file : PhotoFile) : Option ℤ :=
  if c.params.locked .blank = false ∧ c.params.blank = none then file.blank.value?
  else c.params.blank

/-- How empty cells of a map of type `T` are marked: with the blank value, with zero if
there is none, and with NaN in maps of floating point numbers. -/
def emptyCell (T : MapType) (blank : Option ℤ) : Dbl :=
  if T.isIntegral then .fin (blank.getD 0) else .nan

/-- The element `x` of the file's array marks a pixel without datum: the array is one of
integers and `x` is the value of BLANK, or `x` is NaN. -/
def PhotoFile.Missing (f : PhotoFile) (x : Dbl) : Prop :=
  x = .nan ∨ 0 < f.bitpix ∧ ∃ b, f.blank = .value b ∧ x = .fin b

/-! ## Lemmas -/

theorem plotAll_cast {T : MapType} {read : ReadData C} {e : Extrema} :
    ∀ (plots : List (C × ℕ)) {s s' : State}, plotAll T read e s plots = .ok s' →
    ∀ pt o d, (pt, o) ∈ plots → read pt (.fin 0) = .ok (true, d) → e.inRange T d = true →
      ∃ v, T.cast d = .ok v
  | [], _, _, _, _, _, _, hm, _, _ => by simp at hm
  | (c, o) :: rest, s, s', h, pt, o', d, hm, hr, hin => by
    simp only [plotAll] at h
    cases hp : plot T read e s c o with
    | throw e => simp [hp] at h
    | ub => simp [hp] at h
    | ok s1 =>
      rw [hp, Outcome.bind_ok] at h
      rcases List.mem_cons.mp hm with heq | hm
      · cases heq
        unfold plot at hp
        simp only [hr, Outcome.bind_ok, hin, Bool.and_self, if_true] at hp
        cases hc : T.cast d with
        | throw e => simp [hc] at hp
        | ub => simp [hc] at hp
        | ok v => exact ⟨v, rfl⟩
      · exact plotAll_cast rest h pt o' d hm hr hin

/-- A data type given by the user is the map's. -/
theorem populate_bitpix {F : Fp} {c : Command C} {p : Params} (hu : c.params.plane = 0)
    (hb : c.params.bitpix ≠ 0) (hp : populateParameters F c = .ok (some p)) :
    p.bitpix = c.params.bitpix := by
  obtain ⟨qs, -, h⟩ := C74_parameters F c p hp
  unfold populate at h
  cases hm : mergeAll F (fresh 0) qs with
  | throw e => rw [hm] at h; cases h
  | ub => rw [hm] at h; cases h
  | ok t =>
    rw [hm] at h
    obtain ⟨-, -, f3, -⟩ := merge_ok h
    rw [f3]
    simp [bitpixAfter, hb, userSupplied, hu]

section C89

variable {F : Fp} {c : Command C} {file : PhotoFile} {s : MaRC.Factory.Photo}
  {q : Photo.Params} {g : Photo.Geometry C} {n : ℤ} {T : MapType}

/-- **C89**.  A map whose data type the user gives has that type, and each of its cells is
either empty or holds the physical value of the photo's element in which the camera sees
a point plotted there, converted to the map's type.  It holds that value exactly if the
value is within the limits of the map.  (Photos
with a flat field or interpolation are the subject of C91.) -/
theorem C89_cells (h : OnePhoto F c file s q g) (hn : c.params.bitpix = n)
    (hT : FitsType n T) (env : Env) (w w' : World) (hok : ∀ k, env.plane k = true)
    (hx : execute F c env w = .ok (w', .returned 0)) :
    ∃ map rest, w' c.filename = some (map :: rest) ∧ map.bitpix = n ∧
      valueOf "BLANK" map.header =
        (if T.isIntegral then (blankOf c file).map .int else none) ∧
      ∀ o < c.samples * c.lines,
        (map.image.cells (1 + o) = some (emptyCell T (blankOf c file)) ∨
          ∃ pt i k d v, (pt, o) ∈ c.plots c.samples c.lines ∧
            SeenIn g q file.naxis1.toNat file.naxis2.toNat pt i k ∧
            file.element s i k = some d ∧ T.cast (file.physical F d) = .ok v ∧
            map.image.cells (1 + o) = some v) ∧
        ∀ pt i k d lo hi, (pt, o) ∈ c.plots c.samples c.lines →
          SeenIn g q file.naxis1.toNat file.naxis2.toNat pt i k →
          file.element s i k = some d →
          PlaneLimits T ⟨s.extrema.min.or s.datamin, s.extrema.max.or s.datamax⟩ lo hi →
          if lo.le (file.physical F d) = true ∧ (file.physical F d).le hi = true then
            ∃ v, T.cast (file.physical F d) = .ok v ∧ map.image.cells (1 + o) = some v
          else map.image.cells (1 + o) = some (emptyCell T (blankOf c file)) := by
  obtain ⟨p, T', map, rest, hp, hT', hw, -, hbp, -, -, -⟩ := C74_file F c env w w' hx
  have hn0 : c.params.bitpix ≠ 0 := by rw [hn]; cases hT <;> omega
  have hbit : p.bitpix = n := (populate_bitpix h.plane hn0 hp).trans hn
  have hk : c.factories.map (·.populate) = [Kind.photo file].map Kind.populate := by
    rw [h.source]; rfl
  have hblank : p.blank = blankOf c file := by
    rw [C84_blank_partial F c [.photo file] p hk h.plane hp (by simp [Agree, Kind.files])]
    unfold blankOf
    cases hv : file.blank.value? <;> simp [Kind.files, firstSome, hv]
  have hT2 : FitsType p.bitpix T := hbit ▸ hT
  obtain ⟨map', rest', ims, maps, info, hw', hi, hmk, hsz, hholds, -, -⟩ :=
    C74_data_partial F c env w w' p T hp hT2 h.size
      (by rw [h.source, List.length_singleton]; have := h.fits; omega) hok hx
  rw [hw] at hw'
  simp only [Option.some.injEq, List.cons.injEq] at hw'
  obtain ⟨rfl, rfl⟩ := hw'
  rw [h.source] at hi
  obtain ⟨⟨pl, v⟩, hm, rfl⟩ := h.made_some hi
  obtain ⟨hv, hmm, hread⟩ := h.made hm
  obtain ⟨read, mm⟩ := pl
  simp only at hv hmm hread
  simp only [List.map_cons, List.map_nil, makePlanes] at hmk
  cases hpl : makePlane T c.plots ⟨read, mm⟩ (startInfo c.samples c.lines p.blank) with
  | throw e => simp [hpl] at hmk
  | ub => simp [hpl] at hmk
  | ok r =>
  obtain ⟨m, info1⟩ := r
  simp only [hpl, Outcome.bind_ok, Outcome.ok.injEq, Prod.mk.injEq] at hmk
  obtain ⟨rfl, rfl⟩ := hmk
  have hlen := hsz m (by simp)
  unfold makePlane at hpl
  cases hcv : mm.convert T with
  | throw e => simp [hcv] at hpl
  | ub => simp [hcv] at hpl
  | ok mm' =>
  simp only [hcv, Outcome.bind_ok] at hpl
  obtain ⟨bl, lo2, hi2, hbl, hab2, st, hpa, -⟩ := makeMap_ok hpl
  obtain ⟨lo', hi', hab, -, hst, hno⟩ := C06_cells T c.plots read mm' _ _ _ hpl
  rw [hab] at hab2
  simp only [Outcome.ok.injEq, Extrema.mk.injEq, Option.some.injEq] at hab2
  obtain ⟨rfl, rfl⟩ := hab2
  have hblankr : ∀ x, T.isIntegral = true → p.blank = some x →
      T.intRange.1 ≤ x ∧ x ≤ T.intRange.2 := by
    intro x hint hx
    by_contra hc
    simp only [startInfo, blankValue, hint, hx] at hbl
    rw [if_pos (by omega)] at hbl
    simp at hbl
  have hone : ∀ {pt pt' : C} {o : ℕ}, (pt, o) ∈ c.plots c.samples c.lines →
      (pt', o) ∈ c.plots c.samples c.lines → pt = pt' := by
    intro pt pt' o h1 h2
    have := List.inj_on_of_nodup_map h.once h1 h2 rfl
    exact (Prod.mk.inj this).1
  have hmark : (if T.isIntegral then Dbl.fin ((startInfo c.samples c.lines p.blank).blank.getD 0)
      else .nan) = emptyCell T (blankOf c file) := by
    unfold emptyCell
    rw [← hblank]; rfl
  -- what is stored at a point
  have hstore : ∀ pt v, Stores T (T.toDouble lo') (T.toDouble hi') read pt v ↔
      ∃ i k d, SeenIn g q file.naxis1.toNat file.naxis2.toNat pt i k ∧
        file.element s i k = some d ∧ (T.toDouble lo').le (file.physical F d) = true ∧
        (file.physical F d).le (T.toDouble hi') = true ∧ T.cast (file.physical F d) = .ok v := by
    intro pt v
    constructor
    · rintro ⟨d, hd, l1, l2, hc⟩
      obtain ⟨h1, i, k, d', hs, he, rfl⟩ := (hread pt d).1 hd
      exact ⟨i, k, d', hs, he, l1, l2, hc⟩
    · rintro ⟨i, k, d, hs, he, l1, l2, hc⟩
      refine ⟨_, (hread pt _).2 ⟨?_, i, k, d, hs, he, rfl⟩, l1, l2, hc⟩
      intro hnan
      rw [hnan] at l1
      exact le_nan_false l1
  have hkey : valueOf "BLANK" map.header =
      (if T.isIntegral then (blankOf c file).map .int else none) := by
    obtain ⟨map', rest', hw', hv⟩ := blank_keyword hp hT2 hx
    rw [hw] at hw'
    simp only [Option.some.injEq, List.cons.injEq] at hw'
    rw [hw'.1, hv]
    cases hint : T.isIntegral with
    | false => rfl
    | true =>
      rw [← hblank]
      cases hb : p.blank with
      | none => rfl
      | some b =>
        simp [wrapTo_of_mem (hblankr b hint hb).1 (hblankr b hint hb).2]
  refine ⟨map, rest, hw, by rw [hbp, hbit], hkey, ?_⟩
  intro o ho
  have hcell : map.image.cells (1 + o) = m[o]? := by
    rw [hholds, if_pos (by omega), show (1 + (o : ℤ) - 1).toNat = o by omega]
    simp
  rw [hcell]
  have hput : ∀ pt v, (pt, o) ∈ c.plots c.samples c.lines →
      Stores T (T.toDouble lo') (T.toDouble hi') read pt v → m[o]? = some v := by
    intro pt v hpt hv
    obtain ⟨pre, post, hsp⟩ := List.append_of_mem hpt
    refine hst pre pt o post v hsp hv ?_
    intro pt' hpt' v' hv'
    have hn := h.once
    rw [hsp] at hn
    simp only [List.map_append, List.map_cons] at hn
    have := (List.nodup_cons.1 (List.nodup_append.1 hn).2.1).1
    exact this (List.mem_map.2 ⟨(pt', o), hpt', rfl⟩)
  constructor
  · by_cases hsome : ∃ pt v, (pt, o) ∈ c.plots c.samples c.lines ∧
        Stores T (T.toDouble lo') (T.toDouble hi') read pt v
    · obtain ⟨pt, v, hpt, hv⟩ := hsome
      obtain ⟨i, k, d, hs, he, -, -, hc⟩ := (hstore pt v).1 hv
      exact .inr ⟨pt, i, k, d, v, hpt, hs, he, hc, hput pt v hpt hv⟩
    · refine .inl ?_
      rw [hno o (by omega) fun pt hpt v hv => hsome ⟨pt, v, hpt, hv⟩, hmark]
  · rintro pt i k d lo hi hpt hs he ⟨mm2, a2, b2, k1, k2, rfl, rfl⟩
    rw [← hmm, hcv] at k1
    simp only [Outcome.ok.injEq] at k1
    subst k1
    rw [hab] at k2
    simp only [Outcome.ok.injEq, Extrema.mk.injEq, Option.some.injEq] at k2
    obtain ⟨rfl, rfl⟩ := k2
    split_ifs with hd
    · obtain ⟨l1, l2⟩ := hd
      have hnan : file.physical F d ≠ .nan := by
        intro hnan
        rw [hnan] at l1
        exact le_nan_false l1
      obtain ⟨v, hc⟩ := plotAll_cast _ hpa pt o _ hpt
        ((hread pt _).2 ⟨hnan, i, k, d, hs, he, rfl⟩) (by
          simp [Extrema.inRange, Extrema.geOpt, Extrema.leOpt, Dbl.ge, l1, l2])
      exact ⟨v, hc, hput pt v hpt ((hstore pt v).2 ⟨i, k, d, hs, he, l1, l2, hc⟩)⟩
    · rw [hno o (by omega), hmark]
      intro pt' hpt' v' hv'
      obtain rfl := hone hpt hpt'
      obtain ⟨i', k', d', hs', he', l1, l2, -⟩ := (hstore pt v').1 hv'
      obtain ⟨rfl, rfl⟩ := hs.unique hs'
      rw [he] at he'
      cases he'
      exact hd ⟨l1, l2⟩

/-- C89 (reading).  Elements that mark pixels without datum are read as NaN. -/
theorem C89_missing (file : PhotoFile) (x : Dbl) (h : file.Missing x) :
    file.physical F x = .nan := by
  unfold PhotoFile.physical
  rcases h with rfl | ⟨h1, b, h2, rfl⟩
  · have : file.isBlank .nan = false := by
      unfold PhotoFile.isBlank
      split <;> simp
    rw [this]
    simp [MapType.toDouble, Fp.mul, Fp.add]
  · simp [PhotoFile.isBlank, h1, h2]

theorem isBlank_false {file : PhotoFile} {x : Dbl} (h : ¬ file.Missing x) :
    file.isBlank x = false := by
  by_contra hb
  simp only [Bool.not_eq_false] at hb
  unfold PhotoFile.isBlank at hb
  split at hb
  · rename_i b hf
    simp only [Bool.and_eq_true, decide_eq_true_eq] at hb
    exact h (.inr ⟨hb.1, b, hf, hb.2⟩)
  · cases hb

/-- C89 (reading).  Another element `x` of a photo is read as `BZERO + BSCALE * x`, up to
the rounding of the product and of the sum. -/
theorem C89_physical (file : PhotoFile) (x scale zero : ℚ) (h : ¬ file.Missing (.fin x))
    (hs : file.bscale = .fin scale) (hz : file.bzero = .fin zero)
    (h1 : |scale * x| ≤ 2 ^ 100) (h2 : |zero| ≤ 2 ^ 100) :
    ∃ v, file.physical .ieee (.fin x) = .fin v ∧
      |v - (zero + scale * x)| ≤ (2 * |scale * x| + |zero|) / 2 ^ 52 + 1 / 2 ^ 198 := by
  have n1 := abs_nonneg (scale * x)
  have n2 := abs_nonneg zero
  have n3 : (0 : ℚ) < 1 / 2 ^ 198 := by positivity
  unfold PhotoFile.physical
  rw [isBlank_false h, hs, hz]
  simp only [Bool.false_eq_true, if_false, Dbl.fin.injEq]
  split_ifs with hu h64
  · obtain ⟨rfl, rfl⟩ := hu
    simp only [one_mul, zero_add] at *
    have hx : |x| ≤ 2 ^ 200 := h1.trans (by norm_num)
    refine ⟨Fp.rnd53 x, MaRC.ieee_rnd_fin hx, ?_⟩
    have e := MaRC.rnd53_err200 x
    refine e.trans ?_
    norm_num at *
    linarith [abs_nonneg x]
  · obtain ⟨rfl, rfl⟩ := hu
    refine ⟨x, rfl, ?_⟩
    simp only [one_mul, zero_add, sub_self, abs_zero] at *
    positivity
  · have hy : |x * scale| ≤ 2 ^ 100 := by rwa [mul_comm]
    have hy2 : |x * scale| = |scale * x| := by rw [mul_comm]
    have e1 := MaRC.rnd53_err200 (x * scale)
    have hy' : Fp.ieee.mul (.fin x) (.fin scale) = .fin (Fp.rnd53 (x * scale)) :=
      MaRC.ieee_rnd_fin (hy.trans (by norm_num))
    rw [hy']
    generalize hyv : Fp.rnd53 (x * scale) = y at *
    have e1' : |y| ≤ |scale * x| + (|scale * x| / 2 ^ 53 + 1 / 2 ^ 200) := by
      have : |y| ≤ |x * scale| + |y - x * scale| := by
        have := abs_add_le (x * scale) (y - x * scale)
        rwa [add_sub_cancel] at this
      rw [hy2] at this e1
      linarith
    have e2 := MaRC.rnd53_err200 (y + zero)
    have e2' : |y + zero| ≤ |y| + |zero| := abs_add_le _ _
    have hz' : Fp.ieee.add (.fin y) (.fin zero) = .fin (Fp.rnd53 (y + zero)) := by
      refine MaRC.ieee_rnd_fin ?_
      norm_num at *
      linarith
    rw [hz']
    refine ⟨_, rfl, ?_⟩
    have e3 : Fp.rnd53 (y + zero) - (zero + scale * x) =
        (Fp.rnd53 (y + zero) - (y + zero)) + (y - x * scale) := by ring
    rw [e3]
    refine (abs_add_le _ _).trans ?_
    rw [hy2] at e1
    norm_num at *
    linarith [abs_nonneg zero]

theorem no_scale {env : Env} {w w' : World} (h : OnePhoto F c file s q g)
    (hx : execute F c env w = .ok (w', .returned 0)) :
    ∃ map rest, w' c.filename = some (map :: rest) ∧
      ∀ v, Execute.physical map.header v = some v := by
  obtain ⟨p, T', map, rest, hp, hT', hw, -⟩ := C74_file F c env w w' hx
  obtain ⟨map', rest', hw', h1, h2, -⟩ := C77_scale_violated F c env w w' p T' hp hT' (.inr (by
    rw [h.source]
    intro f hf pl v hm
    rw [List.mem_singleton] at hf
    subst hf
    have := (h.made hm).1
    cases this)) hx
  refine ⟨map', rest', hw', fun v => ?_⟩
  simp [Execute.physical, h1, h2]

/-- **C89** (maps of doubles).  If the user asks for a map of doubles and sets no limits,
a cell in which a point is plotted that the camera sees in some pixel of the photo is NaN
if the pixel has no datum, and otherwise has the physical value of the photo's pixel,
`BZERO + BSCALE * x`, up to rounding.  The header of the map assigns that same physical
value to the cell. -/
theorem C89_double (h : OnePhoto .ieee c file s q g) (hn : c.params.bitpix = -64)
    (env : Env) (w w' : World) (hok : ∀ k, env.plane k = true)
    (hx : execute .ieee c env w = .ok (w', .returned 0))
    (hlim : s.extrema = .empty ∧ s.datamin = none ∧ s.datamax = none) (scale zero : ℚ)
    (hs : file.bscale = .fin scale) (hz : file.bzero = .fin zero) (h2 : |zero| ≤ 2 ^ 100) :
    ∃ map rest, w' c.filename = some (map :: rest) ∧ map.bitpix = -64 ∧
      valueOf "BLANK" map.header = none ∧
      ∀ o < c.samples * c.lines, ∀ pt i k d, (pt, o) ∈ c.plots c.samples c.lines →
        SeenIn g q file.naxis1.toNat file.naxis2.toNat pt i k → file.element s i k = some d →
        (file.Missing d → map.image.cells (1 + o) = some .nan) ∧
        ∀ x, d = .fin x → ¬ file.Missing d → |scale * x| ≤ 2 ^ 100 →
          ∃ v, map.image.cells (1 + o) = some (.fin v) ∧
            Execute.physical map.header v = some v ∧
            |v - (zero + scale * x)| ≤ (2 * |scale * x| + |zero|) / 2 ^ 52 + 1 / 2 ^ 198 := by
  obtain ⟨map, rest, hw, hb, hbl, hcells⟩ := C89_cells h hn .double env w w' hok hx
  obtain ⟨map', rest', hw', hphys⟩ := no_scale h hx
  rw [hw] at hw'
  simp only [Option.some.injEq, List.cons.injEq] at hw'
  obtain ⟨rfl, rfl⟩ := hw'
  refine ⟨map, rest, hw, hb, by rw [hbl]; rfl, ?_⟩
  intro o ho pt i k d hpt hseen he
  have hr : IsRange .f64 ⟨none, none⟩ := ⟨fun v hv => by simp at hv, fun v hv => by simp at hv⟩
  have hpl : PlaneLimits .f64 ⟨s.extrema.min.or s.datamin, s.extrema.max.or s.datamax⟩
      (.fin (-Fp.dblMax)) (.fin Fp.dblMax) := by
    rw [hlim.1, hlim.2.1, hlim.2.2]
    refine ⟨⟨none, none⟩, _, _, rfl, ?_, rfl, rfl⟩
    rw [C06_limits .f64 (by decide) _ hr, if_pos (by decide +kernel)]
    rfl
  have key := (hcells o ho).2 pt i k d _ _ hpt hseen he hpl
  constructor
  · intro hmiss
    rw [C89_missing file d hmiss, if_neg (by simp [Dbl.le])] at key
    exact key
  · rintro x rfl hmiss h1
    obtain ⟨v, hv, herr⟩ := C89_physical file x scale zero hmiss hs hz h1 h2
    have hbound : |v| ≤ Fp.dblMax := by
      have hm := MaRC.two201_le_dblMax
      have a1 : |v| ≤ |zero + scale * x| + |v - (zero + scale * x)| := by
        have := abs_add_le (zero + scale * x) (v - (zero + scale * x))
        rwa [add_sub_cancel] at this
      have a2 := abs_add_le zero (scale * x)
      norm_num at *
      linarith
    rw [abs_le] at hbound
    rw [hv, if_pos ⟨decide_eq_true hbound.1, decide_eq_true hbound.2⟩] at key
    obtain ⟨v', hv', hc⟩ := key
    simp only [MapType.cast, Outcome.ok.injEq] at hv'
    subst hv'
    exact ⟨v, hc, hphys v, herr⟩

end C89

/-! ## Examples -/

/-- The photo of unsigned 16 bit data of `C85_scaled_violated`, with a pixel without datum. -/
def scaledPhoto : PhotoFile :=
  smallPhoto 16 (.value (-32768)) 32768 [.fin 7232, .fin 0, .fin 0, .fin (-32768)]

/-- The hypotheses of the theorems are met: a map of doubles has the datum 40000 of the
photo, and NaN for the pixel without datum and for the point that is not seen. -/
example : smallMap scaledPhoto none (run .ieee (fresh 0) [.bitpix (-64)]) =
    some (.returned 0, [none, some (.fin 40000), some .nan, some .nan, none],
      [none, none, none]) := by decide +kernel

/-- In a map of 32 bit integers the same cells have the photo's blank value. -/
example : smallMap scaledPhoto none (run .ieee (fresh 0) [.bitpix 32]) =
    some (.returned 0,
      [none, some (.fin 40000), some (.fin (-32768)), some (.fin (-32768)), none],
      [some (.int (-32768)), none, none]) := by decide +kernel

example : OnePhoto .ieee (smallCommand scaledPhoto none (run .ieee (fresh 0) [.bitpix (-64)]))
    scaledPhoto
    { file := ⟨0, 0, 0, []⟩, datamin := none, datamax := none, flatField := none,
      invertV := false, invertH := false, configSet := true, geometrySet := true,
      finalize := fun _ _ => .ok (), extrema := .empty }
    ⟨0, 0, 0, 0, false, Bilinear.null, Photo.nullCorrect⟩
    ⟨fun n => (decide (n < 4), .fin ((n % 2 : ℕ) : ℚ), .fin ((n / 2 : ℕ) : ℚ)),
      fun _ _ => true⟩ where
  source := rfl
  config := rfl
  geometry := rfl
  plane := rfl
  flat := rfl
  interpolate := rfl
  correct := rfl
  memory := by decide
  nibbleRight := by decide
  nibbleBottom := by decide
  size := by decide
  fits := by decide
  once := by decide

example : ¬ scaledPhoto.Missing (.fin 7232) ∧ scaledPhoto.Missing (.fin (-32768)) := by
  refine ⟨?_, .inr ⟨by decide, -32768, rfl, rfl⟩⟩
  rintro (h | ⟨-, b, h, h'⟩)
  · cases h
  · simp only [scaledPhoto, smallPhoto, Keyword.value.injEq] at h
    subst h
    revert h'
    decide +kernel

end MaRC.Source
