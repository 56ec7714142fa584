import Verif.Props.Execute

/-!
# C76, C77: what the header of a map says
-/

namespace MaRC.Execute

open Fits MapFactory MapCommand MapParams

variable {C : Type}

/-! ## C76 -/

theorem wrapTo_of_mem {T : MapType} {b : ℤ} (h1 : T.intRange.1 ≤ b) (h2 : b ≤ T.intRange.2) :
    wrapTo T b = b := by
  unfold wrapTo
  rw [Int.emod_eq_of_lt (by omega) (by omega)]
  omega

theorem valueOf_mapHeader_blank (T : MapType) (c : Command C) (p : Params) (h : List Card)
    (hh : valueOf "BLANK" h = none) : valueOf "BLANK" (mapHeader T c p h) =
      if T.isIntegral then p.blank.map fun b => .int (wrapTo T b) else none := by
  simp only [mapHeader, valueOf_append_history, valueOf_comments]
  simp only [valueOf_updateStr]
  simp only [String.reduceEq, false_and, if_false]
  unfold updateBlank
  cases T.isIntegral <;> cases p.blank <;> simp [valueOf_updateKey, hh]

/-- The facts of a single virtual image in an integer map. -/
theorem imageFacts_single (F : Fp) (p : Params) (b : ℤ) (hb : ¬ b < 0) (v : VirtualImage)
    (h : List Card) : imageFacts F p b 1 1 (some v) h =
      updateReal "BZERO" (if almostZero F (v.bzero F) 1 then .fin 0 else v.bzero F)
        (updateReal "BSCALE" (v.bscale F) (updateStr "BUNIT" (p.str .bunit) h)) := by
  simp [imageFacts, hb]

/-- C76: a map of one virtual image with integer data says in BSCALE, BZERO and BUNIT how
its data are scaled (unless the scale is not a number). -/
theorem C76_scaling (F : Fp) (c : Command C) (env : Env) (w w' : World) (p : Params)
    (T : MapType) (hp : populateParameters F c = .ok (some p)) (hT : FitsType p.bitpix T)
    (hint : T.isIntegral = true) (f : Factory C) (hf : c.factories = [f]) (pl : Plane C)
    (v : VirtualImage) (hm : f.make T = .ok (some (pl, some v)))
    (h : execute F c env w = .ok (w', .returned 0)) :
    ∃ map rest, w' c.filename = some (map :: rest) ∧
      ((v.bscale F).isNaN = false → valueOf "BSCALE" map.header = some (.real (v.bscale F))) ∧
      ((v.bzero F).isNaN = false → valueOf "BZERO" map.header =
        some (.real (if almostZero F (v.bzero F) 1 then .fin 0 else v.bzero F))) ∧
      valueOf "BUNIT" map.header = strValue (p.str .bunit) := by
  obtain ⟨p', T', map, rest, hp', hT', hmm, rfl, hg⟩ := execute_zero h
  rw [hp] at hp'
  simp only [Outcome.ok.injEq, Option.some.injEq] at hp'
  subst hp'
  rw [(bitpixType_iff _ _).mpr hT] at hT'
  simp only [Option.some.injEq] at hT'
  subst hT'
  obtain ⟨ims, loop, k, hi, -, -, -, -, hh⟩ := makeMapHdu_ok hmm
  have him : ims = [(pl, some v)] := by
    apply hi.unique
    rw [hf]
    exact .inr ⟨_, _, hm, rfl, rfl⟩
  subst him
  have hb : ¬ p.bitpix < 0 := by
    generalize p.bitpix = b at hT
    cases hT <;> first | omega | simp [MapType.isIntegral] at hint
  have e : (Hdu.new p.bitpix c.samples c.lines c.factories.length none).header =
      [.key "CREATOR" (.str packageString)] := rfl
  rw [e, hf, List.length_singleton, allFacts, allFacts, imageFacts_single F p _ hb] at hh
  refine ⟨map, rest, set_same _ _ _, ?_, ?_, ?_⟩
  · intro hn
    rw [hh]
    simp [valueOf_updateExtremum, valueOf_updateReal, hn]
  · intro hn
    have hz : (if almostZero F (v.bzero F) 1 then Dbl.fin 0 else v.bzero F).isNaN = false := by
      split_ifs
      · rfl
      · exact hn
    rw [hh]
    simp only [valueOf_updateExtremum, valueOf_updateReal, hz]
    simp
  · rw [hh]
    by_cases hs : p.str .bunit = "" <;> simp [hs, valueOf_updateExtremum, valueOf_updateReal,
      valueOf_updateStr, strValue, mapHeader, valueOf_append_history, valueOf_comments,
      valueOf_updateBlank, valueOf]

/-- The BLANK keyword: the chosen blank value, wrapped to the data type, in integer maps. -/
theorem blank_keyword {F : Fp} {c : Command C} {env : Env} {w w' : World} {p : Params}
    {T : MapType} (hp : populateParameters F c = .ok (some p)) (hT : FitsType p.bitpix T)
    (h : execute F c env w = .ok (w', .returned 0)) :
    ∃ map rest, w' c.filename = some (map :: rest) ∧ valueOf "BLANK" map.header =
      if T.isIntegral then p.blank.map fun b => .int (wrapTo T b) else none := by
  obtain ⟨p', T', map, rest, hp', hT', hmm, rfl, hg⟩ := execute_zero h
  rw [hp] at hp'
  simp only [Outcome.ok.injEq, Option.some.injEq] at hp'
  subst hp'
  rw [(bitpixType_iff _ _).mpr hT] at hT'
  simp only [Option.some.injEq] at hT'
  subst hT'
  obtain ⟨ims, loop, k, hi, -, -, -, -, hh⟩ := makeMapHdu_ok hmm
  refine ⟨map, rest, set_same _ _ _, ?_⟩
  have e : (Hdu.new p.bitpix c.samples c.lines c.factories.length none).header =
      [.key "CREATOR" (.str packageString)] := rfl
  rw [hh, e]
  simp only [valueOf_updateExtremum, String.reduceEq, false_and, if_false]
  rw [valueOf_allFacts _ _ _ _ (by decide) (by decide) (by decide),
    valueOf_mapHeader_blank _ _ _ _ (by simp [valueOf])]

/-- Either some element of a list satisfies `P`, and then there is a last one, or none. -/
theorem last_or_none {α : Type} (P : α → Prop) (l : List α) :
    (∀ a ∈ l, ¬ P a) ∨ ∃ pre a post, l = pre ++ a :: post ∧ P a ∧ ∀ b ∈ post, ¬ P b := by
  induction l with
  | nil => exact .inl (by simp)
  | cons a l ih =>
    rcases ih with h | ⟨pre, b, post, rfl, h1, h2⟩
    · by_cases hp : P a
      · exact .inr ⟨[], a, l, rfl, hp, h⟩
      · refine .inl ?_
        intro b hb
        rcases List.mem_cons.mp hb with rfl | hb
        · exact hp
        · exact h b hb
    · exact .inr ⟨a :: pre, b, post, rfl, h1, h2⟩

/-- C76 in exact arithmetic: in a map of one virtual image with integer data each element
of the file either reads, as FITS prescribes, as the physical value at a point plotted
there, to less than one unit of BSCALE (and 2^-52, below which BZERO is dropped), or is
the blank value, at a place where nothing was stored.  The blank value is in the header
if one was chosen. -/
theorem C76_physical_partial (c : Command C) (env : Env) (w w' : World) (p : Params)
    (T : MapType) (hp : populateParameters .exact c = .ok (some p)) (hT : FitsType p.bitpix T)
    (hint : T.isIntegral = true) (f : Factory C) (hf : c.factories = [f])
    (s o : ℚ) (hs : s ≠ 0) (quantity : C → Option ℚ) (read : ReadData C) (mm : Extrema)
    (hread : ∀ pt, (∃ d, quantity pt = some d ∧ read pt (.fin 0) = .ok (true, .fin (d * s + o))) ∨
      quantity pt = none ∧ ∃ x, read pt (.fin 0) = .ok (false, x))
    (hm : f.make T = .ok (some (⟨read, mm⟩, some ⟨.fin s, .fin o⟩)))
    (h2 : 2 ≤ c.samples * c.lines) (hfit : c.samples * c.lines < 2 ^ 62)
    (hok : ∀ k, env.plane k = true)
    (h : execute .exact c env w = .ok (w', .returned 0)) :
    ∃ map rest, w' c.filename = some (map :: rest) ∧
      valueOf "BLANK" map.header = p.blank.map .int ∧
      ∀ i < c.samples * c.lines,
        (∃ v : ℤ, map.image.cells (1 + i) = some (.fin v) ∧
          ∃ pt d r, (pt, i) ∈ c.plots c.samples c.lines ∧ quantity pt = some d ∧
            physical map.header v = some r ∧ |r - d| < |1 / s| + 1 / 2 ^ 52) ∨
        map.image.cells (1 + i) = some (.fin (p.blank.getD 0)) ∧
          ∀ v pt, (pt, i) ∈ c.plots c.samples c.lines →
            ∀ lo hi, PlaneLimits T mm lo hi → ¬ Stores T lo hi read pt v := by
  obtain ⟨map, rest, hw, hsc, hz, -⟩ := C76_scaling .exact c env w w' p T hp hT hint f hf _ _ hm h
  obtain ⟨map', rest', ims, maps, info, hw', hi, hmk, hsz, hholds, -, -⟩ :=
    C74_data_partial .exact c env w w' p T hp hT h2 (by rw [hf, List.length_singleton]; omega) hok h
  rw [hw] at hw'
  simp only [Option.some.injEq, List.cons.injEq] at hw'
  obtain ⟨rfl, rfl⟩ := hw'
  have him : ims = [(⟨read, mm⟩, some ⟨.fin s, .fin o⟩)] := by
    apply hi.unique
    rw [hf]
    exact .inr ⟨_, _, hm, rfl, rfl⟩
  subst him
  simp only [List.map_cons, List.map_nil, makePlanes] at hmk
  cases hpl : makePlane T c.plots ⟨read, mm⟩ (startInfo c.samples c.lines p.blank) with
  | throw e => simp [hpl] at hmk
  | ub => simp [hpl] at hmk
  | ok r =>
  obtain ⟨m, info1⟩ := r
  simp only [hpl, Outcome.bind_ok, Outcome.ok.injEq, Prod.mk.injEq] at hmk
  obtain ⟨rfl, rfl⟩ := hmk
  have hlen := hsz m (by simp)
  unfold makePlane at hpl
  cases hcv : mm.convert T with
  | throw e => simp [hcv] at hpl
  | ub => simp [hcv] at hpl
  | ok mm' =>
  simp only [hcv, Outcome.bind_ok] at hpl
  obtain ⟨bl, -, -, hbl, -⟩ := makeMap_ok hpl
  obtain ⟨a, b, hab, -, hst, hno⟩ := C06_cells T c.plots read mm' _ _ _ hpl
  have hblank : ∀ x, p.blank = some x → T.intRange.1 ≤ x ∧ x ≤ T.intRange.2 := by
    intro x hx
    by_contra hc
    simp only [startInfo, blankValue, hint, hx] at hbl
    rw [if_pos (by omega)] at hbl
    simp at hbl
  have hlim : PlaneLimits T mm (T.toDouble a) (T.toDouble b) := ⟨mm', a, b, hcv, hab, rfl, rfl⟩
  refine ⟨map, rest, hw, ?_, ?_⟩
  · obtain ⟨map', rest', hw', hv⟩ := blank_keyword hp hT h
    rw [hw] at hw'
    simp only [Option.some.injEq, List.cons.injEq] at hw'
    rw [hw'.1, hv, hint, if_pos rfl]
    cases hx : p.blank with
    | none => rfl
    | some x => simp [wrapTo_of_mem (hblank x hx).1 (hblank x hx).2]
  · intro i hi'
    have hcell : map.image.cells (1 + i) = m[i]? := by
      rw [hholds, if_pos (by omega), show (1 + (i : ℤ) - 1).toNat = i by omega]
      simp
    rw [hcell]
    rcases last_or_none (fun x : C × ℕ => x.2 = i ∧
        ∃ v, Stores T (T.toDouble a) (T.toDouble b) read x.1 v) (c.plots c.samples c.lines) with
      hn | ⟨pre, ⟨pt, j⟩, post, hl, ⟨hj, v, hv⟩, hlast⟩
    · refine .inr ⟨?_, ?_⟩
      · rw [hno i (by omega) fun pt hpt v hv => hn (pt, i) hpt ⟨rfl, v, hv⟩, hint, if_pos rfl]
        rfl
      · rintro v pt hpt lo hi ⟨mm2, a2, b2, k1, k2, rfl, rfl⟩ hv
        rw [hcv] at k1
        simp only [Outcome.ok.injEq] at k1
        subst k1
        rw [hab] at k2
        simp only [Outcome.ok.injEq, Extrema.mk.injEq, Option.some.injEq] at k2
        obtain ⟨rfl, rfl⟩ := k2
        exact hn (pt, i) hpt ⟨rfl, v, hv⟩
    · simp only at hj
      subst hj
      have hmv := hst pre pt j post v hl hv fun c' hc' v' hv' => hlast (c', j) hc' ⟨rfl, v', hv'⟩
      obtain ⟨d0, hd0, -, -, hcast⟩ := hv
      rcases hread pt with ⟨d, hq, hr⟩ | ⟨-, x, hr⟩
      · rw [hr] at hd0
        simp only [Outcome.ok.injEq, Prod.mk.injEq, true_and] at hd0
        subst hd0
        have hcast' : v = .fin (truncQ (d * s + o)) := by
          cases T <;> simp_all [MapType.cast, castInt, MapType.isIntegral] <;>
            split_ifs at hcast <;> simp_all
        subst hcast'
        refine .inl ⟨_, hmv, pt, d,
          (if almostZero .exact (VirtualImage.bzero .exact ⟨.fin s, .fin o⟩) 1 then 0
            else 1 / s * -o) + 1 / s * truncQ (d * s + o), ?_, hq, ?_, ?_⟩
        · show (pt, j) ∈ c.plots c.samples c.lines
          rw [hl]; simp
        · have e1 : VirtualImage.bscale .exact ⟨.fin s, .fin o⟩ = .fin (1 / s) := by
            simp [VirtualImage.bscale, Fp.exact, Fp.div, hs]
          have e2 : VirtualImage.bzero .exact ⟨.fin s, .fin o⟩ = .fin (1 / s * -o) := by
            rw [VirtualImage.bzero, e1]; rfl
          have hsc := hsc (by rw [e1]; rfl)
          have hz := hz (by rw [e2]; rfl)
          unfold physical
          rw [hsc, hz, e1]
          simp only [Option.getD_some]
          split_ifs with hzero
          · rfl
          · rw [e2]
        · have h1 : |(truncQ (d * s + o) : ℚ) - (d * s + o)| < 1 := by
            unfold truncQ
            split_ifs
            · have a := Int.floor_le (d * s + o)
              have b := Int.lt_floor_add_one (d * s + o)
              rw [abs_lt]; constructor <;> linarith
            · have a := Int.le_ceil (d * s + o)
              have b := Int.ceil_lt_add_one (d * s + o)
              rw [abs_lt]; constructor <;> linarith
          have h2 : 0 < |1 / s| := abs_pos.mpr (by simpa using hs)
          have h3 : |1 / s * ((truncQ (d * s + o) : ℚ) - (d * s + o))| < |1 / s| := by
            rw [abs_mul]; nlinarith
          have e : 1 / s * -o + 1 / s * (truncQ (d * s + o) : ℚ) - d =
              1 / s * ((truncQ (d * s + o) : ℚ) - (d * s + o)) := by field_simp; ring
          have hpos : (0 : ℚ) < 1 / 2 ^ 52 := by norm_num
          split_ifs with hzero
          · have e1 : VirtualImage.bzero .exact ⟨.fin s, .fin o⟩ = .fin (1 / s * -o) := by
              simp [VirtualImage.bzero, VirtualImage.bscale, Fp.exact, Fp.div, hs, Fp.mul, Dbl.neg]
            rw [e1] at hzero
            simp only [almostZero, Dbl.abs, Fp.mul, Fp.exact, Dbl.lt, decide_eq_true_eq,
              dblEpsilon] at hzero
            have e3 : 0 + 1 / s * (truncQ (d * s + o) : ℚ) - d =
              1 / s * ((truncQ (d * s + o) : ℚ) - (d * s + o)) - 1 / s * -o := by
              field_simp; ring
            rw [e3]
            have := abs_sub (1 / s * ((truncQ (d * s + o) : ℚ) - (d * s + o))) (1 / s * -o)
            have h4 : |1 / s * -o| < 1 / 2 ^ 52 := by simpa using hzero
            linarith
          · rw [e]; linarith
      · rw [hr] at hd0
        simp at hd0

/-- The theorem applies to a map of latitudes in degrees with 16 bit data: scale 100. -/
def latitudeCommand (factories : List (Factory ℕ)) (n : ℤ) (blank : Option ℤ) : Command ℕ where
  filename := "map.fits"
  samples := 3
  lines := 1
  params := run .exact (fresh 0) [.bitpix n, .blank blank]
  factories := factories
  projection := "Test"
  plots := fun _ _ => [(5, 0), (7, 1)]
  grid := none

/-- A virtual image whose physical value at point `c` is `c`. -/
def scaledFactory (s : ℚ) : Factory ℕ where
  populate p := .ok (some (setStr p .bunit "deg"))
  make _ := .ok (some (⟨fun c _ => .ok (true, .fin (c * s + 0)), .empty⟩,
    some ⟨.fin s, .fin 0⟩))

/-- What the examples look at. -/
structure Values where
  result : Result
  cells : List (Option Dbl)
  keys : List (Option Value)
  notes : List Note
  deriving DecidableEq

/-- See `Values`. -/
def values (names : List String) (r : Outcome (World × Result)) : Option Values :=
  match r with
  | .ok (w, r) =>
    match w "map.fits" with
    | some (x :: _) => some ⟨r, (List.range 5).map fun i => x.image.cells i,
        names.map fun n => valueOf n x.header, historiesOf x.header⟩
    | _ => none
  | _ => none

/-- The hypotheses of `C76_physical_partial` are met: the elements 500 and 700 read as 5
and 7 degrees, -1 is blank. -/
example : values ["BSCALE", "BZERO", "BLANK", "BUNIT"]
      (execute .exact (latitudeCommand [scaledFactory 100] 16 (some (-1))) goodEnv
        fun _ => none) =
    some ⟨.returned 0, [none, some (.fin 500), some (.fin 700), some (.fin (-1)), none],
      [some (.real (.fin (1 / 100))), some (.real (.fin 0)), some (.int (-1)),
        some (.str "deg")], [.text "Test projection created by MaRC."]⟩ := by
  decide +kernel

/-- C76 is false of the code for DATAMIN and DATAMAX: they are "minimum and maximum valid
physical data value", but the scaled values of the array are written.  Here the physical
values are 5 and 7 degrees. -/
theorem C76_extrema_violated :
    (values ["BSCALE", "BZERO", "DATAMIN", "DATAMAX"]
      (execute .ieee (latitudeCommand [scaledFactory 100] 16 none) goodEnv
        fun _ => none)).map (fun v => v.keys) =
    some [some (.real (Fp.ieee.rnd (1 / 100))), some (.real (.fin 0)), some (.int 500),
      some (.int 700)] := by
  decide +kernel

/-- C76 is false of the code where nothing is mapped if no blank value was chosen: the
element is 0, which reads as a datum, and the header has no BLANK. -/
theorem C76_no_blank_violated :
    ((values ["BLANK"] (execute .ieee (latitudeCommand [scaledFactory 100] 16 none) goodEnv
        fun _ => none)).map fun v => (v.cells[3]?, v.keys)) =
    some (some (some (.fin 0)), [none]) := by
  decide +kernel

theorem historiesOf_imageFacts {F : Fp} {p : Params} {n : ℕ} (hb : ¬ p.bitpix < 0) (hn : n ≠ 1)
    (k : ℕ) (v : Option VirtualImage) (h : List Card) :
    historiesOf (imageFacts F p p.bitpix k n v h) = historiesOf h ++
      (match v with
      | none => []
      | some v => [.plane k,
          .bscale (if almostZero F (v.bscale F) 1 then .fin 0 else v.bscale F),
          .bzero (if almostZero F (v.bzero F) 1 then .fin 0 else v.bzero F)]) := by
  cases v with
  | none => simp [imageFacts]
  | some v =>
    simp only [imageFacts, if_neg hb, if_neg hn, historiesOf_append_history,
      historiesOf_updateStr, List.append_assoc, List.cons_append, List.nil_append]
    congr 4
    by_cases hz : almostZero F (v.bzero F) 1 = true
    · simp [hz]
    · simp [hz]

theorem historiesOf_allFacts {F : Fp} {p : Params} {n : ℕ} (hb : ¬ p.bitpix < 0) (hn : n ≠ 1) :
    ∀ (ims : List (Plane C × Option VirtualImage)) (k : ℕ) (h : List Card),
      (∀ im ∈ ims, ∀ v, im.2 = some v → almostZero F (v.bscale F) 1 = false) →
      historiesOf (allFacts F p n ims k h) =
        historiesOf h ++ planesNotes F k (ims.map Prod.snd)
  | [], _, _, _ => by simp [allFacts, planesNotes]
  | im :: ims, k, h, hz => by
    rw [allFacts, historiesOf_allFacts hb hn ims (k + 1) _ fun i hi => hz i (.tail _ hi),
      historiesOf_imageFacts hb hn, List.append_assoc, List.map_cons, planesNotes]
    congr 2
    cases hv : im.2 with
    | none => rfl
    | some v => simp [planeNotes, hz im (.head _) v hv]

theorem historiesOf_mapHeader (T : MapType) (c : Command C) (p : Params) (h : List Card) :
    historiesOf (mapHeader T c p h) = historiesOf h ++
      [.text (c.projection ++ " projection created by " ++ packageString ++ ".")] := by
  simp [mapHeader, historiesOf_append_history, historiesOf_comments, historiesOf_updateStr,
    historiesOf_updateBlank]

/-- C76, maps of several planes with integer data: the history names the projection and
then gives, plane after plane, the scaling of the virtual images, provided that no
BSCALE is below 2^-52. -/
theorem C76_history_partial (F : Fp) (c : Command C) (env : Env) (w w' : World) (p : Params)
    (T : MapType) (hp : populateParameters F c = .ok (some p)) (hT : FitsType p.bitpix T)
    (hint : T.isIntegral = true) (hn : c.factories.length ≠ 1)
    (ims : List (Plane C × Option VirtualImage)) (hm : MadeImages T c.factories ims)
    (hz : ∀ im ∈ ims, ∀ v, im.2 = some v → almostZero F (v.bscale F) 1 = false)
    (h : execute F c env w = .ok (w', .returned 0)) :
    ∃ map rest, w' c.filename = some (map :: rest) ∧
      historiesOf map.header =
        .text (c.projection ++ " projection created by " ++ packageString ++ ".") ::
          planesNotes F 1 (ims.map Prod.snd) := by
  obtain ⟨p', T', map, rest, hp', hT', hmm, rfl, hg⟩ := execute_zero h
  rw [hp] at hp'
  simp only [Outcome.ok.injEq, Option.some.injEq] at hp'
  subst hp'
  rw [(bitpixType_iff _ _).mpr hT] at hT'
  simp only [Option.some.injEq] at hT'
  subst hT'
  obtain ⟨ims', loop, k, hi, -, -, -, -, hh⟩ := makeMapHdu_ok hmm
  obtain rfl := hi.unique hm
  have hb : ¬ p.bitpix < 0 := by
    generalize p.bitpix = b at hT
    cases hT <;> first | omega | simp [MapType.isIntegral] at hint
  have e : (Hdu.new p.bitpix c.samples c.lines c.factories.length none).header =
      [.key "CREATOR" (.str packageString)] := rfl
  refine ⟨map, rest, set_same _ _ _, ?_⟩
  rw [hh, historiesOf_updateExtremum, historiesOf_updateExtremum,
    historiesOf_allFacts hb hn _ _ _ hz, historiesOf_mapHeader, e]
  rfl

/-- The hypotheses are met by a map of two virtual images. -/
example : (values [] (execute .exact (latitudeCommand [scaledFactory 100, scaledFactory 10] 16
      none) goodEnv fun _ => none)).map (fun v => v.notes) =
    some [.text "Test projection created by MaRC.", .plane 1, .bscale (.fin (1 / 100)),
      .bzero (.fin 0), .plane 2, .bscale (.fin (1 / 10)), .bzero (.fin 0)] := by
  decide +kernel

/-- Every virtual image of the program has a BSCALE below 2^-52 in 64 bit maps. -/
theorem longlong_bscale {r : ℚ × ℚ} (hr : r ∈ virtualRanges) :
    ∃ v lo hi, makeVirtual .ieee .i64 (.fin r.1) (.fin r.2) = .ok (v, lo, hi) ∧
      almostZero .ieee (v.bscale .ieee) 1 = true ∧ v.bscale .ieee ≠ .fin 0 := by
  simp only [virtualRanges, List.mem_cons, List.not_mem_nil, or_false] at hr
  rcases hr with rfl | rfl | rfl
  · exact ⟨⟨.fin (10 ^ 18), .fin 0⟩, .fin (-10 ^ 18), .fin (10 ^ 18), by decide +kernel,
      by decide +kernel, by decide +kernel⟩
  · exact ⟨⟨.fin (10 ^ 16), .fin 0⟩, .fin (-90 * 10 ^ 16), .fin (90 * 10 ^ 16),
      by decide +kernel, by decide +kernel, by decide +kernel⟩
  · exact ⟨⟨.fin (10 ^ 16), .fin 0⟩, .fin 0, .fin (360 * 10 ^ 16),
      by decide +kernel, by decide +kernel, by decide +kernel⟩

theorem mem_allFacts {F : Fp} {p : Params} {n : ℕ} (hb : ¬ p.bitpix < 0) (hn : n ≠ 1) (x : Note) :
    ∀ (ims : List (Plane C × Option VirtualImage)) (k : ℕ) (h : List Card), x ∈ historiesOf h →
      x ∈ historiesOf (allFacts F p n ims k h)
  | [], _, _, hx => hx
  | im :: ims, k, h, hx => by
    rw [allFacts]
    refine mem_allFacts hb hn x ims _ _ ?_
    rw [historiesOf_imageFacts hb hn]
    exact List.mem_append_left _ hx

/-- C76 is false of the code for 64 bit maps of several planes: the history of every map
that has a cosine, latitude or longitude plane gives a BSCALE of 0. -/
theorem C76_longlong_violated (c : Command C) (env : Env) (w w' : World) (p : Params)
    (hp : populateParameters .ieee c = .ok (some p)) (hT : p.bitpix = 64)
    (hn : c.factories.length ≠ 1) {r : ℚ × ℚ} (hr : r ∈ virtualRanges) (v : VirtualImage)
    (lo hi : Dbl) (hv : makeVirtual .ieee .i64 (.fin r.1) (.fin r.2) = .ok (v, lo, hi))
    (f : Factory C) (hf : f ∈ c.factories) (pl : Plane C)
    (hm : f.make .i64 = .ok (some (pl, some v)))
    (h : execute .ieee c env w = .ok (w', .returned 0)) :
    ∃ map rest, w' c.filename = some (map :: rest) ∧
      Note.bscale (.fin 0) ∈ historiesOf map.header := by
  obtain ⟨p', T', map, rest, hp', hT', hmm, rfl, hg⟩ := execute_zero h
  rw [hp] at hp'
  simp only [Outcome.ok.injEq, Option.some.injEq] at hp'
  subst hp'
  rw [hT] at hT'
  have hT2 : T' = .i64 := by
    have : bitpixType 64 = some .i64 := rfl
    rw [this] at hT'
    exact (Option.some.inj hT').symm
  subst hT2
  obtain ⟨ims, loop, k, hi', -, -, -, -, hh⟩ := makeMapHdu_ok hmm
  have hb : ¬ p.bitpix < 0 := by omega
  refine ⟨map, rest, set_same _ _ _, ?_⟩
  rw [hh, historiesOf_updateExtremum, historiesOf_updateExtremum]
  obtain ⟨v', lo', hi2, hv', hz, -⟩ := longlong_bscale hr
  rw [hv] at hv'
  simp only [Outcome.ok.injEq, Prod.mk.injEq] at hv'
  obtain ⟨rfl, -, -⟩ := hv'
  have key : ∀ (fs : List (Factory C)) (ims : List (Plane C × Option VirtualImage)) (k : ℕ)
      (h : List Card), MadeImages .i64 fs ims → f ∈ fs →
      Note.bscale (.fin 0) ∈ historiesOf (allFacts .ieee p c.factories.length ims k h) := by
    intro fs
    induction fs with
    | nil => intro ims k h _ hf; simp at hf
    | cons g fs ih =>
      intro ims k h hmade hf
      rcases hmade with ⟨h1, h2⟩ | ⟨im, rest, h1, rfl, h2⟩
      · rcases List.mem_cons.mp hf with rfl | hf
        · simp [hm] at h1
        · exact ih ims k h h2 hf
      · rw [allFacts]
        rcases List.mem_cons.mp hf with rfl | hf
        · rw [hm] at h1
          simp only [Outcome.ok.injEq, Option.some.injEq] at h1
          subst h1
          refine mem_allFacts hb hn _ _ _ _ ?_
          rw [historiesOf_imageFacts hb hn]
          simp [hz]
        · exact ih rest (k + 1) _ h2 hf
  exact key _ _ _ _ hi' hf

/-- A cosine image in a 64 bit map. -/
def cosineFactory : Factory ℕ where
  populate p := .ok (some p)
  make T := makeVirtual .ieee T (.fin (-1)) (.fin 1) >>= fun (v, lo, hi) =>
    .ok (some (⟨fun c _ => .ok (true, Fp.ieee.mul (.fin (c / 8)) v.scale), ⟨some lo, some hi⟩⟩,
      some v))

/-- The hypotheses are met by a map of two cosine planes. -/
example : (values [] (execute .ieee (latitudeCommand [cosineFactory, cosineFactory] 64 none)
      goodEnv fun _ => none)).map (fun v => v.notes) =
    some [.text "Test projection created by MaRC.", .plane 1, .bscale (.fin 0),
      .bzero (.fin 0), .plane 2, .bscale (.fin 0), .bzero (.fin 0)] := by
  decide +kernel

/-! ## C77 -/

theorem populate_run {F : Fp} {user : Params} {qs : List Params} {p : Params}
    (h : populate F user qs = .ok p) : ∃ m, p = run F user [.merge m] := by
  unfold populate at h
  cases hm : mergeAll F (fresh 0) qs with
  | throw e => simp [hm] at h
  | ub => simp [hm] at h
  | ok m =>
    simp only [hm, Outcome.bind_ok] at h
    exact ⟨m, by simp [run, step, h]⟩

/-- C77: an author, origin or object given by the user is in the file's header,
whatever the source images say. -/
theorem C77_user_text (F : Fp) (c : Command C) (env : Env) (w w' : World)
    (before after : List Op) (k : StrKey) (s : String)
    (hc : c.params = run F (fresh 0) (before ++ .str k s :: after))
    (ha : ∀ op ∈ after, ¬ op.SetsStr k) (name : String)
    (hk : (k, name) ∈ [(StrKey.author, "AUTHOR"), (.origin, "ORIGIN"), (.object, "OBJECT")])
    (h : execute F c env w = .ok (w', .returned 0)) :
    ∃ map rest, w' c.filename = some (map :: rest) ∧ valueOf name map.header = strValue s := by
  obtain ⟨p, -, -, -, hp, -⟩ := execute_zero h
  obtain ⟨map, rest, hw, -, -, h1, h2, h3, -⟩ := C74_header F c env w w' p hp h
  obtain ⟨qs, -, hpop⟩ := populateParameters_ok hp
  obtain ⟨m, rfl⟩ := populate_run hpop
  have := C44_string F before (after ++ [.merge m]) k s (by
    intro op hop
    rcases List.mem_append.mp hop with hop | hop
    · exact ha op hop
    · simp only [List.mem_singleton] at hop
      subst hop
      exact id)
  rw [show before ++ Op.str k s :: (after ++ [Op.merge m]) =
    (before ++ .str k s :: after) ++ [.merge m] by simp, run_append, ← hc] at this
  refine ⟨map, rest, hw, ?_⟩
  simp only [List.mem_cons, Prod.mk.injEq, List.not_mem_nil, or_false] at hk
  rcases hk with ⟨rfl, rfl⟩ | ⟨rfl, rfl⟩ | ⟨rfl, rfl⟩
  · rw [h1, this]
  · rw [h2, this]
  · rw [h3, this]

/-- C77: once the user has given a comment, the COMMENT cards of the map are the user's
in the order given. -/
theorem C77_user_comments (F : Fp) (c : Command C) (env : Env) (w w' : World)
    (before after : List Op) (s : String)
    (hc : c.params = run F (fresh 0) (before ++ .comment s :: after))
    (h : execute F c env w = .ok (w', .returned 0)) :
    ∃ map rest, w' c.filename = some (map :: rest) ∧
      commentsOf map.header = (run F (fresh 0) before).comments ++ s :: pushed after := by
  obtain ⟨p, -, -, -, hp, -⟩ := execute_zero h
  obtain ⟨map, rest, hw, -, -, -, -, -, h1⟩ := C74_header F c env w w' p hp h
  obtain ⟨qs, -, hpop⟩ := populateParameters_ok hp
  obtain ⟨m, rfl⟩ := populate_run hpop
  have := (C44_comments F before (after ++ [.merge m]) s).1
  rw [show before ++ Op.comment s :: (after ++ [Op.merge m]) =
    (before ++ .comment s :: after) ++ [.merge m] by simp, run_append, ← hc] at this
  refine ⟨map, rest, hw, ?_⟩
  rw [h1, this]
  congr 2
  have key : ∀ l : List Op, pushed (l ++ [.merge m]) = pushed l := by
    intro l
    induction l with
    | nil => rfl
    | cons a l ih => cases a <;> simp [pushed, ih]
  exact key after

/-- C77: a blank value given by the user is the BLANK keyword of an integer map (one
that is within the data type, see C08 and C67). -/
theorem C77_user_blank (F : Fp) (c : Command C) (env : Env) (w w' : World)
    (before after : List Op) (b : ℤ)
    (hc : c.params = run F (fresh 0) (before ++ .blank (some b) :: after))
    (ha : ∀ op ∈ after, ¬ op.SetsBlank) (p : Params) (T : MapType)
    (hp : populateParameters F c = .ok (some p)) (hT : FitsType p.bitpix T)
    (hint : T.isIntegral = true) (h1 : T.intRange.1 ≤ b) (h2 : b ≤ T.intRange.2)
    (h : execute F c env w = .ok (w', .returned 0)) :
    ∃ map rest, w' c.filename = some (map :: rest) ∧
      valueOf "BLANK" map.header = some (.int b) := by
  obtain ⟨map, rest, hw, hv⟩ := blank_keyword hp hT h
  obtain ⟨qs, -, hpop⟩ := populateParameters_ok hp
  obtain ⟨m, rfl⟩ := populate_run hpop
  have := C44_blank F before (after ++ [.merge m]) (some b) (by
    intro op hop
    rcases List.mem_append.mp hop with hop | hop
    · exact ha op hop
    · simp only [List.mem_singleton] at hop
      subst hop
      exact id)
  rw [show before ++ Op.blank (some b) :: (after ++ [Op.merge m]) =
    (before ++ .blank (some b) :: after) ++ [.merge m] by simp, run_append, ← hc] at this
  refine ⟨map, rest, hw, ?_⟩
  rw [hv, this, hint, if_pos rfl, Option.map_some, wrapTo_of_mem h1 h2]

/-- C77 is false of the code for the scale and offset given by the user (DATA_SCALE and
DATA_OFFSET) and for the unit of a photo's data: unless a virtual image is mapped to
integers, there is no BSCALE, BZERO or BUNIT, whatever the parameters say. -/
theorem C77_scale_violated (F : Fp) (c : Command C) (env : Env) (w w' : World) (p : Params)
    (T : MapType) (hp : populateParameters F c = .ok (some p)) (hT : FitsType p.bitpix T)
    (hv : T.isIntegral = false ∨ ∀ f ∈ c.factories, ∀ pl v, f.make T ≠ .ok (some (pl, some v)))
    (h : execute F c env w = .ok (w', .returned 0)) :
    ∃ map rest, w' c.filename = some (map :: rest) ∧ valueOf "BSCALE" map.header = none ∧
      valueOf "BZERO" map.header = none ∧ valueOf "BUNIT" map.header = none := by
  obtain ⟨p', T', map, rest, hp', hT', hmm, rfl, hg⟩ := execute_zero h
  rw [hp] at hp'
  simp only [Outcome.ok.injEq, Option.some.injEq] at hp'
  subst hp'
  rw [(bitpixType_iff _ _).mpr hT] at hT'
  simp only [Option.some.injEq] at hT'
  subst hT'
  obtain ⟨ims, loop, k, hi, -, -, -, -, hh⟩ := makeMapHdu_ok hmm
  have hall : ∀ im ∈ ims, ∀ (k n : ℕ) (h : List Card),
      imageFacts F p p.bitpix k n im.2 h = h := by
    intro im him k n h
    rcases hv with hf | hf
    · have hb : p.bitpix < 0 := by
        generalize p.bitpix = b at hT
        cases hT <;> first | omega | simp [MapType.isIntegral] at hf
      cases him2 : im.2 <;> simp [imageFacts, hb]
    · have : im.2 = none := by
        clear hh hmm hg h
        generalize c.factories = fs at hi hf
        induction fs generalizing ims with
        | nil => cases hi; simp at him
        | cons f fs ih =>
          rcases hi with ⟨h1, h2⟩ | ⟨im', rest, h1, rfl, h2⟩
          · exact ih ims him h2 fun g hg => hf g (.tail _ hg)
          · rcases List.mem_cons.mp him with rfl | him
            · cases hv : im.2 with
              | none => rfl
              | some v =>
                obtain ⟨pl, x⟩ := im
                simp only at hv
                subst hv
                exact absurd h1 (hf f (.head _) pl v)
            · exact ih rest him h2 fun g hg => hf g (.tail _ hg)
      rw [this]
      rfl
  have hfacts : ∀ (ims' : List (Plane C × Option VirtualImage)) (k : ℕ) (h : List Card),
      (∀ im ∈ ims', im ∈ ims) → allFacts F p c.factories.length ims' k h = h := by
    intro ims'
    induction ims' with
    | nil => intro k h _; rfl
    | cons im ims' ih =>
      intro k h hsub
      rw [allFacts, hall im (hsub im (.head _)), ih _ _ fun i hi => hsub i (.tail _ hi)]
  rw [hfacts ims 1 _ fun _ h => h] at hh
  have e : (Hdu.new p.bitpix c.samples c.lines c.factories.length none).header =
      [.key "CREATOR" (.str packageString)] := rfl
  rw [e] at hh
  refine ⟨map, rest, set_same _ _ _, ?_, ?_, ?_⟩ <;> rw [hh] <;>
    simp [valueOf_updateExtremum, mapHeader, valueOf_append_history,
      valueOf_comments, valueOf_updateStr, valueOf_updateBlank, valueOf]

/-- C77 is false of the code for what photos tell about the observation: the telescope,
instrument, observer, reference and equinox collected from them never reach the file. -/
theorem C77_observation_violated (F : Fp) (c : Command C) (env : Env) (w w' : World)
    (h : execute F c env w = .ok (w', .returned 0)) :
    ∃ map rest, w' c.filename = some (map :: rest) ∧
      ∀ name ∈ ["TELESCOP", "INSTRUME", "OBSERVER", "REFERENC", "EQUINOX"],
        valueOf name map.header = none := by
  obtain ⟨p, T, map, rest, hp, hT, hmm, rfl, hg⟩ := execute_zero h
  obtain ⟨ims, loop, k, hi, -, -, -, -, hh⟩ := makeMapHdu_ok hmm
  have e : (Hdu.new p.bitpix c.samples c.lines c.factories.length none).header =
      [.key "CREATOR" (.str packageString)] := rfl
  rw [e] at hh
  refine ⟨map, rest, set_same _ _ _, ?_⟩
  intro name hname
  simp only [List.mem_cons, List.not_mem_nil, or_false] at hname
  rcases hname with rfl | rfl | rfl | rfl | rfl <;> rw [hh] <;>
    simp [valueOf_updateExtremum, valueOf_allFacts, mapHeader, valueOf_append_history,
      valueOf_comments, valueOf_updateStr, valueOf_updateBlank, valueOf]

end MaRC.Execute
