import Verif.Model.MapCommand
import Verif.Props.MapFactory
import Verif.Props.Fits
import Mathlib.Data.Nat.Digits.Defs

/-!
# C49, C58, C62: planes of a map, map commands
-/

namespace MaRC.MapCommand

open Fits MapFactory

variable {C : Type}

/-- The images the factories give, in order, when every factory ends normally. -/
def Made : List (ImageFactory C) → List (Plane C) → Prop
  | [], ps => ps = []
  | .ok none :: fs, ps => Made fs ps
  | .ok (some p) :: fs, ps => ∃ qs, ps = p :: qs ∧ Made fs qs
  | _ :: _, _ => False

theorem planeLoop_ok {T : MapType} {plots : ℕ → ℕ → List (C × ℕ)} {cfitsio : ℕ → Bool} :
    ∀ (fs : List (ImageFactory C)) (s s' : Loop), planeLoop T plots cfitsio fs s = .ok s' →
      ∃ planes maps flags, Made fs planes ∧ makePlanes T plots s.info planes = .ok (maps, s'.info) ∧
        maps.length = planes.length ∧
        s.image.writeAll (maps.zipIdx.map fun (m, k) => (cfitsio (s.planeCount + k), m)) =
          .ok (flags, s'.image) ∧
        s'.tried = s.tried + fs.length ∧ s'.planeCount = s.planeCount + planes.length ∧
        s'.notWritten = s.notWritten ++
          (flags.zipIdx.filterMap fun (b, k) => if b then none else some (s.planeCount + k)) := by
  intro fs
  induction fs with
  | nil =>
    intro s s' h
    simp only [planeLoop, Outcome.ok.injEq] at h
    subst h
    exact ⟨[], [], [], rfl, rfl, rfl, rfl, rfl, rfl, by simp⟩
  | cons f fs ih =>
    intro s s' h
    rw [planeLoop] at h
    cases f with
    | throw e => simp at h
    | ub => simp at h
    | ok o =>
      simp only [Outcome.bind_ok] at h
      cases o with
      | none =>
        simp only at h
        obtain ⟨planes, maps, flags, h1, h2, h3, h4, h5, h6, h7⟩ := ih _ _ h
        exact ⟨planes, maps, flags, h1, h2, h3, h4,
          by rw [h5, List.length_cons]; simp only; omega, h6, h7⟩
      | some p =>
        simp only at h
        cases hm : makePlane T plots p s.info with
        | throw e => simp [hm] at h
        | ub => simp [hm] at h
        | ok r =>
          obtain ⟨map, info⟩ := r
          simp only [hm, Outcome.bind_ok] at h
          cases hw : s.image.write (cfitsio s.planeCount) map with
          | throw e => simp [hw] at h
          | ub => simp [hw] at h
          | ok r =>
            obtain ⟨written, image⟩ := r
            simp only [hw, Outcome.bind_ok] at h
            obtain ⟨planes, maps, flags, h1, h2, h3, h4, h5, h6, h7⟩ := ih _ _ h
            simp only at h2 h4 h5 h6 h7
            refine ⟨p :: planes, map :: maps, written :: flags, ⟨planes, rfl, h1⟩, ?_, ?_, ?_,
              ?_, ?_, ?_⟩
            · simp only [makePlanes, hm, Outcome.bind_ok, h2]
            · simp [h3]
            · simp only [List.zipIdx_cons, List.map_cons, add_zero, Image.writeAll, hw,
                Outcome.bind_ok]
              have : List.map (fun x : List Dbl × ℕ => (cfitsio (s.planeCount + x.2), x.1))
                  (maps.zipIdx (0 + 1)) =
                  maps.zipIdx.map fun x => (cfitsio (s.planeCount + 1 + x.2), x.1) := by
                rw [List.zipIdx_succ, List.map_map]
                apply List.map_congr_left
                rintro ⟨a, k⟩ -
                simp only [Function.comp]
                rw [show s.planeCount + (k + 1) = s.planeCount + 1 + k by omega]
              rw [this, h4]
              rfl
            · rw [h5, List.length_cons]; omega
            · rw [h6, List.length_cons]; omega
            · rw [h7]
              simp only [List.zipIdx_cons]
              have : List.filterMap (fun x : Bool × ℕ =>
                    if x.1 then none else some (s.planeCount + x.2)) (flags.zipIdx (0 + 1)) =
                  flags.zipIdx.filterMap fun x =>
                    if x.1 then none else some (s.planeCount + 1 + x.2) := by
                rw [List.zipIdx_succ, List.filterMap_map]
                congr 1
                funext ⟨a, k⟩
                simp only [Function.comp]
                rw [show s.planeCount + (k + 1) = s.planeCount + 1 + k by omega]
              cases written with
              | true =>
                rw [List.filterMap_cons_none (by simp), this]
                simp
              | false =>
                rw [List.filterMap_cons_some (b := s.planeCount) (by simp), this]
                simp

theorem makePlane_ok {T : MapType} {plots : ℕ → ℕ → List (C × ℕ)} {p : Plane C}
    {info info' : PlotInfo} {m : List Dbl} (h : makePlane T plots p info = .ok (m, info')) :
    m.length = szMul info.samples info.lines ∧ info'.samples = info.samples ∧
      info'.lines = info.lines := by
  unfold makePlane at h
  cases hc : p.minmax.convert T with
  | throw e => simp [hc] at h
  | ub => simp [hc] at h
  | ok mm =>
    simp only [hc, Outcome.bind_ok] at h
    obtain ⟨blank, a, b, -, -, s, hp, rfl, -, h1, h2, -⟩ := makeMap_ok h
    obtain ⟨hm, -, -, -, -, h3, h4, -⟩ := plotAll_ok _ hp
    refine ⟨?_, by rw [h1, h3], by rw [h2, h4]⟩
    have fold : ∀ (l : List (ℕ × Dbl)) (m : List Dbl),
        (l.foldl (fun m p => m.set p.1 p.2) m).length = m.length := by
      intro l
      induction l with
      | nil => intro m; rfl
      | cons x l ih => intro m; rw [List.foldl_cons, ih, List.length_set]
    rw [hm, fold, List.length_replicate]

theorem makePlanes_sizes {T : MapType} {plots : ℕ → ℕ → List (C × ℕ)} :
    ∀ (planes : List (Plane C)) (info info' : PlotInfo) (maps : List (List Dbl)),
      makePlanes T plots info planes = .ok (maps, info') →
      ∀ m ∈ maps, m.length = szMul info.samples info.lines := by
  intro planes
  induction planes with
  | nil =>
    intro info info' maps h
    simp only [makePlanes, Outcome.ok.injEq, Prod.mk.injEq] at h
    simp [← h.1]
  | cons p ps ih =>
    intro info info' maps h
    rw [makePlanes] at h
    cases hm : makePlane T plots p info with
    | throw e => simp [hm] at h
    | ub => simp [hm] at h
    | ok r =>
      obtain ⟨m, info1⟩ := r
      simp only [hm, Outcome.bind_ok] at h
      obtain ⟨hl, h1, h2⟩ := makePlane_ok hm
      cases hr : makePlanes T plots info1 ps with
      | throw e => simp [hr] at h
      | ub => simp [hr] at h
      | ok r =>
        obtain ⟨ms, info2⟩ := r
        simp only [hr, Outcome.bind_ok, Outcome.ok.injEq, Prod.mk.injEq] at h
        obtain ⟨rfl, -⟩ := h
        intro x hx
        rcases List.mem_cons.mp hx with rfl | hx
        · exact hl
        · have := ih info1 info2 ms hr x hx
          rw [this, h1, h2]

theorem made_length {fs : List (ImageFactory C)} {ps : List (Plane C)} (h : Made fs ps) :
    ps.length ≤ fs.length := by
  induction fs generalizing ps with
  | nil => rw [show ps = [] from h]; simp
  | cons f fs ih =>
    match f, h with
    | .ok none, h => have := ih (ps := ps) h; simp; omega
    | .ok (some p), h =>
      obtain ⟨qs, rfl, h'⟩ := h
      have := ih h'
      simpa using this

/-- The plotting information at the start of the plane loop. -/
def startInfo (samples lines : ℕ) (blank : Option ℤ) : PlotInfo :=
  ⟨samples, lines, .empty, blank, ⟨0, [[]]⟩⟩

theorem makeMapPlanes_ok {T : MapType} {plots : ℕ → ℕ → List (C × ℕ)} {cfitsio : ℕ → Bool}
    {samples lines : ℕ} {blank : Option ℤ} {factories : List (ImageFactory C)} {s : Loop}
    {k : Option Dbl × Option Dbl}
    (h : makeMapPlanes T plots cfitsio samples lines blank factories = .ok (s, k)) :
    planeLoop T plots cfitsio factories
      ⟨1, startInfo samples lines blank, Image.new samples lines factories.length, 0, [], []⟩ =
      .ok s ∧ dataKeywords s.info = .ok k := by
  unfold makeMapPlanes at h
  change (planeLoop T plots cfitsio factories
      ⟨1, startInfo samples lines blank, Image.new samples lines factories.length, 0, [], []⟩ >>=
      fun s => dataKeywords s.info >>= fun k => Outcome.ok (s, k)) = _ at h
  cases hl : planeLoop T plots cfitsio factories
      ⟨1, startInfo samples lines blank, Image.new samples lines factories.length, 0, [], []⟩ with
  | throw e => simp [hl] at h
  | ub => simp [hl] at h
  | ok s1 =>
    simp only [hl, Outcome.bind_ok] at h
    cases hk : dataKeywords s1.info with
    | throw e => simp [hk] at h
    | ub => simp [hk] at h
    | ok k1 =>
      simp only [hk, Outcome.bind_ok, Outcome.ok.injEq, Prod.mk.injEq] at h
      obtain ⟨rfl, rfl⟩ := h
      exact ⟨rfl, hk⟩

/-- C49: the file of a map holds, in order and without gaps, the maps of the images
that could be made; every factory was asked once; no error is reported.  (Planes of
at least two elements, and CFITSIO succeeding.) -/
theorem C49_file (T : MapType) (plots : ℕ → ℕ → List (C × ℕ)) (cfitsio : ℕ → Bool)
    (samples lines : ℕ) (blank : Option ℤ) (factories : List (ImageFactory C))
    (h2 : 2 ≤ samples * lines)
    (hfit : samples * lines * factories.length + samples * lines < 2 ^ 63)
    (hok : ∀ k, cfitsio k = true) (s : Loop) (k : Option Dbl × Option Dbl)
    (h : makeMapPlanes T plots cfitsio samples lines blank factories = .ok (s, k)) :
    ∃ planes maps, Made factories planes ∧
      makePlanes T plots (startInfo samples lines blank) planes = .ok (maps, s.info) ∧
      maps.length = planes.length ∧ (∀ m ∈ maps, m.length = samples * lines) ∧
      s.image.Holds maps.flatten ∧ s.tried = factories.length ∧ s.notWritten = [] := by
  obtain ⟨hl, -⟩ := makeMapPlanes_ok h
  obtain ⟨planes, maps, flags, h1, h3, h4, h5, h6, -, h7⟩ := planeLoop_ok _ _ _ hl
  simp only at h3 h5 h6 h7
  have hsz : ∀ m ∈ maps, m.length = samples * lines := by
    intro m hm
    rw [makePlanes_sizes _ _ _ _ h3 m hm]
    exact Nat.mod_eq_of_lt (by simp only [startInfo, szMod]; omega)
  have hmap : (maps.zipIdx.map fun x : List Dbl × ℕ => (cfitsio (1 + x.2), x.1)) =
      maps.map fun d => (true, d) := by
    simp only [hok]
    rw [show (fun x : List Dbl × ℕ => (true, x.1)) = (fun d => (true, d)) ∘ Prod.fst from rfl,
      ← List.map_map, List.zipIdx_map_fst]
  rw [hmap] at h5
  obtain ⟨im, hw, hholds, -⟩ := C48_all_planes samples lines factories.length h2 hfit maps
    (by rw [h4]; exact made_length h1) hsz
  rw [hw] at h5
  simp only [Outcome.ok.injEq, Prod.mk.injEq] at h5
  obtain ⟨rfl, rfl⟩ := h5
  refine ⟨planes, maps, h1, h3, h4, hsz, hholds, by simpa using h6, ?_⟩
  rw [h7, List.nil_append, List.filterMap_eq_nil_iff]
  rintro ⟨b, j⟩ hb
  have := List.fst_mem_of_mem_zipIdx hb
  rw [List.eq_of_mem_replicate this]
  rfl

/-- C49: DATAMIN and DATAMAX are the least and the greatest datum stored in any plane,
and neither keyword is written when there is none. -/
theorem C49_keywords (T : MapType) (plots : ℕ → ℕ → List (C × ℕ)) (cfitsio : ℕ → Bool)
    (samples lines : ℕ) (blank : Option ℤ) (factories : List (ImageFactory C))
    (s : Loop) (kmin kmax : Option Dbl)
    (h : makeMapPlanes T plots cfitsio samples lines blank factories = .ok (s, kmin, kmax)) :
    ∃ planes, Made factories planes ∧
      ((∃ v, StoredIn T (plots samples lines) planes v) →
        ∃ m M, kmin = some m ∧ kmax = some M ∧
          StoredIn T (plots samples lines) planes m ∧
          StoredIn T (plots samples lines) planes M ∧
          ∀ v, StoredIn T (plots samples lines) planes v → m.le v = true ∧ v.le M = true) ∧
      ((¬ ∃ v, StoredIn T (plots samples lines) planes v) → kmin = none ∧ kmax = none) := by
  obtain ⟨hl, hk⟩ := makeMapPlanes_ok h
  obtain ⟨planes, maps, flags, h1, h3, -, -, -, -, -⟩ := planeLoop_ok _ _ _ hl
  obtain ⟨e1, e2, e3⟩ := C07_extrema_over_planes T plots samples lines blank [[]] planes maps
    s.info h3
  refine ⟨planes, h1, ?_, ?_⟩
  · intro hex
    obtain ⟨m, M, hext, hm, hM, hall⟩ := e1 hex
    unfold dataKeywords at hk
    rw [if_pos (e3.mpr hex), hext] at hk
    simp only [Outcome.ok.injEq, Prod.mk.injEq] at hk
    have nan1 : m.isNaN = false := Dbl.notNaN_of_le_right (hall m hm).1
    have nan2 : M.isNaN = false := Dbl.notNaN_of_le_right (hall M hM).2
    refine ⟨m, M, ?_, ?_, hm, hM, hall⟩
    · rw [← hk.1]; simp [extremumKeyword, nan1]
    · rw [← hk.2]; simp [extremumKeyword, nan2]
  · intro hno
    unfold dataKeywords at hk
    rw [if_neg (fun hd => hno (e3.mp hd))] at hk
    simp only [Outcome.ok.injEq, Prod.mk.injEq] at hk
    exact ⟨hk.1.symm, hk.2.symm⟩

/-- Example for C49: of three factories the second gives no image. -/
def exampleFactories : List (ImageFactory ℕ) :=
  [.ok (some ⟨fun c _ => .ok (true, .fin c), .empty⟩), .ok none,
   .ok (some ⟨fun _ _ => .ok (false, .fin 0), .empty⟩)]

example : ((makeMapPlanes .f64 (fun _ _ => [(5, 0), (7, 1)]) (fun _ => true) 2 1 none
    exampleFactories).bind fun (s, k) =>
      .ok ((List.range 7).map fun i => s.image.cells i, k, s.tried, s.noData, s.notWritten)) =
    .ok ([none, some (.fin 5), some (.fin 7), some .nan, some .nan, none, none],
      (some (.fin 5), some (.fin 7)), 3, [], []) := by decide +kernel

/-! ## C62 -/

theorem planeLoop_noData {T : MapType} {plots : ℕ → ℕ → List (C × ℕ)} {cfitsio : ℕ → Bool} :
    ∀ (fs : List (ImageFactory C)) (s s' : Loop), planeLoop T plots cfitsio fs s = .ok s' →
      ∃ planes more, Made fs planes ∧ s'.noData = s.noData ++ more ∧
        (∃ maps, makePlanes T plots s.info planes = .ok (maps, s'.info)) ∧
        ∀ k, k ∈ more ↔ ∃ j < planes.length, k = s.planeCount + j ∧ ∃ maps info,
          makePlanes T plots s.info (planes.take (j + 1)) = .ok (maps, info) ∧
          info.dataMapped = false := by
  intro fs
  induction fs with
  | nil =>
    intro s s' h
    simp only [planeLoop, Outcome.ok.injEq] at h
    subst h
    exact ⟨[], [], rfl, by simp, ⟨[], rfl⟩, by simp⟩
  | cons f fs ih =>
    intro s s' h
    rw [planeLoop] at h
    cases f with
    | throw e => simp at h
    | ub => simp at h
    | ok o =>
      simp only [Outcome.bind_ok] at h
      cases o with
      | none =>
        simp only at h
        have := ih _ _ h
        exact this
      | some p =>
        simp only at h
        cases hm : makePlane T plots p s.info with
        | throw e => simp [hm] at h
        | ub => simp [hm] at h
        | ok r =>
          obtain ⟨map, info⟩ := r
          simp only [hm, Outcome.bind_ok] at h
          cases hw : s.image.write (cfitsio s.planeCount) map with
          | throw e => simp [hw] at h
          | ub => simp [hw] at h
          | ok r =>
            obtain ⟨written, image⟩ := r
            simp only [hw, Outcome.bind_ok] at h
            obtain ⟨planes, more, h1, h2, ⟨maps, h3⟩, h4⟩ := ih _ _ h
            simp only at h2 h3 h4
            refine ⟨p :: planes, (if info.dataMapped then [] else [s.planeCount]) ++ more,
              ⟨planes, rfl, h1⟩, ?_, ⟨map :: maps, ?_⟩, ?_⟩
            · rw [h2]; split_ifs <;> simp
            · simp only [makePlanes, hm, Outcome.bind_ok, h3]
            · intro k
              rw [List.mem_append, h4]
              have step : ∀ l, (∃ maps i, makePlanes T plots s.info (p :: l) = .ok (maps, i) ∧
                  i.dataMapped = false) ↔ ∃ maps i, makePlanes T plots info l = .ok (maps, i) ∧
                  i.dataMapped = false := by
                intro l
                simp only [makePlanes, hm, Outcome.bind_ok]
                constructor
                · rintro ⟨ms, i, hi, hd⟩
                  cases hr : makePlanes T plots info l with
                  | throw e => simp [hr] at hi
                  | ub => simp [hr] at hi
                  | ok r =>
                    obtain ⟨ms', i'⟩ := r
                    simp only [hr, Outcome.bind_ok, Outcome.ok.injEq, Prod.mk.injEq] at hi
                    obtain ⟨-, rfl⟩ := hi
                    exact ⟨ms', i', rfl, hd⟩
                · rintro ⟨ms, i, hi, hd⟩
                  exact ⟨map :: ms, i, by simp [hi], hd⟩
              constructor
              · rintro (hk | ⟨j, hj, rfl, hx⟩)
                · by_cases hd : info.dataMapped = true
                  · simp [hd] at hk
                  · simp only [hd, Bool.false_eq_true, if_false, List.mem_singleton] at hk
                    refine ⟨0, by simp, by simpa using hk, ?_⟩
                    simp only [zero_add, List.take_succ_cons, List.take_zero]
                    rw [step]
                    exact ⟨[], info, rfl, by simpa using hd⟩
                · refine ⟨j + 1, by simpa using hj, by omega, ?_⟩
                  rw [List.take_succ_cons, step]
                  exact hx
              · rintro ⟨j, hj, rfl, hx⟩
                cases j with
                | zero =>
                  left
                  simp only [zero_add, List.take_succ_cons, List.take_zero] at hx
                  rw [step] at hx
                  obtain ⟨ms, i, hi, hd⟩ := hx
                  simp only [makePlanes, Outcome.ok.injEq, Prod.mk.injEq] at hi
                  rw [← hi.2] at hd
                  simp [hd]
                | succ j =>
                  right
                  rw [List.take_succ_cons, step] at hx
                  exact ⟨j, by simpa using hj, by omega, hx⟩

/-- C62, the part that holds: plane `j + 1` is reported as empty exactly when no datum
was stored in it *nor in any plane before it*. -/
theorem C62_no_data_partial (T : MapType) (plots : ℕ → ℕ → List (C × ℕ)) (cfitsio : ℕ → Bool)
    (samples lines : ℕ) (blank : Option ℤ) (factories : List (ImageFactory C))
    (s : Loop) (k : Option Dbl × Option Dbl)
    (h : makeMapPlanes T plots cfitsio samples lines blank factories = .ok (s, k)) :
    ∃ planes, Made factories planes ∧ ∀ n, n ∈ s.noData ↔ ∃ j < planes.length, n = j + 1 ∧
      ∀ v, ¬ StoredIn T (plots samples lines) (planes.take (j + 1)) v := by
  obtain ⟨hl, -⟩ := makeMapPlanes_ok h
  obtain ⟨planes, more, h1, h2, ⟨maps, h3⟩, h4⟩ := planeLoop_noData _ _ _ hl
  simp only [List.nil_append] at h2 h3 h4
  refine ⟨planes, h1, fun n => ?_⟩
  rw [h2, h4]
  constructor
  · rintro ⟨j, hj, rfl, ms, i, hi, hd⟩
    refine ⟨j, hj, by omega, fun v hv => ?_⟩
    obtain ⟨-, -, e3⟩ := C07_extrema_over_planes T plots samples lines blank [[]] _ ms i hi
    rw [e3.mpr ⟨v, hv⟩] at hd
    cases hd
  · rintro ⟨j, hj, rfl, hno⟩
    have split : ∀ (l : List (Plane C)) (j : ℕ) (info info' : PlotInfo) (ms : List (List Dbl)),
        makePlanes T plots info l = .ok (ms, info') →
        ∃ ms' i, makePlanes T plots info (l.take j) = .ok (ms', i) := by
      intro l
      induction l with
      | nil => intro j info info' ms _; exact ⟨[], info, by simp [makePlanes]⟩
      | cons p l ih =>
        intro j info info' ms hms
        cases j with
        | zero => exact ⟨[], info, rfl⟩
        | succ j =>
          rw [makePlanes] at hms
          cases hp : makePlane T plots p info with
          | throw e => simp [hp] at hms
          | ub => simp [hp] at hms
          | ok r =>
            obtain ⟨m, i1⟩ := r
            simp only [hp, Outcome.bind_ok] at hms
            cases hr : makePlanes T plots i1 l with
            | throw e => simp [hr] at hms
            | ub => simp [hr] at hms
            | ok r =>
              obtain ⟨ms1, i2⟩ := r
              obtain ⟨ms', i, hi⟩ := ih j i1 i2 ms1 hr
              exact ⟨m :: ms', i, by simp [makePlanes, hp, hi]⟩
    obtain ⟨ms, i, hi⟩ := split planes (j + 1) _ _ _ h3
    refine ⟨j, hj, by omega, ms, i, hi, ?_⟩
    obtain ⟨-, -, e3⟩ := C07_extrema_over_planes T plots samples lines blank [[]] _ ms i hi
    cases hd : i.dataMapped with
    | false => rfl
    | true =>
      obtain ⟨v, hv⟩ := e3.mp hd
      exact absurd hv (hno v)

/-- C62 is false of the code: once one plane got data, empty planes after it are not
reported.  Here the second plane of `exampleFactories` stores nothing (its image has
no data anywhere), and no plane is reported. -/
theorem C62_violated :
    ((makeMapPlanes .f64 (fun _ _ => [(5, 0), (7, 1)]) (fun _ => true) 2 1 none
      exampleFactories).bind fun (s, _) => .ok s.noData) = .ok [] ∧
    Made exampleFactories
      [⟨fun c _ => .ok (true, .fin c), .empty⟩, ⟨fun _ _ => .ok (false, .fin 0), .empty⟩] ∧
    ∀ v, ¬ StoredIn .f64 [(5, 0), (7, 1)]
      [⟨fun (_ : ℕ) _ => .ok (false, .fin 0), .empty⟩] v := by
  refine ⟨by decide +kernel, ⟨_, rfl, ⟨_, rfl, rfl⟩⟩, ?_⟩
  rintro v ⟨p, hp, lo, hi, -, c, o, -, d, hd, -⟩
  rw [List.mem_singleton.mp hp] at hd
  simp at hd

/-- C62 example: a first empty plane is reported. -/
example : ((makeMapPlanes .f64 (fun _ _ => [(5, 0), (7, 1)]) (fun _ => true) 2 1 none
    exampleFactories.reverse).bind fun (s, _) => .ok s.noData) = .ok [1] := by decide +kernel

/-! ## C58 -/

theorem runCommands_spec : ∀ (cs : List (Outcome ℤ)) (n : ℕ) (r : Outcome ℤ),
    ((∀ c ∈ cs, ∃ v, c = .ok v) → runCommands cs (n, r) =
      (n + cs.length, if ∀ c ∈ cs, c = .ok 0 then r else .ok 1)) := by
  intro cs
  induction cs with
  | nil => intro n r _; simp [runCommands]
  | cons c cs ih =>
    intro n r h
    obtain ⟨v, rfl⟩ := h c List.mem_cons_self
    rw [runCommands, ih _ _ fun c hc => h c (.tail _ hc)]
    simp only [List.length_cons, List.forall_mem_cons, Outcome.ok.injEq]
    by_cases hv : v = 0
    · simp [hv]; omega
    · simp [hv]; omega

theorem runCommands_throw (pre : List (Outcome ℤ)) (e : Exc) (post : List (Outcome ℤ)) :
    ∀ (n : ℕ) (r : Outcome ℤ), (∀ c ∈ pre, ∃ v, c = .ok v) →
      runCommands (pre ++ .throw e :: post) (n, r) = (n + pre.length + 1, .throw e) := by
  induction pre with
  | nil => intro n r _; simp [runCommands]
  | cons c pre ih =>
    intro n r h
    obtain ⟨v, rfl⟩ := h c List.mem_cons_self
    rw [List.cons_append, runCommands, ih _ _ fun c hc => h c (.tail _ hc)]
    simp only [List.length_cons, Prod.mk.injEq, and_true]
    omega

theorem parseFiles_spec (files : List Parsed) (h : ∀ f ∈ files, ∃ b, f = .ok (0, b)) :
    parseFiles files = (files.length, .ok true) := by
  induction files with
  | nil => rfl
  | cons f fs ih =>
    obtain ⟨b, rfl⟩ := h f List.mem_cons_self
    rw [parseFiles, ih fun f hf => h f (.tail _ hf)]
    simp

theorem parseFiles_all : ∀ (fs : List Parsed) (n : ℕ), parseFiles fs = (n, .ok true) →
      ∀ f ∈ fs, ∃ b, f = .ok (0, b) := by
  intro fs
  induction fs with
    | nil => simp
    | cons f fs ih =>
      intro n hn
      match f with
      | .throw _ => simp [parseFiles] at hn
      | .ub => simp [parseFiles] at hn
      | .ok (c, b) =>
        by_cases hc : c = 0
        · subst hc
          simp only [parseFiles, Prod.mk.injEq] at hn
          intro g hg
          rcases List.mem_cons.mp hg with rfl | hg
          · exact ⟨b, rfl⟩
          · exact ih _ (Prod.ext rfl hn.2) g hg
        · rw [parseFiles] at hn
          · simp at hn
          · intro b' hb'; simp at hb'; exact hc hb'.1

/-- C58: when configuration, command line and input files are in order and no map
command throws, every map command is started, and the exit status is 0 exactly when
all of them return 0, and 1 otherwise. -/
theorem C58_all_run (config : ℤ × Bool) (hc : config.1 = 0 ∨ config.2 = true)
    (files : List Parsed) (hf : ∀ f ∈ files, ∃ b, f = .ok (0, b))
    (commands : List (Outcome ℤ)) (hcmd : ∀ c ∈ commands, ∃ v, c = .ok v) :
    main (.ok config) true files commands =
      ⟨files.length, commands.length, .ok (if ∀ c ∈ commands, c = .ok 0 then 0 else 1)⟩ := by
  obtain ⟨code, enoent⟩ := config
  simp only at hc
  unfold main
  simp only
  rw [if_neg (by rintro ⟨h1, h2⟩; rcases hc with hc | hc <;> simp_all), if_neg (by simp),
    parseFiles_spec files hf]
  simp only
  rw [runCommands_spec _ _ _ hcmd]
  simp only [Nat.zero_add]
  split_ifs <;> rfl

/-- C58: a map command that throws ends the program with status -1; the commands
after it are not started. -/
theorem C58_exception_stops (config : ℤ × Bool) (hc : config.1 = 0 ∨ config.2 = true)
    (files : List Parsed) (hf : ∀ f ∈ files, ∃ b, f = .ok (0, b))
    (pre post : List (Outcome ℤ)) (e : Exc) (hcmd : ∀ c ∈ pre, ∃ v, c = .ok v) :
    main (.ok config) true files (pre ++ .throw e :: post) =
      ⟨files.length, pre.length + 1, .ok (-1)⟩ := by
  obtain ⟨code, enoent⟩ := config
  simp only at hc
  unfold main
  simp only
  rw [if_neg (by rintro ⟨h1, h2⟩; rcases hc with hc | hc <;> simp_all), if_neg (by simp),
    parseFiles_spec files hf]
  simp only
  rw [runCommands_throw pre e post _ _ hcmd]
  simp [catchAll]

/-- C58: no map command is started unless every input file was parsed. -/
theorem C58_parse_first (config : Parsed) (cmdline : Bool) (files : List Parsed)
    (commands : List (Outcome ℤ)) (h : 0 < (main config cmdline files commands).started) :
    cmdline = true ∧ ∀ f ∈ files, ∃ b, f = .ok (0, b) := by
  unfold main at h
  match config with
  | .throw _ => simp at h
  | .ub => simp at h
  | .ok (code, enoent) =>
    simp only at h
    split_ifs at h with h1 h2
    · simp at h
    · simp at h
    · refine ⟨by simpa using h2, ?_⟩
      rcases hp : parseFiles files with ⟨n, r⟩
      rw [hp] at h
      match r with
      | .throw _ => simp at h
      | .ub => simp at h
      | .ok false => simp at h
      | .ok true => exact parseFiles_all files n hp

/-- C58: exit status 0 means that every input file was parsed and every map command
returned 0. -/
theorem C58_success (config : Parsed) (cmdline : Bool) (files : List Parsed)
    (commands : List (Outcome ℤ)) (h : (main config cmdline files commands).status = .ok 0) :
    cmdline = true ∧ (∀ f ∈ files, ∃ b, f = .ok (0, b)) ∧ ∀ c ∈ commands, c = .ok 0 := by
  have key : ∀ (cs : List (Outcome ℤ)) (n : ℕ) (r : Outcome ℤ),
      catchAll (runCommands cs (n, r)).2 = .ok 0 → r = .ok 0 ∧ ∀ c ∈ cs, c = .ok 0 := by
    intro cs
    induction cs with
    | nil =>
      intro n r hr
      simp only [runCommands] at hr
      match r with
      | .throw _ => simp [catchAll] at hr
      | .ub => simp [catchAll] at hr
      | .ok v => simp only [catchAll] at hr; exact ⟨hr, by simp⟩
    | cons c cs ih =>
      intro n r hr
      match c with
      | .throw _ => simp [runCommands, catchAll] at hr
      | .ub => simp [runCommands, catchAll] at hr
      | .ok v =>
        rw [runCommands] at hr
        obtain ⟨h1, h2⟩ := ih _ _ hr
        by_cases hv : v = 0
        · subst hv
          simp only [ne_eq, not_true_eq_false, if_false] at h1
          refine ⟨h1, ?_⟩
          intro c hc
          rcases List.mem_cons.mp hc with rfl | hc
          · rfl
          · exact h2 c hc
        · simp [hv] at h1
  cases commands with
  | cons c cs =>
    have hstart : 0 < (main config cmdline files (c :: cs)).started := by
      have hs : ∀ (n : ℕ) (r : Outcome ℤ) (cs : List (Outcome ℤ)), n ≤ (runCommands cs (n, r)).1 := by
        intro n r cs
        induction cs generalizing n r with
        | nil => simp [runCommands]
        | cons c cs ih =>
          match c with
          | .throw _ => simp [runCommands]
          | .ub => simp [runCommands]
          | .ok v => rw [runCommands]; exact le_trans (by omega) (ih _ _)
      unfold main at h ⊢
      match config with
      | .throw _ => simp at h
      | .ub => simp at h
      | .ok (code, enoent) =>
        simp only at h ⊢
        split_ifs at h ⊢ with h1 h2
        · simp at h
        · simp at h
        · rcases hp : parseFiles files with ⟨n, r⟩
          rw [hp] at h
          match r with
          | .throw _ => simp at h
          | .ub => simp at h
          | .ok false => simp at h
          | .ok true =>
            simp only
            match c with
            | .throw _ => simp [runCommands]
            | .ub => simp [runCommands]
            | .ok v => rw [runCommands]; exact lt_of_lt_of_le (by omega) (hs _ _ _)
    obtain ⟨h1, h2⟩ := C58_parse_first _ _ _ _ hstart
    refine ⟨h1, h2, ?_⟩
    unfold main at h
    match config with
    | .throw _ => simp at h
    | .ub => simp at h
    | .ok (code, enoent) =>
      simp only at h
      split_ifs at h with h3 h4
      · simp at h
      · simp at h
      · rw [parseFiles_spec files h2] at h
        exact (key _ _ _ h).2
  | nil =>
    unfold main at h
    match config with
    | .throw _ => simp at h
    | .ub => simp at h
    | .ok (code, enoent) =>
      simp only at h
      split_ifs at h with h3 h4
      · simp at h
      · simp at h
      · refine ⟨by simpa using h4, ?_, by simp⟩
        rcases hp : parseFiles files with ⟨n, r⟩
        rw [hp] at h
        match r with
        | .throw _ => simp at h
        | .ub => simp at h
        | .ok false => simp at h
        | .ok true => exact parseFiles_all files n hp

example : main (.ok (-1, true)) true [.ok (0, false)] [.ok 0, .ok (-1), .ok 0] = ⟨1, 3, .ok 1⟩ := by
  rfl

/-- The number of digits used to align plane numbers is the length of the number. -/
theorem C49_number_of_digits (n : ℕ) : numberOfDigits n = (Nat.digits 10 n).length := by
  induction n using Nat.strong_induction_on with
  | _ n ih =>
    unfold numberOfDigits
    split_ifs with h
    · simp [h]
    · rw [Nat.digits_def' (by norm_num) (by omega), List.length_cons, ih (n / 10) (by omega)]

end MaRC.MapCommand
