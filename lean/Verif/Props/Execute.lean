import Verif.Lemmas.Execute
import Verif.Props.VirtualImage

/-!
# C74, C75, C77: the FITS file of a map command
-/

namespace MaRC.Execute

open Fits MapFactory MapCommand MapParams

variable {C : Type}

/-! ## C74 -/

/-- C74: the data type used for a map is the one its BITPIX stands for. -/
theorem C74_type (n : ℤ) (T : MapType) : bitpixType n = some T ↔ FitsType n T :=
  bitpixType_iff n T

/-- The parameters of a map that is written are those of the user completed by those of
its source images, so C44 to C47 apply to them. -/
theorem C74_parameters (F : Fp) (c : Command C) (p : Params)
    (h : populateParameters F c = .ok (some p)) :
    ∃ qs, Supplies c.factories 1 qs ∧ populate F c.params qs = .ok p :=
  populateParameters_ok h

/-- C74: a command that returns success has left a file with the map's data type and
size, and with a second image of 8 bit data exactly if a grid was asked for. -/
theorem C74_file (F : Fp) (c : Command C) (env : Env) (w w' : World)
    (h : execute F c env w = .ok (w', .returned 0)) :
    ∃ p T map rest, populateParameters F c = .ok (some p) ∧ FitsType p.bitpix T ∧
      w' c.filename = some (map :: rest) ∧ (∀ n, n ≠ c.filename → w' n = w n) ∧
      map.bitpix = p.bitpix ∧
      map.axes = (if c.factories.length > 1 then [c.samples, c.lines, c.factories.length]
        else [c.samples, c.lines]) ∧
      (c.grid = none → rest = []) ∧
      (c.grid ≠ none → ∃ grid, rest = [grid] ∧ grid.bitpix = 8 ∧
        grid.axes = [c.samples, c.lines]) := by
  obtain ⟨p, T, map, rest, hp, hT, hm, rfl, hg⟩ := execute_zero h
  obtain ⟨ims, loop, k, -, -, -, hb, ha, -⟩ := makeMapHdu_ok hm
  refine ⟨p, T, map, rest, hp, (bitpixType_iff _ _).mp hT, set_same _ _ _, ?_, hb, ha, ?_, ?_⟩
  · intro n hn
    rw [set_other _ _ _ _ hn, set_other _ _ _ _ hn, set_other _ _ _ _ hn]
  · intro hn
    rcases hg with ⟨-, h⟩ | ⟨g, hdu, h, -, -⟩
    · exact h
    · simp [hn] at h
  · intro hn
    rcases hg with ⟨h, -⟩ | ⟨g, hdu, -, h2, h3⟩
    · exact absurd h hn
    · obtain ⟨data, written, -, -, h4, h5, -⟩ := makeGridHdu_ok h2
      exact ⟨hdu, h3, h4, h5⟩

/-- C74: the header of the map names its author, origin and object, has the comments in
their order, and says first in its history which projection it is. -/
theorem C74_header (F : Fp) (c : Command C) (env : Env) (w w' : World) (p : Params)
    (hp : populateParameters F c = .ok (some p))
    (h : execute F c env w = .ok (w', .returned 0)) :
    ∃ map rest, w' c.filename = some (map :: rest) ∧
      valueOf "CREATOR" map.header = some (.str packageString) ∧
      valueOf "EXTNAME" map.header = none ∧
      valueOf "AUTHOR" map.header = strValue (p.str .author) ∧
      valueOf "ORIGIN" map.header = strValue (p.str .origin) ∧
      valueOf "OBJECT" map.header = strValue (p.str .object) ∧
      commentsOf map.header = p.comments := by
  obtain ⟨p', T, map, rest, hp', hT, hm, rfl, hg⟩ := execute_zero h
  rw [hp] at hp'
  simp only [Outcome.ok.injEq, Option.some.injEq] at hp'
  subst hp'
  obtain ⟨ims, loop, k, -, -, -, -, -, hh⟩ := makeMapHdu_ok hm
  refine ⟨map, rest, set_same _ _ _, ?_⟩
  rw [hh]
  have e : (Hdu.new p.bitpix c.samples c.lines c.factories.length none).header =
      [.key "CREATOR" (.str packageString)] := rfl
  rw [e]
  refine ⟨?_, ?_, ?_, ?_, ?_, ?_⟩
  · simp [valueOf_updateExtremum, valueOf_allFacts, mapHeader, valueOf_append_history,
      valueOf_comments, valueOf_updateStr, valueOf_updateBlank, valueOf]
  · simp [valueOf_updateExtremum, valueOf_allFacts, mapHeader, valueOf_append_history,
      valueOf_comments, valueOf_updateStr, valueOf_updateBlank, valueOf]
  · by_cases hs : p.str .author = "" <;> simp [hs, valueOf_updateExtremum, mapHeader, strValue,
      valueOf_allFacts, valueOf_append_history,
      valueOf_comments, valueOf_updateStr, valueOf_updateBlank, valueOf]
  · by_cases hs : p.str .origin = "" <;> simp [hs, valueOf_updateExtremum, mapHeader, strValue,
      valueOf_allFacts, valueOf_append_history,
      valueOf_comments, valueOf_updateStr, valueOf_updateBlank, valueOf]
  · by_cases hs : p.str .object = "" <;> simp [hs, valueOf_updateExtremum, mapHeader, strValue,
      valueOf_allFacts, valueOf_append_history,
      valueOf_comments, valueOf_updateStr, valueOf_updateBlank, valueOf]
  · simp [commentsOf_updateExtremum, commentsOf_allFacts, mapHeader, commentsOf_append_history,
      commentsOf_comments, commentsOf_updateStr, commentsOf_updateBlank, commentsOf]

/-- C74: the data array of the map holds the maps of the images that could be made, one
after the other.  DATAMIN and DATAMAX are the least and the greatest datum stored.
(Planes of at least two elements, and CFITSIO succeeding; see `C74_unwritten_violated`
and `C48_one_by_one_violated`.) -/
theorem C74_data_partial (F : Fp) (c : Command C) (env : Env) (w w' : World) (p : Params) (T : MapType)
    (hp : populateParameters F c = .ok (some p)) (hT : FitsType p.bitpix T)
    (h2 : 2 ≤ c.samples * c.lines)
    (hfit : c.samples * c.lines * c.factories.length + c.samples * c.lines < 2 ^ 63)
    (hok : ∀ k, env.plane k = true)
    (h : execute F c env w = .ok (w', .returned 0)) :
    ∃ map rest ims maps info, w' c.filename = some (map :: rest) ∧
      MadeImages T c.factories ims ∧
      makePlanes T c.plots (startInfo c.samples c.lines p.blank) (ims.map Prod.fst) =
        .ok (maps, info) ∧
      (∀ m ∈ maps, m.length = c.samples * c.lines) ∧
      map.image.Holds maps.flatten ∧
      ((∃ v, StoredIn T (c.plots c.samples c.lines) (ims.map Prod.fst) v) →
        ∃ m M, valueOf "DATAMIN" map.header = some (numValue T m) ∧
          valueOf "DATAMAX" map.header = some (numValue T M) ∧
          StoredIn T (c.plots c.samples c.lines) (ims.map Prod.fst) m ∧
          StoredIn T (c.plots c.samples c.lines) (ims.map Prod.fst) M ∧
          ∀ v, StoredIn T (c.plots c.samples c.lines) (ims.map Prod.fst) v →
            m.le v = true ∧ v.le M = true) ∧
      ((¬ ∃ v, StoredIn T (c.plots c.samples c.lines) (ims.map Prod.fst) v) →
        valueOf "DATAMIN" map.header = none ∧ valueOf "DATAMAX" map.header = none) := by
  obtain ⟨p', T', map, rest, hp', hT', hm, rfl, hg⟩ := execute_zero h
  rw [hp] at hp'
  simp only [Outcome.ok.injEq, Option.some.injEq] at hp'
  subst hp'
  rw [(bitpixType_iff _ _).mpr hT] at hT'
  simp only [Option.some.injEq] at hT'
  subst hT'
  obtain ⟨ims, loop, k, hi, hl, him, -, -, hh⟩ := makeMapHdu_ok hm
  obtain ⟨planes, maps, m1, m2, m3, m4, m5, -, -⟩ := C49_file T c.plots env.plane c.samples
    c.lines p.blank (c.factories.map (planeOf T)) h2 (by rw [List.length_map]; exact hfit) hok
    loop k hl
  obtain ⟨kmin, kmax⟩ := k
  obtain ⟨planes', n1, n2, n3⟩ := C49_keywords T c.plots env.plane c.samples
    c.lines p.blank (c.factories.map (planeOf T)) loop kmin kmax hl
  obtain rfl := Made.unique m1 hi.made
  obtain rfl := Made.unique n1 hi.made
  have hnone : ∀ x, x = "DATAMIN" ∨ x = "DATAMAX" →
      valueOf x (allFacts F p c.factories.length ims 1 (mapHeader T c p
        (Hdu.new p.bitpix c.samples c.lines c.factories.length none).header)) = none := by
    intro x hx
    have e : (Hdu.new p.bitpix c.samples c.lines c.factories.length none).header =
      [.key "CREATOR" (.str packageString)] := rfl
    rw [e]
    rcases hx with rfl | rfl <;> simp [valueOf_allFacts, mapHeader, valueOf_append_history,
      valueOf_comments, valueOf_updateStr, valueOf_updateBlank, valueOf]
  refine ⟨map, rest, ims, maps, loop.info, set_same _ _ _, hi, m2, m4, by rw [him]; exact m5,
    ?_, ?_⟩
  · intro hex
    obtain ⟨m, M, rfl, rfl, a1, a2, a3⟩ := n2 hex
    refine ⟨m, M, ?_, ?_, a1, a2, a3⟩
    · rw [hh]; simp [valueOf_updateExtremum]
    · rw [hh]; simp [valueOf_updateExtremum]
  · intro hno
    obtain ⟨rfl, rfl⟩ := n3 hno
    rw [hh]
    exact ⟨hnone _ (.inl rfl), hnone _ (.inr rfl)⟩

/-- C74: the grid image is named GRID, has the grid's comments in their order, and holds
the drawn grid, of which 0 is blank and 255 the only datum. -/
theorem C74_grid (F : Fp) (c : Command C) (env : Env) (w w' : World) (p : Params)
    (g : Outcome (List Dbl)) (hp : populateParameters F c = .ok (some p))
    (hg : c.grid = some g)
    (h : execute F c env w = .ok (w', .returned 0)) :
    ∃ map grid data, w' c.filename = some [map, grid] ∧ g = .ok data ∧
      valueOf "EXTNAME" grid.header = some (.str "GRID") ∧
      valueOf "CREATOR" grid.header = some (.str packageString) ∧
      valueOf "DATAMIN" grid.header = some (.real (.fin 255)) ∧
      valueOf "DATAMAX" grid.header = some (.real (.fin 255)) ∧
      valueOf "BLANK" grid.header = some (.int 0) ∧
      commentsOf grid.header = p.xcomments ∧
      (2 ≤ c.samples * c.lines → c.samples * c.lines < 2 ^ 62 →
        data.length = c.samples * c.lines → env.gridData = true → grid.image.Holds data) := by
  obtain ⟨p', T', map, rest, hp', hT', hm, rfl, hr⟩ := execute_zero h
  rw [hp] at hp'
  simp only [Outcome.ok.injEq, Option.some.injEq] at hp'
  subst hp'
  rcases hr with ⟨h1, -⟩ | ⟨g', hdu, h1, h2, rfl⟩
  · simp [hg] at h1
  rw [hg] at h1
  simp only [Option.some.injEq] at h1
  subst h1
  obtain ⟨data, written, hd, hw, -, -, hh⟩ := makeGridHdu_ok h2
  have e : (Hdu.new 8 c.samples c.lines 1 (some "GRID")).header =
      [.key "EXTNAME" (.str "GRID"), .key "CREATOR" (.str packageString)] := rfl
  rw [e] at hh
  refine ⟨map, hdu, data, set_same _ _ _, hd, ?_, ?_, ?_, ?_, ?_, ?_, ?_⟩
  · rw [hh]; simp [valueOf_updateKey, valueOf_updateReal, valueOf_append_history,
      valueOf_comments, valueOf]
  · rw [hh]; simp [valueOf_updateKey, valueOf_updateReal, valueOf_append_history,
      valueOf_comments, valueOf]
  · rw [hh]; simp [valueOf_updateKey, valueOf_updateReal, Dbl.isNaN]
  · rw [hh]; simp [valueOf_updateKey, valueOf_updateReal, Dbl.isNaN]
  · rw [hh]; simp [valueOf_updateKey]
  · rw [hh]; simp [commentsOf_updateKey, commentsOf_updateReal, commentsOf_append_history,
      commentsOf_comments, commentsOf]
  · intro a1 a2 a3 a4
    obtain ⟨im, b1, b2, -⟩ := C48_all_planes c.samples c.lines 1 a1 (by omega) [data] (by simp)
      (by simpa using a3)
    rw [a4] at hw
    simp only [List.map_cons, List.map_nil, Image.writeAll, hw, Outcome.bind_ok,
      Outcome.ok.injEq, Prod.mk.injEq] at b1
    rw [b1.2]
    simpa using b2

/-! ## C75 -/

/-- C75: a command touches no file but its own, however it ends. -/
theorem C75_other_files (F : Fp) (c : Command C) (env : Env) (w w' : World) (r : Result)
    (h : execute F c env w = .ok (w', r)) (n : String) (hn : n ≠ c.filename) : w' n = w n := by
  have key : ∀ f g : Option (List Hdu), (w.set c.filename f).set c.filename g n = w n := by
    intro f g; rw [set_other _ _ _ _ hn, set_other _ _ _ _ hn]
  have key3 : ∀ f g k : Option (List Hdu),
      ((w.set c.filename f).set c.filename g).set c.filename k n = w n := by
    intro f g k; rw [set_other _ _ _ _ hn, key]
  unfold execute at h
  split at h
  · simp at h
  · simp only [Outcome.ok.injEq, Prod.mk.injEq] at h; rw [← h.1]
  · simp only [Outcome.ok.injEq, Prod.mk.injEq] at h; rw [← h.1]
  · rename_i p hp
    unfold create at h
    simp only at h
    split at h
    · simp only [Outcome.ok.injEq, Prod.mk.injEq] at h
      rw [← h.1, set_other _ _ _ _ hn]
    · split at h
      · simp at h
      · simp only [Outcome.ok.injEq, Prod.mk.injEq] at h; rw [← h.1, key]
      · split at h
        · simp only [Outcome.ok.injEq, Prod.mk.injEq] at h; rw [← h.1, key]
        · rename_i T hT
          split at h
          · simp only [Outcome.ok.injEq, Prod.mk.injEq] at h; rw [← h.1, key]
          · cases hh : makeMapHdu F T c env p with
            | throw e => simp [hh] at h
            | ub => simp [hh] at h
            | ok x =>
              simp only [hh, Outcome.bind_ok] at h
              split at h
              · simp only [Outcome.ok.injEq, Prod.mk.injEq] at h; rw [← h.1, key3]
              · unfold finish at h
                split at h
                · simp only [Outcome.ok.injEq, Prod.mk.injEq] at h; rw [← h.1, key3]
                · rename_i g hg
                  split at h
                  · simp only [Outcome.ok.injEq, Prod.mk.injEq] at h; rw [← h.1, key3]
                  · cases hr : makeGridHdu c env p g with
                    | throw e => simp [hr] at h
                    | ub => simp [hr] at h
                    | ok y =>
                      simp only [hr, Outcome.bind_ok, Outcome.ok.injEq, Prod.mk.injEq] at h
                      rw [← h.1, key3]

/-- C75, the part that holds: as long as the parameters of the map cannot be completed,
because a source image fails to supply its own, every file stays as it was, and the
command does not report success. -/
theorem C75_refused_partial (F : Fp) (c : Command C) (env : Env) (w w' : World) (r : Result)
    (hp : ¬ ∃ qs p, Supplies c.factories 1 qs ∧ populate F c.params qs = .ok p)
    (h : execute F c env w = .ok (w', r)) : w' = w ∧ r ≠ .returned 0 := by
  unfold execute at h
  split at h
  · simp at h
  · simp only [Outcome.ok.injEq, Prod.mk.injEq] at h
    rw [← h.1, ← h.2]; simp
  · simp only [Outcome.ok.injEq, Prod.mk.injEq] at h
    rw [← h.1, ← h.2]; simp
  · rename_i p hp'
    obtain ⟨qs, h1, h2⟩ := populateParameters_ok hp'
    exact absurd ⟨qs, p, h1, h2⟩ hp

/-- C75: a command that returns a failure code, rather than ending in an exception, has
left all files alone. -/
theorem C75_returned (F : Fp) (c : Command C) (env : Env) (w w' : World) (n : ℤ)
    (h : execute F c env w = .ok (w', .returned n)) (hn : n ≠ 0) : n = -1 ∧ w' = w := by
  unfold execute at h
  split at h
  · simp at h
  · simp at h
  · simp only [Outcome.ok.injEq, Prod.mk.injEq, Result.returned.injEq] at h
    exact ⟨h.2.symm, h.1.symm⟩
  · rename_i p hp
    unfold create at h
    simp only at h
    split at h
    · simp at h
    · split at h
      · simp at h
      · simp at h
      · rename_i b hb
        obtain ⟨-, T, hT⟩ := getBitpix_ok hb
        simp only [hT] at h
        split at h
        · simp at h
        · cases hh : makeMapHdu F T c env p with
          | throw e => simp [hh] at h
          | ub => simp [hh] at h
          | ok x =>
            simp only [hh, Outcome.bind_ok] at h
            split at h
            · simp at h
            · unfold finish at h
              split at h
              · simp only [Outcome.ok.injEq, Prod.mk.injEq, Result.returned.injEq] at h
                exact absurd h.2.symm hn
              · rename_i g hg
                split at h
                · simp at h
                · cases hr : makeGridHdu c env p g with
                  | throw e => simp [hr] at h
                  | ub => simp [hr] at h
                  | ok y =>
                    simp only [hr, Outcome.bind_ok, Outcome.ok.injEq, Prod.mk.injEq] at h
                    obtain ⟨-, h⟩ := h
                    split at h
                    · simp at h
                    · simp only [Result.returned.injEq] at h
                      exact absurd h.symm hn

/-- A virtual image factory: supplies no BITPIX. -/
def exampleFactory (v : VirtualImage) : Factory ℕ where
  populate p := .ok (some (setStr p .bunit "deg"))
  make _ := .ok (some (⟨fun c _ => .ok (true, .fin c), .empty⟩, some v))

/-- A map of 2 x 1 pixels of that image. -/
def exampleCommand (p : Params) : Command ℕ where
  filename := "map.fits"
  samples := 2
  lines := 1
  params := p
  factories := [exampleFactory ⟨.fin 1, .fin 0⟩]
  projection := "Test"
  plots := fun _ _ => [(5, 0), (7, 1)]
  grid := some (.ok [.fin 0, .fin 255])

/-- CFITSIO never fails. -/
def goodEnv : Env := ⟨true, true, true, fun _ => true, true⟩

/-- Parameters of a user who gives the data type and comments. -/
def exampleParams : Params :=
  run .ieee (fresh 0) [.bitpix 16, .str .author "A", .comment "one", .comment "two",
    .xcomment "grid", .blank (some 9)]

/-- What the example looks at. -/
structure Summary where
  bitpix : ℤ
  axes : List ℕ
  author : Option Value
  comments : List String
  blank : Option Value
  cells : List (Option Dbl)
  deriving DecidableEq

/-- See `Summary`. -/
def summary (x : Hdu) : Summary :=
  ⟨x.bitpix, x.axes, valueOf "AUTHOR" x.header, commentsOf x.header, valueOf "BLANK" x.header,
    (List.range 4).map fun i => x.image.cells i⟩

/-- The hypotheses of the C74 theorems are met. -/
example : ((execute .ieee (exampleCommand exampleParams) goodEnv fun _ => none).bind fun r =>
    .ok (r.2, ((r.1 "map.fits").getD []).map summary)) =
    .ok (.returned 0, [
      ⟨16, [2, 1], some (.str "A"), ["one", "two"], some (.int 9),
        [none, some (.fin 5), some (.fin 7), none]⟩,
      ⟨8, [2, 1], none, ["grid"], some (.int 0),
        [none, some (.fin 0), some (.fin 255), none]⟩]) := by decide +kernel

/-- C74 is false of the code when CFITSIO fails to write the data: the command still
reports success. -/
theorem C74_unwritten_violated :
    ((execute .ieee (exampleCommand exampleParams) { goodEnv with plane := fun _ => false }
      fun _ => none).bind fun r => .ok (r.2, ((r.1 "map.fits").getD []).map fun x =>
        (List.range 4).map fun i => x.image.cells i)) =
    .ok (.returned 0, [[none, none, none, none],
      [none, some (.fin 0), some (.fin 255), none]]) := by decide +kernel

/-- C75 is false of the code: when neither the user nor a source image gives a data
type, the command fails with an exception, but only after an existing map of that name
was replaced by an empty file. -/
theorem C75_violated (F : Fp) (env : Env) (he : env.create = true) (w : World)
    (c : Command C) (p : Params) (hp : populateParameters F c = .ok (some p))
    (hb : p.bitpix = 0) :
    ∃ w', execute F c env w = .ok (w', .raised .runtimeError) ∧ w' c.filename = some [] := by
  refine ⟨(w.set c.filename none).set c.filename (some []), ?_, set_same _ _ _⟩
  have hg : getBitpix p = .throw .runtimeError := by simp [getBitpix, hb, validBitpix]
  unfold execute
  rw [hp]
  simp only [create, he, hg, Bool.not_true, Bool.false_eq_true, if_false]

/-- Its hypotheses are met by a map of a virtual image. -/
example : (populateParameters .ieee (exampleCommand (fresh 0))).bind (fun p =>
    .ok (p.map fun p => (p.bitpix, p.str .bunit))) = .ok (some (0, "deg")) := by
  decide +kernel

/-- C75 is false for exceptions later on, too: a source image that cannot be read costs
the existing map. -/
theorem C75_source_violated (F : Fp) (env : Env) (he : env.create = true) (hm : env.map = true)
    (w : World) (c : Command C) (f : Factory C) (fs : List (Factory C)) (p : Params) (T : MapType)
    (e : Exc) (hp : populateParameters F c = .ok (some p)) (hT : FitsType p.bitpix T)
    (hc : c.factories = f :: fs) (hf : f.make T = .throw e) :
    ∃ w' map, execute F c env w = .ok (w', .raised e) ∧ w' c.filename = some [map] ∧
      ∀ i, map.image.cells i = none := by
  have hT' := (bitpixType_iff _ _).mpr hT
  have hb : getBitpix p = .ok p.bitpix := by
    unfold bitpixType at hT'
    unfold getBitpix validBitpix
    split_ifs at hT' with h1 h2 h3 h4 h5 h6 <;> simp_all
  refine ⟨((w.set c.filename none).set c.filename (some [])).set c.filename
    (some [{ Hdu.new p.bitpix c.samples c.lines c.factories.length none with
      header := mapHeader T c p
        (Hdu.new p.bitpix c.samples c.lines c.factories.length none).header }]), _, ?_,
    set_same _ _ _, ?_⟩
  · unfold execute
    rw [hp]
    simp only [create, he, hm, hb, hT', Bool.not_true, Bool.false_eq_true, if_false]
    have : makeMapHdu F T c env p =
        .ok ({ Hdu.new p.bitpix c.samples c.lines c.factories.length none with
          header := mapHeader T c p
            (Hdu.new p.bitpix c.samples c.lines c.factories.length none).header }, some e) := by
      simp only [makeMapHdu, hc, planes, hf, Outcome.bind_ok]
    rw [this]
    rfl
  · intro i; rfl

end MaRC.Execute
