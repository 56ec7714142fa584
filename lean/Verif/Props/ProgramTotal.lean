import Verif.Lemmas.ProgramTotal
import Verif.Props.Program

/-!
# C95: runs that make maps of computed images succeed
-/

namespace MaRC.Program

open Execute MaRC.Grammar MaRC.Calc MaRC.Scan
open MaRC.InputMeaning (Part entries parts upTo has int bitpix words IsCommand ArePlanes IsPlane
  Shows ValidFile)
open MaRC.InputFile (Item Written)
open MaRC.ProgramSpec

/-- **C95**.  If all input files can be read and are input files with values in their
ranges, whatever came before, and if their maps need no photos and their data types can hold
the data, then the program ends with status 0 and every map is there. -/
theorem C95_computed {M : Machine} (hM : Working M) {config : String} {names : List String}
    {items : String → List Item} (w : World)
    (hc : M.text config = none → M.absent config = true)
    (ht : ∀ n ∈ inputs M config names,
      ∃ t f, M.text n = some t ∧ Written (items n) t ∧ Parses (scan symrec t) f)
    (hv : ∀ n ∈ inputs M config names, ∀ graphic, ValidFile M.E graphic (entries (items n)))
    (hm : ∀ es ∈ maps items (inputs M config names), Computed es) :
    ∃ w', main M config (some names) w = .ok (w', 0) ∧
      ∀ before es after, maps items (inputs M config names) = before ++ es :: after →
        ∃ file, fileOf es = some file ∧ ((∀ later ∈ after, fileOf later ≠ some file) →
          ∃ hdus, w' file = some hdus ∧ IsMapFile es hdus) := by
  obtain ⟨w', h⟩ := main_total hM w hc (items := items) (names := names) fun n hn =>
    ⟨ht n hn, hv n hn, fun es he => hm es (List.mem_flatMap.2 ⟨n, hn, he⟩)⟩
  refine ⟨w', h, fun before es after he => C90_maps (fun n hn => ?_) h he⟩
  obtain ⟨t, -, h1, h2, -⟩ := ht n hn
  exact ⟨t, h1, h2⟩

/-- A command of a run that ends with status 0. -/
theorem ran {M : Machine} {config : String} {names : List String} {items : String → List Item}
    {w w' : World} (ht : ∀ n ∈ inputs M config names, ∃ t, M.text n = some t ∧ Written (items n) t)
    (h : main M config (some names) w = .ok (w', 0)) {es : Part}
    (he : es ∈ maps items (inputs M config names)) :
    ∃ d g c x env w1 w2, IsCommand M.E d g es c ∧ command M c = .ok x ∧
      execute M.E.F x env w1 = .ok (w2, .returned 0) := by
  obtain ⟨before, after, hm⟩ := List.append_of_mem he
  rcases main_ok ht h with ⟨-, h0⟩ | ⟨cs, hf, hr⟩
  · cases h0
  rw [hm] at hf
  obtain ⟨pre, x, post, rfl, -, ⟨d, g, c, hc, hx⟩, -⟩ := forall₂_split hf
  obtain ⟨w1, w2, h1, -⟩ := runCommands_zero hr
  exact ⟨d, g, c, x, _, w1, w2, hc, hx, h1⟩

theorem planeFactory_silent {M : Machine} {b : Body} {a : Parser.Averaging} {d : Parser.Nibbles}
    {g : Bool} {es : Part} {p : PlaneImage} (h : IsPlane M.E b a d g es p)
    (h0 : parts "IMAGE" es = []) {f : Execute.Factory Loc} (hf : planeFactory M b p = .ok f) :
    SilentFactory f := by
  obtain ⟨e₀, e, -, -, h3⟩ := planeFactory_ok hf
  have hs := h.source
  cases hs' : p.source with
  | photos ps =>
    rw [hs'] at hs
    cases hs with
    | photo hp _ => rw [h0] at hp; cases hp
    | photos hc hf => rw [h0] at hf; cases hf; simp at hc
  | latitude g =>
    rw [hs'] at h3; cases h3
    refine fun k => ⟨_, rfl, ?_, ?_⟩ <;> simp only [MapParams.setStr, MapParams.lock] <;>
      split <;> rfl
  | longitude =>
    rw [hs'] at h3; cases h3
    refine fun k => ⟨_, rfl, ?_, ?_⟩ <;> simp only [MapParams.setStr, MapParams.lock] <;>
      split <;> rfl
  | _ => rw [hs'] at h3; cases h3; exact fun k => ⟨_, rfl, rfl, rfl⟩

theorem planes_silent {M : Machine} {b : Body} {a : Parser.Averaging} {d : Parser.Nibbles}
    {g : Bool} {ess : List Part} {ps : List PlaneImage} (h : ArePlanes M.E b a d g ess ps)
    (h0 : ∀ es ∈ ess, parts "IMAGE" es = []) : ∀ {fs : List (Execute.Factory Loc)},
    List.Forall₂ (fun p f => planeFactory M b p = .ok f) ps fs → ∀ f ∈ fs, SilentFactory f := by
  induction h with
  | nil => intro fs hf; cases hf; simp
  | cons h1 _ ih =>
    intro fs hf
    cases hf with
    | cons k1 k2 =>
    intro x hx
    rcases List.mem_cons.1 hx with rfl | hx
    · exact planeFactory_silent h1 (h0 _ (by simp)) k1
    · exact ih (fun e he => h0 e (by simp [he])) k2 x hx

/-- The conditions on data types are needed: if a map without photos has no data type, the
program does not end with status 0. -/
theorem C95_type_needed {M : Machine} {config : String} {names : List String}
    {items : String → List Item} {w w' : World} {k : ℤ}
    (ht : ∀ n ∈ inputs M config names, ∃ t, M.text n = some t ∧ Written (items n) t)
    (h : main M config (some names) w = .ok (w', k)) {es : Part}
    (he : es ∈ maps items (inputs M config names))
    (h0 : ∀ p ∈ parts "PLANE" es, parts "IMAGE" p = [])
    (hb : bitpix (upTo "PLANE" es) = 0) : k ≠ 0 := by
  rintro rfl
  obtain ⟨d, g, c, x, env, w1, w2, hc, hx, h1⟩ := ran ht h he
  obtain ⟨fs, hfs, rfl⟩ := command_ok hx
  obtain ⟨p, T, map, rest, hp, hT, -⟩ := execute_zero h1
  obtain ⟨p', hp', hp1, -⟩ := populate_total (F := M.E.F)
    (c := Execute.Command.mk c.file c.samples.toNat c.lines.toNat c.params fs
      (projectionName c.proj) (M.plots c.body c.proj) (c.grid.map _))
    (planes_silent hc.planes h0 hfs)
  rw [hp] at hp'
  cases hp'
  have : p.bitpix = 0 := by rw [hp1]; simp only [hc.params]; exact hb
  rw [this] at hT
  simp [MapCommand.bitpixType] at hT

theorem planes_longitude {M : Machine} {b : Body} {a : Parser.Averaging} {d : Parser.Nibbles}
    {g : Bool} {ess : List Part} {ps : List PlaneImage} (hF : M.E.F = .ieee)
    (h : ArePlanes M.E b a d g ess ps) {es : Part} (he : es ∈ ess)
    (hl : ∀ b a d g s, Shows M.E b a d g es s → s = .longitude) :
    ∀ {fs : List (Execute.Factory Loc)} {ims : List (MapFactory.Plane Loc × Option VirtualImage)},
    List.Forall₂ (fun p f => planeFactory M b p = .ok f) ps fs → ¬ MadeImages .u8 fs ims := by
  induction h with
  | nil => cases he
  | @cons g es' ess p ps h1 _ ih =>
    intro fs ims hf hm
    cases hf with
    | @cons _ f _ fs k1 k2 =>
    rcases List.mem_cons.1 he with rfl | he'
    · have hs := hl _ _ _ _ _ h1.source
      obtain ⟨e₀, e, -, -, h3⟩ := planeFactory_ok k1
      rw [hs] at h3
      cases h3
      have : ∀ ph, (virtualFactory M.E.F .degrees (.fin 0) (.fin 360) e ph).make .u8 =
          .throw .rangeError := by
        intro ph
        have hv : makeVirtual .ieee .u8 (.fin 0) (.fin 360) = .throw .rangeError := by
          decide +kernel
        simp only [virtualFactory, hF, hv, Outcome.bind_throw]
      rcases hm with ⟨hm, -⟩ | ⟨im, rest, hm, -⟩ <;> rw [this] at hm <;> cases hm
    · rcases hm with ⟨-, hm⟩ | ⟨im, rest, -, -, hm⟩ <;> exact ih he' k2 hm

/-- Neither does it if a map of bytes has a plane that is no photo, shows no cosines and no
latitudes, and thus longitudes. -/
theorem C95_bytes_needed {M : Machine} (hF : M.E.F = .ieee) {config : String}
    {names : List String} {items : String → List Item} {w w' : World} {k : ℤ}
    (ht : ∀ n ∈ inputs M config names, ∃ t, M.text n = some t ∧ Written (items n) t)
    (h : main M config (some names) w = .ok (w', k)) {es p : Part}
    (he : es ∈ maps items (inputs M config names)) (hb : bitpix (upTo "PLANE" es) = 8)
    (hp : p ∈ parts "PLANE" es) (hi : parts "IMAGE" p = [])
    (ho : ∀ key ∈ ["MU", "MU0", "PHASE", "LATITUDE"], has key p = false) : k ≠ 0 := by
  rintro rfl
  have hl : ∀ b a d g s, Shows M.E b a d g p s → s = .longitude := by
    intro b a d g s hs
    cases hs with
    | photo h => rw [hi] at h; cases h
    | photos h1 h2 => rw [hi] at h2; cases h2; simp at h1
    | mu h => rw [ho _ (by simp)] at h; cases h
    | mu0 h => rw [ho _ (by simp)] at h; cases h
    | phase h => rw [ho _ (by simp)] at h; cases h
    | latitude h => rw [ho _ (by simp)] at h; cases h
    | longitude => rfl
  obtain ⟨d, g, c, x, env, w1, w2, hc, hx, h1⟩ := ran ht h he
  obtain ⟨fs, hfs, rfl⟩ := command_ok hx
  have hk : ∀ f ∈ fs, OfKind f := by
    intro f hf
    obtain ⟨q, -, hq⟩ := forall₂_right hfs hf
    obtain ⟨_, _, _, _, h3⟩ := planeFactory_ok hq
    exact sourceFactory_kind h3
  obtain ⟨q, T, map, rest, hq, hT, hm, -⟩ := execute_zero h1
  obtain ⟨qs, hqs, hpop⟩ := Execute.C74_parameters _ _ _ hq
  have hpop' : MapParams.populate M.E.F (InputMeaning.params M.E (upTo "PLANE" es)) qs = .ok q := by
    rw [← hc.params]; exact hpop
  have hb' := (populate_params hpop' (supplies_comments Nat.one_pos hk hqs)).1 (by rw [hb]; decide)
  rw [hb', hb] at hT
  cases hT
  obtain ⟨ims, loop, _, hims, -⟩ := makeMapHdu_ok hm
  exact planes_longitude hF hc.planes hp hl hfs hims

/-! ## A run of the program -/

/-- A machine with one input file whose projections plot one point of every map that has
more than one. -/
def works : Machine :=
  { tiny with
    E := { Props.plainEnv with F := .ieee }
    plots := fun _ _ s l => if 1 < s * l then [((.fin 0, .fin 1), 1)] else [] }

theorem works_working : Working works where
  ieee := rfl
  create _ := rfl
  map _ := rfl
  grid _ := rfl
  offsets b p s l x hx := by
    simp only [works] at hx
    split at hx
    · simp only [List.mem_singleton] at hx; subst hx; assumption
    · simp at hx
  count b p s l := by
    simp only [works]
    split <;> simp; omega
  grids _ _ _ _ _ := ⟨_, rfl⟩

open Props InputMeaning in
theorem tiny_valid (graphic : Bool) : ValidFile works.E graphic (entries tinyItems) := by
  have e : entries tinyItems = fileEnts tinyTree := (entries_of tiny_written tiny_parses).symm
  rw [e]
  refine ⟨?_, fun h => by rw [tinyTree, parts_maps] at h; simp at h⟩
  rw [tinyTree, parts_maps]
  refine .cons ⟨{ prograde := true, eqRad := .fin 71492, polRad := .fin 66854 }, ?_, ?_, ?_⟩ .nil
  · rw [upTo_map]
    constructor
    · refine ⟨.inl ⟨rfl, rfl⟩, .inl ⟨?_, ?_⟩⟩
      · exact (real_of' (x := number "71492") rfl).trans (by decide +kernel)
      · exact (real_of' (x := number "66854") rfl).trans (by decide +kernel)
    · exact ⟨(by decide +kernel : (Dbl.fin 0).lt (.fin 66854) = true), by decide +kernel⟩
    · exact given_none (by decide)
    · exact fun k hk => given_none (by revert k; decide)
    · exact given_none (by decide)
    · exact fun k hk => given_none (by revert k; decide)
    · exact fun k hk => given_none (by revert k; decide)
    · exact fun k hk => given_none (by revert k; decide)
    · exact given_none (by decide)
    · exact given_none (by decide)
    · intro x y hx
      rw [latitude_none (by decide)] at hx
      simp at hx
    · exact fun _ _ => rfl
    · exact given_none (by decide)
    · exact ⟨2, by decide +kernel, by decide⟩
    · exact ⟨1, by decide +kernel, by decide⟩
  · rw [upTo_map, parts_map]
    exact ⟨0, by decide, fun _ => rfl⟩
  · rw [parts_map]
    intro p hp
    simp only [List.map_cons, List.map_nil, List.mem_singleton] at hp
    subst hp
    constructor
    · intro h; exact absurd (by decide) h
    · exact fun k hk => given_none (by revert k; decide)
    · intro x y hx
      rw [real_none (by decide)] at hx
      simp at hx
    · intro p hp
      have : parts "IMAGE" (planeEnts ⟨none, .empty, .longitude⟩) = [] := by decide
      rw [this] at hp
      simp at hp
    · exact fun k hk => given_none (by revert k; decide)
    · exact fun k hk => given_none (by revert k; decide)
    · exact given_none (by decide)

theorem works_maps : maps (fun _ => tinyItems) (inputs works "rc" ["in"]) = [entries tinyItems] := by
  decide +kernel

theorem tiny_computed : Computed (entries tinyItems) where
  type := by decide +kernel
  size := by
    have h1 : int "SAMPLES" (upTo "PLANE" (entries tinyItems)) = some 2 := by decide +kernel
    have h2 : int "LINES" (upTo "PLANE" (entries tinyItems)) = some 1 := by decide +kernel
    have h3 : (parts "PLANE" (entries tinyItems)).length = 1 := by decide +kernel
    intro s l hs hl
    rw [h1] at hs; rw [h2] at hl; rw [h3]
    cases hs; cases hl; decide
  photos := by decide +kernel
  limits := by decide +kernel
  bytes := by decide +kernel

/-- Non-vacuity: a map of longitudes. -/
example : ∃ w' hdus, main works "rc" (some ["in"]) (fun _ => none) = .ok (w', 0) ∧
    w' "a.fits" = some hdus ∧ IsMapFile (entries tinyItems) hdus := by
  obtain ⟨w', h1, h2⟩ := C95_computed works_working (config := "rc") (names := ["in"])
    (items := fun _ => tinyItems) (fun _ => none) (fun _ => rfl)
    (fun n hn => by
      have : n = "in" := by simpa [inputs, works, tiny] using hn
      subst this
      exact ⟨tinyText, tinyTree, rfl, tiny_written, tiny_parses⟩)
    (fun n hn g => tiny_valid g)
    (fun es he => by
      rw [works_maps] at he
      simp only [List.mem_singleton] at he
      subst he
      exact tiny_computed)
  obtain ⟨file, h3, h4⟩ := h2 [] _ [] works_maps
  have : fileOf (entries tinyItems) = some "a.fits" := by decide +kernel
  rw [this] at h3
  cases h3
  obtain ⟨hdus, h5, h6⟩ := h4 (by simp)
  exact ⟨w', hdus, h1, h5, h6⟩

/-! ## Runs that fail -/

/-- Whether the run with one input file ends, once the tree of the file is known. -/
def ends (M : Machine) (f : File) : Bool :=
  match f.run M.E .start with
  | .ok (some r) =>
    match commands M r.2 >>= fun cs => runCommands M.E.F M.cfitsio 0 cs (fun _ => none) 0 with
    | .ok _ => true
    | _ => false
  | _ => false

theorem ends_main {M : Machine} {t : List Char} {f : File} (h1 : M.text "rc" = none)
    (h2 : M.absent "rc" = true) (h3 : M.text "in" = some t) (hp : Parses (scan symrec t) f)
    (h : ends M f = true) : ∃ w' k, main M "rc" (some ["in"]) (fun _ => none) = .ok (w', k) := by
  have h4 := tree_eq hp
  have h5 : parseFile M "rc" .start = .ok none := by simp only [parseFile, h1]
  unfold main
  rw [h5]
  simp only
  rw [if_pos ⟨h1, h2⟩]
  unfold mainFiles parseFiles parseFile parseFiles
  unfold ends at h
  simp only [h3, h4]
  generalize f.run M.E .start = r at h ⊢
  rcases r with (_ | ⟨s, gs⟩) | _ | _
  · cases h
  · simp only at h ⊢
    generalize commands M gs = c at h ⊢
    cases c with
    | ok cs =>
      simp only [Outcome.bind_ok, List.append_nil, List.nil_append] at h ⊢
      generalize runCommands M.E.F M.cfitsio 0 cs (fun _ => none) 0 = r at h ⊢
      rcases r with ⟨w', k⟩ | _ | _
      · exact ⟨w', k, rfl⟩
      · cases h
      · cases h
    | throw e => cases h
    | ub => cases h
  · cases h
  · cases h

/-- The entries of a file whose map has no data type. -/
def untypedItems : List Item :=
  [.name "MAP" "a.fits".toList,
   .text "COMMENT" "one".toList,
   .name "BODY" "Jupiter".toList,
   .expr "EQ_RAD" [.num "71492".toList],
   .expr "POL_RAD" [.num "66854".toList],
   .mark "ROTATION",
   .word "PROGRADE",
   .mark "GRID",
   .word "YES",
   .mark "TYPE",
   .word "MERCATOR",
   .expr "SAMPLES" [.num "2".toList],
   .expr "LINES" [.num "1".toList],
   .expr "PLANE" [],
   .word "LONGITUDE"]

/-- A way to write them. -/
def untypedText : List Char :=
  ([] ++ ("MAP".toList ++ [] ++ ':' :: ' ' :: ([] ++ "a.fits".toList)) ++
  (['\n'] ++ ("COMMENT".toList ++ [] ++ ':' :: "one".toList) ++
  (['\n'] ++ ("BODY".toList ++ [] ++ ':' :: ' ' :: ([] ++ "Jupiter".toList)) ++
  (['\n'] ++ ("EQ_RAD".toList ++ [] ++ ':' :: ([' '] ++ "71492".toList ++ ([] ++ []))) ++
  (['\n'] ++ ("POL_RAD".toList ++ [] ++ ':' :: ([' '] ++ "66854".toList ++ ([] ++ []))) ++
  (['\n'] ++ ("ROTATION".toList ++ [] ++ [':']) ++
  ([' '] ++ "PROGRADE".toList ++
  (['\n'] ++ ("GRID".toList ++ [] ++ [':']) ++
  ([' '] ++ "YES".toList ++
  (['\n'] ++ ("TYPE".toList ++ [] ++ [':']) ++
  ([' '] ++ "MERCATOR".toList ++
  (['\n'] ++ ("SAMPLES".toList ++ [] ++ ':' :: ([' '] ++ "2".toList ++ ([] ++ []))) ++
  (['\n'] ++ ("LINES".toList ++ [] ++ ':' :: ([' '] ++ "1".toList ++ ([] ++ []))) ++
  (['\n'] ++ ("PLANE".toList ++ [] ++ ':' :: ([] ++ [])) ++
  (['\n'] ++ "LONGITUDE".toList ++
  ([] ++ []))))))))))))))))

theorem untyped_written : Written untypedItems untypedText := by
  refine .cons .nil (.name (by decide) (by decide) .nil (by decide) .nil
    (by decide) (by decide) (by decide) (by decide)) (by simp [InputFile.Follows]) ?_
  refine .cons (.blank (by decide) .nil) (.text (by decide) (by decide) .nil (by decide)
    (by decide)) (by simp [InputFile.Follows]) ?_
  refine .cons (.blank (by decide) .nil) (.name (by decide) (by decide) .nil (by decide) .nil
    (by decide) (by decide) (by decide) (by decide)) (by simp [InputFile.Follows]) ?_
  refine .cons (.blank (by decide) .nil) (.expr (by decide) (by decide) .nil (.cons (by decide)
    ⟨rfl, [], "71492".toList, [], [], by decide, by decide, by decide, .inl rfl, by decide, .inl rfl⟩
    (.nil (by decide) (.inl rfl)) (.inl rfl))) (by simp [InputFile.Follows]) ?_
  refine .cons (.blank (by decide) .nil) (.expr (by decide) (by decide) .nil (.cons (by decide)
    ⟨rfl, [], "66854".toList, [], [], by decide, by decide, by decide, .inl rfl, by decide, .inl rfl⟩
    (.nil (by decide) (.inl rfl)) (.inl rfl))) (by simp [InputFile.Follows]) ?_
  iterate 3
    refine .cons (.blank (by decide) .nil) (.mark (by decide) (by decide) .nil) trivial ?_
    refine .cons (.blank (by decide) .nil) (.word (by decide) (by decide))
      (by simp [InputFile.Follows]) ?_
  refine .cons (.blank (by decide) .nil) (.expr (by decide) (by decide) .nil (.cons (by decide)
    ⟨rfl, [], "2".toList, [], [], by decide, by decide, by decide, .inl rfl, by decide, .inl rfl⟩
    (.nil (by decide) (.inl rfl)) (.inl rfl))) (by simp [InputFile.Follows]) ?_
  refine .cons (.blank (by decide) .nil) (.expr (by decide) (by decide) .nil (.cons (by decide)
    ⟨rfl, [], "1".toList, [], [], by decide, by decide, by decide, .inl rfl, by decide, .inl rfl⟩
    (.nil (by decide) (.inl rfl)) (.inl rfl))) (by simp [InputFile.Follows]) ?_
  refine .cons (.blank (by decide) .nil) (.expr (by decide) (by decide) .nil
    (.nil (by decide) (.inl rfl))) (by simp [InputFile.Follows]) ?_
  refine .cons (.blank (by decide) .nil) (.word (by decide) (by decide))
    (by simp [InputFile.Follows]) ?_
  exact .nil .nil (.inl rfl)

/-- Their tree. -/
def untypedTree : File :=
  .maps
    { file := "a.fits".toList, author := none, origin := none, comments := ["one".toList],
      xcomments := [], body := "Jupiter".toList,
      radii := .eqPol (Props.number "71492") (Props.number "66854"),
      prograde := true, offset := none, scale := none, type := none, blank := none,
      grid := .plain true, proj := .mercator none, planes := none, samples := "2".toList,
      lines := "1".toList, plane := ⟨none, .empty, .longitude⟩, more := [] } []

theorem untyped_parses : Parses (scan symrec untypedText) untypedTree := by
  have e : scan symrec untypedText = untypedItems.flatMap InputFile.Item.tokens :=
    scanFrom_written untyped_written
  rw [Parses, e]
  decide +kernel

/-- The entries of a file whose map is one of bytes. -/
def bytesItems : List Item :=
  [.name "MAP" "a.fits".toList,
   .text "COMMENT" "one".toList,
   .name "BODY" "Jupiter".toList,
   .expr "EQ_RAD" [.num "71492".toList],
   .expr "POL_RAD" [.num "66854".toList],
   .mark "ROTATION",
   .word "PROGRADE",
   .mark "DATA_TYPE",
   .word "BYTE",
   .mark "GRID",
   .word "YES",
   .mark "TYPE",
   .word "MERCATOR",
   .expr "SAMPLES" [.num "2".toList],
   .expr "LINES" [.num "1".toList],
   .expr "PLANE" [],
   .word "LONGITUDE"]

/-- A way to write them. -/
def bytesText : List Char :=
  ([] ++ ("MAP".toList ++ [] ++ ':' :: ' ' :: ([] ++ "a.fits".toList)) ++
  (['\n'] ++ ("COMMENT".toList ++ [] ++ ':' :: "one".toList) ++
  (['\n'] ++ ("BODY".toList ++ [] ++ ':' :: ' ' :: ([] ++ "Jupiter".toList)) ++
  (['\n'] ++ ("EQ_RAD".toList ++ [] ++ ':' :: ([' '] ++ "71492".toList ++ ([] ++ []))) ++
  (['\n'] ++ ("POL_RAD".toList ++ [] ++ ':' :: ([' '] ++ "66854".toList ++ ([] ++ []))) ++
  (['\n'] ++ ("ROTATION".toList ++ [] ++ [':']) ++
  ([' '] ++ "PROGRADE".toList ++
  (['\n'] ++ ("DATA_TYPE".toList ++ [] ++ [':']) ++
  ([' '] ++ "BYTE".toList ++
  (['\n'] ++ ("GRID".toList ++ [] ++ [':']) ++
  ([' '] ++ "YES".toList ++
  (['\n'] ++ ("TYPE".toList ++ [] ++ [':']) ++
  ([' '] ++ "MERCATOR".toList ++
  (['\n'] ++ ("SAMPLES".toList ++ [] ++ ':' :: ([' '] ++ "2".toList ++ ([] ++ []))) ++
  (['\n'] ++ ("LINES".toList ++ [] ++ ':' :: ([' '] ++ "1".toList ++ ([] ++ []))) ++
  (['\n'] ++ ("PLANE".toList ++ [] ++ ':' :: ([] ++ [])) ++
  (['\n'] ++ "LONGITUDE".toList ++
  ([] ++ []))))))))))))))))))

theorem bytes_written : Written bytesItems bytesText := by
  refine .cons .nil (.name (by decide) (by decide) .nil (by decide) .nil
    (by decide) (by decide) (by decide) (by decide)) (by simp [InputFile.Follows]) ?_
  refine .cons (.blank (by decide) .nil) (.text (by decide) (by decide) .nil (by decide)
    (by decide)) (by simp [InputFile.Follows]) ?_
  refine .cons (.blank (by decide) .nil) (.name (by decide) (by decide) .nil (by decide) .nil
    (by decide) (by decide) (by decide) (by decide)) (by simp [InputFile.Follows]) ?_
  refine .cons (.blank (by decide) .nil) (.expr (by decide) (by decide) .nil (.cons (by decide)
    ⟨rfl, [], "71492".toList, [], [], by decide, by decide, by decide, .inl rfl, by decide, .inl rfl⟩
    (.nil (by decide) (.inl rfl)) (.inl rfl))) (by simp [InputFile.Follows]) ?_
  refine .cons (.blank (by decide) .nil) (.expr (by decide) (by decide) .nil (.cons (by decide)
    ⟨rfl, [], "66854".toList, [], [], by decide, by decide, by decide, .inl rfl, by decide, .inl rfl⟩
    (.nil (by decide) (.inl rfl)) (.inl rfl))) (by simp [InputFile.Follows]) ?_
  iterate 4
    refine .cons (.blank (by decide) .nil) (.mark (by decide) (by decide) .nil) trivial ?_
    refine .cons (.blank (by decide) .nil) (.word (by decide) (by decide))
      (by simp [InputFile.Follows]) ?_
  refine .cons (.blank (by decide) .nil) (.expr (by decide) (by decide) .nil (.cons (by decide)
    ⟨rfl, [], "2".toList, [], [], by decide, by decide, by decide, .inl rfl, by decide, .inl rfl⟩
    (.nil (by decide) (.inl rfl)) (.inl rfl))) (by simp [InputFile.Follows]) ?_
  refine .cons (.blank (by decide) .nil) (.expr (by decide) (by decide) .nil (.cons (by decide)
    ⟨rfl, [], "1".toList, [], [], by decide, by decide, by decide, .inl rfl, by decide, .inl rfl⟩
    (.nil (by decide) (.inl rfl)) (.inl rfl))) (by simp [InputFile.Follows]) ?_
  refine .cons (.blank (by decide) .nil) (.expr (by decide) (by decide) .nil
    (.nil (by decide) (.inl rfl))) (by simp [InputFile.Follows]) ?_
  refine .cons (.blank (by decide) .nil) (.word (by decide) (by decide))
    (by simp [InputFile.Follows]) ?_
  exact .nil .nil (.inl rfl)

/-- Their tree. -/
def bytesTree : File :=
  .maps
    { file := "a.fits".toList, author := none, origin := none, comments := ["one".toList],
      xcomments := [], body := "Jupiter".toList,
      radii := .eqPol (Props.number "71492") (Props.number "66854"),
      prograde := true, offset := none, scale := none, type := some .byte, blank := none,
      grid := .plain true, proj := .mercator none, planes := none, samples := "2".toList,
      lines := "1".toList, plane := ⟨none, .empty, .longitude⟩, more := [] } []

theorem bytes_parses : Parses (scan symrec bytesText) bytesTree := by
  have e : scan symrec bytesText = bytesItems.flatMap InputFile.Item.tokens :=
    scanFrom_written bytes_written
  rw [Parses, e]
  decide +kernel

/-- The map without a data type makes the run fail. -/
example : ∃ w' k, main { works with text := fun n => if n = "in" then some untypedText else none }
    "rc" (some ["in"]) (fun _ => none) = .ok (w', k) ∧ k ≠ 0 := by
  obtain ⟨w', k, h⟩ := ends_main (M := { works with
    text := fun n => if n = "in" then some untypedText else none }) (t := untypedText) rfl rfl rfl
    untyped_parses (by decide +kernel)
  refine ⟨w', k, h, C95_type_needed (items := fun _ => untypedItems) (es := entries untypedItems)
    (fun n hn => ?_) h (by decide +kernel) (by decide +kernel) (by decide +kernel)⟩
  have : n = "in" := by simpa [inputs, works, tiny] using hn
  subst this
  exact ⟨untypedText, rfl, untyped_written⟩

/-- So does the map of bytes. -/
example : ∃ w' k, main { works with text := fun n => if n = "in" then some bytesText else none }
    "rc" (some ["in"]) (fun _ => none) = .ok (w', k) ∧ k ≠ 0 := by
  obtain ⟨w', k, h⟩ := ends_main (M := { works with
    text := fun n => if n = "in" then some bytesText else none }) (t := bytesText) rfl rfl rfl
    bytes_parses (by decide +kernel)
  have hp : parts "PLANE" (entries bytesItems) = [[("PLANE", [.ex (.kw "LONGITUDE")])]] := by
    decide +kernel
  refine ⟨w', k, h, C95_bytes_needed rfl (items := fun _ => bytesItems) (es := entries bytesItems)
    (fun n hn => ?_) h (by decide +kernel) (by decide +kernel)
    (by rw [hp]; exact List.mem_singleton.2 rfl) (by decide +kernel) (by decide +kernel)⟩
  have : n = "in" := by simpa [inputs, works, tiny] using hn
  subst this
  exact ⟨bytesText, rfl, bytes_written⟩

end MaRC.Program
