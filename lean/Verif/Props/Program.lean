import Verif.Lemmas.Program

/-!
# C90: the program makes the maps its input files ask for
-/

namespace MaRC.Program

open Execute MaRC.Grammar MaRC.Calc MaRC.Scan
open MaRC.InputMeaning (Part)
open MaRC.InputFile (Item Written)
open MaRC.ProgramSpec

/-- What `main` does with the commands of all input files. -/
theorem main_ok {M : Machine} {config : String} {names : List String} {items : String → List Item}
    {w w' : World} {k : ℤ}
    (ht : ∀ n ∈ inputs M config names, ∃ t, M.text n = some t ∧ Written (items n) t)
    (h : main M config (some names) w = .ok (w', k)) :
    w' = w ∧ k = -1 ∨ ∃ cs, List.Forall₂ (Made M) (maps items (inputs M config names)) cs ∧
      runCommands M.E.F M.cfitsio 0 cs w 0 = .ok (w', k) := by
  have files : ∀ {s : State} {cs : List (Execute.Command Loc)}, Props.Reached M.E s →
      (∀ n ∈ names, ∃ t, M.text n = some t ∧ Written (items n) t) →
      mainFiles M (some names) s cs w = .ok (w', k) →
      w' = w ∧ k = -1 ∨ ∃ ds, List.Forall₂ (Made M) (maps items names) ds ∧
        runCommands M.E.F M.cfitsio 0 (cs ++ ds) w 0 = .ok (w', k) := by
    intro s cs hs ht h
    unfold mainFiles at h
    simp only at h
    split at h
    · cases h
    · cases h; exact .inl ⟨rfl, rfl⟩
    · cases h; exact .inl ⟨rfl, rfl⟩
    · rename_i s' ds hp
      exact .inr ⟨ds, parseFiles_ok ht hs hp, h⟩
  unfold main at h
  split at h
  · cases h
  · cases h; exact .inl ⟨rfl, rfl⟩
  · split at h
    · rename_i hn
      rw [inputs, if_pos hn.1, List.nil_append] at ht ⊢
      exact files .start ht h
    · cases h; exact .inl ⟨rfl, rfl⟩
  · rename_i s cs hp
    have hc : M.text config ≠ none := by
      intro hn
      unfold parseFile at hp
      rw [hn] at hp
      cases hp
    rw [inputs, if_neg hc, List.singleton_append] at ht ⊢
    obtain ⟨t, h1, h2⟩ := ht config (by simp)
    obtain ⟨g1, g2⟩ := parseFile_ok h1 h2 .start hp
    rcases files g1 (fun n hn => ht n (by simp [hn])) h with h | ⟨ds, h3, h4⟩
    · exact .inl h
    · exact .inr ⟨cs ++ ds, by rw [maps, List.flatMap_cons]; exact List.rel_append g2 h3, h4⟩

theorem Made.file {M : Machine} {es : Part} {x : Execute.Command Loc} (h : Made M es x) :
    fileOf es = some x.filename := by
  obtain ⟨d, g, c, hc, hx⟩ := h
  obtain ⟨fs, -, rfl⟩ := command_ok hx
  exact hc.file

/-- **C90**.  When the program ends with status 0, the file of every map that an input
file asks for holds that map (unless a later map has the same name), with its
size, data type, header and grid, in the order and number of the entries.  What the data
of the map are is C91, and that the program succeeds on files it should accept is C95. -/
theorem C90_maps {M : Machine} {config : String} {names : List String}
    {items : String → List Item} {w w' : World}
    (ht : ∀ n ∈ inputs M config names, ∃ t, M.text n = some t ∧ Written (items n) t)
    (h : main M config (some names) w = .ok (w', 0))
    {before after : List Part} {es : Part}
    (hm : maps items (inputs M config names) = before ++ es :: after) :
    ∃ file, fileOf es = some file ∧
      ((∀ later ∈ after, fileOf later ≠ some file) →
        ∃ hdus, w' file = some hdus ∧ IsMapFile es hdus) := by
  rcases main_ok ht h with ⟨-, h0⟩ | ⟨cs, hf, hr⟩
  · cases h0
  rw [hm] at hf
  obtain ⟨pre, c, post, rfl, -, hc, hpost⟩ := forall₂_split hf
  refine ⟨c.filename, hc.file, fun hl => ?_⟩
  obtain ⟨w1, w2, h1, h2⟩ := runCommands_zero hr
  rw [h2 c.filename]
  · obtain ⟨d, g, gc, hgc, hx⟩ := hc
    exact mapFile hgc hx h1
  · intro x hx e
    obtain ⟨later, h3, h4⟩ := forall₂_right hpost hx
    exact hl later h3 (by rw [h4.file, e])

/-- However it ends, no other file is touched. -/
theorem C90_other_files {M : Machine} {config : String} {names : List String}
    {items : String → List Item} {w w' : World} {k : ℤ}
    (ht : ∀ n ∈ inputs M config names, ∃ t, M.text n = some t ∧ Written (items n) t)
    (h : main M config (some names) w = .ok (w', k)) (n : String)
    (hn : ∀ es ∈ maps items (inputs M config names), fileOf es ≠ some n) : w' n = w n := by
  rcases main_ok ht h with ⟨rfl, -⟩ | ⟨cs, hf, hr⟩
  · rfl
  refine runCommands_other hr n fun c hc e => ?_
  obtain ⟨es, h1, h2⟩ := forall₂_right hf hc
  exact hn es h1 (by rw [h2.file, e])

/-- If one of the input files cannot be read, is not in the grammar or has a value that
is refused, the program fails and no file is touched. -/
theorem C90_refused {M : Machine} {config : String} {names : List String} {w w' : World} {k : ℤ}
    (h : main M config (some names) w = .ok (w', k)) {n : String}
    (hn : n ∈ inputs M config names)
    (hr : ¬ ∃ t f s r, M.text n = some t ∧ Parses (scan symrec t) f ∧ Props.Reached M.E s ∧
      f.run M.E s = .done r) : w' = w ∧ k ≠ 0 := by
  have files : ∀ {s : State} {cs : List (Execute.Command Loc)}, Props.Reached M.E s →
      mainFiles M (some names) s cs w = .ok (w', k) →
      w' = w ∧ k ≠ 0 ∨ ∀ n ∈ names, Accepted M n := by
    intro s cs hs h
    unfold mainFiles at h
    simp only at h
    split at h
    · cases h
    · cases h; exact .inl ⟨rfl, by decide⟩
    · cases h; exact .inl ⟨rfl, by decide⟩
    · rename_i s' ds hp
      exact .inr (parseFiles_accepted hs hp)
  unfold main at h
  split at h
  · cases h
  · cases h; exact ⟨rfl, by decide⟩
  · split at h
    · rename_i ht
      rw [inputs, if_pos ht.1, List.nil_append] at hn
      rcases files .start h with h | h
      · exact h
      · exact absurd (h n hn) hr
    · cases h; exact ⟨rfl, by decide⟩
  · rename_i s cs hp
    obtain ⟨g1, g2⟩ := parseFile_accepted .start hp
    rcases files g2 h with h | h
    · exact h
    · unfold inputs at hn
      split at hn
      · exact absurd (h n hn) hr
      · rcases List.mem_cons.1 hn with rfl | hn
        · exact absurd g1 hr
        · exact absurd (h n hn) hr

/-- If the command line is refused the program fails and no file is touched. -/
theorem C90_command_line {M : Machine} {config : String} {w w' : World} {k : ℤ}
    (h : main M config none w = .ok (w', k)) : w' = w ∧ k ≠ 0 := by
  unfold main mainFiles at h
  split at h
  · cases h
  · cases h; exact ⟨rfl, by decide⟩
  · split at h <;> cases h <;> exact ⟨rfl, by decide⟩
  · cases h; exact ⟨rfl, by decide⟩

/-! ## A run of the program -/

/-- The entries of an input file. -/
def tinyItems : List Item :=
  [.name "MAP" "a.fits".toList,
   .text "COMMENT" "one".toList,
   .name "BODY" "Jupiter".toList,
   .expr "EQ_RAD" [.num "71492".toList],
   .expr "POL_RAD" [.num "66854".toList],
   .mark "ROTATION",
   .word "PROGRADE",
   .mark "DATA_TYPE",
   .word "SHORT",
   .mark "GRID",
   .word "YES",
   .mark "TYPE",
   .word "MERCATOR",
   .expr "SAMPLES" [.num "2".toList],
   .expr "LINES" [.num "1".toList],
   .expr "PLANE" [],
   .word "LONGITUDE"]

/-- A way to write them. -/
def tinyText : List Char :=
  ([] ++ ("MAP".toList ++ [] ++ ':' :: ' ' :: ([] ++ "a.fits".toList)) ++
  (['\n'] ++ ("COMMENT".toList ++ [] ++ ':' :: "one".toList) ++
  (['\n'] ++ ("BODY".toList ++ [] ++ ':' :: ' ' :: ([] ++ "Jupiter".toList)) ++
  (['\n'] ++ ("EQ_RAD".toList ++ [] ++ ':' :: ([' '] ++ "71492".toList ++ ([] ++ []))) ++
  (['\n'] ++ ("POL_RAD".toList ++ [] ++ ':' :: ([' '] ++ "66854".toList ++ ([] ++ []))) ++
  (['\n'] ++ ("ROTATION".toList ++ [] ++ [':']) ++
  ([' '] ++ "PROGRADE".toList ++
  (['\n'] ++ ("DATA_TYPE".toList ++ [] ++ [':']) ++
  ([' '] ++ "SHORT".toList ++
  (['\n'] ++ ("GRID".toList ++ [] ++ [':']) ++
  ([' '] ++ "YES".toList ++
  (['\n'] ++ ("TYPE".toList ++ [] ++ [':']) ++
  ([' '] ++ "MERCATOR".toList ++
  (['\n'] ++ ("SAMPLES".toList ++ [] ++ ':' :: ([' '] ++ "2".toList ++ ([] ++ []))) ++
  (['\n'] ++ ("LINES".toList ++ [] ++ ':' :: ([' '] ++ "1".toList ++ ([] ++ []))) ++
  (['\n'] ++ ("PLANE".toList ++ [] ++ ':' :: ([] ++ [])) ++
  (['\n'] ++ "LONGITUDE".toList ++
  ([] ++ []))))))))))))))))))

theorem tiny_written : Written tinyItems tinyText := by
  refine .cons .nil (.name (by decide) (by decide) .nil (by decide) .nil
    (by decide) (by decide) (by decide) (by decide)) (by simp [InputFile.Follows]) ?_
  refine .cons (.blank (by decide) .nil) (.text (by decide) (by decide) .nil (by decide)
    (by decide)) (by simp [InputFile.Follows]) ?_
  refine .cons (.blank (by decide) .nil) (.name (by decide) (by decide) .nil (by decide) .nil
    (by decide) (by decide) (by decide) (by decide)) (by simp [InputFile.Follows]) ?_
  refine .cons (.blank (by decide) .nil) (.expr (by decide) (by decide) .nil (.cons (by decide)
    ⟨rfl, [], "71492".toList, [], [], by decide, by decide, by decide, .inl rfl, by decide, .inl rfl⟩
    (.nil (by decide) (.inl rfl)) (.inl rfl))) (by simp [InputFile.Follows]) ?_
  refine .cons (.blank (by decide) .nil) (.expr (by decide) (by decide) .nil (.cons (by decide)
    ⟨rfl, [], "66854".toList, [], [], by decide, by decide, by decide, .inl rfl, by decide, .inl rfl⟩
    (.nil (by decide) (.inl rfl)) (.inl rfl))) (by simp [InputFile.Follows]) ?_
  iterate 4
    refine .cons (.blank (by decide) .nil) (.mark (by decide) (by decide) .nil) trivial ?_
    refine .cons (.blank (by decide) .nil) (.word (by decide) (by decide))
      (by simp [InputFile.Follows]) ?_
  refine .cons (.blank (by decide) .nil) (.expr (by decide) (by decide) .nil (.cons (by decide)
    ⟨rfl, [], "2".toList, [], [], by decide, by decide, by decide, .inl rfl, by decide, .inl rfl⟩
    (.nil (by decide) (.inl rfl)) (.inl rfl))) (by simp [InputFile.Follows]) ?_
  refine .cons (.blank (by decide) .nil) (.expr (by decide) (by decide) .nil (.cons (by decide)
    ⟨rfl, [], "1".toList, [], [], by decide, by decide, by decide, .inl rfl, by decide, .inl rfl⟩
    (.nil (by decide) (.inl rfl)) (.inl rfl))) (by simp [InputFile.Follows]) ?_
  refine .cons (.blank (by decide) .nil) (.expr (by decide) (by decide) .nil
    (.nil (by decide) (.inl rfl))) (by simp [InputFile.Follows]) ?_
  refine .cons (.blank (by decide) .nil) (.word (by decide) (by decide))
    (by simp [InputFile.Follows]) ?_
  exact .nil .nil (.inl rfl)

/-- Their tree. -/
def tinyTree : File :=
  .maps
    { file := "a.fits".toList, author := none, origin := none, comments := ["one".toList],
      xcomments := [], body := "Jupiter".toList,
      radii := .eqPol (Props.number "71492") (Props.number "66854"),
      prograde := true, offset := none, scale := none, type := some .short, blank := none,
      grid := .plain true, proj := .mercator none, planes := none, samples := "2".toList,
      lines := "1".toList, plane := ⟨none, .empty, .longitude⟩, more := [] } []

theorem tiny_parses : Parses (scan symrec tinyText) tinyTree := by
  have e : scan symrec tinyText = tinyItems.flatMap InputFile.Item.tokens :=
    scanFrom_written tiny_written
  rw [Parses, e]
  decide +kernel

theorem tree_eq {text : List Char} {f : File} (h : Parses (scan symrec text) f) :
    tree text = some f := by
  have hx : ∃ f, Parses (scan symrec text) f := ⟨f, h⟩
  unfold tree
  rw [dif_pos hx, Props.C87_unique hx.choose_spec h]

/-- A machine with one input file, no photos, and a projection that plots one point. -/
def tiny : Machine where
  E := Props.plainEnv
  L := .exact
  text := fun n => if n = "in" then some tinyText else none
  absent := fun _ => true
  fits := fun _ => none
  finalize := fun _ _ _ _ => .ok ()
  geometry := fun _ _ _ _ => ⟨fun _ => (false, .nan, .nan), fun _ _ => false⟩
  graphicLatitude := fun _ x => x
  cosine := fun _ _ _ => none
  plots := fun _ _ _ _ => [((.fin 0, .fin 1), 1)]
  grid := fun _ _ _ _ _ => .ok [.fin 0, .fin 255]
  cfitsio := fun _ => goodEnv

/-- The rest of the run once the tree of the file is known. -/
def tinyRest : Outcome (World × ℤ) :=
  match tinyTree.run tiny.E .start with
  | .ok (some r) => commands tiny r.2 >>= fun cs =>
      runCommands tiny.E.F tiny.cfitsio 0 cs (fun _ => none) 0
  | _ => .ub

/-- The run ends with status 0 and leaves two images. -/
def tinyDone : Outcome (World × ℤ) → Bool
  | .ok (w, 0) => ((w "a.fits").getD []).length = 2
  | _ => false

theorem tiny_done : tinyDone tinyRest = true := by decide +kernel

theorem tiny_main : main tiny "rc" (some ["in"]) (fun _ => none) = tinyRest := by
  have h1 : parseFile tiny "rc" .start = .ok none := rfl
  have h2 : tiny.text "in" = some tinyText := rfl
  have h3 := tiny_done
  have h4 := tree_eq tiny_parses
  unfold main
  rw [h1]
  simp only
  rw [if_pos ⟨rfl, rfl⟩]
  unfold mainFiles parseFiles parseFile parseFiles
  unfold tinyRest at h3 ⊢
  simp only [h2, h4]
  generalize tinyTree.run tiny.E .start = r at h3 ⊢
  rcases r with (_ | ⟨s, gs⟩) | _ | _
  · cases h3
  · simp only at h3 ⊢
    generalize commands tiny gs = c at h3 ⊢
    cases c with
    | ok cs => simp
    | throw e => cases h3
    | ub => cases h3
  · cases h3
  · cases h3

/-- The run succeeds, and the file it leaves is the one that the text asks for. -/
example : ∃ w' hdus, main tiny "rc" (some ["in"]) (fun _ => none) = .ok (w', 0) ∧
    w' "a.fits" = some hdus ∧ hdus.length = 2 ∧ IsMapFile (InputMeaning.entries tinyItems) hdus := by
  have h := tiny_done
  rw [← tiny_main] at h
  generalize hr : main tiny "rc" (some ["in"]) (fun _ => none) = r at h
  rcases r with ⟨w', k⟩ | _ | _
  · unfold tinyDone at h
    split at h
    · rename_i w1 he
      cases he
      have hm : maps (fun _ => tinyItems) (inputs tiny "rc" ["in"]) =
          [] ++ InputMeaning.entries tinyItems :: [] := by decide +kernel
      obtain ⟨file, h1, h2⟩ := C90_maps (items := fun _ => tinyItems)
        (fun n hn => by
          have : n = "in" := by simpa [inputs, tiny] using hn
          subst this
          exact ⟨tinyText, rfl, tiny_written⟩) hr hm
      have : fileOf (InputMeaning.entries tinyItems) = some "a.fits" := by decide +kernel
      rw [this] at h1
      cases h1
      obtain ⟨hdus, h3, h4⟩ := h2 (by simp)
      refine ⟨_, hdus, rfl, h3, ?_, h4⟩
      rw [h3] at h
      simpa using h
    · cases h
  · cases h
  · cases h

/-- A missing input file is refused. -/
example : ∀ w' k, main tiny "rc" (some ["in", "other"]) (fun _ => none) = .ok (w', k) →
    w' = (fun _ => none) ∧ k ≠ 0 := fun w' k h =>
  C90_refused h (n := "other") (by decide +kernel) (by
    rintro ⟨t, -, -, -, h, -⟩
    cases h)

end MaRC.Program
