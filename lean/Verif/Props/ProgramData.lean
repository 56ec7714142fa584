import Verif.Lemmas.ProgramData
import Verif.Props.Program
import Verif.Props.SourceValues

/-!
# C91: the maps of the program have the data its input files ask for
-/

namespace MaRC.Program

open Execute MaRC.Grammar MaRC.Calc MaRC.Scan
open MaRC.InputMeaning (Part Defaults entries)
open MaRC.InputFile (Item Written)
open MaRC.ProgramSpec

/-- The maps with what is in force for them are the maps of the input files. -/
theorem InForce.maps {E : Grammar.Env} {items : String → List Item} : ∀ {files : List String}
    {d : Defaults} {g : Bool} {ms : List (Defaults × Bool × Part)},
    InForce E d g (files.map fun n => entries (items n)) ms →
    ms.map (fun m => m.2.2) = ProgramSpec.maps items files
  | [], _, _, _, h => by cases h; rfl
  | n :: ns, _, _, _, h => by
    have key : ∀ (d : Defaults) (ess : List Part) (g : Bool),
        (fileMaps d g ess).map (fun m => m.2.2) = ess := by
      intro d ess
      induction ess with
      | nil => intro g; rfl
      | cons es ess ih => intro g; simp [fileMaps, ih]
    cases h with
    | cons h1 h2 h3 =>
      rw [List.map_append, key, InForce.maps h3]
      rfl

/-- **C91**.  When the program ends with status 0, the cells of every plane of every map that
an input file asks for (unless a later map has the same name) are the ones that its
entries ask for: a cell in which the projection plots a point of the body has the datum
that the plane's photo, mosaic, latitudes, longitudes or cosines have at that point, if it is
within the limits of the plane, and otherwise is empty.  The entries are read with the
defaults and the kind of latitudes that earlier files and maps left in force.
Missing: cells of mosaics in which a photo is seen without having a datum, which are not as
they should be (`C91_mosaic_violated`); writing of planes that CFITSIO refuses is found out
only at the end (C75). -/
theorem C91_data_partial {M : Machine} (hF : M.E.F = .ieee) {config : String}
    {names : List String} {items : String → List Item} {w w' : World}
    (ht : ∀ n ∈ inputs M config names, ∃ t, M.text n = some t ∧ Written (items n) t)
    (h : main M config (some names) w = .ok (w', 0)) :
    ∃ ms, InForce M.E firstDefaults false
        ((inputs M config names).map fun n => entries (items n)) ms ∧
      ms.map (fun m => m.2.2) = maps items (inputs M config names) ∧
      ∀ before d graphic es after, ms = before ++ (d, graphic, es) :: after →
        (∀ later ∈ after, fileOf later.2.2 ≠ fileOf es) →
        (∀ k, (M.cfitsio before.length).plane k = true) →
        ∃ file map rest, fileOf es = some file ∧ w' file = some (map :: rest) ∧
          IsData M d graphic es map := by
  rcases main_in ht h with ⟨-, h0⟩ | ⟨ms, cs, hms, hf, hr⟩
  · cases h0
  refine ⟨ms, hms, InForce.maps hms, ?_⟩
  intro before d graphic es after hsp hl hok
  rw [hsp] at hf
  obtain ⟨pre, c, post, rfl, hpre, hc, hpost⟩ := forall₂_split hf
  obtain ⟨w1, w2, h1, h2⟩ := runCommands_zero hr
  rw [Nat.zero_add, ← hpre.length_eq] at h1
  have hfile : fileOf es = some c.filename := hc.file
  obtain ⟨gc, hgc, hx⟩ := hc
  obtain ⟨map, rest, h3, h4⟩ := mapData hF hgc hx hok h1
  refine ⟨c.filename, map, rest, hfile, ?_, h4⟩
  rw [h2 c.filename]
  · exact h3
  · intro x hx e
    obtain ⟨later, h3, h4⟩ := forall₂_right hpost hx
    exact hl later h3 (by rw [h4.file, hfile, e])

/-! ## A run of the program -/

/-- The entries of an input file that asks for a photo, inverted, and longitudes. -/
def viewsItems : List Item :=
  [.name "MAP" "b.fits".toList,
   .name "BODY" "Jupiter".toList,
   .expr "EQ_RAD" [.num "3".toList],
   .expr "POL_RAD" [.num "2".toList],
   .mark "ROTATION",
   .word "PROGRADE",
   .mark "DATA_TYPE",
   .word "SHORT",
   .mark "GRID",
   .word "NO",
   .mark "TYPE",
   .word "MERCATOR",
   .expr "SAMPLES" [.num "2".toList],
   .expr "LINES" [.num "1".toList],
   .expr "PLANE" [],
   .name "IMAGE" "p.fits".toList,
   .mark "INVERT",
   .word "HORIZONTAL",
   .expr "SAMPLE_CENTER" [.num "1".toList],
   .expr "LINE_CENTER" [.num "1".toList],
   .expr "SUB_OBSERV_LAT" [.num "0".toList],
   .expr "SUB_OBSERV_LON" [.num "0".toList],
   .expr "POSITION_ANGLE" [.num "0".toList],
   .expr "SUB_SOLAR_LAT" [.num "0".toList],
   .expr "SUB_SOLAR_LON" [.num "0".toList],
   .expr "RANGE" [.num "1000".toList],
   .expr "KM_PER_PIXEL" [.num "1".toList],
   .expr "PLANE" [],
   .word "LONGITUDE"]

/-- A way to write them. -/
def viewsText : List Char :=
  ([] ++ ("MAP".toList ++ [] ++ ':' :: ' ' :: ([] ++ "b.fits".toList)) ++
  (['\n'] ++ ("BODY".toList ++ [] ++ ':' :: ' ' :: ([] ++ "Jupiter".toList)) ++
  (['\n'] ++ ("EQ_RAD".toList ++ [] ++ ':' :: ([' '] ++ "3".toList ++ ([] ++ []))) ++
  (['\n'] ++ ("POL_RAD".toList ++ [] ++ ':' :: ([' '] ++ "2".toList ++ ([] ++ []))) ++
  (['\n'] ++ ("ROTATION".toList ++ [] ++ [':']) ++
  ([' '] ++ "PROGRADE".toList ++
  (['\n'] ++ ("DATA_TYPE".toList ++ [] ++ [':']) ++
  ([' '] ++ "SHORT".toList ++
  (['\n'] ++ ("GRID".toList ++ [] ++ [':']) ++
  ([' '] ++ "NO".toList ++
  (['\n'] ++ ("TYPE".toList ++ [] ++ [':']) ++
  ([' '] ++ "MERCATOR".toList ++
  (['\n'] ++ ("SAMPLES".toList ++ [] ++ ':' :: ([' '] ++ "2".toList ++ ([] ++ []))) ++
  (['\n'] ++ ("LINES".toList ++ [] ++ ':' :: ([' '] ++ "1".toList ++ ([] ++ []))) ++
  (['\n'] ++ ("PLANE".toList ++ [] ++ ':' :: ([] ++ [])) ++
  (['\n'] ++ ("IMAGE".toList ++ [] ++ ':' :: ' ' :: ([] ++ "p.fits".toList)) ++
  (['\n'] ++ ("INVERT".toList ++ [] ++ [':']) ++
  ([' '] ++ "HORIZONTAL".toList ++
  (['\n'] ++ ("SAMPLE_CENTER".toList ++ [] ++ ':' :: ([' '] ++ "1".toList ++ ([] ++ []))) ++
  (['\n'] ++ ("LINE_CENTER".toList ++ [] ++ ':' :: ([' '] ++ "1".toList ++ ([] ++ []))) ++
  (['\n'] ++ ("SUB_OBSERV_LAT".toList ++ [] ++ ':' :: ([' '] ++ "0".toList ++ ([] ++ []))) ++
  (['\n'] ++ ("SUB_OBSERV_LON".toList ++ [] ++ ':' :: ([' '] ++ "0".toList ++ ([] ++ []))) ++
  (['\n'] ++ ("POSITION_ANGLE".toList ++ [] ++ ':' :: ([' '] ++ "0".toList ++ ([] ++ []))) ++
  (['\n'] ++ ("SUB_SOLAR_LAT".toList ++ [] ++ ':' :: ([' '] ++ "0".toList ++ ([] ++ []))) ++
  (['\n'] ++ ("SUB_SOLAR_LON".toList ++ [] ++ ':' :: ([' '] ++ "0".toList ++ ([] ++ []))) ++
  (['\n'] ++ ("RANGE".toList ++ [] ++ ':' :: ([' '] ++ "1000".toList ++ ([] ++ []))) ++
  (['\n'] ++ ("KM_PER_PIXEL".toList ++ [] ++ ':' :: ([' '] ++ "1".toList ++ ([] ++ []))) ++
  (['\n'] ++ ("PLANE".toList ++ [] ++ ':' :: ([] ++ [])) ++
  (['\n'] ++ "LONGITUDE".toList ++
  ([] ++ []))))))))))))))))))))))))))))))

theorem views_written : Written viewsItems viewsText := by
  refine .cons .nil (.name (by decide) (by decide) .nil (by decide) .nil
    (by decide) (by decide) (by decide) (by decide)) (by simp [InputFile.Follows]) ?_
  refine .cons (.blank (by decide) .nil) (.name (by decide) (by decide) .nil (by decide) .nil
    (by decide) (by decide) (by decide) (by decide)) (by simp [InputFile.Follows]) ?_
  refine .cons (.blank (by decide) .nil) (.expr (by decide) (by decide) .nil (.cons (by decide)
    ⟨rfl, [], "3".toList, [], [], by decide, by decide, by decide, .inl rfl, by decide, .inl rfl⟩
    (.nil (by decide) (.inl rfl)) (.inl rfl))) (by simp [InputFile.Follows]) ?_
  refine .cons (.blank (by decide) .nil) (.expr (by decide) (by decide) .nil (.cons (by decide)
    ⟨rfl, [], "2".toList, [], [], by decide, by decide, by decide, .inl rfl, by decide, .inl rfl⟩
    (.nil (by decide) (.inl rfl)) (.inl rfl))) (by simp [InputFile.Follows]) ?_
  refine .cons (.blank (by decide) .nil) (.mark (by decide) (by decide) .nil) trivial ?_
  refine .cons (.blank (by decide) .nil) (.word (by decide) (by decide))
    (by simp [InputFile.Follows]) ?_
  refine .cons (.blank (by decide) .nil) (.mark (by decide) (by decide) .nil) trivial ?_
  refine .cons (.blank (by decide) .nil) (.word (by decide) (by decide))
    (by simp [InputFile.Follows]) ?_
  refine .cons (.blank (by decide) .nil) (.mark (by decide) (by decide) .nil) trivial ?_
  refine .cons (.blank (by decide) .nil) (.word (by decide) (by decide))
    (by simp [InputFile.Follows]) ?_
  refine .cons (.blank (by decide) .nil) (.mark (by decide) (by decide) .nil) trivial ?_
  refine .cons (.blank (by decide) .nil) (.word (by decide) (by decide))
    (by simp [InputFile.Follows]) ?_
  refine .cons (.blank (by decide) .nil) (.expr (by decide) (by decide) .nil (.cons (by decide)
    ⟨rfl, [], "2".toList, [], [], by decide, by decide, by decide, .inl rfl, by decide, .inl rfl⟩
    (.nil (by decide) (.inl rfl)) (.inl rfl))) (by simp [InputFile.Follows]) ?_
  refine .cons (.blank (by decide) .nil) (.expr (by decide) (by decide) .nil (.cons (by decide)
    ⟨rfl, [], "1".toList, [], [], by decide, by decide, by decide, .inl rfl, by decide, .inl rfl⟩
    (.nil (by decide) (.inl rfl)) (.inl rfl))) (by simp [InputFile.Follows]) ?_
  refine .cons (.blank (by decide) .nil) (.expr (by decide) (by decide) .nil
    (.nil (by decide) (.inl rfl))) (by simp [InputFile.Follows]) ?_
  refine .cons (.blank (by decide) .nil) (.name (by decide) (by decide) .nil (by decide) .nil
    (by decide) (by decide) (by decide) (by decide)) (by simp [InputFile.Follows]) ?_
  refine .cons (.blank (by decide) .nil) (.mark (by decide) (by decide) .nil) trivial ?_
  refine .cons (.blank (by decide) .nil) (.word (by decide) (by decide))
    (by simp [InputFile.Follows]) ?_
  refine .cons (.blank (by decide) .nil) (.expr (by decide) (by decide) .nil (.cons (by decide)
    ⟨rfl, [], "1".toList, [], [], by decide, by decide, by decide, .inl rfl, by decide, .inl rfl⟩
    (.nil (by decide) (.inl rfl)) (.inl rfl))) (by simp [InputFile.Follows]) ?_
  refine .cons (.blank (by decide) .nil) (.expr (by decide) (by decide) .nil (.cons (by decide)
    ⟨rfl, [], "1".toList, [], [], by decide, by decide, by decide, .inl rfl, by decide, .inl rfl⟩
    (.nil (by decide) (.inl rfl)) (.inl rfl))) (by simp [InputFile.Follows]) ?_
  refine .cons (.blank (by decide) .nil) (.expr (by decide) (by decide) .nil (.cons (by decide)
    ⟨rfl, [], "0".toList, [], [], by decide, by decide, by decide, .inl rfl, by decide, .inl rfl⟩
    (.nil (by decide) (.inl rfl)) (.inl rfl))) (by simp [InputFile.Follows]) ?_
  refine .cons (.blank (by decide) .nil) (.expr (by decide) (by decide) .nil (.cons (by decide)
    ⟨rfl, [], "0".toList, [], [], by decide, by decide, by decide, .inl rfl, by decide, .inl rfl⟩
    (.nil (by decide) (.inl rfl)) (.inl rfl))) (by simp [InputFile.Follows]) ?_
  refine .cons (.blank (by decide) .nil) (.expr (by decide) (by decide) .nil (.cons (by decide)
    ⟨rfl, [], "0".toList, [], [], by decide, by decide, by decide, .inl rfl, by decide, .inl rfl⟩
    (.nil (by decide) (.inl rfl)) (.inl rfl))) (by simp [InputFile.Follows]) ?_
  refine .cons (.blank (by decide) .nil) (.expr (by decide) (by decide) .nil (.cons (by decide)
    ⟨rfl, [], "0".toList, [], [], by decide, by decide, by decide, .inl rfl, by decide, .inl rfl⟩
    (.nil (by decide) (.inl rfl)) (.inl rfl))) (by simp [InputFile.Follows]) ?_
  refine .cons (.blank (by decide) .nil) (.expr (by decide) (by decide) .nil (.cons (by decide)
    ⟨rfl, [], "0".toList, [], [], by decide, by decide, by decide, .inl rfl, by decide, .inl rfl⟩
    (.nil (by decide) (.inl rfl)) (.inl rfl))) (by simp [InputFile.Follows]) ?_
  refine .cons (.blank (by decide) .nil) (.expr (by decide) (by decide) .nil (.cons (by decide)
    ⟨rfl, [], "1000".toList, [], [], by decide, by decide, by decide, .inl rfl, by decide, .inl rfl⟩
    (.nil (by decide) (.inl rfl)) (.inl rfl))) (by simp [InputFile.Follows]) ?_
  refine .cons (.blank (by decide) .nil) (.expr (by decide) (by decide) .nil (.cons (by decide)
    ⟨rfl, [], "1".toList, [], [], by decide, by decide, by decide, .inl rfl, by decide, .inl rfl⟩
    (.nil (by decide) (.inl rfl)) (.inl rfl))) (by simp [InputFile.Follows]) ?_
  refine .cons (.blank (by decide) .nil) (.expr (by decide) (by decide) .nil
    (.nil (by decide) (.inl rfl))) (by simp [InputFile.Follows]) ?_
  refine .cons (.blank (by decide) .nil) (.word (by decide) (by decide))
    (by simp [InputFile.Follows]) ?_
  exact .nil .nil (.inl rfl)

/-- The photo of the tree. -/
def viewsPhoto : Grammar.Photo where
  file := "p.fits".toList
  nibble := .empty
  invert := some .horizontal
  interpolate := none
  removeSky := none
  centers := .pixel (.fst (Props.number "1") (Props.number "1"))
  axis := none
  flatField := none
  minnaert := .empty
  geomCorrect := none
  emiAngLimit := none
  terminator := none
  subObserv := .latLon ⟨Props.number "0", .plain, none⟩ ⟨Props.number "0", .plain⟩
  turn := ⟨Props.number "0", none⟩
  subSolar := .latLon ⟨Props.number "0", .plain, none⟩ ⟨Props.number "0", .plain⟩
  distance := ⟨Props.number "1000", none⟩
  scale := .km (Props.number "1")

/-- The tree of the text. -/
def viewsTree : File :=
  .maps
    { file := "b.fits".toList, author := none, origin := none, comments := [],
      xcomments := [], body := "Jupiter".toList,
      radii := .eqPol (Props.number "3") (Props.number "2"),
      prograde := true, offset := none, scale := none, type := some .short, blank := none,
      grid := .plain false, proj := .mercator none, planes := none, samples := "2".toList,
      lines := "1".toList, plane := ⟨none, .empty, .photos viewsPhoto []⟩,
      more := [⟨none, .empty, .longitude⟩] } []

theorem views_parses : Parses (scan symrec viewsText) viewsTree := by
  have e : scan symrec viewsText = viewsItems.flatMap InputFile.Item.tokens :=
    scanFrom_written views_written
  rw [Parses, e]
  decide +kernel

/-- A machine with this input file and a photo of two by two pixels.  The pixel in which a point is
seen depends on its longitude. -/
def views : Machine :=
  { tiny with
    E := { Props.plainEnv with F := .ieee }
    text := fun n => if n = "in" then some viewsText else none
    fits := fun n => if n = "p.fits" then
        some ⟨Source.smallPhoto 16 .absent 0 [.fin 5, .fin 7, .fin 8, .fin 9], none, none⟩
      else none
    geometry := fun _ _ _ _ => ⟨fun pt => (true, pt.2, .fin 0), fun _ _ => true⟩
    plots := fun _ _ _ _ => [((.fin 0, .fin 0), 0), ((.fin 0, .fin 1), 1)] }

/-- The rest of the run once the tree of the file is known. -/
def viewsRest : Outcome (World × ℤ) :=
  match viewsTree.run views.E .start with
  | .ok (some r) => commands views r.2 >>= fun cs =>
      runCommands views.E.F views.cfitsio 0 cs (fun _ => none) 0
  | _ => .ub

/-- The run ends with status 0 and leaves a map of which these are the cells: the pixels of
the first line of the photo in reverse order, then longitudes of 0 and 1 radians. -/
def viewsDone : Outcome (World × ℤ) → Bool
  | .ok (w, 0) => match w "b.fits" with
    | some [map] => map.image.cells 1 = some (.fin 7) ∧ map.image.cells 2 = some (.fin 5) ∧
        map.image.cells 3 = some (.fin (-18000)) ∧ map.image.cells 4 = some (.fin (-12270))
    | _ => false
  | _ => false

theorem views_done : viewsDone viewsRest = true := by decide +kernel

theorem views_main : main views "rc" (some ["in"]) (fun _ => none) = viewsRest := by
  have h1 : parseFile views "rc" .start = .ok none := rfl
  have h2 : views.text "in" = some viewsText := rfl
  have h3 := views_done
  have h4 := tree_eq views_parses
  unfold main
  rw [h1]
  simp only
  rw [if_pos ⟨rfl, rfl⟩]
  unfold mainFiles parseFiles parseFile parseFiles
  unfold viewsRest at h3 ⊢
  simp only [h2, h4]
  generalize viewsTree.run views.E .start = r at h3 ⊢
  rcases r with (_ | ⟨s, gs⟩) | _ | _
  · cases h3
  · simp only at h3 ⊢
    generalize commands views gs = c at h3 ⊢
    cases c with
    | ok cs => simp
    | throw e => cases h3
    | ub => cases h3
  · cases h3
  · cases h3

/-- The run succeeds, and its map has the data that the text asks for. -/
example : ∃ w' map, main views "rc" (some ["in"]) (fun _ => none) = .ok (w', 0) ∧
    w' "b.fits" = some [map] ∧ map.image.cells 1 = some (.fin 7) ∧
    map.image.cells 4 = some (.fin (-12270)) ∧
    IsData views firstDefaults false (entries viewsItems) map := by
  have h := views_done
  rw [← views_main] at h
  generalize hr : main views "rc" (some ["in"]) (fun _ => none) = r at h
  rcases r with ⟨w', k⟩ | _ | _
  · unfold viewsDone at h
    split at h
    · rename_i w1 he
      cases he
      split at h
      · rename_i map hw
        obtain ⟨ms, h1, h2, h3⟩ := C91_data_partial (items := fun _ => viewsItems) rfl
          (fun n hn => by
            have : n = "in" := by simpa [inputs, views, tiny] using hn
            subst this
            exact ⟨viewsText, rfl, views_written⟩) hr
        have hin : (inputs views "rc" ["in"]).map (fun _ => entries viewsItems) =
            [entries viewsItems] := by decide +kernel
        rw [hin] at h1
        have hp : InputMeaning.parts "MAP" (entries viewsItems) = [entries viewsItems] := by
          decide +kernel
        cases h1 with
        | cons ha hb hc =>
          cases hc
          have := hb (by simp [hp])
          subst this
          rw [hp] at h3
          obtain ⟨file, map', rest, h4, h5, h6⟩ := h3 [] firstDefaults false (entries viewsItems) []
            rfl (by simp) (fun _ => rfl)
          have : fileOf (entries viewsItems) = some "b.fits" := by decide +kernel
          rw [this] at h4
          cases h4
          rw [hw] at h5
          cases h5
          simp only [decide_eq_true_eq] at h
          exact ⟨_, map, rfl, hw, h.1, h.2.2.2, h6⟩
      · cases h
    · cases h
  · cases h
  · cases h

/-- The datum of the photo at longitude 0: the pixel seen there is the first of its line, which
the inversion takes from the end of the line. -/
example (v : ViewSettings) : PhotoDatum views ⟨true, .fin 3, .fin 2⟩
    { file := "p.fits", flatField := "", geomCorrect := false, interpolate := false,
      invertV := false, invertH := true, nibble := ⟨0, 0, 0, 0⟩, removeSky := true, view := v }
    (.fin 0, .fin 0) (.fin 7) := by
  refine ⟨_, _, rfl, by simp, 0, 0, 0, 0, ⟨⟨rfl, ?_⟩, ?_⟩, ?_, rfl⟩
  · norm_num
  · simp [views, Source.smallPhoto]
  · have : physicalAt ⟨Source.smallPhoto 16 .absent 0 [.fin 5, .fin 7, .fin 8, .fin 9], none, none⟩
        0 1 = some (.fin 7) := by decide +kernel
    exact this

end MaRC.Program
