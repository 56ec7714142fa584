import Verif.Props.ProgramData

/-! # C91: mosaics

A run of the program with a mosaic of two photos.  A cell with data of both photos has their
average.  A cell where the first photo has a pixel without value is empty, although the second
photo has a datum there.
-/

namespace MaRC.Program

open MaRC.Execute MaRC.ProgramSpec
open MaRC.Grammar (Body File Parses)
open MaRC.Parser (PhotoCmd)
open MaRC.InputFile (Item Written)
open MaRC.InputMeaning (entries)
open MaRC.MapFactory (PlaneLimits)
open MaRC.Calc MaRC.Scan

/-- The entries of an input file that asks for a mosaic of two photos. -/
def pairsItems : List Item :=
  [.name "MAP" "b.fits".toList,
   .name "BODY" "Jupiter".toList,
   .expr "EQ_RAD" [.num "3".toList],
   .expr "POL_RAD" [.num "2".toList],
   .mark "ROTATION",
   .word "PROGRADE",
   .mark "DATA_TYPE",
   .word "SHORT",
   .mark "GRID",
   .word "NO",
   .mark "TYPE",
   .word "MERCATOR",
   .mark "OPTIONS",
   .mark "AVERAGING",
   .word "UNWEIGHTED",
   .expr "SAMPLES" [.num "2".toList],
   .expr "LINES" [.num "1".toList],
   .expr "PLANE" [],
   .name "IMAGE" "p.fits".toList,
   .expr "SAMPLE_CENTER" [.num "1".toList],
   .expr "LINE_CENTER" [.num "1".toList],
   .expr "SUB_OBSERV_LAT" [.num "0".toList],
   .expr "SUB_OBSERV_LON" [.num "0".toList],
   .expr "POSITION_ANGLE" [.num "0".toList],
   .expr "SUB_SOLAR_LAT" [.num "0".toList],
   .expr "SUB_SOLAR_LON" [.num "0".toList],
   .expr "RANGE" [.num "1000".toList],
   .expr "KM_PER_PIXEL" [.num "1".toList],
   .name "IMAGE" "q.fits".toList,
   .expr "SAMPLE_CENTER" [.num "1".toList],
   .expr "LINE_CENTER" [.num "1".toList],
   .expr "SUB_OBSERV_LAT" [.num "0".toList],
   .expr "SUB_OBSERV_LON" [.num "0".toList],
   .expr "POSITION_ANGLE" [.num "0".toList],
   .expr "SUB_SOLAR_LAT" [.num "0".toList],
   .expr "SUB_SOLAR_LON" [.num "0".toList],
   .expr "RANGE" [.num "1000".toList],
   .expr "KM_PER_PIXEL" [.num "1".toList]]

/-- A way to write them. -/
def pairsText : List Char :=
  ([] ++ ("MAP".toList ++ [] ++ ':' :: ' ' :: ([] ++ "b.fits".toList)) ++
  (['\n'] ++ ("BODY".toList ++ [] ++ ':' :: ' ' :: ([] ++ "Jupiter".toList)) ++
  (['\n'] ++ ("EQ_RAD".toList ++ [] ++ ':' :: ([' '] ++ "3".toList ++ ([] ++ []))) ++
  (['\n'] ++ ("POL_RAD".toList ++ [] ++ ':' :: ([' '] ++ "2".toList ++ ([] ++ []))) ++
  (['\n'] ++ ("ROTATION".toList ++ [] ++ [':']) ++
  ([' '] ++ "PROGRADE".toList ++
  (['\n'] ++ ("DATA_TYPE".toList ++ [] ++ [':']) ++
  ([' '] ++ "SHORT".toList ++
  (['\n'] ++ ("GRID".toList ++ [] ++ [':']) ++
  ([' '] ++ "NO".toList ++
  (['\n'] ++ ("TYPE".toList ++ [] ++ [':']) ++
  ([' '] ++ "MERCATOR".toList ++
  (['\n'] ++ ("OPTIONS".toList ++ [] ++ [':']) ++
  (['\n'] ++ ("AVERAGING".toList ++ [] ++ [':']) ++
  ([' '] ++ "UNWEIGHTED".toList ++
  (['\n'] ++ ("SAMPLES".toList ++ [] ++ ':' :: ([' '] ++ "2".toList ++ ([] ++ []))) ++
  (['\n'] ++ ("LINES".toList ++ [] ++ ':' :: ([' '] ++ "1".toList ++ ([] ++ []))) ++
  (['\n'] ++ ("PLANE".toList ++ [] ++ ':' :: ([] ++ [])) ++
  (['\n'] ++ ("IMAGE".toList ++ [] ++ ':' :: ' ' :: ([] ++ "p.fits".toList)) ++
  (['\n'] ++ ("SAMPLE_CENTER".toList ++ [] ++ ':' :: ([' '] ++ "1".toList ++ ([] ++ []))) ++
  (['\n'] ++ ("LINE_CENTER".toList ++ [] ++ ':' :: ([' '] ++ "1".toList ++ ([] ++ []))) ++
  (['\n'] ++ ("SUB_OBSERV_LAT".toList ++ [] ++ ':' :: ([' '] ++ "0".toList ++ ([] ++ []))) ++
  (['\n'] ++ ("SUB_OBSERV_LON".toList ++ [] ++ ':' :: ([' '] ++ "0".toList ++ ([] ++ []))) ++
  (['\n'] ++ ("POSITION_ANGLE".toList ++ [] ++ ':' :: ([' '] ++ "0".toList ++ ([] ++ []))) ++
  (['\n'] ++ ("SUB_SOLAR_LAT".toList ++ [] ++ ':' :: ([' '] ++ "0".toList ++ ([] ++ []))) ++
  (['\n'] ++ ("SUB_SOLAR_LON".toList ++ [] ++ ':' :: ([' '] ++ "0".toList ++ ([] ++ []))) ++
  (['\n'] ++ ("RANGE".toList ++ [] ++ ':' :: ([' '] ++ "1000".toList ++ ([] ++ []))) ++
  (['\n'] ++ ("KM_PER_PIXEL".toList ++ [] ++ ':' :: ([' '] ++ "1".toList ++ ([] ++ []))) ++
  (['\n'] ++ ("IMAGE".toList ++ [] ++ ':' :: ' ' :: ([] ++ "q.fits".toList)) ++
  (['\n'] ++ ("SAMPLE_CENTER".toList ++ [] ++ ':' :: ([' '] ++ "1".toList ++ ([] ++ []))) ++
  (['\n'] ++ ("LINE_CENTER".toList ++ [] ++ ':' :: ([' '] ++ "1".toList ++ ([] ++ []))) ++
  (['\n'] ++ ("SUB_OBSERV_LAT".toList ++ [] ++ ':' :: ([' '] ++ "0".toList ++ ([] ++ []))) ++
  (['\n'] ++ ("SUB_OBSERV_LON".toList ++ [] ++ ':' :: ([' '] ++ "0".toList ++ ([] ++ []))) ++
  (['\n'] ++ ("POSITION_ANGLE".toList ++ [] ++ ':' :: ([' '] ++ "0".toList ++ ([] ++ []))) ++
  (['\n'] ++ ("SUB_SOLAR_LAT".toList ++ [] ++ ':' :: ([' '] ++ "0".toList ++ ([] ++ []))) ++
  (['\n'] ++ ("SUB_SOLAR_LON".toList ++ [] ++ ':' :: ([' '] ++ "0".toList ++ ([] ++ []))) ++
  (['\n'] ++ ("RANGE".toList ++ [] ++ ':' :: ([' '] ++ "1000".toList ++ ([] ++ []))) ++
  (['\n'] ++ ("KM_PER_PIXEL".toList ++ [] ++ ':' :: ([' '] ++ "1".toList ++ ([] ++ []))) ++
  ([] ++ [])))))))))))))))))))))))))))))))))))))))

theorem pairs_written : Written pairsItems pairsText := by
  refine .cons .nil (.name (by decide) (by decide) .nil (by decide) .nil
    (by decide) (by decide) (by decide) (by decide)) (by simp [InputFile.Follows]) ?_
  refine .cons (.blank (by decide) .nil) (.name (by decide) (by decide) .nil (by decide) .nil
    (by decide) (by decide) (by decide) (by decide)) (by simp [InputFile.Follows]) ?_
  refine .cons (.blank (by decide) .nil) (.expr (by decide) (by decide) .nil (.cons (by decide)
    ⟨rfl, [], "3".toList, [], [], by decide, by decide, by decide, .inl rfl, by decide, .inl rfl⟩
    (.nil (by decide) (.inl rfl)) (.inl rfl))) (by simp [InputFile.Follows]) ?_
  refine .cons (.blank (by decide) .nil) (.expr (by decide) (by decide) .nil (.cons (by decide)
    ⟨rfl, [], "2".toList, [], [], by decide, by decide, by decide, .inl rfl, by decide, .inl rfl⟩
    (.nil (by decide) (.inl rfl)) (.inl rfl))) (by simp [InputFile.Follows]) ?_
  refine .cons (.blank (by decide) .nil) (.mark (by decide) (by decide) .nil) trivial ?_
  refine .cons (.blank (by decide) .nil) (.word (by decide) (by decide))
    (by simp [InputFile.Follows]) ?_
  refine .cons (.blank (by decide) .nil) (.mark (by decide) (by decide) .nil) trivial ?_
  refine .cons (.blank (by decide) .nil) (.word (by decide) (by decide))
    (by simp [InputFile.Follows]) ?_
  refine .cons (.blank (by decide) .nil) (.mark (by decide) (by decide) .nil) trivial ?_
  refine .cons (.blank (by decide) .nil) (.word (by decide) (by decide))
    (by simp [InputFile.Follows]) ?_
  refine .cons (.blank (by decide) .nil) (.mark (by decide) (by decide) .nil) trivial ?_
  refine .cons (.blank (by decide) .nil) (.word (by decide) (by decide))
    (by simp [InputFile.Follows]) ?_
  refine .cons (.blank (by decide) .nil) (.mark (by decide) (by decide) .nil) trivial ?_
  refine .cons (.blank (by decide) .nil) (.mark (by decide) (by decide) .nil) trivial ?_
  refine .cons (.blank (by decide) .nil) (.word (by decide) (by decide))
    (by simp [InputFile.Follows]) ?_
  refine .cons (.blank (by decide) .nil) (.expr (by decide) (by decide) .nil (.cons (by decide)
    ⟨rfl, [], "2".toList, [], [], by decide, by decide, by decide, .inl rfl, by decide, .inl rfl⟩
    (.nil (by decide) (.inl rfl)) (.inl rfl))) (by simp [InputFile.Follows]) ?_
  refine .cons (.blank (by decide) .nil) (.expr (by decide) (by decide) .nil (.cons (by decide)
    ⟨rfl, [], "1".toList, [], [], by decide, by decide, by decide, .inl rfl, by decide, .inl rfl⟩
    (.nil (by decide) (.inl rfl)) (.inl rfl))) (by simp [InputFile.Follows]) ?_
  refine .cons (.blank (by decide) .nil) (.expr (by decide) (by decide) .nil
    (.nil (by decide) (.inl rfl))) (by simp [InputFile.Follows]) ?_
  refine .cons (.blank (by decide) .nil) (.name (by decide) (by decide) .nil (by decide) .nil
    (by decide) (by decide) (by decide) (by decide)) (by simp [InputFile.Follows]) ?_
  refine .cons (.blank (by decide) .nil) (.expr (by decide) (by decide) .nil (.cons (by decide)
    ⟨rfl, [], "1".toList, [], [], by decide, by decide, by decide, .inl rfl, by decide, .inl rfl⟩
    (.nil (by decide) (.inl rfl)) (.inl rfl))) (by simp [InputFile.Follows]) ?_
  refine .cons (.blank (by decide) .nil) (.expr (by decide) (by decide) .nil (.cons (by decide)
    ⟨rfl, [], "1".toList, [], [], by decide, by decide, by decide, .inl rfl, by decide, .inl rfl⟩
    (.nil (by decide) (.inl rfl)) (.inl rfl))) (by simp [InputFile.Follows]) ?_
  refine .cons (.blank (by decide) .nil) (.expr (by decide) (by decide) .nil (.cons (by decide)
    ⟨rfl, [], "0".toList, [], [], by decide, by decide, by decide, .inl rfl, by decide, .inl rfl⟩
    (.nil (by decide) (.inl rfl)) (.inl rfl))) (by simp [InputFile.Follows]) ?_
  refine .cons (.blank (by decide) .nil) (.expr (by decide) (by decide) .nil (.cons (by decide)
    ⟨rfl, [], "0".toList, [], [], by decide, by decide, by decide, .inl rfl, by decide, .inl rfl⟩
    (.nil (by decide) (.inl rfl)) (.inl rfl))) (by simp [InputFile.Follows]) ?_
  refine .cons (.blank (by decide) .nil) (.expr (by decide) (by decide) .nil (.cons (by decide)
    ⟨rfl, [], "0".toList, [], [], by decide, by decide, by decide, .inl rfl, by decide, .inl rfl⟩
    (.nil (by decide) (.inl rfl)) (.inl rfl))) (by simp [InputFile.Follows]) ?_
  refine .cons (.blank (by decide) .nil) (.expr (by decide) (by decide) .nil (.cons (by decide)
    ⟨rfl, [], "0".toList, [], [], by decide, by decide, by decide, .inl rfl, by decide, .inl rfl⟩
    (.nil (by decide) (.inl rfl)) (.inl rfl))) (by simp [InputFile.Follows]) ?_
  refine .cons (.blank (by decide) .nil) (.expr (by decide) (by decide) .nil (.cons (by decide)
    ⟨rfl, [], "0".toList, [], [], by decide, by decide, by decide, .inl rfl, by decide, .inl rfl⟩
    (.nil (by decide) (.inl rfl)) (.inl rfl))) (by simp [InputFile.Follows]) ?_
  refine .cons (.blank (by decide) .nil) (.expr (by decide) (by decide) .nil (.cons (by decide)
    ⟨rfl, [], "1000".toList, [], [], by decide, by decide, by decide, .inl rfl, by decide, .inl rfl⟩
    (.nil (by decide) (.inl rfl)) (.inl rfl))) (by simp [InputFile.Follows]) ?_
  refine .cons (.blank (by decide) .nil) (.expr (by decide) (by decide) .nil (.cons (by decide)
    ⟨rfl, [], "1".toList, [], [], by decide, by decide, by decide, .inl rfl, by decide, .inl rfl⟩
    (.nil (by decide) (.inl rfl)) (.inl rfl))) (by simp [InputFile.Follows]) ?_
  refine .cons (.blank (by decide) .nil) (.name (by decide) (by decide) .nil (by decide) .nil
    (by decide) (by decide) (by decide) (by decide)) (by simp [InputFile.Follows]) ?_
  refine .cons (.blank (by decide) .nil) (.expr (by decide) (by decide) .nil (.cons (by decide)
    ⟨rfl, [], "1".toList, [], [], by decide, by decide, by decide, .inl rfl, by decide, .inl rfl⟩
    (.nil (by decide) (.inl rfl)) (.inl rfl))) (by simp [InputFile.Follows]) ?_
  refine .cons (.blank (by decide) .nil) (.expr (by decide) (by decide) .nil (.cons (by decide)
    ⟨rfl, [], "1".toList, [], [], by decide, by decide, by decide, .inl rfl, by decide, .inl rfl⟩
    (.nil (by decide) (.inl rfl)) (.inl rfl))) (by simp [InputFile.Follows]) ?_
  refine .cons (.blank (by decide) .nil) (.expr (by decide) (by decide) .nil (.cons (by decide)
    ⟨rfl, [], "0".toList, [], [], by decide, by decide, by decide, .inl rfl, by decide, .inl rfl⟩
    (.nil (by decide) (.inl rfl)) (.inl rfl))) (by simp [InputFile.Follows]) ?_
  refine .cons (.blank (by decide) .nil) (.expr (by decide) (by decide) .nil (.cons (by decide)
    ⟨rfl, [], "0".toList, [], [], by decide, by decide, by decide, .inl rfl, by decide, .inl rfl⟩
    (.nil (by decide) (.inl rfl)) (.inl rfl))) (by simp [InputFile.Follows]) ?_
  refine .cons (.blank (by decide) .nil) (.expr (by decide) (by decide) .nil (.cons (by decide)
    ⟨rfl, [], "0".toList, [], [], by decide, by decide, by decide, .inl rfl, by decide, .inl rfl⟩
    (.nil (by decide) (.inl rfl)) (.inl rfl))) (by simp [InputFile.Follows]) ?_
  refine .cons (.blank (by decide) .nil) (.expr (by decide) (by decide) .nil (.cons (by decide)
    ⟨rfl, [], "0".toList, [], [], by decide, by decide, by decide, .inl rfl, by decide, .inl rfl⟩
    (.nil (by decide) (.inl rfl)) (.inl rfl))) (by simp [InputFile.Follows]) ?_
  refine .cons (.blank (by decide) .nil) (.expr (by decide) (by decide) .nil (.cons (by decide)
    ⟨rfl, [], "0".toList, [], [], by decide, by decide, by decide, .inl rfl, by decide, .inl rfl⟩
    (.nil (by decide) (.inl rfl)) (.inl rfl))) (by simp [InputFile.Follows]) ?_
  refine .cons (.blank (by decide) .nil) (.expr (by decide) (by decide) .nil (.cons (by decide)
    ⟨rfl, [], "1000".toList, [], [], by decide, by decide, by decide, .inl rfl, by decide, .inl rfl⟩
    (.nil (by decide) (.inl rfl)) (.inl rfl))) (by simp [InputFile.Follows]) ?_
  refine .cons (.blank (by decide) .nil) (.expr (by decide) (by decide) .nil (.cons (by decide)
    ⟨rfl, [], "1".toList, [], [], by decide, by decide, by decide, .inl rfl, by decide, .inl rfl⟩
    (.nil (by decide) (.inl rfl)) (.inl rfl))) (by simp [InputFile.Follows]) ?_
  exact .nil .nil (.inl rfl)

/-- The photos of the tree. -/
def pairsPhoto (file : String) : Grammar.Photo :=
  { viewsPhoto with file := file.toList, invert := none }

/-- The tree of the text. -/
def pairsTree : File :=
  .maps
    { file := "b.fits".toList, author := none, origin := none, comments := [],
      xcomments := [], body := "Jupiter".toList,
      radii := .eqPol (Props.number "3") (Props.number "2"),
      prograde := true, offset := none, scale := none, type := some .short, blank := none,
      grid := .plain false, proj := .mercator (some (some .unweighted)), planes := none,
      samples := "2".toList, lines := "1".toList,
      plane := ⟨none, .empty, .photos (pairsPhoto "p.fits") [pairsPhoto "q.fits"]⟩,
      more := [] } []

theorem pairs_parses : Parses (scan symrec pairsText) pairsTree := by
  have e : scan symrec pairsText = pairsItems.flatMap InputFile.Item.tokens :=
    scanFrom_written pairs_written
  rw [Parses, e]
  decide +kernel

/-- The first photo: the second pixel has no value. -/
def pairsFits (n : String) : Option Fits :=
  if n = "p.fits" then
    some ⟨Source.smallPhoto (-32) .absent 0 [.fin 5, .nan, .fin 8, .fin 9], none, none⟩
  else if n = "q.fits" then
    some ⟨Source.smallPhoto 16 .absent 0 [.fin 7, .fin 6, .fin 4, .fin 3], none, none⟩
  else none

/-- A machine with this input file and two photos of two by two pixels.  The pixel in which a
point is seen depends on its longitude. -/
def pairs : Machine :=
  { views with
    text := fun n => if n = "in" then some pairsText else none
    fits := pairsFits }

/-- The rest of the run once the tree of the file is known. -/
def pairsRest : Outcome (World × ℤ) :=
  match pairsTree.run pairs.E .start with
  | .ok (some r) => commands pairs r.2 >>= fun cs =>
      runCommands pairs.E.F pairs.cfitsio 0 cs (fun _ => none) 0
  | _ => .ub

/-- The run ends with status 0 and leaves a map of 16-bit integers: the average of the first
pixels, and an empty cell. -/
def pairsDone : Outcome (World × ℤ) → Bool
  | .ok (w, 0) => match w "b.fits" with
    | some [map] => map.bitpix = 16 ∧ map.image.cells 1 = some (.fin 6) ∧
        map.image.cells 2 = some (.fin 0)
    | _ => false
  | _ => false

theorem pairs_done : pairsDone pairsRest = true := by decide +kernel

theorem pairs_main : main pairs "rc" (some ["in"]) (fun _ => none) = pairsRest := by
  have h1 : parseFile pairs "rc" .start = .ok none := rfl
  have h2 : pairs.text "in" = some pairsText := rfl
  have h3 := pairs_done
  have h4 := tree_eq pairs_parses
  unfold main
  rw [h1]
  simp only
  rw [if_pos ⟨rfl, rfl⟩]
  unfold mainFiles parseFiles parseFile parseFiles
  unfold pairsRest at h3 ⊢
  simp only [h2, h4]
  generalize pairsTree.run pairs.E .start = r at h3 ⊢
  rcases r with (_ | ⟨s, gs⟩) | _ | _
  · cases h3
  · simp only at h3 ⊢
    generalize commands pairs gs = c at h3 ⊢
    cases c with
    | ok cs => simp
    | throw e => cases h3
    | ub => cases h3
  · cases h3
  · cases h3

/-- A plain photo: not inverted, nothing nibbled off. -/
def plainCmd (file : String) (c : PhotoCmd) : Bool :=
  c.file = file ∧ c.flatField = "" ∧ c.interpolate = false ∧ c.invertV = false ∧
    c.invertH = false ∧ c.nibble.left = 0 ∧ c.nibble.right = 0 ∧ c.nibble.top = 0 ∧
    c.nibble.bottom = 0

/-- The command has one plane, a mosaic of the two photos without limits. -/
def pairsCommand (c : Grammar.Command) : Bool :=
  match c.planes with
  | [⟨none, none, .photos (.mosaic [c1, c2] .unweighted)⟩] =>
    plainCmd "p.fits" c1 && plainCmd "q.fits" c2
  | _ => false


/-- The command of the tree. -/
def pairsRun (r : Outcome (Option (Grammar.State × List Grammar.Command))) : Bool :=
  match r with
  | .ok (some (_, [c])) => pairsCommand c
  | _ => false

theorem pairs_run : pairsRun (pairsTree.run pairs.E .start) = true := by decide +kernel

theorem plainCmd_value {file : String} {c : PhotoCmd} (h : plainCmd file c = true) {f : Fits}
    {x z : ℚ} {k i : ℕ} {y : Dbl} (h' : ValueAt pairs f c x z k i y) :
    physicalAt f k i = some y := by
  simp only [plainCmd, decide_eq_true_eq] at h
  obtain ⟨-, h1, h2, h3, h4, -⟩ := h
  simpa [ValueAt, pixelValue, h1, h2, h3, h4] using h'

/-- The pixel in which a point is seen. -/
theorem pairs_seen {b : Body} {f : Fits} {c : PhotoCmd} {x z : ℚ} {k i : ℕ}
    (h : SeenAt pairs b f c (.fin 0, .fin 1) x z k i) : k = 0 ∧ i = 1 := by
  obtain ⟨⟨h1, h2, h3, h4, h5⟩, -⟩ := h
  have h1 : ((true, .fin 1, .fin 0) : Bool × Dbl × Dbl) = (true, .fin x, .fin z) := h1
  simp only [Prod.mk.injEq, Dbl.fin.injEq, true_and] at h1
  obtain ⟨rfl, rfl⟩ := h1
  constructor
  · have : (k : ℚ) ≤ (0 : ℕ) := by simpa using h4
    have : k ≤ 0 := by exact_mod_cast this
    omega
  · have a : (i : ℚ) ≤ (1 : ℕ) := by simpa using h2
    have b : ((1 : ℕ) : ℚ) < ((i + 1 : ℕ) : ℚ) := by simpa using h3
    have a : i ≤ 1 := by exact_mod_cast a
    have b : 1 < i + 1 := by exact_mod_cast b
    omega

/-- The first photo has no datum where its pixel has no value. -/
theorem pairs_first {b : Body} {c : PhotoCmd} (h : plainCmd "p.fits" c = true) (y : Dbl) (w : ℕ) :
    ¬ PhotoShare pairs b c (.fin 0, .fin 1) y w := by
  rintro ⟨f, hf, hy, x, z, k, i, hs, hv, -⟩
  obtain ⟨rfl, rfl⟩ := pairs_seen hs
  have hv := plainCmd_value h hv
  have hfile : c.file = "p.fits" := by
    simp only [plainCmd, decide_eq_true_eq] at h
    exact h.1
  rw [hfile] at hf
  cases hf
  have : physicalAt ⟨Source.smallPhoto (-32) .absent 0 [.fin 5, .nan, .fin 8, .fin 9], none, none⟩
      0 1 = some .nan := by decide +kernel
  rw [this] at hv
  exact hy (Option.some.inj hv).symm

/-- The second photo has a datum there. -/
theorem pairs_second {b : Body} {c : PhotoCmd} (h : plainCmd "q.fits" c = true) :
    ∃ w, PhotoShare pairs b c (.fin 0, .fin 1) (.fin 6) w := by
  simp only [plainCmd, decide_eq_true_eq] at h
  obtain ⟨h0, h1, h2, h3, h4, h5, h6, h7, h8⟩ := h
  have : physicalAt ⟨Source.smallPhoto 16 .absent 0 [.fin 7, .fin 6, .fin 4, .fin 3], none, none⟩
      0 1 = some (.fin 6) := by decide +kernel
  refine ⟨_, ⟨Source.smallPhoto 16 .absent 0 [.fin 7, .fin 6, .fin 4, .fin 3], none, none⟩,
    by rw [h0]; rfl, by simp, 1, 0, 0, 1, ⟨⟨rfl, ?_⟩, ?_⟩, ?_, rfl⟩
  · norm_num
  · refine ⟨by omega, ?_, by omega, ?_, fun _ => rfl⟩
    · rw [h6]; decide
    · rw [h8]; decide
  · simpa [ValueAt, pixelValue, h1, h2, h3, h4] using this

theorem pairs_plain {file : String} {c : PhotoCmd} (h : plainCmd file c = true) :
    PlainPhoto pairs c := by
  simp only [plainCmd, decide_eq_true_eq] at h
  obtain ⟨-, h1, -, -, -, -, h6, -, h8⟩ := h
  constructor
  · intro f hf
    have hsize : f.photo.naxis1 = 2 ∧ f.photo.naxis2 = 2 := by
      have hf : pairsFits c.file = some f := hf
      unfold pairsFits at hf
      split at hf
      · cases hf; exact ⟨rfl, rfl⟩
      · split at hf
        · cases hf; exact ⟨rfl, rfl⟩
        · cases hf
    rw [hsize.1, hsize.2, h6, h8]
    norm_num
  · intro f hf
    rw [h1] at hf
    cases hf

/-- Mosaics do not show what they should where a photo has a pixel without value.  The run
succeeds.  The second cell is empty, although the second photo has a datum within the limits
of the plane at the point plotted there. -/
theorem C91_mosaic_violated :
    ∃ w' map c p lo hi, main pairs "rc" (some ["in"]) (fun _ => none) = .ok (w', 0) ∧
      Written pairsItems pairsText ∧ pairs.text "in" = some pairsText ∧
      w' "b.fits" = some [map] ∧ FitsType map.bitpix .i16 ∧
      InputMeaning.IsCommand pairs.E firstDefaults false (entries pairsItems) c ∧
      c.planes = [p] ∧ Covered pairs p.source ∧
      PlaneLimits .i16 (limits pairs .i16 p) lo hi ∧
      ¬ CellShows .i16 (pairs.plots c.body c.proj 2 1) (HasDatum pairs .i16 c.body p.source) lo hi
          (Source.emptyCell .i16 none) 1 (map.image.cells 2) := by
  have hrun := pairs_run
  generalize hr0 : pairsTree.run pairs.E .start = r0 at hrun
  replace hrun : ∃ s' c, r0 = .ok (some (s', [c])) ∧ pairsCommand c = true := by
    rcases r0 with (_ | ⟨s', _ | ⟨c, _ | ⟨_, _⟩⟩⟩) | _ | _
    case ok.some.cons.nil => exact ⟨s', c, rfl, hrun⟩
    all_goals cases hrun
  obtain ⟨s', c, rfl, hrun⟩ := hrun
  have hcs := Props.C88_first_partial pairs_written pairs_parses hr0
  have hp : InputMeaning.parts "MAP" (entries pairsItems) = [entries pairsItems] := by
    decide +kernel
  rw [hp] at hcs
  obtain ⟨⟩ | ⟨hc, -⟩ := hcs
  unfold pairsCommand at hrun
  split at hrun
  swap
  · cases hrun
  rename_i c1 c2 hpl
  simp only [Bool.and_eq_true] at hrun
  obtain ⟨hc1, hc2⟩ := hrun
  have h := pairs_done
  rw [← pairs_main] at h
  generalize hr : main pairs "rc" (some ["in"]) (fun _ => none) = r at h
  rcases r with ⟨w', k⟩ | _ | _
  · unfold pairsDone at h
    split at h
    · rename_i w1 he
      cases he
      split at h
      · rename_i map hw
        simp only [decide_eq_true_eq] at h
        obtain ⟨hb, -, hcell⟩ := h
        refine ⟨_, map, c, _, .fin (-32768), .fin 32767, rfl, pairs_written, rfl, hw, ?_, hc, hpl,
          ?_, ?_, ?_⟩
        · rw [hb]; exact .short
        · intro c' hc'
          simp only [List.mem_cons, List.not_mem_nil, or_false] at hc'
          rcases hc' with rfl | rfl
          · exact pairs_plain hc1
          · exact pairs_plain hc2
        · exact ⟨⟨none, none⟩, .fin (-32768), .fin 32767, rfl, by decide +kernel,
            by decide +kernel, by decide +kernel⟩
        · rw [hcell]
          obtain ⟨w, hw2⟩ := pairs_second (b := c.body) hc2
          have hsh : Shares pairs c.body (.fin 0, .fin 1) [c1, c2] [(.fin 6, w)] :=
            .hasNot (pairs_first hc1) (.has hw2 .nil)
          have hdat : HasDatum pairs .i16 c.body (.photos (.mosaic [c1, c2] .unweighted))
              (.fin 0, .fin 1) (.fin 6) := ⟨_, hsh, by simp [average]⟩
          rintro (⟨-, h2⟩ | ⟨before, pt, after, x, v, h1, ⟨ys, hys, hav⟩, h3, h4, h5, h6, h7⟩)
          · refine h2 (.fin 0, .fin 1) (.fin 6) ?_ hdat ?_
            · simp [pairs, views]
            · norm_num [Dbl.le]
          · have hpt : pt = (.fin 0, .fin 1) := by
              have : (pt, 1) ∈ pairs.plots c.body c.proj 2 1 := by rw [h1]; simp
              simpa [pairs, views] using this
            subst hpt
            rw [← shares_unique hsh hys] at hav
            have hx : Dbl.fin 6 = x := by simpa [average] using hav
            subst hx
            have : MapType.i16.cast (.fin 6) = .ok (.fin 6) := by decide +kernel
            rw [this] at h5
            cases h5
            cases h6
      · cases h
    · cases h
  · cases h
  · cases h

/-- The first cell is covered: it has the average of the data of both photos. -/
example : ∃ w' map, main pairs "rc" (some ["in"]) (fun _ => none) = .ok (w', 0) ∧
    w' "b.fits" = some [map] ∧ map.image.cells 1 = some (.fin 6) := by
  have h := pairs_done
  rw [← pairs_main] at h
  generalize hr : main pairs "rc" (some ["in"]) (fun _ => none) = r at h
  rcases r with ⟨w', k⟩ | _ | _
  · unfold pairsDone at h
    split at h
    · rename_i w1 he
      cases he
      split at h
      · rename_i map hw
        simp only [decide_eq_true_eq] at h
        exact ⟨_, map, rfl, hw, h.2.1⟩
      · cases h
    · cases h
  · cases h
  · cases h

/-- Both photos have a datum at the point plotted there. -/
example {b : Body} {c1 c2 : PhotoCmd} (h1 : plainCmd "p.fits" c1 = true)
    (h2 : plainCmd "q.fits" c2 = true) :
    Clear pairs b [c1, c2] (.fin 0, .fin 0) ∧
      MosaicDatum pairs b [c1, c2] .unweighted (.fin 0, .fin 0) (.fin 6) := by
  have key : ∀ {file f y} {c : PhotoCmd}, plainCmd file c = true → pairsFits file = some f →
      f.photo.naxis1 = 2 → f.photo.naxis2 = 2 → physicalAt f 0 0 = some y → y ≠ .nan →
      ∃ w, PhotoShare pairs b c (.fin 0, .fin 0) y w := by
    intro file f y c h hf n1 n2 hv hy
    simp only [plainCmd, decide_eq_true_eq] at h
    obtain ⟨h0, h1, h2, h3, h4, h5, h6, h7, h8⟩ := h
    refine ⟨_, f, by rw [h0]; exact hf, hy, 0, 0, 0, 0, ⟨⟨rfl, by norm_num⟩, ?_⟩, ?_, rfl⟩
    · refine ⟨by omega, ?_, by omega, ?_, fun _ => rfl⟩
      · rw [h6, n1]; decide
      · rw [h8, n2]; decide
    · simpa [ValueAt, pixelValue, h1, h2, h3, h4] using hv
  obtain ⟨w1, g1⟩ := key (f := ⟨Source.smallPhoto (-32) .absent 0 [.fin 5, .nan, .fin 8, .fin 9],
    none, none⟩) (y := .fin 5) h1 rfl rfl rfl (by decide +kernel) (by simp)
  obtain ⟨w2, g2⟩ := key (f := ⟨Source.smallPhoto 16 .absent 0 [.fin 7, .fin 6, .fin 4, .fin 3],
    none, none⟩) (y := .fin 7) h2 rfl rfl rfl (by decide +kernel) (by simp)
  constructor
  · intro c hc
    simp only [List.mem_cons, List.not_mem_nil, or_false] at hc
    rcases hc with rfl | rfl
    · exact fun _ _ _ _ _ _ _ => ⟨_, _, g1⟩
    · exact fun _ _ _ _ _ _ _ => ⟨_, _, g2⟩
  · refine ⟨_, .has g1 (.has g2 .nil), ?_⟩
    have : Dbl.fin 6 = toDouble (Fp.exact.div ([Dbl.fin 5, .fin 7].foldl Fp.exact.add (.fin 0))
        (.fin 2)) := by decide +kernel
    exact ⟨by simp, this⟩

end MaRC.Program
