import Verif.Lemmas.InputCommands
import Verif.Props.Grammar

/-!
# C88: the commands of an input file are the ones its entries ask for

`Verif.Spec.InputMeaning` says which map commands the entries of an input file ask
for, each value looked up by its keyword.  Whatever files were read before, the
parser makes these commands.
-/

namespace MaRC.Props

open MaRC.Scan MaRC.InputFile MaRC.Grammar MaRC.InputMeaning
open MaRC.Calc (Tok symrec)

/-- The parser's variables after any number of files, read one after the other. -/
inductive Reached (E : Env) : State → Prop where
  | start : Reached E .start
  | file {text : List Char} {f : File} {s s' : State} {cs : List Command} : Reached E s →
      Parses (scan symrec text) f → f.run E s = .done (s', cs) → Reached E s'

theorem file_of {E : Env} {f : File} {s s' : State} {cs : List Command} (hr : Ready s)
    (h : f.run E s = .done (s', cs)) :
    AreCommands E (defaultsOf s) s.g.graphicLat (parts "MAP" (fileEnts f)) cs ∧ Ready s' ∧
      s'.g.graphicLat = (parts "MAP" (fileEnts f)).foldl afterMap s.g.graphicLat ∧
      (parts "MAP" (fileEnts f) ≠ [] → defaultsOf s' = defaultsOf s) ∧
      (parts "MAP" (fileEnts f) = [] →
        AreDefaults E (fileEnts f) (defaultsOf s) (defaultsOf s')) := by
  cases f with
  | maps m ms =>
    obtain ⟨h1, h2, h3, h4⟩ := maps_of hr h
    rw [parts_maps]
    exact ⟨h1, h2, h4, fun _ => h3, fun h => absurd h (by simp)⟩
  | user i r n =>
    obtain ⟨rfl, h2, h3, h4⟩ := user_of hr h
    rw [parts_user]
    exact ⟨.nil, h2, h4, fun h => absurd rfl h, fun _ => h3⟩

theorem ready_start : Ready .start :=
  ⟨by simp [Parser.clean, State.start, Parser.Globals.start], rfl, rfl,
    ⟨.inl rfl, .inl rfl, by simp [State.start, Parser.PhotoVars.start, ViewSettings.Above],
     by simp [State.start, Parser.PhotoVars.start, ViewSettings.Above],
     by simp [State.start, Parser.PhotoVars.start, ViewSettings.Above],
     by simp [State.start, Parser.PhotoVars.start, ViewSettings.Above], rfl⟩⟩

theorem Reached.ready {E : Env} {s : State} (h : Reached E s) : Ready s := by
  induction h with
  | start => exact ready_start
  | file _ _ h ih => exact (file_of ih h).2.1

theorem entries_of {l : List Item} {text : List Char} {f : File} (hw : Written l text)
    (hf : Parses (scan symrec text) f) : fileEnts f = entries l := by
  have e : scan symrec text = l.flatMap Item.tokens := scanFrom_written hw
  rw [Parses, e] at hf
  rw [← (seg_file f).split, hf]
  exact (split_items l).1

/-- **C88**.  After any history the commands of a file are the ones its entries ask for:
as many as it has maps, in their order, each with the values that follow its keywords
and defaults for those left out.  Which files are accepted is
C92.  Missing: the kind of latitudes that earlier maps leave behind (C64, here the second
argument of `AreCommands`), and photos with a lens or center that is not a number
(`Checked`). -/
theorem C88_commands_partial {E : Env} {l : List Item} {text : List Char} {f : File}
    {s s' : State} {cs : List Command} (hw : Written l text) (hf : Parses (scan symrec text) f)
    (hs : Reached E s) (h : f.run E s = .done (s', cs)) :
    AreCommands E (defaultsOf s) s.g.graphicLat (parts "MAP" (entries l)) cs := by
  have := (file_of hs.ready h).1
  rwa [entries_of hw hf] at this

/-- The first file gets the defaults of the manual: a grid every ten degrees, no
nibbling, planetocentric latitudes. -/
theorem C88_first_partial {E : Env} {l : List Item} {text : List Char} {f : File}
    {s' : State} {cs : List Command} (hw : Written l text) (hf : Parses (scan symrec text) f)
    (h : f.run E .start = .done (s', cs)) :
    AreCommands E ⟨.fin 10, .fin 10, ⟨0, 0, 0, 0⟩⟩ false (parts "MAP" (entries l)) cs :=
  C88_commands_partial hw hf .start h

/-- What a file leaves to the next one.  A file with maps leaves the defaults as they are; a user
configuration file sets those it mentions. -/
theorem C88_defaults {E : Env} {l : List Item} {text : List Char} {f : File}
    {s s' : State} {cs : List Command} (hw : Written l text) (hf : Parses (scan symrec text) f)
    (hs : Reached E s) (h : f.run E s = .done (s', cs)) :
    (parts "MAP" (entries l) ≠ [] → defaultsOf s' = defaultsOf s) ∧
    (parts "MAP" (entries l) = [] →
      cs = [] ∧ AreDefaults E (entries l) (defaultsOf s) (defaultsOf s')) ∧
    s'.g.graphicLat = (parts "MAP" (entries l)).foldl afterMap s.g.graphicLat := by
  have h1 := C88_commands_partial hw hf hs h
  obtain ⟨-, -, h2, h3, h4⟩ := file_of hs.ready h
  rw [entries_of hw hf] at h2 h3 h4
  refine ⟨h3, fun hp => ⟨?_, h4 hp⟩, h2⟩
  rw [hp] at h1
  cases h1
  rfl

/-! ## An input file -/

/-- The tree of `small`. -/
def smallTree : File :=
  .maps
    { file := "a.fits".toList, author := none, origin := none, comments := [], xcomments := [],
      body := "Jupiter".toList, radii := .eqPol (number "71492") (number "66854"),
      prograde := true, offset := none, scale := none, type := none, blank := none,
      grid := .absent, proj := .mercator none, planes := none, samples := "360".toList,
      lines := "180".toList, plane := ⟨none, .empty, .longitude⟩, more := [] } []

theorem small_parses : Parses (scan symrec smallText) smallTree := by
  have e : scan symrec smallText = small.flatMap Item.tokens := scanFrom_written small_written
  rw [Parses, e]
  decide +kernel

/-- An environment that reads whole numbers. -/
def plainEnv : Env :=
  ⟨.exact, ⟨fun s => (Parser.integer s).map fun n => .fin n, fun _ _ => .nan, fun _ x => x⟩,
    fun _ _ => .ok ()⟩

/-- Some of what the file `small` asks for. -/
def asked (r : Act (State × List Command)) : Bool :=
  match r with
  | .ok (some (_, [c])) => c.file = "a.fits" ∧ c.samples = 360 ∧ c.lines = 180 ∧
      c.body.eqRad = .fin 71492 ∧ c.body.polRad = .fin 66854 ∧ c.planes.length = 1
  | _ => false

theorem small_asked : asked (smallTree.run plainEnv .start) = true := by decide +kernel

/-- The file `small` is accepted, and its command is the one its entries ask for. -/
example : ∃ s c, smallTree.run plainEnv .start = .done (s, [c]) ∧ c.samples = 360 ∧
    c.planes.length = 1 ∧
    AreCommands plainEnv ⟨.fin 10, .fin 10, ⟨0, 0, 0, 0⟩⟩ false (parts "MAP" (entries small)) [c] := by
  have h := small_asked
  generalize hr : smallTree.run plainEnv .start = r at h
  rcases r with (_ | ⟨s, _ | ⟨c, _ | _⟩⟩) | _ | _ <;>
    simp [asked] at h
  exact ⟨s, c, rfl, h.2.1, h.2.2.2.2.2, C88_first_partial small_written small_parses hr⟩

/-- The entries of a user configuration file. -/
def userItems : List Item :=
  [.expr "LAT_GRID_INTERVAL" [.num "5".toList], .expr "NIBBLE" [.num "3".toList]]

/-- Some of what it asks for. -/
def askedUser (r : Act (State × List Command)) : Bool :=
  match r with
  | .ok (some (s, [])) => s.g.ppLatInterval = .fin 5 ∧ s.v.ppNibble = ⟨3, 3, 3, 3⟩
  | _ => false

/-- A user configuration file is accepted and sets the defaults it mentions. -/
example : ∃ s text, Written userItems text ∧
    Parses (scan symrec text) (.user (.lat (number "5")) .empty (.all "3".toList)) ∧
    File.run plainEnv (.user (.lat (number "5")) .empty (.all "3".toList)) .start = .done (s, []) ∧
    (defaultsOf s).lat = .fin 5 ∧
    AreDefaults plainEnv (entries userItems) ⟨.fin 10, .fin 10, ⟨0, 0, 0, 0⟩⟩ (defaultsOf s) := by
  have hw : Written userItems (
      ([] ++ ("LAT_GRID_INTERVAL".toList ++ [] ++ ':' :: ([] ++ "5".toList ++ ([] ++ []))) ++
      (['\n'] ++ ("NIBBLE".toList ++ [] ++ ':' :: ([] ++ "3".toList ++ ([] ++ []))) ++
      ([] ++ [])))) := by
    refine .cons .nil (.expr (by decide) (by decide) .nil (.cons (by decide)
      ⟨rfl, [], "5".toList, [], [], by decide, by decide, by decide, .inl rfl, by decide, .inl rfl⟩
      (.nil (by decide) (.inl rfl)) (.inl rfl))) (by simp [Follows]) ?_
    refine .cons (.blank (by decide) .nil) (.expr (by decide) (by decide) .nil (.cons (by decide)
      ⟨rfl, [], "3".toList, [], [], by decide, by decide, by decide, .inl rfl, by decide, .inl rfl⟩
      (.nil (by decide) (.inl rfl)) (.inl rfl))) (by simp [Follows]) ?_
    exact .nil .nil (.inl rfl)
  have hp := show Parses (userItems.flatMap Item.tokens)
    (.user (.lat (number "5")) .empty (.all "3".toList)) by unfold Parses; decide +kernel
  rw [← show scan symrec _ = _ from scanFrom_written hw] at hp
  have h : askedUser (File.run plainEnv (.user (.lat (number "5")) .empty (.all "3".toList)) .start) =
      true := by decide +kernel
  generalize hr : File.run plainEnv (.user (.lat (number "5")) .empty (.all "3".toList)) .start = r
    at h
  rcases r with (_ | ⟨s, _ | _⟩) | _ | _ <;> simp [askedUser] at h
  exact ⟨s, _, hw, hp, rfl, h.1, ((C88_defaults hw hp .start hr).2.1 (by decide +kernel)).2⟩

end MaRC.Props
