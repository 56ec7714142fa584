import Verif.Lemmas.InputRefusedMaps
import Verif.Props.InputMeaning

/-!
# C92: the input files that are accepted

`Verif.Spec.InputValid` says which values the entries of an input file may have.
-/

namespace MaRC.Props

open MaRC.Scan MaRC.InputFile MaRC.Grammar MaRC.InputMeaning
open MaRC.Calc (Tok symrec)

/-- **C92**.  After any history, a file that has the form of an input file and whose values
are in their ranges is accepted. -/
theorem C92_accepted {E : Env} {l : List Item} {text : List Char} {f : File} {s : State}
    (hw : Written l text) (hf : Parses (scan symrec text) f) (hs : Reached E s)
    (h : ValidFile E s.g.graphicLat (entries l)) :
    ∃ s' cs, f.run E s = .done (s', cs) := by
  rw [← entries_of hw hf] at h
  cases f with
  | maps m ms =>
    have h1 := h.1
    rw [parts_maps] at h1
    obtain ⟨⟨s', cs⟩, hr⟩ := maps_complete (ms := m :: ms) hs.ready h1
    exact ⟨s', cs, hr⟩
  | user i r n =>
    obtain ⟨⟨s', cs⟩, hr⟩ := user_complete (s := s) (h.2 (parts_user i r n))
    exact ⟨s', cs, hr⟩

/-- The commands of such a file are the ones its entries ask for. -/
theorem C92_commands {E : Env} {l : List Item} {text : List Char} {f : File} {s : State}
    (hw : Written l text) (hf : Parses (scan symrec text) f) (hs : Reached E s)
    (h : ValidFile E s.g.graphicLat (entries l)) :
    ∃ s' cs, f.run E s = .done (s', cs) ∧ Reached E s' ∧
      AreCommands E (defaultsOf s) s.g.graphicLat (parts "MAP" (entries l)) cs := by
  obtain ⟨s', cs, hr⟩ := C92_accepted hw hf hs h
  exact ⟨s', cs, hr, .file hs hf hr, C88_commands_partial hw hf hs hr⟩

/-- **C92** (refusal).  After any history, the values of a file that is accepted are in their
ranges.  Missing: the values of `CheckedFile`, which are not checked (`C92_interval_violated`,
`C80_lens_violated`, `C80_center_violated`). -/
theorem C92_refused_partial {E : Env} {l : List Item} {text : List Char} {f : File} {s : State}
    (hw : Written l text) (hf : Parses (scan symrec text) f) (hs : Reached E s)
    (hc : CheckedFile E (entries l)) (h : ¬ ValidFile E s.g.graphicLat (entries l)) :
    ¬ ∃ r, f.run E s = .done r := by
  rintro ⟨r, hr⟩
  refine h ?_
  rw [← entries_of hw hf] at hc ⊢
  cases f with
  | maps m ms =>
    have h1 := hc.1
    refine ⟨?_, fun hm => by rw [parts_maps] at hm; simp at hm⟩
    rw [parts_maps] at h1 ⊢
    exact maps_sound (ms := m :: ms) hs.ready h1 hr
  | user i r n =>
    refine ⟨?_, fun hm => user_sound (hc.2 hm) hr⟩
    rw [parts_user]
    exact .nil

/-- The files that are accepted are those with values in their ranges.  Missing: as above. -/
theorem C92_accepted_iff_partial {E : Env} {l : List Item} {text : List Char} {f : File} {s : State}
    (hw : Written l text) (hf : Parses (scan symrec text) f) (hs : Reached E s)
    (hc : CheckedFile E (entries l)) :
    (∃ r, f.run E s = .done r) ↔ ValidFile E s.g.graphicLat (entries l) := by
  constructor
  · intro hr
    by_contra hv
    exact C92_refused_partial hw hf hs hc hv hr
  · intro hv
    obtain ⟨s', cs, hr⟩ := C92_accepted hw hf hs hv
    exact ⟨_, hr⟩

/-! ## An input file -/

theorem given_none {α : Type} {k : String} {es : Part} {x : Option α} {P : α → Prop}
    (h : has k es = false) : Given k es x P := fun hk => by rw [h] at hk; simp at hk

theorem small_valid : ValidFile plainEnv false (entries small) := by
  have e : entries small = fileEnts smallTree := (entries_of small_written small_parses).symm
  rw [e]
  refine ⟨?_, fun h => by rw [smallTree, parts_maps] at h; simp at h⟩
  rw [smallTree, parts_maps]
  refine .cons ⟨{ prograde := true, eqRad := .fin 71492, polRad := .fin 66854 }, ?_, ?_, ?_⟩ .nil
  · rw [upTo_map]
    constructor
    · refine ⟨.inl ⟨rfl, rfl⟩, .inl ⟨?_, ?_⟩⟩
      · exact (real_of' (x := number "71492") rfl).trans (by decide +kernel)
      · exact (real_of' (x := number "66854") rfl).trans (by decide +kernel)
    · exact ⟨(by decide +kernel : (Dbl.fin 0).lt (.fin 66854) = true), by decide +kernel⟩
    · exact given_none (by decide)
    · exact fun k hk => given_none (by revert k; decide)
    · exact given_none (by decide)
    · exact fun k hk => given_none (by revert k; decide)
    · exact fun k hk => given_none (by revert k; decide)
    · exact fun k hk => given_none (by revert k; decide)
    · exact given_none (by decide)
    · exact given_none (by decide)
    · intro x y hx
      rw [latitude_none (by decide)] at hx
      simp at hx
    · exact fun _ _ => rfl
    · exact given_none (by decide)
    · exact ⟨360, by decide +kernel, by decide⟩
    · exact ⟨180, by decide +kernel, by decide⟩
  · rw [upTo_map, parts_map]
    exact ⟨0, by decide, fun _ => rfl⟩
  · rw [parts_map]
    intro p hp
    simp only [List.map_cons, List.map_nil, List.mem_singleton] at hp
    subst hp
    constructor
    · intro h; exact absurd (by decide) h
    · exact fun k hk => given_none (by revert k; decide)
    · intro x y hx
      rw [real_none (by decide)] at hx
      simp at hx
    · intro p hp
      have : parts "IMAGE" (planeEnts ⟨none, .empty, .longitude⟩) = [] := by decide
      rw [this] at hp
      simp at hp
    · exact fun k hk => given_none (by revert k; decide)
    · exact fun k hk => given_none (by revert k; decide)
    · exact given_none (by decide)

/-- Non-vacuity: the file `small`. -/
example : ∃ s cs, smallTree.run plainEnv .start = .done (s, cs) :=
  C92_accepted small_written small_parses .start small_valid

/-! ## Values that are out of their ranges -/

/-- A map with its radii the other way round. -/
def wrongTree : File :=
  .maps
    { file := "a.fits".toList, author := none, origin := none, comments := [], xcomments := [],
      body := "Jupiter".toList, radii := .eqPol (number "66854") (number "71492"),
      prograde := true, offset := none, scale := none, type := none, blank := none,
      grid := .absent, proj := .mercator none, planes := none, samples := "360".toList,
      lines := "180".toList, plane := ⟨none, .empty, .longitude⟩, more := [] } []

/-- Its entries. -/
def wrongItems : List Item :=
  small.map fun i => match i with
    | .expr "EQ_RAD" _ => .expr "EQ_RAD" [.num "66854".toList]
    | .expr "POL_RAD" _ => .expr "POL_RAD" [.num "71492".toList]
    | i => i

/-- Non-vacuity of `C92_refused_partial`: whatever way it is written, this file is refused,
because the equatorial radius has to be the greater one. -/
example {text : List Char} (hw : Written wrongItems text) :
    ¬ ∃ r, wrongTree.run plainEnv .start = .done r := by
  have e : scan symrec text = wrongItems.flatMap Item.tokens := scanFrom_written hw
  have hp : Parses (scan symrec text) wrongTree := by
    rw [Parses, e]
    decide +kernel
  have he : entries wrongItems = fileEnts wrongTree := (entries_of hw hp).symm
  refine C92_refused_partial hw hp .start ?_ ?_
  · rw [he]
    refine ⟨fun m hm => ?_, fun h => by rw [wrongTree, parts_maps] at h; simp at h⟩
    rw [wrongTree, parts_maps] at hm
    simp only [List.map_cons, List.map_nil, List.mem_singleton] at hm
    subst hm
    constructor
    · rw [upTo_map]
      intro k hk
      rw [real_none (by revert k; decide)]
      simp
    · intro b _ p hp q hq
      rw [parts_map] at hp
      simp only [List.map_cons, List.map_nil, List.mem_singleton] at hp
      subst hp
      rw [show parts "IMAGE" (planeEnts ⟨none, .empty, .longitude⟩) = [] by decide] at hq
      simp at hq
  · rw [he]
    rintro ⟨h, -⟩
    rw [wrongTree, parts_maps] at h
    rcases h with _ | ⟨⟨b, hh, -⟩, -⟩
    rw [upTo_map] at hh
    obtain ⟨-, hb⟩ := hh.body
    have h1 := hh.radii.2
    rcases hb with ⟨hb1, hb2⟩ | ⟨f, hf, -⟩ | ⟨f, hf, -⟩
    · rw [(real_of' (x := number "66854") rfl).trans (show _ = some (.fin 66854) by decide +kernel)]
        at hb1
      rw [(real_of' (x := number "71492") rfl).trans (show _ = some (.fin 71492) by decide +kernel)]
        at hb2
      rw [← Option.some.inj hb1, ← Option.some.inj hb2] at h1
      exact absurd h1 (by decide +kernel)
    all_goals
      rw [real_none (by decide)] at hf
      simp at hf

/-- An environment in which negative numbers have no square root. -/
def rootEnv : Env :=
  { plainEnv with L := { plainEnv.L with
      fn := fun f x => if f = "sqrt" ∧ x.lt (.fin 0) = true then .nan else x } }

/-- An interval that is not a number. -/
def nanOperand : Operand := ⟨[.fnct "sqrt", .lpar, .num "-1".toList, .rpar], rfl⟩

/-- The entries of a user configuration file with this interval. -/
def nanItems : List Item :=
  [.expr "LAT_GRID_INTERVAL" nanOperand.toks, .expr "NIBBLE" [.num "3".toList]]

/-- The interval of the grid after a file. -/
def nanInterval (r : Act (State × List Command)) : Bool :=
  match r with
  | .ok (some (s, [])) => s.g.ppLatInterval = .nan
  | _ => false

/-- **C92** fails for intervals that are not a number: a file that asks for a grid every
sqrt(-1) degrees is accepted. -/
theorem C92_interval_violated : ∃ text f s, Written nanItems text ∧ Parses (scan symrec text) f ∧
    f.run rootEnv .start = .done (s, []) ∧ (defaultsOf s).lat = .nan ∧
    ¬ ValidFile rootEnv false (entries nanItems) := by
  have hw : Written nanItems (
      ([] ++ ("LAT_GRID_INTERVAL".toList ++ [] ++ ':' :: ([] ++ "sqrt".toList ++ ([] ++ ['('] ++
        ([] ++ "-1".toList ++ ([] ++ [')'] ++ ([] ++ [])))))) ++
      (['\n'] ++ ("NIBBLE".toList ++ [] ++ ':' :: ([] ++ "3".toList ++ ([] ++ []))) ++
      ([] ++ [])))) := by
    refine .cons .nil (.expr (by decide) (by decide) .nil (.cons (by decide)
      (by simp [Spells]) (.cons (by decide) rfl (.cons (by decide) ⟨rfl, ['-'], "1".toList, [], [],
        by decide, by decide, by decide, .inl rfl, by decide, .inl rfl⟩ (.cons (by decide) rfl
        (.nil (by decide) (.inl rfl)) (.inl rfl)) (.inr (.inr ⟨_, rfl, trivial⟩)))
        (.inr (.inr ⟨_, rfl, trivial⟩))) (.inr (.inr ⟨_, rfl, trivial⟩)))) (by simp [Follows]) ?_
    refine .cons (.blank (by decide) .nil) (.expr (by decide) (by decide) .nil (.cons (by decide)
      ⟨rfl, [], "3".toList, [], [], by decide, by decide, by decide, .inl rfl, by decide, .inl rfl⟩
      (.nil (by decide) (.inl rfl)) (.inl rfl))) (by simp [Follows]) ?_
    exact .nil .nil (.inl rfl)
  have hp := show Parses (nanItems.flatMap Item.tokens)
    (.user (.lat nanOperand) .empty (.all "3".toList)) by unfold Parses; decide +kernel
  rw [← show scan symrec _ = _ from scanFrom_written hw] at hp
  have h : nanInterval (File.run rootEnv (.user (.lat nanOperand) .empty (.all "3".toList)) .start) =
      true := by decide +kernel
  generalize hr : File.run rootEnv (.user (.lat nanOperand) .empty (.all "3".toList)) .start = r at h
  rcases r with (_ | ⟨s, _ | _⟩) | _ | _ <;> simp [nanInterval] at h
  refine ⟨_, _, s, hw, hp, hr, h, ?_⟩
  rw [← entries_of hw hp]
  rintro ⟨-, hu⟩
  obtain ⟨y, hy, hpos⟩ := (hu (parts_user _ _ _)).grid "LAT_GRID_INTERVAL" (by decide) (by decide)
  rw [(real_of' (x := nanOperand) rfl).trans (show _ = some Dbl.nan by decide +kernel)] at hy
  rw [← Option.some.inj hy] at hpos
  exact absurd hpos (show ¬ ((Dbl.fin 0).lt .nan = true) by decide +kernel)

end MaRC.Props
