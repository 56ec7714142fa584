import Verif.Props.ProgramMosaic

/-! # C90: photos that cannot be opened -/

namespace MaRC.Program

open MaRC.Execute MaRC.ProgramSpec
open MaRC.Grammar (Body PlaneImage Source)
open MaRC.Parser (PhotoCmd Averaging Nibbles)
open MaRC.InputFile (Item Written)
open MaRC.InputMeaning (Part entries parts has string photo IsPhoto Shows ArePlanes
  IsPlane Defaults)

/-! ## Lemmas -/

theorem forall₂_left {α β : Type} {R : α → β → Prop} {as : List α} {bs : List β}
    (h : List.Forall₂ R as bs) {a : α} (ha : a ∈ as) : ∃ b ∈ bs, R a b := by
  induction h with
  | nil => cases ha
  | cons h1 h2 ih =>
    rcases List.mem_cons.1 ha with rfl | ha
    · exact ⟨_, by simp, h1⟩
    · obtain ⟨b, hb, hr⟩ := ih ha
      exact ⟨b, by simp [hb], hr⟩

theorem has_of_mem_parts {k : String} {p : Part} : ∀ {es : Part}, p ∈ parts k es → has k es = true
  | [], h => by cases h
  | e :: es, h => by
    unfold parts at h
    by_cases he : e.1 = k
    · simp [has, InputMeaning.get, he]
    · rw [if_neg he] at h
      have := has_of_mem_parts h
      simpa [has, InputMeaning.get, List.find?_cons, he] using this

theorem planes_left {E : Grammar.Env} {b : Body} {a : Averaging} {d : Nibbles} {g : Bool}
    {ess : List Part} {ps : List PlaneImage} (h : ArePlanes E b a d g ess ps) {es : Part}
    (hes : es ∈ ess) : ∃ g', ∃ p ∈ ps, IsPlane E b a d g' es p := by
  induction h with
  | nil => cases hes
  | cons h1 h2 ih =>
    rcases List.mem_cons.1 hes with rfl | hes
    · exact ⟨_, _, by simp, h1⟩
    · obtain ⟨g', p, hp, hr⟩ := ih hes
      exact ⟨g', p, by simp [hp], hr⟩

theorem photo_file {E : Grammar.Env} {b : Body} {es : Part} {p : Parser.PhotoSrc} {file : String}
    (h : photo E b es = some p) (hf : string "IMAGE" es = some file) : p.file = file := by
  unfold photo at h
  simp only [hf, Option.pure_def, Option.bind_eq_bind, Option.bind_some,
    Option.bind_eq_some_iff, Option.some.injEq] at h
  obtain ⟨_, -, _, -, _, -, _, -, _, -, _, -, rfl⟩ := h
  rfl

theorem openPhoto_ok {M : Machine} {c : PhotoCmd} {x : Fits × PhotoCmd}
    (h : openPhoto M c = .ok x) : M.fits c.file ≠ none := by
  intro e
  simp [openPhoto, e] at h

/-! ## The property -/

/-- **C90** (photos).  If a photo that an input file asks for cannot be opened, the program
fails and no file is touched, whatever other maps are asked for. -/
theorem C90_photos {M : Machine} {config : String} {names : List String}
    {items : String → List Item} {w w' : World} {k : ℤ}
    (ht : ∀ n ∈ inputs M config names, ∃ t, M.text n = some t ∧ Written (items n) t)
    (h : main M config (some names) w = .ok (w', k))
    {es plane ph : Part} (hes : es ∈ maps items (inputs M config names))
    (hplane : plane ∈ parts "PLANE" es)
    (hph : ph ∈ parts "IMAGE" plane) {file : String} (hfile : string "IMAGE" ph = some file)
    (hgone : M.fits file = none) : w' = w ∧ k ≠ 0 := by
  rcases main_in ht h with ⟨h1, h2⟩ | ⟨ms, cs, hms, hf, -⟩
  · exact ⟨h1, by rw [h2]; decide⟩
  exfalso
  rw [← InForce.maps hms] at hes
  obtain ⟨m, hm, rfl⟩ := List.mem_map.1 hes
  obtain ⟨x, -, c, hc, hx⟩ := forall₂_left hf hm
  obtain ⟨g, p, hp, hpl⟩ := planes_left hc.planes hplane
  obtain ⟨fs, hfs, -⟩ := bind_ok_iff hx
  obtain ⟨f, -, hf1⟩ := forall₂_left (planeFactories_ok hfs) hp
  obtain ⟨e1, -, h2⟩ := bind_ok_iff hf1
  obtain ⟨e2, -, h3⟩ := bind_ok_iff h2
  have opened : ∀ c' : PhotoCmd, IsPhoto M.E c.body m.1.nibble ph c' →
      M.fits c'.file ≠ none → False := by
    rintro c' ⟨q, hq, hw, -⟩ ho
    have e : c'.file = q.file := congrArg PhotoCmd.file hw
    rw [e, photo_file hq hfile] at ho
    exact ho hgone
  have hi := has_of_mem_parts hph
  have hs := hpl.source
  generalize p.source = s at hs h3
  cases hs with
  | photo q1 q2 =>
    rw [q1, List.mem_singleton] at hph
    subst hph
    obtain ⟨y, h4, -⟩ := bind_ok_iff h3
    exact opened _ q2 (openPhoto_ok h4)
  | photos q1 q2 =>
    obtain ⟨xs, h4, -⟩ := bind_ok_iff h3
    obtain ⟨c', hc', hr⟩ := forall₂_left q2 hph
    obtain ⟨y, -, hy, -⟩ := forall₂_left (openPhotos_ok h4) hc'
    exact opened _ hr (by rw [hy]; exact Option.some_ne_none _)
  | mu _ _ _ _ q => rw [hi] at q; cases q
  | mu0 _ _ _ q => rw [hi] at q; cases q
  | phase _ _ _ _ _ _ q => rw [hi] at q; cases q
  | latitude _ q => rw [hi] at q; cases q
  | longitude _ q => rw [hi] at q; cases q

/-! ## A run of the program -/

/-- The machine of `ProgramMosaic` without the second photo. -/
def gone : Machine :=
  { pairs with fits := fun n => if n = "q.fits" then none else pairsFits n }

/-- The plane of the map. -/
def gonePlane : Part := (parts "PLANE" (entries pairsItems)).headD []

/-- The second photo. -/
def gonePhoto : Part := (parts "IMAGE" gonePlane).getD 1 []

/-- Without the second photo no map is made and the program fails. -/
example : ∃ w' k, main gone "rc" (some ["in"]) (fun _ => none) = .ok (w', k) ∧
    w' = (fun _ => none) ∧ k ≠ 0 := by
  have hw : ∀ n ∈ inputs gone "rc" ["in"], ∃ t, gone.text n = some t ∧ Written pairsItems t := by
    intro n hn
    have : n = "in" := by simpa [inputs, gone, pairs] using hn
    subst this
    exact ⟨pairsText, rfl, pairs_written⟩
  have hm : entries pairsItems ∈ maps (fun _ => pairsItems) (inputs gone "rc" ["in"]) := by
    decide +kernel
  have key : ∀ w' k, main gone "rc" (some ["in"]) (fun _ => none) = .ok (w', k) →
      w' = (fun _ => none) ∧ k ≠ 0 := fun w' k h =>
    C90_photos (items := fun _ => pairsItems) hw h hm (plane := gonePlane) (ph := gonePhoto)
      (by decide +kernel) (by decide +kernel) (file := "q.fits")
      (by decide +kernel) rfl
  have hrun : (match pairsTree.run gone.E .start with
      | .ok (some r) => (match commands gone r.2 with | .throw _ => true | _ => false)
      | _ => false) = true := by decide +kernel
  have h1 : parseFile gone "rc" .start = .ok none := rfl
  have h2 : gone.text "in" = some pairsText := rfl
  have h4 := tree_eq pairs_parses
  have : main gone "rc" (some ["in"]) (fun _ => none) = .ok (fun _ => none, -1) := by
    unfold main
    rw [h1]
    simp only
    rw [if_pos ⟨rfl, rfl⟩]
    unfold mainFiles parseFiles parseFile parseFiles
    simp only [h2, h4]
    generalize pairsTree.run gone.E .start = r at hrun ⊢
    rcases r with (_ | ⟨s, gs⟩) | _ | _
    · cases hrun
    · simp only at hrun ⊢
      generalize commands gone gs = c at hrun ⊢
      cases c with
      | ok cs => cases hrun
      | throw e => rfl
      | ub => cases hrun
    · cases hrun
    · cases hrun
  exact ⟨_, _, this, key _ _ this⟩

end MaRC.Program
