import Verif.Spec.Program
import Verif.Props.ExecuteValues
import Verif.Props.InputMeaning
import Verif.Props.Sources

/-! # The whole program -/

namespace MaRC.Program

open Source Execute Grammar MaRC.Calc MaRC.Scan MapParams
open MaRC.Parser (PhotoCmd Averaging Proj)
open MaRC.InputMeaning (Part entries parts upTo has get string strings int choice bitpix IsCommand
  AreCommands ArePlanes)
open MaRC.InputFile (Item Written)
open MaRC.Props (Reached C88_commands_partial)
open MaRC.ProgramSpec

variable {M : Machine}

/-! ## Outcomes -/

theorem bind_ok_iff {α β : Type} {x : Outcome α} {f : α → Outcome β} {b : β}
    (h : (x >>= f) = .ok b) : ∃ a, x = .ok a ∧ f a = .ok b := by
  cases x with
  | ok a => exact ⟨a, rfl, h⟩
  | throw e => simp at h
  | ub => simp at h

theorem forall₂_split {α β : Type} {R : α → β → Prop} : ∀ {a : List α} {e : α} {b : List α}
    {cs : List β}, List.Forall₂ R (a ++ e :: b) cs →
    ∃ pre c post, cs = pre ++ c :: post ∧ List.Forall₂ R a pre ∧ R e c ∧ List.Forall₂ R b post
  | [], e, b, _, .cons h1 h2 => ⟨[], _, _, rfl, .nil, h1, h2⟩
  | x :: a, e, b, _, .cons h1 h2 => by
    obtain ⟨pre, c, post, rfl, h3, h4, h5⟩ := forall₂_split h2
    exact ⟨_ :: pre, c, post, rfl, .cons h1 h3, h4, h5⟩

theorem forall₂_right {α β : Type} {R : α → β → Prop} {as : List α} {bs : List β}
    (h : List.Forall₂ R as bs) {b : β} (hb : b ∈ bs) : ∃ a ∈ as, R a b := by
  induction h with
  | nil => cases hb
  | cons h1 h2 ih =>
    rcases List.mem_cons.1 hb with rfl | hb
    · exact ⟨_, by simp, h1⟩
    · obtain ⟨a, ha, hr⟩ := ih hb
      exact ⟨a, by simp [ha], hr⟩

/-! ## Parameters -/

/-- A source image adds no comments. -/
theorem Kind.populate_comments {s : Kind} {p q : Params} (hp : p.plane ≠ 0)
    (h : s.populate p = .ok (some q)) : q.comments = p.comments ∧ q.xcomments = p.xcomments := by
  obtain ⟨-, ⟨f, -, rfl⟩ | ⟨-, rfl⟩⟩ := Kind.populate_ok hp h
  · exact ⟨rfl, rfl⟩
  · cases s <;> exact ⟨rfl, rfl⟩

/-- A factory that populates the parameters like one of the kinds. -/
def OfKind (f : Execute.Factory Loc) : Prop := ∃ k : Kind, f.populate = k.populate

theorem supplies_comments : ∀ {fs : List (Execute.Factory Loc)} {k : ℕ} {qs : List Params},
    0 < k → (∀ f ∈ fs, OfKind f) → Supplies fs k qs →
    ∀ q ∈ qs, q.comments = [] ∧ q.xcomments = []
  | [], k, qs, _, _, h => by cases h; simp
  | f :: fs, k, qs, hk, hf, h => by
    obtain ⟨q, rest, h1, rfl, h2⟩ := h
    obtain ⟨s, hs⟩ := hf f (by simp)
    rw [hs] at h1
    have h0 : (fresh (k : ℤ)).plane ≠ 0 := by show (k : ℤ) ≠ 0; omega
    have := Kind.populate_comments h0 h1
    intro q' hq'
    rcases List.mem_cons.1 hq' with rfl | hq'
    · exact this
    · exact supplies_comments (Nat.succ_pos k) (fun g hg => hf g (by simp [hg])) h2 q' hq'

theorem mergeAll_comments {F : Fp} : ∀ {qs : List Params} {p p' : Params},
    mergeAll F p qs = .ok p' → (∀ q ∈ qs, q.comments = [] ∧ q.xcomments = []) →
    p'.comments = p.comments ∧ p'.xcomments = p.xcomments
  | [], p, p', h, _ => by
    simp only [mergeAll, Outcome.ok.injEq] at h
    subst h
    exact ⟨rfl, rfl⟩
  | q :: qs, p, p', h, hq => by
    rw [mergeAll] at h
    obtain ⟨p1, h1, h2⟩ := bind_ok_iff h
    obtain ⟨-, -, -, -, -, -, -, h3, h4⟩ := merge_ok h1
    obtain ⟨h5, h6⟩ := mergeAll_comments h2 fun q' h' => hq q' (by simp [h'])
    obtain ⟨h7, h8⟩ := hq q (by simp)
    rw [h5, h6, h3, h4, h7, h8]
    simp

theorem has_of_string {k s : String} {es : Part} (h : string k es = some s) : has k es = true := by
  unfold InputMeaning.string at h
  unfold InputMeaning.has
  cases hg : InputMeaning.get k es with
  | none => simp [hg] at h
  | some v => rfl

theorem has_of_int {k : String} {es : Part} {n : ℤ} (h : int k es = some n) :
    has k es = true := by
  unfold InputMeaning.int at h
  unfold InputMeaning.has
  cases hg : InputMeaning.get k es with
  | none => simp [hg] at h
  | some v => rfl

/-- The parameters of a map are those its entries give. -/
theorem populate_params {F : Fp} {E : Grammar.Env} {es : Part} {qs : List Params} {p : Params}
    (h : populate F (InputMeaning.params E es) qs = .ok p)
    (hq : ∀ q ∈ qs, q.comments = [] ∧ q.xcomments = []) :
    (bitpix es ≠ 0 → p.bitpix = bitpix es) ∧
    (∀ s, string "AUTHOR" es = some s → p.str .author = s) ∧
    (∀ s, string "ORIGIN" es = some s → p.str .origin = s) ∧
    (∀ s, string "BODY" es = some s → p.str .object = s) ∧
    (∀ b, int "DATA_BLANK" es = some b → p.blank = some b) ∧
    p.comments = strings "COMMENT" es ∧ p.xcomments = strings "XCOMMENT" es := by
  unfold populate at h
  obtain ⟨m, h1, h2⟩ := bind_ok_iff h
  obtain ⟨c1, c2⟩ := mergeAll_comments h1 hq
  obtain ⟨-, -, hb, -, hs, -, hbl, hc, hx⟩ := merge_ok h2
  have hu : userSupplied (InputMeaning.params E es) = true := rfl
  refine ⟨?_, ?_, ?_, ?_, ?_, ?_, ?_⟩
  · intro h0
    rw [hb, bitpixAfter, if_neg]
    · rfl
    · rintro ⟨-, h | ⟨h, -⟩⟩
      · exact h0 h
      · rw [hu] at h; simp at h
  · intro s h
    rw [hs, if_neg]
    · simp [InputMeaning.params, h]
    · simp [isMergeable, userSupplied, InputMeaning.params, has_of_string h]
  · intro s h
    rw [hs, if_neg]
    · simp [InputMeaning.params, h]
    · simp [isMergeable, userSupplied, InputMeaning.params, has_of_string h]
  · intro s h
    rw [hs, if_neg]
    · simp [InputMeaning.params, h]
    · simp [isMergeable, userSupplied, InputMeaning.params]
  · intro b h
    rw [hbl, if_neg]
    · simpa [InputMeaning.params] using h
    · simp [isMergeable, userSupplied, InputMeaning.params, has_of_int h]
  · rw [hc, c1]; simp [InputMeaning.params, fresh]
  · rw [hx, c2]; simp [InputMeaning.params, fresh]

/-! ## Commands -/

theorem sourceFactory_kind {b : Body} {e : Extrema} {s : Grammar.Source} {f : Execute.Factory Loc}
    (h : sourceFactory M b e s = .ok f) : OfKind f := by
  cases s with
  | photos ps =>
    cases ps with
    | single c =>
      obtain ⟨x, -, h2⟩ := bind_ok_iff h
      cases h2
      exact ⟨.photo x.1.photo, rfl⟩
    | mosaic cs a =>
      obtain ⟨xs, -, h2⟩ := bind_ok_iff h
      split at h2
      · cases h2
      · cases h2; exact ⟨.mosaic (xs.map fun x => x.1.photo), rfl⟩
  | latitude g => cases h; exact ⟨.degrees, rfl⟩
  | longitude => cases h; exact ⟨.degrees, rfl⟩
  | _ => cases h; exact ⟨.plain, rfl⟩

theorem planeFactory_ok {b : Body} {p : PlaneImage} {f : Execute.Factory Loc}
    (h : planeFactory M b p = .ok f) :
    ∃ e₀ e, MaRC.Factory.optMinimum .empty p.minimum = .ok e₀ ∧
      MaRC.Factory.optMaximum e₀ p.maximum = .ok e ∧ sourceFactory M b e p.source = .ok f := by
  unfold planeFactory at h
  obtain ⟨e₀, h1, h2⟩ := bind_ok_iff h
  obtain ⟨e, h3, h4⟩ := bind_ok_iff h2
  exact ⟨e₀, e, h1, h3, h4⟩

theorem planeFactories_ok : ∀ {b : Body} {ps : List PlaneImage} {fs : List (Execute.Factory Loc)},
    planeFactories M b ps = .ok fs → List.Forall₂ (fun p f => planeFactory M b p = .ok f) ps fs
  | b, [], fs, h => by cases h; exact .nil
  | b, p :: ps, fs, h => by
    unfold planeFactories at h
    obtain ⟨f, h1, h2⟩ := bind_ok_iff h
    obtain ⟨gs, h3, h4⟩ := bind_ok_iff h2
    cases h4
    exact .cons h1 (planeFactories_ok h3)

theorem command_ok {c : Grammar.Command} {x : Execute.Command Loc} (h : command M c = .ok x) :
    ∃ fs, List.Forall₂ (fun p f => planeFactory M c.body p = .ok f) c.planes fs ∧
      x = { filename := c.file, samples := c.samples.toNat, lines := c.lines.toNat,
            params := c.params, factories := fs, projection := projectionName c.proj,
            plots := M.plots c.body c.proj,
            grid := c.grid.map fun i =>
              M.grid c.body c.proj i c.samples.toNat c.lines.toNat } := by
  unfold command at h
  obtain ⟨fs, h1, h2⟩ := bind_ok_iff h
  cases h2
  exact ⟨fs, planeFactories_ok h1, rfl⟩

theorem commands_ok : ∀ {cs : List Grammar.Command} {xs : List (Execute.Command Loc)},
    commands M cs = .ok xs → List.Forall₂ (fun c x => command M c = .ok x) cs xs
  | [], xs, h => by cases h; exact .nil
  | c :: cs, xs, h => by
    unfold commands at h
    obtain ⟨f, h1, h2⟩ := bind_ok_iff h
    obtain ⟨gs, h3, h4⟩ := bind_ok_iff h2
    cases h4
    exact .cons h1 (commands_ok h3)

theorem planes_length {E : Grammar.Env} {b : Body} {a : Averaging} {d : Parser.Nibbles} {g : Bool}
    {ess : List Part} {ps : List PlaneImage} (h : ArePlanes E b a d g ess ps) :
    ps.length = ess.length := by
  induction h with
  | nil => rfl
  | cons _ _ ih => simp [ih]

/-! ## Histories -/

theorem historiesOf_imageFacts_prefix (F : Fp) (p : Params) (b : ℤ) (k n : ℕ)
    (v : Option VirtualImage) (h : List Card) :
    ∃ l, historiesOf (imageFacts F p b k n v h) = historiesOf h ++ l := by
  cases v with
  | none => exact ⟨[], by simp [imageFacts]⟩
  | some v =>
    by_cases hb : b < 0
    · exact ⟨[], by simp [imageFacts, hb]⟩
    · by_cases hn : n = 1
      · exact ⟨[], by simp [imageFacts, hb, hn, historiesOf_updateReal, historiesOf_updateStr]⟩
      · simp only [imageFacts, hb, hn, if_false, historiesOf_append_history, historiesOf_updateStr,
          List.append_assoc]
        exact ⟨_, rfl⟩

theorem historiesOf_allFacts_prefix {C : Type} (F : Fp) (p : Params) (n : ℕ) :
    ∀ (ims : List (MapFactory.Plane C × Option VirtualImage)) (k : ℕ) (h : List Card),
      ∃ l, historiesOf (allFacts F p n ims k h) = historiesOf h ++ l
  | [], k, h => ⟨[], by simp [allFacts]⟩
  | im :: ims, k, h => by
    obtain ⟨l1, h1⟩ := historiesOf_imageFacts_prefix F p p.bitpix k n im.2 h
    obtain ⟨l2, h2⟩ := historiesOf_allFacts_prefix F p n ims (k + 1)
      (imageFacts F p p.bitpix k n im.2 h)
    exact ⟨l1 ++ l2, by rw [allFacts, h2, h1, List.append_assoc]⟩

/-- The history of a map begins with its projection. -/
theorem first_history {C : Type} {F : Fp} {c : Execute.Command C} {env : Execute.Env} {w w' : World}
    (h : execute F c env w = .ok (w', .returned 0)) :
    ∃ map rest, w' c.filename = some (map :: rest) ∧ (historiesOf map.header).head? =
      some (.text (c.projection ++ " projection created by " ++ packageString ++ ".")) := by
  obtain ⟨p, T, map, rest, -, -, hm, rfl, -⟩ := execute_zero h
  obtain ⟨ims, loop, k, -, -, -, -, -, hh⟩ := makeMapHdu_ok hm
  refine ⟨map, rest, set_same _ _ _, ?_⟩
  rw [hh, historiesOf_updateExtremum, historiesOf_updateExtremum]
  obtain ⟨l, hl⟩ := historiesOf_allFacts_prefix F p c.factories.length ims 1 (mapHeader T c p
    (Hdu.new p.bitpix c.samples c.lines c.factories.length none).header)
  rw [hl, mapHeader, historiesOf_append_history, historiesOf_comments, historiesOf_updateStr,
    historiesOf_updateStr, historiesOf_updateStr, historiesOf_updateBlank]
  rfl

/-! ## Map files -/

theorem projection_title {E : Grammar.Env} {b : Body} {g : Bool} {es : Part} {p : Proj}
    (h : InputMeaning.projection E b g es = some p) :
    ∃ t, choice "MAP_TYPE" es = some t ∧ title t ≠ "" ∧ projectionName p = title t := by
  unfold InputMeaning.projection at h
  split at h
  all_goals
    first
      | (rename_i hc
         simp only [Option.some.injEq] at h
         subst h
         refine ⟨_, hc, ?_, rfl⟩
         decide)
      | simp at h

theorem wrapTo_id {T : MapType} {b : ℤ} (h1 : T.intRange.1 ≤ b) (h2 : b ≤ T.intRange.2) :
    wrapTo T b = b := by
  unfold Execute.wrapTo
  rw [Int.emod_eq_of_lt (by omega) (by omega)]
  omega

/-- The file of a map command that succeeds is the one its entries ask for. -/
theorem mapFile {d : InputMeaning.Defaults} {g : Bool} {es : Part} {c : Grammar.Command}
    {x : Execute.Command Loc} {env : Execute.Env} {w w' : World}
    (hc : IsCommand M.E d g es c) (hx : command M c = .ok x)
    (h : execute M.E.F x env w = .ok (w', .returned 0)) :
    ∃ hdus, w' x.filename = some hdus ∧ IsMapFile es hdus := by
  obtain ⟨fs, hfs, rfl⟩ := command_ok hx
  have hk : ∀ f ∈ fs, OfKind f := by
    intro f hf
    obtain ⟨i, hi, rfl⟩ := List.getElem_of_mem hf
    have := List.forall₂_iff_get.1 hfs
    obtain ⟨_, _, _, _, h3⟩ := planeFactory_ok (this.2 i (by rw [this.1]; exact hi) hi)
    exact sourceFactory_kind h3
  have hlen : fs.length = (parts "PLANE" es).length := by
    rw [← hfs.length_eq, planes_length hc.planes]
  have hs : c.samples = (c.samples.toNat : ℤ) := by have := hc.samples.2; omega
  have hl : c.lines = (c.lines.toNat : ℤ) := by have := hc.lines.2; omega
  obtain ⟨p, T, map, rest, hp, hT, hw, -, hb, ha, hg0, hg1⟩ := Execute.C74_file _ _ _ _ _ h
  obtain ⟨qs, hq, hpop⟩ := Execute.C74_parameters _ _ _ hp
  have hpop' : populate M.E.F (InputMeaning.params M.E (upTo "PLANE" es)) qs = .ok p := by
    rw [← hc.params]; exact hpop
  obtain ⟨p1, p2, p3, p4, p5, p6, p7⟩ :=
    populate_params hpop' (supplies_comments Nat.one_pos hk hq)
  obtain ⟨map', rest', hw', k1, -, k3, k4, k5, k6⟩ := Execute.C74_header _ _ _ _ _ _ hp h
  obtain ⟨map2, rest2, hw2, k7⟩ := Execute.blank_keyword hp hT h
  obtain ⟨map3, rest3, hw3, k8⟩ := first_history h
  rw [hw] at hw' hw2 hw3
  cases hw'
  cases hw2
  cases hw3
  obtain ⟨t, ht1, ht2, ht3⟩ := projection_title hc.proj
  refine ⟨_, hw, map, ⟨?_, ?_, ?_, k1, ?_, ?_, ?_, ?_, ?_, ?_⟩, ?_⟩
  · refine ⟨c.samples.toNat, c.lines.toNat, by rw [← hs]; exact hc.samples.1,
      by have := hc.samples.2; omega, by rw [← hl]; exact hc.lines.1,
      by have := hc.lines.2; omega, ?_⟩
    rw [ha]
    simp only [hlen]
  · exact ⟨T, by rw [hb]; exact hT⟩
  · intro h0; rw [hb]; exact p1 h0
  · intro s h; rw [k3, p2 s h]
  · intro s h; rw [k4, p3 s h]
  · intro s h; rw [k5, p4 s h]
  · intro b T' h hT' hi h1 h2
    rw [hb] at hT'
    have : T' = T := Option.some.inj
      (((bitpixType_iff _ _).mpr hT').symm.trans ((bitpixType_iff _ _).mpr hT))
    subst this
    rw [k7, if_pos hi, p5 b h, Option.map_some, wrapTo_id h1 h2]
  · rw [k6, p6]
  · exact ⟨t, ht1, ht2, by rw [k8]; simp only [ht3]⟩
  · by_cases hy : choice "GRID" (upTo "PLANE" es) = some "YES"
    · refine .inr ⟨hy, ?_⟩
      have hg : c.grid ≠ none := by rw [hc.grid]; simp [InputMeaning.grid, hy]
      obtain ⟨i, hi⟩ := Option.ne_none_iff_exists'.1 hg
      obtain ⟨grid, rfl, g1, g2⟩ := hg1 (by simp [hi])
      obtain ⟨m, gr, data, g3, -, g4, -, -, -, -, g5, -⟩ :=
        Execute.C74_grid _ _ _ _ _ _ _ hp (by simp [hi]; rfl) h
      rw [hw] at g3
      cases g3
      exact ⟨grid, rfl, ⟨c.samples.toNat, c.lines.toNat, by rw [← hs]; exact hc.samples.1,
        by rw [← hl]; exact hc.lines.1, g2⟩, g1, g4, by rw [g5, p7]⟩
    · refine .inl ⟨hy, ?_⟩
      rw [hg0 (by simp [hc.grid, InputMeaning.grid, hy])]

/-! ## Input files -/

theorem tree_some {text : List Char} {f : File} (h : tree text = some f) :
    Parses (scan symrec text) f := by
  unfold tree at h
  split at h
  · rename_i hx
    cases h
    exact hx.choose_spec
  · cases h

/-- A map of an input file and its command. -/
def Made (M : Machine) (es : Part) (x : Execute.Command Loc) : Prop :=
  ∃ d g c, IsCommand M.E d g es c ∧ command M c = .ok x

theorem made_of {d : InputMeaning.Defaults} : ∀ {g : Bool} {ess : List Part}
    {cs : List Grammar.Command} {xs : List (Execute.Command Loc)}, AreCommands M.E d g ess cs →
    List.Forall₂ (fun c x => command M c = .ok x) cs xs → List.Forall₂ (Made M) ess xs
  | _, _, _, _, .nil, .nil => .nil
  | _, _, _, _, .cons h1 h2, .cons h3 h4 => .cons ⟨d, _, _, h1, h3⟩ (made_of h2 h4)

theorem parseFile_ok {n : String} {s s' : State} {cs : List (Execute.Command Loc)}
    {l : List Item} {t : List Char} (ht : M.text n = some t) (hw : Written l t)
    (hs : Reached M.E s) (h : parseFile M n s = .ok (some (s', cs))) :
    Reached M.E s' ∧ List.Forall₂ (Made M) (parts "MAP" (entries l)) cs := by
  unfold parseFile at h
  rw [ht] at h
  simp only at h
  cases hf : tree t with
  | none => simp [hf] at h
  | some f =>
    simp only [hf] at h
    have hp := tree_some hf
    generalize hr : f.run M.E s = r at h
    rcases r with (_ | ⟨s1, gs⟩) | _ | _
    · simp at h
    · simp only at h
      obtain ⟨xs, h1, h2⟩ := bind_ok_iff h
      cases h2
      exact ⟨.file hs hp hr, made_of (C88_commands_partial hw hp hs hr) (commands_ok h1)⟩
    · simp at h
    · simp at h

/-- A file is read without complaint, in some state of the parser. -/
def Accepted (M : Machine) (n : String) : Prop :=
  ∃ t f s r, M.text n = some t ∧ Parses (scan symrec t) f ∧ Reached M.E s ∧ f.run M.E s = .done r

theorem parseFile_accepted {n : String} {s s' : State} {cs : List (Execute.Command Loc)}
    (hs : Reached M.E s) (h : parseFile M n s = .ok (some (s', cs))) :
    Accepted M n ∧ Reached M.E s' := by
  unfold parseFile at h
  cases ht : M.text n with
  | none => simp [ht] at h
  | some t =>
  simp only [ht] at h
  cases hf : tree t with
  | none => simp [hf] at h
  | some f =>
    simp only [hf] at h
    have hp := tree_some hf
    generalize hr : f.run M.E s = r at h
    rcases r with (_ | ⟨s1, gs⟩) | _ | _
    · simp at h
    · simp only at h
      obtain ⟨xs, h1, h2⟩ := bind_ok_iff h
      cases h2
      exact ⟨⟨t, f, s, _, ht, hp, hs, hr⟩, .file hs hp hr⟩
    · simp at h
    · simp at h

theorem parseFiles_accepted : ∀ {ns : List String} {s s' : State}
    {cs : List (Execute.Command Loc)}, Reached M.E s →
    parseFiles M ns s = .ok (some (s', cs)) → ∀ n ∈ ns, Accepted M n
  | [], s, s', cs, _, h => by simp
  | n :: ns, s, s', cs, hs, h => by
    unfold parseFiles at h
    obtain ⟨r, h1, h2⟩ := bind_ok_iff h
    rcases r with _ | ⟨s1, xs⟩
    · cases h2
    · simp only at h2
      obtain ⟨r, h3, h4⟩ := bind_ok_iff h2
      rcases r with _ | ⟨s2, ys⟩
      · cases h4
      · obtain ⟨g1, g2⟩ := parseFile_accepted hs h1
        have g3 := parseFiles_accepted g2 h3
        intro m hm
        rcases List.mem_cons.1 hm with rfl | hm
        · exact g1
        · exact g3 m hm

theorem parseFiles_ok {items : String → List Item} : ∀ {ns : List String} {s s' : State}
    {cs : List (Execute.Command Loc)},
    (∀ n ∈ ns, ∃ t, M.text n = some t ∧ Written (items n) t) → Reached M.E s →
    parseFiles M ns s = .ok (some (s', cs)) → List.Forall₂ (Made M) (maps items ns) cs
  | [], s, s', cs, _, _, h => by
    cases h
    exact .nil
  | n :: ns, s, s', cs, ht, hs, h => by
    unfold parseFiles at h
    obtain ⟨r, h1, h2⟩ := bind_ok_iff h
    rcases r with _ | ⟨s1, xs⟩
    · cases h2
    · simp only at h2
      obtain ⟨r, h3, h4⟩ := bind_ok_iff h2
      rcases r with _ | ⟨s2, ys⟩
      · cases h4
      · cases h4
        obtain ⟨t, ht1, ht2⟩ := ht n (by simp)
        obtain ⟨g1, g2⟩ := parseFile_ok ht1 ht2 hs h1
        have g3 := parseFiles_ok (fun m hm => ht m (by simp [hm])) g1 h3
        rw [maps, List.flatMap_cons]
        exact List.rel_append g2 g3

/-! ## Running -/

theorem execute_other {F : Fp} {c : Execute.Command Loc} {env : Execute.Env} {w w' : World}
    {r : Result} (h : execute F c env w = .ok (w', r)) {n : String} (hn : n ≠ c.filename) :
    w' n = w n := Execute.C75_other_files _ _ _ _ _ _ h _ hn

theorem runCommands_bad {F : Fp} {env : ℕ → Execute.Env} : ∀ {cs : List (Execute.Command Loc)}
    {i : ℕ} {w w' : World} {r k : ℤ}, runCommands F env i cs w r = .ok (w', k) → r ≠ 0 → k ≠ 0
  | [], i, w, w', r, k, h, hr => by cases h; exact hr
  | c :: cs, i, w, w', r, k, h, hr => by
    unfold runCommands at h
    split at h
    · cases h
    · cases h; decide
    · cases h; decide
    · refine runCommands_bad h ?_
      split
      · decide
      · exact hr

theorem runCommands_other {F : Fp} {env : ℕ → Execute.Env} : ∀ {cs : List (Execute.Command Loc)}
    {i : ℕ} {w w' : World} {r k : ℤ}, runCommands F env i cs w r = .ok (w', k) →
    ∀ n, (∀ c ∈ cs, c.filename ≠ n) → w' n = w n
  | [], i, w, w', r, k, h, n, hn => by cases h; rfl
  | c :: cs, i, w, w', r, k, h, n, hn => by
    have hc : n ≠ c.filename := fun e => hn c (by simp) e.symm
    unfold runCommands at h
    split at h
    · cases h
    · cases h; rfl
    · rename_i w1 e h1
      cases h
      exact execute_other h1 hc
    · rename_i w1 m h1
      rw [runCommands_other h n fun c hc => hn c (by simp [hc])]
      exact execute_other h1 hc

theorem runCommands_zero {F : Fp} {env : ℕ → Execute.Env} : ∀ {pre : List (Execute.Command Loc)}
    {c : Execute.Command Loc} {post : List (Execute.Command Loc)}
    {i : ℕ} {w w' : World} {r : ℤ}, runCommands F env i (pre ++ c :: post) w r = .ok (w', 0) →
    ∃ w1 w2, execute F c (env (i + pre.length)) w1 = .ok (w2, .returned 0) ∧
      ∀ n, (∀ x ∈ post, x.filename ≠ n) → w' n = w2 n
  | [], c, post, i, w, w', r, h => by
    rw [List.nil_append, runCommands] at h
    split at h
    · cases h
    · cases h
    · cases h
    · rename_i w1 m h1
      by_cases hm : m = 0
      · subst hm
        exact ⟨w, w1, h1, runCommands_other h⟩
      · rw [if_pos hm] at h
        exact absurd rfl (runCommands_bad h (by decide))
  | x :: pre, c, post, i, w, w', r, h => by
    rw [List.cons_append, runCommands] at h
    split at h
    · cases h
    · cases h
    · cases h
    · obtain ⟨w1, w2, h1, h2⟩ := runCommands_zero h
      refine ⟨w1, w2, ?_, h2⟩
      rw [List.length_cons, show i + (pre.length + 1) = i + 1 + pre.length by omega]
      exact h1

end MaRC.Program
