import Verif.Lemmas.MapParameters

/-!
# C44, C45, C46, C47: map parameters
-/

namespace MaRC.MapParams

/-! ## Specification -/

/-- Operations that set the given string parameter. -/
def Op.SetsStr (k : StrKey) : Op → Prop
  | .str j _ => j = k
  | _ => False

/-- Operations that set the given floating point parameter. -/
def Op.SetsReal (k : RealKey) : Op → Prop
  | .real j _ => j = k
  | _ => False

/-- Operations that set the blank value. -/
def Op.SetsBlank : Op → Prop
  | .blank _ => True
  | _ => False

/-- Operations that set BITPIX. -/
def Op.SetsBitpix : Op → Prop
  | .bitpix _ => True
  | _ => False

/-- The comments pushed by a history. -/
def pushed : List Op → List String
  | [] => []
  | .comment c :: ops => c :: pushed ops
  | _ :: ops => pushed ops

/-- The grid comments pushed by a history. -/
def xpushed : List Op → List String
  | [] => []
  | .xcomment c :: ops => c :: xpushed ops
  | _ :: ops => xpushed ops

/-! ## Helper lemmas -/

theorem lock_fields (p : Params) (key : Key) :
    (lock p key).plane = p.plane ∧ (lock p key).bitpix = p.bitpix ∧ (lock p key).str = p.str ∧
    (lock p key).real = p.real ∧ (lock p key).blank = p.blank ∧
    (lock p key).comments = p.comments ∧ (lock p key).xcomments = p.xcomments ∧
    (lock p key).histories = p.histories := by
  unfold lock; split <;> simp

theorem lock_locked {p : Params} (hp : p.plane = 0) (key k : Key) :
    (lock p key).locked k = if k = key then true else p.locked k := by
  unfold lock; simp [userSupplied, hp]

/-- One step of a history on user supplied parameters. -/
theorem step_user {F : Fp} {p p' : Params} (hp : p.plane = 0) {op : Op}
    (h : step F p op = .ok p') :
    p'.plane = 0 ∧ (∀ key, p.locked key = true → p'.locked key = true) ∧
    (∀ k, p.locked (.str k) = true → ¬ op.SetsStr k → p'.str k = p.str k) ∧
    (∀ k, p.locked (.real k) = true → ¬ op.SetsReal k → p'.real k = p.real k) ∧
    (p.locked .blank = true → ¬ op.SetsBlank → p'.blank = p.blank) ∧
    (p.bitpix ≠ 0 → ¬ op.SetsBitpix → p'.bitpix = p.bitpix) ∧
    (p.locked .comment = true → p'.comments = p.comments ++ pushed [op]) ∧
    (p.locked .xcomment = true → p'.xcomments = p.xcomments ++ xpushed [op]) := by
  have hm : ∀ key, p.locked key = true → isMergeable p key = false := by
    intro key hk; simp [isMergeable, hk, userSupplied, hp]
  cases op with
  | str j s =>
    simp only [step, Outcome.ok.injEq] at h; subst h
    obtain ⟨f1, f2, f3, f4, f5, f6, f7, -⟩ := lock_fields
      { p with str := fun i => if i = j then s else p.str i } (.str j)
    unfold setStr
    refine ⟨f1.trans hp, ?_, ?_, ?_, ?_, ?_, ?_, ?_⟩
    · intro key hk; rw [lock_locked (by exact hp)]; split <;> simp_all
    · intro k _ hn; rw [f3]; simp only [Op.SetsStr] at hn; simp [Ne.symm hn]
    · intro k _ _; rw [f4]
    · intro _ _; rw [f5]
    · intro _ _; rw [f2]
    · intro _; rw [f6]; simp [pushed]
    · intro _; rw [f7]; simp [xpushed]
  | real j v =>
    simp only [step, Outcome.ok.injEq] at h; subst h
    obtain ⟨f1, f2, f3, f4, f5, f6, f7, -⟩ := lock_fields
      { p with real := fun i => if i = j then v else p.real i } (.real j)
    unfold setReal
    refine ⟨f1.trans hp, ?_, ?_, ?_, ?_, ?_, ?_, ?_⟩
    · intro key hk; rw [lock_locked (by exact hp)]; split <;> simp_all
    · intro k _ _; rw [f3]
    · intro k _ hn; rw [f4]; simp only [Op.SetsReal] at hn; simp [Ne.symm hn]
    · intro _ _; rw [f5]
    · intro _ _; rw [f2]
    · intro _; rw [f6]; simp [pushed]
    · intro _; rw [f7]; simp [xpushed]
  | blank v =>
    simp only [step, Outcome.ok.injEq] at h; subst h
    obtain ⟨f1, f2, f3, f4, f5, f6, f7, -⟩ := lock_fields { p with blank := v } .blank
    unfold setBlank
    refine ⟨f1.trans hp, ?_, ?_, ?_, ?_, ?_, ?_, ?_⟩
    · intro key hk; rw [lock_locked (by exact hp)]; split <;> simp_all
    · intro k _ _; rw [f3]
    · intro k _ _; rw [f4]
    · intro _ hn; simp [Op.SetsBlank] at hn
    · intro _ _; rw [f2]
    · intro _; rw [f6]; simp [pushed]
    · intro _; rw [f7]; simp [xpushed]
  | bitpix n =>
    simp only [step, setBitpix] at h
    split at h <;> cases h
    exact ⟨hp, fun _ h => h, fun _ _ _ => rfl, fun _ _ _ => rfl, fun _ _ => rfl,
      fun _ hn => by simp [Op.SetsBitpix] at hn, fun _ => by simp [pushed],
      fun _ => by simp [xpushed]⟩
  | comment c =>
    simp only [step, Outcome.ok.injEq] at h; subst h
    obtain ⟨f1, f2, f3, f4, f5, f6, f7, -⟩ := lock_fields
      { p with comments := p.comments ++ [c] } .comment
    unfold pushComment
    refine ⟨f1.trans hp, ?_, ?_, ?_, ?_, ?_, ?_, ?_⟩
    · intro key hk; rw [lock_locked (by exact hp)]; split <;> simp_all
    · intro k _ _; rw [f3]
    · intro k _ _; rw [f4]
    · intro _ _; rw [f5]
    · intro _ _; rw [f2]
    · intro _; rw [f6]; simp [pushed]
    · intro _; rw [f7]; simp [xpushed]
  | xcomment c =>
    simp only [step, Outcome.ok.injEq] at h; subst h
    obtain ⟨f1, f2, f3, f4, f5, f6, f7, -⟩ := lock_fields
      { p with xcomments := p.xcomments ++ [c] } .xcomment
    unfold pushXcomment
    refine ⟨f1.trans hp, ?_, ?_, ?_, ?_, ?_, ?_, ?_⟩
    · intro key hk; rw [lock_locked (by exact hp)]; split <;> simp_all
    · intro k _ _; rw [f3]
    · intro k _ _; rw [f4]
    · intro _ _; rw [f5]
    · intro _ _; rw [f2]
    · intro _; rw [f6]; simp [pushed]
    · intro _; rw [f7]; simp [xpushed]
  | merge q =>
    obtain ⟨f1, f2, f3, -, f4, f5, f6, f7, f8⟩ := merge_ok h
    refine ⟨f1.trans hp, ?_, ?_, ?_, ?_, ?_, ?_, ?_⟩
    · intro key hk; rw [f2]; exact hk
    · intro k hk _; rw [f4, hm _ hk]; simp
    · intro k hk _; rw [f5, hm _ hk]; simp
    · intro hk _; rw [f6, hm _ hk]; simp
    · intro hb _; rw [f3]; simp [bitpixAfter, hb, userSupplied, hp]
    · intro hk; rw [f7, hm _ hk]; simp [pushed]
    · intro hk; rw [f8, hm _ hk]; simp [xpushed]

theorem pushed_cons (op : Op) (ops : List Op) : pushed (op :: ops) = pushed [op] ++ pushed ops := by
  cases op <;> simp [pushed]

theorem xpushed_cons (op : Op) (ops : List Op) :
    xpushed (op :: ops) = xpushed [op] ++ xpushed ops := by
  cases op <;> simp [xpushed]

theorem step_comment_ok (F : Fp) (p : Params) {op : Op} (h : ∀ p', step F p op ≠ .ok p') :
    pushed [op] = [] ∧ xpushed [op] = [] := by
  cases op with
  | comment c => exact absurd rfl (h _)
  | xcomment c => exact absurd rfl (h _)
  | _ => simp [pushed, xpushed]

/-- Whole histories on user supplied parameters. -/
theorem run_user (F : Fp) {p : Params} (hp : p.plane = 0) (ops : List Op) :
    (run F p ops).plane = 0 ∧
    (∀ k, p.locked (.str k) = true → (∀ op ∈ ops, ¬ op.SetsStr k) →
      (run F p ops).str k = p.str k) ∧
    (∀ k, p.locked (.real k) = true → (∀ op ∈ ops, ¬ op.SetsReal k) →
      (run F p ops).real k = p.real k) ∧
    (p.locked .blank = true → (∀ op ∈ ops, ¬ op.SetsBlank) → (run F p ops).blank = p.blank) ∧
    (p.bitpix ≠ 0 → (∀ op ∈ ops, ¬ op.SetsBitpix) → (run F p ops).bitpix = p.bitpix) ∧
    (p.locked .comment = true → (run F p ops).comments = p.comments ++ pushed ops) ∧
    (p.locked .xcomment = true → (run F p ops).xcomments = p.xcomments ++ xpushed ops) := by
  induction ops generalizing p with
  | nil => simp [run, hp, pushed, xpushed]
  | cons op ops ih =>
    unfold run
    split
    · rename_i p' hs
      obtain ⟨s0, s1, s2, s3, s4, s5, s6, s7⟩ := step_user hp hs
      obtain ⟨r0, r2, r3, r4, r5, r6, r7⟩ := ih s0
      refine ⟨r0, ?_, ?_, ?_, ?_, ?_, ?_⟩
      · intro k hk hn
        rw [r2 k (s1 _ hk) fun o ho => hn o (.tail _ ho), s2 k hk (hn op List.mem_cons_self)]
      · intro k hk hn
        rw [r3 k (s1 _ hk) fun o ho => hn o (.tail _ ho), s3 k hk (hn op List.mem_cons_self)]
      · intro hk hn
        rw [r4 (s1 _ hk) fun o ho => hn o (.tail _ ho), s4 hk (hn op List.mem_cons_self)]
      · intro hb hn
        have e := s5 hb (hn op List.mem_cons_self)
        rw [r5 (by rw [e]; exact hb) fun o ho => hn o (.tail _ ho), e]
      · intro hk
        rw [r6 (s1 _ hk), s6 hk, pushed_cons op ops]; simp
      · intro hk
        rw [r7 (s1 _ hk), s7 hk, xpushed_cons op ops]; simp
    · rename_i hs
      obtain ⟨c1, c2⟩ := step_comment_ok F p (op := op) (fun p' h => hs p' h)
      obtain ⟨r0, r2, r3, r4, r5, r6, r7⟩ := ih hp
      refine ⟨r0, ?_, ?_, ?_, ?_, ?_, ?_⟩
      · exact fun k hk hn => r2 k hk fun o ho => hn o (.tail _ ho)
      · exact fun k hk hn => r3 k hk fun o ho => hn o (.tail _ ho)
      · exact fun hk hn => r4 hk fun o ho => hn o (.tail _ ho)
      · exact fun hb hn => r5 hb fun o ho => hn o (.tail _ ho)
      · intro hk; rw [r6 hk, pushed_cons, c1]; simp
      · intro hk; rw [r7 hk, xpushed_cons, c2]; simp

theorem run_append (F : Fp) (p : Params) (a b : List Op) :
    run F p (a ++ b) = run F (run F p a) b := by
  induction a generalizing p with
  | nil => rfl
  | cons op a ih =>
    simp only [List.cons_append, run]
    split <;> exact ih _

/-! ## C44 -/

/-- C44: whatever happened before, a string parameter set by the user keeps that
value through any later history that does not set it again: merges never change
it. -/
theorem C44_string (F : Fp) (before after : List Op) (k : StrKey) (s : String)
    (h : ∀ op ∈ after, ¬ op.SetsStr k) :
    (run F (fresh 0) (before ++ .str k s :: after)).str k = s := by
  rw [run_append]
  have hp := (run_user F (p := fresh 0) rfl before).1
  show (run F (setStr _ k s) after).str k = s
  have f := lock_fields { run F (fresh 0) before with
    str := fun i => if i = k then s else (run F (fresh 0) before).str i } (.str k)
  rw [(run_user F (p := setStr (run F (fresh 0) before) k s) (f.1.trans hp) after).2.1 k ?_ h]
  · unfold setStr; rw [f.2.2.1]; simp
  · unfold setStr; rw [lock_locked (by exact hp)]; simp

/-- C44 for the optional floating point parameters (scale, offset, data range,
equinox), set or explicitly cleared. -/
theorem C44_real (F : Fp) (before after : List Op) (k : RealKey) (v : Option Dbl)
    (h : ∀ op ∈ after, ¬ op.SetsReal k) :
    (run F (fresh 0) (before ++ .real k v :: after)).real k = v := by
  rw [run_append]
  have hp := (run_user F (p := fresh 0) rfl before).1
  show (run F (setReal _ k v) after).real k = v
  have f := lock_fields { run F (fresh 0) before with
    real := fun i => if i = k then v else (run F (fresh 0) before).real i } (.real k)
  rw [(run_user F (p := setReal (run F (fresh 0) before) k v) (f.1.trans hp) after).2.2.1 k ?_ h]
  · unfold setReal; rw [f.2.2.2.1]; simp
  · unfold setReal; rw [lock_locked (by exact hp)]; simp

/-- C44 for the blank value. -/
theorem C44_blank (F : Fp) (before after : List Op) (v : Option ℤ)
    (h : ∀ op ∈ after, ¬ op.SetsBlank) :
    (run F (fresh 0) (before ++ .blank v :: after)).blank = v := by
  rw [run_append]
  have hp := (run_user F (p := fresh 0) rfl before).1
  show (run F (setBlank _ v) after).blank = v
  have f := lock_fields { run F (fresh 0) before with blank := v } .blank
  rw [(run_user F (p := setBlank (run F (fresh 0) before) v) (f.1.trans hp) after).2.2.2.1 ?_ h]
  · unfold setBlank; rw [f.2.2.2.2.1]
  · unfold setBlank; rw [lock_locked (by exact hp)]; simp

/-- C44 for BITPIX. -/
theorem C44_bitpix (F : Fp) (before after : List Op) (n : ℤ)
    (hn : n = 8 ∨ n = 16 ∨ n = 32 ∨ n = 64 ∨ n = -32 ∨ n = -64)
    (h : ∀ op ∈ after, ¬ op.SetsBitpix) :
    (run F (fresh 0) (before ++ .bitpix n :: after)).bitpix = n := by
  have hv : validBitpix n = true := by
    rcases hn with rfl | rfl | rfl | rfl | rfl | rfl <;> rfl
  have hn0 : n ≠ 0 := by omega
  rw [run_append]
  have hp := (run_user F (p := fresh 0) rfl before).1
  have hs : step F (run F (fresh 0) before) (.bitpix n) =
      .ok { run F (fresh 0) before with bitpix := n } := by simp [step, setBitpix, hv]
  unfold run
  rw [hs]
  exact (run_user F (p := { run F (fresh 0) before with bitpix := n }) hp after).2.2.2.2.1 hn0 h

/-- C44 for comments: from the first comment of the user on, the comments grow
by the user's comments only. -/
theorem C44_comments (F : Fp) (before after : List Op) (c : String) :
    (run F (fresh 0) (before ++ .comment c :: after)).comments =
      (run F (fresh 0) before).comments ++ c :: pushed after ∧
    (run F (fresh 0) (before ++ .xcomment c :: after)).xcomments =
      (run F (fresh 0) before).xcomments ++ c :: xpushed after := by
  have hp := (run_user F (p := fresh 0) rfl before).1
  constructor
  · rw [run_append]
    show (run F (pushComment _ c) after).comments = _
    have f := lock_fields { run F (fresh 0) before with
      comments := (run F (fresh 0) before).comments ++ [c] } .comment
    rw [(run_user F (p := pushComment (run F (fresh 0) before) c) (f.1.trans hp) after).2.2.2.2.2.1]
    · unfold pushComment; rw [f.2.2.2.2.2.1]; simp
    · unfold pushComment; rw [lock_locked (by exact hp)]; simp
  · rw [run_append]
    show (run F (pushXcomment _ c) after).xcomments = _
    have f := lock_fields { run F (fresh 0) before with
      xcomments := (run F (fresh 0) before).xcomments ++ [c] } .xcomment
    rw [(run_user F (p := pushXcomment (run F (fresh 0) before) c) (f.1.trans hp)
      after).2.2.2.2.2.2]
    · unfold pushXcomment; rw [f.2.2.2.2.2.2.1]; simp
    · unfold pushXcomment; rw [lock_locked (by exact hp)]; simp

example : (run .ieee (fresh 0) [.str .author "A", .merge { fresh 1 with str := fun _ => "B" }]).str
    .author = "A" ∧
  (run .ieee (fresh 0) [.str .author "A", .merge { fresh 1 with str := fun _ => "B" }]).str
    .origin = "B" := by decide +kernel

/-! ## C45 -/

/-- Specification: the first nonempty string. -/
def firstNonempty : List String → String
  | [] => ""
  | s :: ss => if s = "" then firstNonempty ss else s

/-- Specification: the first number supplied (NaN does not count). -/
def firstNumber : List (Option Dbl) → Option Dbl
  | [] => none
  | none :: vs => firstNumber vs
  | some .nan :: vs => firstNumber vs
  | some v :: _ => some v

/-- Specification: the first value supplied. -/
def firstSome {α : Type} : List (Option α) → Option α
  | [] => none
  | none :: vs => firstSome vs
  | some v :: _ => some v

theorem mergeAll_spec {F : Fp} {p p' : Params} (hl : ∀ key, p.locked key = false)
    {qs : List Params} (h : mergeAll F p qs = .ok p') :
    p'.plane = p.plane ∧ (∀ key, p'.locked key = false) ∧
    (∀ k, p'.str k = firstNonempty (p.str k :: qs.map (·.str k))) ∧
    (∀ k, k ≠ .datamax → k ≠ .datamin →
      p'.real k = if p.real k = none then firstNumber (qs.map (·.real k)) else p.real k) ∧
    (∀ k, k = .datamax ∨ k = .datamin → p'.real k = p.real k) ∧
    p'.blank = firstSome (p.blank :: qs.map (·.blank)) ∧
    p'.comments = p.comments ++ qs.flatMap (·.comments) ∧
    p'.xcomments = p.xcomments ++ qs.flatMap (·.xcomments) := by
  induction qs generalizing p with
  | nil =>
    simp only [mergeAll, Outcome.ok.injEq] at h; subst h
    refine ⟨rfl, hl, ?_, ?_, fun _ _ => rfl, ?_, by simp, by simp⟩
    · intro k; by_cases hk : p.str k = "" <;> simp [firstNonempty, hk]
    · intro k _ _; by_cases hk : p.real k = none <;> simp [firstNumber, hk]
    · cases p.blank <;> simp [firstSome]
  | cons q qs ih =>
    unfold mergeAll at h
    cases hm : merge F p q with
    | throw e => rw [hm] at h; cases h
    | ub => rw [hm] at h; cases h
    | ok p1 =>
      rw [hm] at h
      simp only [Outcome.bind_ok] at h
      obtain ⟨f1, f2, f3, -, f4, f5, f6, f7, f8⟩ := merge_ok hm
      have hmg : ∀ key, isMergeable p key = true := by intro key; simp [isMergeable, hl]
      obtain ⟨g1, g2, g3, g4, g5, g6, g7, g8⟩ := ih (by rw [f2]; exact hl) h
      refine ⟨g1.trans f1, g2, ?_, ?_, ?_, ?_, ?_, ?_⟩
      · intro k
        rw [g3, f4, hmg]
        by_cases hk : p.str k = "" <;> simp [firstNonempty, hk]
      · intro k h1 h2
        rw [g4 k h1 h2, f5, hmg]
        by_cases hk : p.real k = none
        · simp only [hk, h1, h2, ne_eq, not_false_eq_true, and_true, if_true, List.map_cons]
          rcases hq : q.real k with _ | (_ | _ | _ | _) <;> simp [supplied, firstNumber]
        · simp [hk]
      · intro k hk
        rw [g5 k hk, f5]
        rcases hk with rfl | rfl <;> simp
      · rw [g6, f6, hmg]
        cases p.blank <;> simp [firstSome]
      · rw [g7, f7, hmg]; simp
      · rw [g8, f8, hmg]; simp

/-- C45: merging parameter sets one after the other into a fresh one leaves each
keyword at the first supplied value; later sources never change it.  (Holds for
the plane parameters as well as for those the program merges everything into.) -/
theorem C45_first_supplied (F : Fp) (plane : ℤ) {sources : List Params} {p : Params}
    (h : mergeAll F (fresh plane) sources = .ok p) :
    (∀ k, p.str k = firstNonempty (sources.map (·.str k))) ∧
    (∀ k, k ≠ .datamax → k ≠ .datamin → p.real k = firstNumber (sources.map (·.real k))) ∧
    p.blank = firstSome (sources.map (·.blank)) ∧
    p.comments = sources.flatMap (·.comments) ∧
    p.xcomments = sources.flatMap (·.xcomments) := by
  obtain ⟨-, -, f1, f2, -, f3, f4, f5⟩ := mergeAll_spec (p := fresh plane) (fun _ => rfl) h
  refine ⟨?_, ?_, ?_, ?_, ?_⟩
  · intro k; rw [f1]; simp [firstNonempty, fresh]
  · intro k h1 h2; rw [f2 k h1 h2]; simp [fresh]
  · rw [f3]; rfl
  · rw [f4]; simp [fresh]
  · rw [f5]; simp [fresh]

/-- C45, `MapCommand`'s population of the map parameters from its source images:
an unset user parameter takes the first value supplied by a plane, a set one
stays. -/
theorem C45_populate (F : Fp) {user : Params} (hu : user.plane = 0) {planes : List Params}
    {p : Params} (h : populate F user planes = .ok p) :
    (∀ k, p.str k = if user.locked (.str k) = false ∧ user.str k = ""
      then firstNonempty (planes.map (·.str k)) else user.str k) ∧
    (∀ k, p.real k = if k ≠ .datamax ∧ k ≠ .datamin ∧ user.locked (.real k) = false ∧
      user.real k = none then firstNumber (planes.map (·.real k)) else user.real k) ∧
    (p.blank = if user.locked .blank = false ∧ user.blank = none
      then firstSome (planes.map (·.blank)) else user.blank) := by
  unfold populate at h
  cases hm : mergeAll F (fresh 0) planes with
  | throw e => rw [hm] at h; cases h
  | ub => rw [hm] at h; cases h
  | ok t =>
    rw [hm] at h
    simp only [Outcome.bind_ok] at h
    obtain ⟨s1, s2, s3, s4, s5⟩ := C45_first_supplied F 0 hm
    obtain ⟨-, -, -, -, f4, f5, f6, -, -⟩ := merge_ok h
    have hmg : ∀ key, isMergeable user key = !user.locked key := by
      intro key; simp [isMergeable, userSupplied, hu]
    have hsup : ∀ l, supplied (firstNumber l) = firstNumber l := by
      intro l
      induction l with
      | nil => rfl
      | cons a l ih =>
        rcases a with _ | (_ | _ | _ | _) <;> first | exact ih | rfl
    refine ⟨?_, ?_, ?_⟩
    · intro k; rw [f4, hmg, s1]; simp
    · intro k
      rw [f5, hmg]
      by_cases hk : k ≠ .datamax ∧ k ≠ .datamin
      · rw [s2 k hk.1 hk.2, hsup]; simp
      · have : ¬(k ≠ .datamax ∧ k ≠ .datamin ∧ (!user.locked (.real k)) = true ∧
            user.real k = none) := fun hh => hk ⟨hh.1, hh.2.1⟩
        have h2 : ¬(k ≠ .datamax ∧ k ≠ .datamin ∧ user.locked (.real k) = false ∧
            user.real k = none) := fun hh => hk ⟨hh.1, hh.2.1⟩
        rw [if_neg this, if_neg h2]
    · rw [f6, hmg, s3]; simp

example : (mergeAll .exact (fresh 3) [{ fresh 1 with real := fun _ => some .nan },
    { fresh 2 with real := fun _ => some (.fin 2), blank := some 7 },
    { fresh 3 with real := fun _ => some (.fin 5), blank := some 9 }]).bind
    (fun p => .ok (p.real .bscale, p.real .datamax, p.blank, p.histories.length)) =
      .ok (some (.fin 2), none, some 7, 4) := by decide +kernel

/-- C45, the record of conflicts: into automatically populated parameters (plane
not 0), merging a number that is not almost equal to the present one appends
one record of the present value. -/
theorem C45_history_partial (F : Fp) (p : Params) (hp : p.plane ≠ 0) (k : RealKey) (t v : Dbl)
    (ht : p.real k = some t) (hv : v ≠ .nan) (hne : almostEqual F t v 2 = false) :
    (mergeReal F p k (some v)).histories = p.histories ++ [.real p.plane k t] ∧
    (mergeReal F p k (some v)).real k = some t := by
  have hn : v.isNaN = false := by cases v <;> simp_all [Dbl.isNaN]
  have hu : userSupplied p = false := by simp [userSupplied, hp]
  have hm : isMergeable p (.real k) = true := by simp [isMergeable, hu]
  constructor
  · unfold mergeReal; simp [hn, hm, ht, hne, hu]
  · rw [mergeReal_real]; simp [ht]

/-- C45, the record of conflicts, for the blank value. -/
theorem C45_history_blank_partial (p : Params) (hp : p.plane ≠ 0) (t v : ℤ)
    (ht : p.blank = some t) :
    (mergeBlank p (some v)).histories =
      p.histories ++ (if v = t then [] else [.blank p.plane t]) ∧
    (mergeBlank p (some v)).blank = some t := by
  have hu : userSupplied p = false := by simp [userSupplied, hp]
  have hm : isMergeable p .blank = true := by simp [isMergeable, hu]
  unfold mergeBlank
  by_cases h : v = t
  · subst h; simp [hm, ht]
  · simp [hm, ht, hu, Ne.symm h, h]

example : ∃ p : Params, p.plane ≠ 0 ∧ p.blank = some 3 ∧
    (mergeBlank p (some 4)).histories = [.blank 2 3] :=
  ⟨{ fresh 2 with blank := some 3 }, by decide, rfl, by decide +kernel⟩

theorem mergeReal_histories_user (F : Fp) {p : Params} (hp : p.plane = 0) (k : RealKey)
    (v : Option Dbl) : (mergeReal F p k v).histories = p.histories := by
  have hu : userSupplied p = true := by simp [userSupplied, hp]
  unfold mergeReal
  repeat' split <;> try rfl

theorem mergeBlank_histories_user {p : Params} (hp : p.plane = 0) (v : Option ℤ) :
    (mergeBlank p v).histories = p.histories := by
  have hu : userSupplied p = true := by simp [userSupplied, hp]
  unfold mergeBlank
  repeat' split <;> try rfl

theorem merge_histories_user {F : Fp} {p q p' : Params} (hp : p.plane = 0)
    (h : merge F p q = .ok p') : p'.histories = p.histories := by
  unfold merge at h
  cases hb : mergeBitpix p q.bitpix with
  | throw e => rw [hb] at h; cases h
  | ub => rw [hb] at h; cases h
  | ok p1 =>
    rw [hb] at h
    simp only [Outcome.bind_ok, Outcome.ok.injEq] at h
    subst h
    have h1 : p1.plane = 0 ∧ p1.histories = p.histories := by
      rcases mergeBitpix_ok hb with rfl | ⟨rfl, -, -⟩ <;> exact ⟨hp, rfl⟩
    simp [mergeReal_histories_user, mergeBlank_histories_user, h1.1, h1.2]

/-- C45, the record of conflicts, is false of the program: when the map
parameters are populated from the planes, no HISTORY record is ever made, since
everything is merged into parameters that count as user supplied. -/
theorem C45_history_violated (F : Fp) {user : Params} (hu : user.plane = 0)
    {planes : List Params} {p : Params} (h : populate F user planes = .ok p) :
    p.histories = user.histories := by
  unfold populate at h
  cases hm : mergeAll F (fresh 0) planes with
  | throw e => rw [hm] at h; cases h
  | ub => rw [hm] at h; cases h
  | ok t =>
    rw [hm] at h
    exact merge_histories_user hu h

example : (populate .exact (fresh 0) [{ fresh 1 with real := fun _ => some (.fin 2) },
    { fresh 2 with real := fun _ => some (.fin 5) }]).bind
    (fun p => .ok (p.real .bscale, p.histories)) = .ok (some (.fin 2), []) := by decide +kernel

/-! ## C46 -/

/-- Specification: the first BITPIX that is set. -/
def firstNonzero : List ℤ → ℤ
  | [] => 0
  | n :: ns => if n = 0 then firstNonzero ns else n

theorem mergeAll_bitpix {F : Fp} {p p' : Params} (hp : p.plane = 0)
    {qs : List Params} (h : mergeAll F p qs = .ok p') :
    p'.bitpix = firstNonzero (p.bitpix :: qs.map (·.bitpix)) ∧ p'.plane = 0 := by
  induction qs generalizing p with
  | nil =>
    simp only [mergeAll, Outcome.ok.injEq] at h; subst h
    by_cases hb : p.bitpix = 0 <;> simp [firstNonzero, hb, hp]
  | cons q qs ih =>
    unfold mergeAll at h
    cases hm : merge F p q with
    | throw e => rw [hm] at h; cases h
    | ub => rw [hm] at h; cases h
    | ok p1 =>
      rw [hm] at h
      simp only [Outcome.bind_ok] at h
      obtain ⟨f1, -, f3, -⟩ := merge_ok hm
      obtain ⟨g1, g2⟩ := ih (f1.trans hp) h
      refine ⟨?_, g2⟩
      rw [g1, f3]
      by_cases hb : p.bitpix = 0 <;> by_cases hq : q.bitpix = 0 <;>
        simp [firstNonzero, hb, hq, bitpixAfter, userSupplied, hp]

/-- What the program does about BITPIX: without a user supplied value the first
plane that has one determines it, whatever the later planes are. -/
theorem C46_first_plane_wins (F : Fp) {user : Params} (hb : user.bitpix = 0) {planes : List Params} {p : Params}
    (h : populate F user planes = .ok p) :
    p.bitpix = firstNonzero (planes.map (·.bitpix)) := by
  unfold populate at h
  cases hm : mergeAll F (fresh 0) planes with
  | throw e => rw [hm] at h; cases h
  | ub => rw [hm] at h; cases h
  | ok t =>
    rw [hm] at h
    obtain ⟨g1, -⟩ := mergeAll_bitpix (p := fresh 0) rfl hm
    obtain ⟨-, -, f3, -⟩ := merge_ok h
    have g2 : t.bitpix = firstNonzero (planes.map (·.bitpix)) := by
      rw [g1]; simp [firstNonzero, fresh]
    rw [f3, g2]
    generalize firstNonzero (planes.map (·.bitpix)) = n
    by_cases hn : n = 0 <;> simp [bitpixAfter, hb, hn]

/-- C46 is false of the code: an 8 bit plane followed by a double precision plane
makes an 8 bit map. -/
theorem C46_violated :
    (populate .ieee (fresh 0) [{ fresh 1 with bitpix := 8 }, { fresh 2 with bitpix := -64 }]).bind
      getBitpix = .ok 8 := by decide +kernel

/-- C46, the merge of automatically populated parameters (plane not 0) does not
do it either: merging an 8 bit plane into a double precision one selects 8 bits. -/
theorem C46_merge_violated :
    (merge .ieee { fresh 1 with bitpix := -64 } { fresh 2 with bitpix := 8 }).bind getBitpix =
      .ok 8 := by decide +kernel

/-- C46, as far as it holds: if the first plane with a BITPIX has the largest
type (in bits) of all planes, the map has it too. -/
theorem C46_partial (F : Fp) {user : Params} (hb : user.bitpix = 0) {planes : List Params} {p : Params}
    (h : populate F user planes = .ok p) {pre post : List Params} {q : Params}
    (hp : planes = pre ++ q :: post) (hpre : ∀ r ∈ pre, r.bitpix = 0) (hq : q.bitpix ≠ 0)
    (hpost : ∀ r ∈ post, |r.bitpix| ≤ |q.bitpix|) :
    ∀ r ∈ planes, |r.bitpix| ≤ |p.bitpix| := by
  rw [C46_first_plane_wins F hb h]
  have : firstNonzero (planes.map (·.bitpix)) = q.bitpix := by
    rw [hp]
    clear hp
    induction pre with
    | nil => simp [firstNonzero, hq]
    | cons a pre ih =>
      have ha := hpre a List.mem_cons_self
      simp only [List.cons_append, List.map_cons, firstNonzero, ha, if_true]
      exact ih fun r hr => hpre r (.tail _ hr)
  rw [this, hp]
  intro r hr
  rcases List.mem_append.mp hr with hr | hr
  · rw [hpre r hr]; simp
  · rcases List.mem_cons.mp hr with rfl | hr
    · exact le_rfl
    · exact hpost r hr

example : (populate .ieee (fresh 0) [fresh 1, { fresh 2 with bitpix := -64 },
    { fresh 3 with bitpix := 16 }]).bind getBitpix = .ok (-64) := by decide +kernel

/-! ## C47 -/

/-- Specification: the FITS standard's BITPIX values. -/
def ValidBitpix (n : ℤ) : Prop := n ∈ ([8, 16, 32, 64, -32, -64] : List ℤ)

theorem validBitpix_iff (n : ℤ) : validBitpix n = true ↔ ValidBitpix n := by
  simp [validBitpix, ValidBitpix]; tauto

theorem run_bitpix (F : Fp) {p : Params} (hp : p.bitpix = 0 ∨ ValidBitpix p.bitpix)
    (ops : List Op) : (run F p ops).bitpix = 0 ∨ ValidBitpix (run F p ops).bitpix := by
  induction ops generalizing p with
  | nil => exact hp
  | cons op ops ih =>
    unfold run
    split
    · rename_i p' hs
      apply ih
      cases op with
      | bitpix n =>
        simp only [step, setBitpix] at hs
        split at hs <;> cases hs
        right; rw [← validBitpix_iff]; simp_all
      | merge q =>
        obtain ⟨-, -, f3, f4, -⟩ := merge_ok hs
        rcases f4 with h | h
        · rw [f3]; unfold bitpixAfter; split
          · right; rwa [← validBitpix_iff]
          · exact hp
        · rw [h]; exact hp
      | str k s => cases hs; simpa [setStr, (lock_fields _ _).2.1] using hp
      | real k s => cases hs; simpa [setReal, (lock_fields _ _).2.1] using hp
      | blank s => cases hs; simpa [setBlank, (lock_fields _ _).2.1] using hp
      | comment s => cases hs; simpa [pushComment, (lock_fields _ _).2.1] using hp
      | xcomment s => cases hs; simpa [pushXcomment, (lock_fields _ _).2.1] using hp
    · exact ih hp

/-- C47: after any history of sets and merges, on any plane, reading BITPIX
returns a valid value or throws; setting an invalid one throws
`invalid_argument`. -/
theorem C47_bitpix (F : Fp) (plane : ℤ) (ops : List Op) :
    (∀ n, getBitpix (run F (fresh plane) ops) = .ok n → ValidBitpix n) ∧
    (getBitpix (run F (fresh plane) ops) = .throw .runtimeError ∨
      ∃ n, getBitpix (run F (fresh plane) ops) = .ok n) ∧
    (getBitpix (run F (fresh plane) ops) = .throw .runtimeError ↔
      (run F (fresh plane) ops).bitpix = 0) ∧
    (∀ n, ¬ ValidBitpix n → step F (run F (fresh plane) ops) (.bitpix n) =
      .throw .invalidArgument) ∧
    (∀ n, ValidBitpix n → ∃ p', step F (run F (fresh plane) ops) (.bitpix n) = .ok p' ∧
      getBitpix p' = .ok n) := by
  have hb := run_bitpix F (p := fresh plane) (.inl rfl) ops
  generalize run F (fresh plane) ops = p at hb ⊢
  refine ⟨?_, ?_, ?_, ?_, ?_⟩
  · intro n hn
    unfold getBitpix at hn
    split at hn <;> cases hn
    rw [← validBitpix_iff]; simp_all
  · unfold getBitpix; split
    · exact .inl rfl
    · exact .inr ⟨_, rfl⟩
  · unfold getBitpix
    rcases hb with hb | hb
    · simp [hb, validBitpix]
    · have h0 : p.bitpix ≠ 0 := by intro h; rw [h] at hb; simp [ValidBitpix] at hb
      have hv := (validBitpix_iff _).mpr hb
      simp [hv, h0]
  · intro n hn
    have : validBitpix n = false := by rw [← Bool.not_eq_true, validBitpix_iff]; exact hn
    simp [step, setBitpix, this]
  · intro n hn
    have hv := (validBitpix_iff _).mpr hn
    exact ⟨{ p with bitpix := n }, by simp [step, setBitpix, hv], by simp [getBitpix, hv]⟩

/-- C47: an attempt to set an invalid BITPIX leaves the parameters as they were. -/
theorem C47_invalid_no_effect (F : Fp) (p : Params) (n : ℤ) (hn : ¬ ValidBitpix n)
    (ops : List Op) : run F p (.bitpix n :: ops) = run F p ops := by
  have : validBitpix n = false := by rw [← Bool.not_eq_true, validBitpix_iff]; exact hn
  simp [run, step, setBitpix, this]

/-- C47: map parameters for a negative plane cannot be made. -/
theorem C47_plane (plane : ℤ) : (∃ p, new plane = .ok p) ↔ 0 ≤ plane := by
  unfold new
  split
  · constructor
    · rintro ⟨p, h⟩; cases h
    · intro h; omega
  · exact ⟨fun _ => by omega, fun _ => ⟨_, rfl⟩⟩

example : getBitpix (run .ieee (fresh 0) [.bitpix 7, .merge { fresh 1 with bitpix := 12 },
    .merge { fresh 1 with bitpix := 16 }, .bitpix 0]) = .ok 16 := by decide +kernel

example : getBitpix (run .ieee (fresh 0) [.bitpix 7]) = .throw .runtimeError := by decide +kernel

end MaRC.MapParams
