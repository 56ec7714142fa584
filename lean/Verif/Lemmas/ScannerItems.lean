import Verif.Lemmas.ScannerExpr

/-! # Lemmas about scanning the entries of input files -/

namespace MaRC.Scan

open MaRC.Calc (Tok Table litLen symrec numLen identLen digitsLen signLen fracLen expLen identTok)
open MaRC.InputFile

/-! ## Operators -/

def opChars : List Char := ['+', '-', '*', '/', '^', '(', ')']

theorem opChars_facts : ∀ c ∈ opChars, c.isAlpha = false ∧ c.isDigit = false ∧ c ≠ '#' ∧ c ≠ ' ' ∧
    c ≠ '\t' ∧ c ≠ '\n' ∧ c ≠ '.' ∧ c ≠ 'E' ∧ c ≠ 'e' := by decide

theorem pick_op {c : Char} (hc : c ∈ opChars) {r : List Char} (hn : numLen (c :: r) = numLen [c]) :
    pick (c :: r) (active symrec .expression) = pick [c] (active symrec .expression) := by
  obtain ⟨h1, h2, h3, h4, h5, h6, -⟩ := opChars_facts c hc
  apply pick_congr
  rw [active_x]
  intro z hz
  simp only [List.mem_cons, List.mem_append] at hz
  have hw := words_zero (d := c) (by rw [isAlpha_iff]; exact h1)
  have hop : ∀ a : Char, litLen [a] (c :: r) = litLen [a] [c] := by intro a; simp [litLen]
  rcases hz with rfl | rfl | rfl | rfl | hz | hz | rfl | rfl | hz
  · simp [xNote, h3]
  · simp [xBlank, h4, h5]
  · rw [hw r _ (by simp), hw [] _ (by simp)]
  · rw [hw r _ (by simp), hw [] _ (by simp)]
  · simp only [opToks, List.map_cons, List.map_nil, List.mem_cons, List.not_mem_nil,
      or_false] at hz
    rcases hz with rfl | rfl | rfl | rfl | rfl | rfl | rfl | rfl <;> exact hop _
  · rw [hw r z (by simp only [List.mem_cons]; exact .inr (.inr hz)),
      hw [] z (by simp only [List.mem_cons]; exact .inr (.inr hz))]
  · exact hn
  · simp [xIdent, identLen, h1]
  · simp only [xTail, List.mem_cons, List.not_mem_nil, or_false] at hz
    rcases hz with rfl | rfl | rfl | rfl <;> simp [h6]

theorem scanFrom_op {c : Char} {t : Tok} {r : List Char} (hc : c ∈ opChars)
    (hn : numLen (c :: r) = numLen [c])
    (ht : pick [c] (active symrec .expression) = (1, (fun _ => some (.ex t)), none)) :
    scanFrom symrec .expression (c :: r) = .ex t :: scanFrom symrec .expression r := by
  have h := pick_op hc hn
  rw [ht] at h
  rw [scanFrom_step (by simp) h]
  rfl

theorem numLen_plain {c : Char} (hc : c ∈ ['*', '/', '^', '(', ')']) (r : List Char) :
    numLen (c :: r) = numLen [c] := by
  simp only [List.mem_cons, List.not_mem_nil, or_false] at hc
  rcases hc with rfl | rfl | rfl | rfl | rfl <;>
    simp [numLen, signLen, digitsLen, fracLen, expLen]

theorem numLen_sign {c : Char} (hc : c = '+' ∨ c = '-') {r : List Char} (h1 : digitsLen r = 0)
    (h2 : fracLen r = 0) (h3 : expLen r = 0) : numLen (c :: r) = numLen [c] := by
  have e : signLen (c :: r) = 1 := by rcases hc with rfl | rfl <;> simp [signLen]
  have e' : signLen [c] = 1 := by rcases hc with rfl | rfl <;> simp [signLen]
  simp [numLen, e, e', h1, h2, h3]
  simp [digitsLen, fracLen, expLen]

theorem numLen_sign_ends {c : Char} (hc : c = '+' ∨ c = '-') {r : List Char}
    (hr : ∀ x, r.head? = some x → endsNum x) : numLen (c :: r) = numLen [c] := by
  cases r with
  | nil => rfl
  | cons x r =>
    obtain ⟨h1, h2, h3, h4⟩ := hr x rfl
    apply numLen_sign hc
    · simp [digitsLen, h1]
    · simp [fracLen, h2]
    · simp [expLen, h3, h4]

/-! ## Blanks, comments and the end of the line -/

theorem pick_xblank {x : Char} (hx : x = ' ' ∨ x = '\t') (r : List Char) :
    pick (x :: r) (active symrec .expression) =
      (((x :: r).takeWhile fun c => decide (c = ' ' ∨ c = '\t')).length, (fun _ => none), none) := by
  have hn : 1 ≤ ((x :: r).takeWhile fun c => decide (c = ' ' ∨ c = '\t')).length := by
    rcases hx with rfl | rfl <;> simp
  have hal : x.isAlpha = false := by rcases hx with rfl | rfl <;> decide
  have hw := words_zero (d := x) (by rw [isAlpha_iff]; exact hal) r
  rw [active_x]
  have e := pick_first (cs := x :: r) (l1 := [xNote]) (r := xBlank)
    (l2 := xlast "AUTO" :: xlast "TABLE" ::
      (opToks.map xlit ++ (unitToks.map xlit ++ (xNum :: xIdent :: xTail)))) ?_ ?_
  · exact e
  · intro y hy
    simp only [List.mem_singleton] at hy
    subst hy
    have : x ≠ '#' := by rcases hx with rfl | rfl <;> decide
    have h0 : xNote.len (x :: r) = 0 := by simp [xNote, this]
    rw [h0]; exact hn
  · intro y hy
    refine le_trans ?_ hn
    simp only [List.mem_cons, List.mem_append] at hy
    rcases hy with rfl | rfl | hy | hy | rfl | rfl | hy
    · rw [hw _ (by simp)]; omega
    · rw [hw _ (by simp)]; omega
    · exact opToks_le _ y hy
    · rw [hw y (by simp only [List.mem_cons]; exact .inr (.inr hy))]; omega
    · rcases hx with rfl | rfl <;> simp [xNum, numLen, signLen, digitsLen, fracLen, expLen]
    · simp [xIdent, identLen, hal]
    · exact xTail_le _ y hy

theorem scanFrom_xblanks {b : List Char} (hb : Blanks b) (r : List Char) :
    scanFrom symrec .expression (b ++ r) = scanFrom symrec .expression r := by
  have run : ∀ cs : List Char, scanFrom symrec .expression cs =
      scanFrom symrec .expression (cs.dropWhile fun c => decide (c = ' ' ∨ c = '\t')) := by
    intro cs
    cases cs with
    | nil => rfl
    | cons x r =>
      by_cases hx : x = ' ' ∨ x = '\t'
      · rw [scanFrom_step (by simp) (pick_xblank hx r)]
        simp only [Option.toList_none, List.nil_append, Option.getD_none]
        congr 1
        conv_lhs => rw [← List.takeWhile_append_dropWhile
          (p := fun c => decide (c = ' ' ∨ c = '\t')) (l := x :: r)]
        rw [List.drop_append]
        simp
      · rw [List.dropWhile_cons_of_neg (by simpa using hx)]
  induction b with
  | nil => rfl
  | cons x b ih =>
    have hx := hb x (by simp)
    rw [← ih fun c hc => hb c (by simp [hc]), run, run (b ++ r), List.cons_append,
      List.dropWhile_cons_of_pos (by simpa using hx)]

theorem scanFrom_xnote (s r : List Char) (hs : '\n' ∉ s) (hr : ∀ c, r.head? = some c → c = '\n') :
    scanFrom symrec .expression ('#' :: s ++ r) = scanFrom symrec .expression r := by
  have e : (('#' :: s ++ r).takeWhile fun c => decide (c ≠ '\n')).length = s.length + 1 := by
    rw [List.cons_append, List.takeWhile_cons_of_pos (by decide), takeWhile_note s r hs hr]
    rfl
  have hl : xNote.len ('#' :: s ++ r) = ('#' :: s).length := by
    simp only [xNote, List.cons_append, List.head?_cons, if_true] at e ⊢
    rw [e]; simp
  have hw := words_zero (d := '#') (by decide) (s ++ r)
  have hp : pick ('#' :: s ++ r) (active symrec .expression) =
      (('#' :: s).length, (fun _ => none), none) := by
    rw [active_x, pick_cons_pos]
    · rw [hl]; rfl
    · rw [hl]
      apply pick_le
      intro y hy
      have h1 : 1 ≤ ('#' :: s).length := by simp
      refine le_trans ?_ h1
      rw [List.cons_append]
      simp only [List.mem_cons, List.mem_append] at hy
      rcases hy with rfl | rfl | rfl | hy | hy | rfl | rfl | hy
      · simp [xBlank]
      · rw [hw _ (by simp)]; omega
      · rw [hw _ (by simp)]; omega
      · exact opToks_le _ y hy
      · rw [hw y (by simp only [List.mem_cons]; exact .inr (.inr hy))]; omega
      · simp [xNum, numLen, signLen, digitsLen, fracLen, expLen]
      · simp [xIdent, identLen]
      · exact xTail_le _ y hy
  rw [scanFrom_match (by simp) hp]
  rfl

/-- At the end of the line scanning goes on in the condition `INITIAL`. -/
theorem scanFrom_xend (r : List Char) (hr : ∀ c, r.head? = some c → c = '\n') :
    scanFrom symrec .expression r = scanFrom symrec .initial r := by
  cases r with
  | nil => rfl
  | cons c r =>
    obtain rfl := hr c rfl
    have hw := words_zero (d := '\n') (by decide) r
    have hops : ∀ y ∈ opToks.map xlit, y.len ('\n' :: r) = 0 := by
      intro y hy
      simp only [opToks, List.map_cons, List.map_nil, List.mem_cons, List.not_mem_nil,
        or_false] at hy
      rcases hy with rfl | rfl | rfl | rfl | rfl | rfl | rfl | rfl <;>
        simp [xlit, litLen]
    have hp : pick ('\n' :: r) (active symrec .expression) = (1, (fun _ => none), some .initial) := by
      rw [active_x]
      have e := pick_first (cs := '\n' :: r)
        (l1 := xNote :: xBlank :: xlast "AUTO" :: xlast "TABLE" ::
          (opToks.map xlit ++ (unitToks.map xlit ++ [xNum, xIdent,
            ⟨(· == .expression), fun cs => if cs.head? = some '\n' then 0 else 1,
              fun _ => some (.ex .unmatched), some .initial⟩])))
        (r := ⟨(· == .expression), fun _ => 1, fun _ => none, some .initial⟩)
        (l2 := [⟨fun _ => true, fun cs => if cs.head? = some '\n' then 0 else 1,
            fun _ => some (.ex .unmatched), none⟩,
          ⟨fun _ => true, fun _ => 1, fun _ => none, none⟩]) ?_ ?_
      · simp only [List.cons_append, List.append_assoc, List.nil_append] at e
        exact e
      · intro y hy
        suffices y.len ('\n' :: r) = 0 by rw [this]; exact Nat.one_pos
        simp only [List.mem_cons, List.mem_append, List.not_mem_nil, or_false] at hy
        rcases hy with rfl | rfl | rfl | rfl | hy | hy | rfl | rfl | rfl
        · simp [xNote]
        · simp [xBlank]
        · rw [hw _ (by simp)]
        · rw [hw _ (by simp)]
        · exact hops y hy
        · rw [hw y (by simp only [List.mem_cons]; exact .inr (.inr hy))]
        · simp [xNum, numLen, signLen, digitsLen, fracLen, expLen]
        · simp [xIdent, identLen]
        · simp
      · intro y hy
        simp only [List.mem_cons, List.not_mem_nil, or_false] at hy
        rcases hy with rfl | rfl <;> simp
    rw [scanFrom_step (by simp) hp, scanFrom_blank rfl (by simp [isBlank])]
    rfl

/-! ## Lines -/

/-- What a following token shows first. -/
theorem line_head {u : Tok} {ts : List Tok} {l : List Char} (h : Line (u :: ts) l) :
    (∃ c r, l = c :: r ∧ (c = ' ' ∨ c = '\t')) ∨ ∃ w l', l = w ++ l' ∧ Spells u w := by
  cases h with
  | @cons _ _ b w l hb hs _ _ =>
    cases b with
    | nil => exact .inr ⟨w, l, by simp, hs⟩
    | cons c b => exact .inl ⟨c, b ++ w ++ l, by simp, hb c (by simp)⟩

/-- What may touch a number or a function begins with an operator or a sign. -/
theorem touch_lead {t u : Tok} {w : List Char} (h : (∃ s, t = .num s) ∨ ∃ f, t = .fnct f)
    (ht : touch t u) (hu : Spells u w) :
    u ∈ [Tok.plus, .minus, .times, .divide, .caret, .lpar, .rpar] ∨
      ∃ s, u = .num s ∧ (s.head? = some '+' ∨ s.head? = some '-') := by
  rcases h with ⟨s, rfl⟩ | ⟨f, rfl⟩ <;> cases u <;>
    first
      | exact .inl (by decide)
      | exact .inr ⟨_, rfl, ht⟩
      | exact False.elim ht
      | exact False.elim hu

/-- What may touch a sign does not make it a number. -/
theorem touch_sign {t u : Tok} {c : Char} {w r : List Char} (h : t = .plus ∨ t = .minus)
    (hc : c = '+' ∨ c = '-') (ht : touch t u) (hu : Spells u w) :
    numLen (c :: (w ++ r)) = numLen [c] := by
  have key : ∀ x l, w = x :: l → endsNum x → numLen (c :: (w ++ r)) = numLen [c] := by
    rintro x l rfl hx
    apply numLen_sign_ends hc
    intro y hy
    simp at hy
    exact hy ▸ hx
  have hopc : ∀ x ∈ opChars, endsNum x := by
    intro x hx
    obtain ⟨h1, h2, -, -, -, -, h7, h8, h9⟩ := opChars_facts x hx
    exact ⟨h2, h7, h8, h9⟩
  cases u with
  | num s =>
    obtain ⟨rfl, -⟩ := hu
    have ht : w.head? = some '+' ∨ w.head? = some '-' := by rcases h with rfl | rfl <;> exact ht
    cases w with
    | nil => simp at ht
    | cons x l =>
      refine key x l rfl (hopc x ?_)
      simp at ht
      rcases ht with rfl | rfl <;> simp [opChars]
  | kw k => rcases h with rfl | rfl <;> exact False.elim ht
  | fnct f =>
    have hw : ∃ s ∈ ["sin", "cos", "tan", "asin", "acos", "atan", "ln", "exp", "sqrt"],
        w = s.toList := by
      refine ⟨String.ofList w, ?_, by simp⟩
      simp only [Spells, List.mem_cons, Prod.mk.injEq, List.not_mem_nil, or_false] at hu ⊢
      tauto
    obtain ⟨s, hs, rfl⟩ := hw
    simp only [List.mem_cons, List.not_mem_nil, or_false] at hs
    rcases hs with rfl | rfl | rfl | rfl | rfl | rfl | rfl | rfl | rfl <;>
      (apply numLen_sign hc <;> simp [digitsLen, fracLen, expLen, signLen])
  | plus => cases hu; exact key '+' [] rfl (hopc _ (by simp [opChars]))
  | minus => cases hu; exact key '-' [] rfl (hopc _ (by simp [opChars]))
  | times => cases hu; exact key '*' [] rfl (hopc _ (by simp [opChars]))
  | divide => cases hu; exact key '/' [] rfl (hopc _ (by simp [opChars]))
  | caret => cases hu; exact key '^' [] rfl (hopc _ (by simp [opChars]))
  | lpar => cases hu; exact key '(' [] rfl (hopc _ (by simp [opChars]))
  | rpar => cases hu; exact key ')' [] rfl (hopc _ (by simp [opChars]))
  | _ => exact False.elim hu

theorem scanFrom_line {ts : List Tok} {l : List Char} (h : Line ts l) :
    ∀ rest : List Char, (∀ c, rest.head? = some c → c = '\n') →
      scanFrom symrec .expression (l ++ rest) = ts.map .ex ++ scanFrom symrec .initial rest := by
  induction h with
  | @nil b c hb hc =>
    intro rest hr
    rw [List.append_assoc, scanFrom_xblanks hb]
    rcases hc with rfl | ⟨s, rfl, hs⟩
    · rw [List.nil_append, scanFrom_xend rest hr]; rfl
    · rw [scanFrom_xnote s rest hs hr, scanFrom_xend rest hr]; rfl
  | @cons t ts b w l hb hs hl ha ih =>
    intro rest hr
    have ih := ih rest hr
    rw [List.append_assoc, List.append_assoc, scanFrom_xblanks hb]
    suffices scanFrom symrec .expression (w ++ (l ++ rest)) =
        .ex t :: scanFrom symrec .expression (l ++ rest) by
      rw [this, ih]; rfl
    -- the character after the token
    have hsimple : (l = [] ∨ ∃ c r, l = c :: r ∧ (c = ' ' ∨ c = '\t' ∨ c = '#')) →
        ∀ c, (l ++ rest).head? = some c → c = ' ' ∨ c = '\t' ∨ c = '\n' ∨ c = '#' := by
      rintro (rfl | ⟨c, r, rfl, hc⟩) x hx
      · exact .inr (.inr (.inl (hr x (by simpa using hx))))
      · simp at hx; subst hx
        rcases hc with h | h | h <;> simp [h]
    have hhead : (∀ c, (l ++ rest).head? = some c → c = ' ' ∨ c = '\t' ∨ c = '\n' ∨ c = '#') ∨
        ∃ u, ts.head? = some u ∧ touch t u ∧ ∃ w' l', l = w' ++ l' ∧ Spells u w' := by
      rcases ha with h | h | ⟨u, hu, ht⟩
      · exact .inl (hsimple (.inl h))
      · exact .inl (hsimple (.inr h))
      · obtain ⟨ts', rfl⟩ : ∃ ts', ts = u :: ts' := by
          cases ts with
          | nil => simp at hu
          | cons x ts' => simp at hu; exact ⟨ts', by rw [hu]⟩
        rcases line_head hl with ⟨c, r, rfl, hc⟩ | ⟨w', l', h1, h2⟩
        · exact .inl (hsimple (.inr ⟨c, r, rfl, hc.elim .inl fun h => .inr (.inl h)⟩))
        · exact .inr ⟨u, hu, ht, w', l', h1, h2⟩
    have hblank : ∀ c : Char, (c = ' ' ∨ c = '\t' ∨ c = '\n' ∨ c = '#') → endsNum c ∧ endsWord c := by
      rintro c (rfl | rfl | rfl | rfl) <;>
        exact ⟨⟨by decide, by decide, by decide, by decide⟩, by decide, by decide⟩
    have hopc : ∀ c ∈ opChars, endsNum c ∧ endsWord c := by
      intro c hc
      obtain ⟨h1, h2, -, -, -, -, h7, h8, h9⟩ := opChars_facts c hc
      exact ⟨⟨h2, h7, h8, h9⟩, h1, h2⟩
    -- tokens other than functions and units that may touch begin with an operator or a sign
    have hlead : ∀ u w' l', Spells u w' → l = w' ++ l' →
        (u ∈ [Tok.plus, .minus, .times, .divide, .caret, .lpar, .rpar] ∨
          ∃ s, u = .num s ∧ (s.head? = some '+' ∨ s.head? = some '-')) →
        ∀ c, (l ++ rest).head? = some c → endsNum c ∧ endsWord c := by
      rintro u w' l' hu rfl h c hc
      rcases h with h | ⟨s, rfl, h⟩
      · simp only [List.mem_cons, List.not_mem_nil, or_false] at h
        rcases h with rfl | rfl | rfl | rfl | rfl | rfl | rfl <;>
          (simp only [Spells] at hu; subst hu; simp at hc; subst hc; exact hopc _ (by simp [opChars]))
      · obtain ⟨rfl, -⟩ := hu
        cases w' with
        | nil => simp at h
        | cons x w' =>
          simp at hc h
          subst hc
          rcases h with rfl | rfl <;> exact hopc _ (by simp [opChars])
    cases t with
    | num s =>
      obtain ⟨rfl, hreal⟩ := hs
      apply scanFrom_num hreal
      rcases hhead with h | ⟨u, -, ht, w', l', h1, h2⟩
      · exact fun c hc => (hblank c (h c hc)).1
      · exact fun c hc => (hlead u w' l' h2 h1 (touch_lead (.inl ⟨_, rfl⟩) ht h2) c hc).1
    | fnct f =>
      apply scanFrom_fnct hs
      rcases hhead with h | ⟨u, -, ht, w', l', h1, h2⟩
      · exact fun c hc => (hblank c (h c hc)).2
      · exact fun c hc => (hlead u w' l' h2 h1 (touch_lead (.inr ⟨_, rfl⟩) ht h2) c hc).2
    | kw u =>
      obtain ⟨hu, hsw⟩ := hs
      apply scanFrom_unit hu hsw
      rcases hhead with h | ⟨u', -, ht, -⟩
      · exact h
      · exact absurd ht (by simp [touch])
    | plus =>
      simp only [Spells] at hs; subst hs
      refine scanFrom_op (by simp [opChars]) ?_ rfl
      rcases hhead with h | ⟨u, -, ht, w', l', rfl, h2⟩
      · exact numLen_sign_ends (by decide) fun c hc => (hblank c (h c hc)).1
      · have := touch_sign (c := '+') (r := l' ++ rest) (by simp) (by simp) ht h2
        rwa [← List.append_assoc] at this
    | minus =>
      simp only [Spells] at hs; subst hs
      refine scanFrom_op (by simp [opChars]) ?_ rfl
      rcases hhead with h | ⟨u, -, ht, w', l', rfl, h2⟩
      · exact numLen_sign_ends (by decide) fun c hc => (hblank c (h c hc)).1
      · have := touch_sign (c := '-') (r := l' ++ rest) (by simp) (by simp) ht h2
        rwa [← List.append_assoc] at this
    | times =>
      simp only [Spells] at hs; subst hs
      exact scanFrom_op (by simp [opChars]) (numLen_plain (by simp) _) rfl
    | divide =>
      simp only [Spells] at hs; subst hs
      exact scanFrom_op (by simp [opChars]) (numLen_plain (by simp) _) rfl
    | caret =>
      simp only [Spells] at hs; subst hs
      exact scanFrom_op (by simp [opChars]) (numLen_plain (by simp) _) rfl
    | lpar =>
      simp only [Spells] at hs; subst hs
      exact scanFrom_op (by simp [opChars]) (numLen_plain (by simp) _) rfl
    | rpar =>
      simp only [Spells] at hs; subst hs
      exact scanFrom_op (by simp [opChars]) (numLen_plain (by simp) _) rfl
    | _ => exact absurd hs (by simp [Spells])

/-! ## Entries -/

theorem exprKeys_mem : ∀ k ∈ exprKeys, (k, tokenName k, none) ∈ keywords := by decide +kernel

theorem markKeys_mem : ∀ k ∈ markKeys, (k, tokenName k, some Cond.keyword) ∈ keywords := by
  decide +kernel

theorem nameKeys_mem : ∀ k ∈ nameKeys, (k, tokenName k, some Cond.string) ∈ keywords := by
  decide +kernel

theorem textKeys_mem : ∀ k ∈ textKeys, (k, tokenName k, some Cond.commentInit) ∈ keywords := by
  decide +kernel

theorem words_mem : ∀ k ∈ words, (k, tokenName k, none) ∈ keywords := by decide +kernel

theorem pole_mem : ("POLE", tokenName "POLE", some Cond.pole) ∈ keywords := by decide +kernel

/-- Before the colon. -/
theorem gap_seps {g : List Char} (hg : Gap g) (r : List Char) :
    ∀ c, (g ++ ':' :: r).head? = some c → c ∈ seps := by
  intro c hc
  cases hg with
  | nil => simp at hc; subst hc; simp [seps]
  | blank h _ =>
    simp at hc; subst hc
    rcases h with rfl | rfl | rfl <;> simp [seps]
  | note _ _ => simp at hc; subst hc; simp [seps]

theorem nameGap_gap {g : List Char} (hg : NameGap g) : Gap g := by
  induction hg with
  | nil => exact .nil
  | blank h _ ih => exact .blank h ih
  | note h _ _ ih => exact .note h ih

theorem follow_seps {r : List Char} (h : ∀ c, r.head? = some c → c = ' ' ∨ c = '\t' ∨ c = '\n' ∨
    c = '#') : ∀ c, r.head? = some c → c ∈ seps := by
  intro c hc
  rcases h c hc with rfl | rfl | rfl | rfl <;> simp [seps]

theorem scanFrom_entry {i : Item} {s : List Char} (h : Entry i s) {r : List Char}
    (hf : Follows i r) :
    scanFrom symrec .initial (s ++ r) = i.tokens ++ scanFrom symrec .initial r := by
  cases h with
  | @expr k ts s g l hk hs hg hl =>
    have e : s ++ g ++ ':' :: l ++ r = s ++ (g ++ ':' :: (l ++ r)) := by simp
    rw [e, scanFrom_keyword (exprKeys_mem k hk) hs (gap_seps hg _)]
    simp only [Option.getD_none]
    rw [scanFrom_gap rfl (by decide) hg, scanFrom_colon_initial, scanFrom_line hl r hf]
    rfl
  | @auto k w s g b s' hk hw hs hg hb hs' =>
    have e : s ++ g ++ ':' :: (b ++ s') ++ r = s ++ (g ++ ':' :: (b ++ (s' ++ r))) := by simp
    rw [e, scanFrom_keyword (exprKeys_mem k hk) hs (gap_seps hg _)]
    simp only [Option.getD_none]
    rw [scanFrom_gap rfl (by decide) hg, scanFrom_colon_initial, scanFrom_xblanks hb,
      scanFrom_auto hw hs' hf]
    rcases hw with rfl | rfl <;> rfl
  | @mark k s g hk hs hg =>
    have e : s ++ g ++ [':'] ++ r = s ++ (g ++ ':' :: r) := by simp
    rw [e, scanFrom_keyword (markKeys_mem k hk) hs (gap_seps hg _)]
    simp only [Option.getD_some]
    rw [scanFrom_gap rfl (by decide) hg, scanFrom_colon_keyword]
    rfl
  | @word w s hw hs =>
    rw [scanFrom_keyword (words_mem w hw) hs (follow_seps hf)]
    rfl
  | @name k f s g c g' hk hs hg hc hg' hne hgr h1 h2 =>
    have e : s ++ g ++ ':' :: c :: (g' ++ f) ++ r = s ++ (g ++ ':' :: (c :: (g' ++ (f ++ r)))) := by
      simp
    rw [e, scanFrom_keyword (nameKeys_mem k hk) hs (gap_seps (nameGap_gap hg) _)]
    simp only [Option.getD_some]
    rw [scanFrom_nameGap hg, scanFrom_colon_string, scanFrom_blank rfl (by simpa [isBlank] using hc),
      scanFrom_nameGap hg', scanFrom_name f r hne _ h1 h2]
    · rfl
    · intro x hx
      simpa [isBlank] using hf x hx
    · intro x hx
      simpa [isGraph] using hgr x hx
    · intro x hx
      simp at hx
      subst hx
      rcases hc with rfl | rfl | rfl <;> decide
  | @text k t s g hk hs hg hne ht =>
    have e : s ++ g ++ ':' :: t ++ r = s ++ (g ++ ':' :: (t ++ r)) := by simp
    rw [e, scanFrom_keyword (textKeys_mem k hk) hs (gap_seps hg _)]
    simp only [Option.getD_some]
    rw [scanFrom_gap rfl (by decide) hg, scanFrom_colon_commentInit, scanFrom_text t r hne ht hf]
    rfl
  | @pole north w s g g' s' hs hg hg' hw hs' =>
    have e : s ++ g ++ ':' :: (g' ++ s') ++ r = s ++ (g ++ ':' :: (g' ++ (s' ++ r))) := by simp
    rw [e, scanFrom_keyword pole_mem hs (gap_seps hg _)]
    simp only [Option.getD_some]
    rw [scanFrom_gap rfl (by decide) hg, scanFrom_colon_pole, scanFrom_gap rfl (by decide) hg',
      scanFrom_pole hw hs' (follow_seps hf)]
    rfl

theorem scanFrom_written {is : List Item} {text : List Char} (h : Written is text) :
    scanFrom symrec .initial text = is.flatMap Item.tokens := by
  induction h with
  | @nil g c hg hc =>
    rw [scanFrom_gap rfl (by decide) hg]
    rcases hc with rfl | ⟨s, rfl, hs⟩
    · rfl
    · have := scanFrom_note (c := .initial) rfl s [] hs (by simp) (by simp)
      rw [List.append_nil] at this
      rw [this]
      rfl
  | @cons i is g s r hg he hf _ ih =>
    rw [List.append_assoc, scanFrom_gap rfl (by decide) hg, scanFrom_entry he hf, ih]
    rfl

end MaRC.Scan
