import Verif.Spec.Expr

/-! # Lemmas about the expression scanner -/

namespace MaRC.Calc

open ExprSpec

theorem takeWhile_blank (p : Char → Bool) (hp : p ' ' = false) (s r : List Char) :
    (s ++ ' ' :: r).takeWhile p = s.takeWhile p := by
  induction s with
  | nil => simp [hp]
  | cons c s ih => simp only [List.cons_append, List.takeWhile_cons]; rw [ih]

theorem digitsLen_blank (s r : List Char) : digitsLen (s ++ ' ' :: r) = digitsLen s := by
  simp only [digitsLen, takeWhile_blank _ (by decide : Char.isDigit ' ' = false)]

theorem digitsLen_le (s : List Char) : digitsLen s ≤ s.length :=
  (List.takeWhile_sublist _).length_le

theorem signLen_blank (s r : List Char) : signLen (s ++ ' ' :: r) = signLen s := by
  cases s <;> simp [signLen]

theorem signLen_le (s : List Char) : signLen s ≤ s.length := by
  cases s with
  | nil => simp [signLen]
  | cons c s => simp only [signLen, List.length_cons]; split <;> omega

theorem fracLen_blank (s r : List Char) : fracLen (s ++ ' ' :: r) = fracLen s := by
  cases s <;> simp [fracLen, digitsLen_blank]

theorem fracLen_le (s : List Char) : fracLen s ≤ s.length := by
  cases s with
  | nil => simp [fracLen]
  | cons c s =>
    simp only [fracLen, List.length_cons]
    have := digitsLen_le s
    split <;> omega

theorem drop_blank (s r : List Char) (k : ℕ) (h : k ≤ s.length) :
    (s ++ ' ' :: r).drop k = s.drop k ++ ' ' :: r := List.drop_append_of_le_length h

theorem expLen_blank (s r : List Char) : expLen (s ++ ' ' :: r) = expLen s := by
  cases s with
  | nil => simp [expLen]
  | cons c s =>
    simp only [expLen, List.cons_append, signLen_blank, drop_blank s r _ (signLen_le s),
      digitsLen_blank]

theorem numLen_blank (s r : List Char) : numLen (s ++ ' ' :: r) = numLen s := by
  have h1 := signLen_le s
  have h2 := digitsLen_le (s.drop (signLen s))
  have h3 := fracLen_le (s.drop (signLen s + digitsLen (s.drop (signLen s))))
  simp only [List.length_drop] at h2 h3
  simp only [numLen, signLen_blank]
  rw [drop_blank s r _ h1, digitsLen_blank, drop_blank s r _ (by omega), fracLen_blank,
    drop_blank s r _ (by omega), expLen_blank]

theorem litLen_digit (w : List Char) (d : Char) (r : List Char) (hd : d.isDigit = true)
    (hw : ∀ c, w.head? = some c → c.toLower.isDigit = false) (hne : w ≠ []) :
    litLen w (d :: r) = 0 := by
  cases w with
  | nil => exact absurd rfl hne
  | cons c w =>
    have h := hw c rfl
    have hl : d.toLower = d := by
      simp only [Char.isDigit, Bool.and_eq_true, decide_eq_true_eq] at hd
      simp only [Char.toLower]
      rw [dif_neg]
      intro ⟨h1, _⟩
      have := hd.2
      simp only [UInt32.le_iff_toNat_le] at *
      have e1 : (65 : UInt32).toNat = 65 := rfl
      have e2 : (57 : UInt32).toNat = 57 := rfl
      simp at *
      omega
    simp only [litLen]
    rw [if_neg]
    simp only [List.map_cons, List.length_cons, List.take_succ_cons, List.cons.injEq, not_and]
    intro h'
    rw [h', hl, hd] at h
    simp at h

theorem pick_num (d : Char) (s r : List Char) (hd : d.isDigit = true)
    (hn : numLen (d :: s) = (d :: s).length) :
    pick (d :: s ++ ' ' :: r) (rules symrec) = ((d :: s).length, .tok .num) := by
  have hlit : ∀ (c : Char) (w : List Char), c.toLower.isDigit = false →
      litLen (c :: w) (d :: (s ++ ' ' :: r)) = 0 := fun c w h =>
    litLen_digit (c :: w) d _ hd (by simpa using h) (by simp)
  have hnum : numLen (d :: (s ++ ' ' :: r)) = s.length + 1 := by
    have := numLen_blank (d :: s) r
    rw [hn] at this
    simpa using this
  have hne : ∀ c : Char, c.isDigit = false → d ≠ c := by
    intro c hc h; subst h; simp [hd] at hc
  have halpha : d.isAlpha = false := by
    by_contra h
    simp only [Bool.not_eq_false, Char.isAlpha, Char.isUpper, Char.isLower, Char.isDigit,
      Bool.or_eq_true, Bool.and_eq_true, decide_eq_true_eq, UInt32.le_iff_toNat_le] at h hd
    simp at h hd
    omega
  simp (decide := true) [pick, rules, lit, hlit, hnum, identLen, halpha, hne]

theorem digitsLen_append (a r : List Char) (ha : ∀ x ∈ a, x.isDigit = true)
    (hr : ∀ c, r.head? = some c → c.isDigit = false) : digitsLen (a ++ r) = a.length := by
  induction a with
  | nil =>
    cases r with
    | nil => rfl
    | cons c r => simp [digitsLen, hr c rfl]
  | cons x a ih =>
    have := ih fun y hy => ha y (by simp [hy])
    simp only [digitsLen, List.cons_append, List.takeWhile_cons, ha x (by simp)] at this ⊢
    simp [this]

theorem digitsLen_all (a : List Char) (ha : ∀ x ∈ a, x.isDigit = true) :
    digitsLen a = a.length := by
  have := digitsLen_append a [] ha (by simp)
  simpa using this

theorem expLen_exponent {c : List Char} (h : isExponent c) : expLen c = c.length := by
  obtain ⟨e, sign, ds, rfl, he, hs, hd, h1, h3⟩ := h
  have hsign : signLen (sign ++ ds) = sign.length := by
    rcases hs with rfl | rfl | rfl
    · cases ds with
      | nil => rfl
      | cons x ds =>
        have := hd x (by simp)
        have h1 : x ≠ '-' := by rintro rfl; simp at this
        have h2 : x ≠ '+' := by rintro rfl; simp at this
        simp [signLen, h1, h2]
    · simp [signLen]
    · simp [signLen]
  simp only [expLen, hsign, he, if_true, List.drop_left, digitsLen_all ds hd]
  rw [min_eq_right h3, if_neg (by omega)]
  simp; omega

theorem number_head {s : List Char} (h : isNumber s) :
    ∃ d r, s = d :: r ∧ d.isDigit = true := by
  obtain ⟨a, b, c, rfl, hne, ha, -, -⟩ := h
  cases a with
  | nil => exact absurd rfl hne
  | cons x a => exact ⟨x, a ++ b ++ c, by simp, ha x (by simp)⟩

theorem numLen_number {s : List Char} (h : isNumber s) : numLen s = s.length := by
  obtain ⟨d, r, hd, hdig⟩ := number_head h
  have hsign : signLen s = 0 := by
    have h1 : d ≠ '-' := by rintro rfl; simp at hdig
    have h2 : d ≠ '+' := by rintro rfl; simp at hdig
    simp [hd, signLen, h1, h2]
  obtain ⟨a, b, c, rfl, hne, ha, hb, hc⟩ := h
  have hch : ∀ x, c.head? = some x → x.isDigit = false ∧ x ≠ '.' := by
    rcases hc with rfl | ⟨e, sign, ds, rfl, he, -⟩
    · simp
    · rcases he with rfl | rfl <;> simp
  have hbl : fracLen (b ++ c) = b.length := by
    rcases hb with rfl | ⟨ds, rfl, hds⟩
    · cases c with
      | nil => rfl
      | cons x c => simp [fracLen, (hch x rfl).2]
    · simp [fracLen, digitsLen_append ds c hds fun x hx => (hch x hx).1]; omega
  have hcl : expLen c = c.length := by
    rcases hc with rfl | hc
    · rfl
    · exact expLen_exponent hc
  have hal : digitsLen (a ++ b ++ c) = a.length := by
    rw [List.append_assoc]
    apply digitsLen_append a _ ha
    intro x hx
    rcases hb with rfl | ⟨ds, rfl, hds⟩
    · exact (hch x (by simpa using hx)).1
    · simp at hx; subst hx; rfl
  simp only [numLen, hsign, List.drop_zero, Nat.zero_add, hal]
  rw [List.append_assoc, List.drop_left, hbl]
  have : (a ++ (b ++ c)).drop (a.length + b.length) = c := by
    rw [← List.append_assoc, ← List.length_append, List.drop_left]
  rw [this, hcl]
  simp; omega

theorem lexN_step {tab : Table} {n k : ℕ} {c : Char} {r : List Char} {f : List Char → Tok}
    (h : pick (c :: r) (rules tab) = (k, .tok f)) :
    lexN tab (n + 1) (c :: r) = f ((c :: r).take k) :: lexN tab n ((c :: r).drop k) := by
  rw [lexN, h]; rfl

theorem lexN_blank (n : ℕ) (r : List Char) (hr : ∀ c, r.head? = some c → c ≠ ' ' ∧ c ≠ '\t') :
    lexN symrec (n + 1) (' ' :: r) = lexN symrec n r := by
  have h1 : (r.takeWhile fun c => decide (c = ' ' ∨ c = '\t')) = [] := by
    cases r with
    | nil => rfl
    | cons c r => have := hr c rfl; simp [this.1, this.2]
  have h : pick (' ' :: r) (rules symrec) = (1, .skip) := by
    simp [pick, rules, lit, litLen, numLen, signLen, digitsLen, fracLen, expLen, identLen] 
    simpa using h1
  rw [lexN, h]
  rfl

theorem pick_plus (r : List Char) :
    pick ('+' :: ' ' :: r) (rules symrec) = (1, .tok fun _ => .plus) := by
  simp [pick, rules, lit, litLen, numLen, signLen, digitsLen, fracLen, expLen, identLen]

theorem pick_minus (r : List Char) :
    pick ('-' :: ' ' :: r) (rules symrec) = (1, .tok fun _ => .minus) := by
  simp [pick, rules, lit, litLen, numLen, signLen, digitsLen, fracLen, expLen, identLen]

theorem pick_times (r : List Char) :
    pick ('*' :: ' ' :: r) (rules symrec) = (1, .tok fun _ => .times) := by
  simp [pick, rules, lit, litLen, numLen, signLen, digitsLen, fracLen, expLen, identLen]

theorem pick_divide (r : List Char) :
    pick ('/' :: ' ' :: r) (rules symrec) = (1, .tok fun _ => .divide) := by
  simp [pick, rules, lit, litLen, numLen, signLen, digitsLen, fracLen, expLen, identLen]

theorem pick_caret (r : List Char) :
    pick ('^' :: ' ' :: r) (rules symrec) = (1, .tok fun _ => .caret) := by
  simp [pick, rules, lit, litLen, numLen, signLen, digitsLen, fracLen, expLen, identLen]

theorem pick_lpar (r : List Char) :
    pick ('(' :: ' ' :: r) (rules symrec) = (1, .tok fun _ => .lpar) := by
  simp [pick, rules, lit, litLen, numLen, signLen, digitsLen, fracLen, expLen, identLen]

theorem pick_rpar (r : List Char) :
    pick (')' :: ' ' :: r) (rules symrec) = (1, .tok fun _ => .rpar) := by
  simp [pick, rules, lit, litLen, numLen, signLen, digitsLen, fracLen, expLen, identLen]

theorem pick_sin (r : List Char) :
    pick ('s' :: 'i' :: 'n' :: ' ' :: r) (rules symrec) = (3, .tok (identTok symrec)) := by
  simp [pick, rules, lit, litLen, numLen, signLen, digitsLen, fracLen, expLen, identLen]

theorem pick_cos (r : List Char) :
    pick ('c' :: 'o' :: 's' :: ' ' :: r) (rules symrec) = (3, .tok (identTok symrec)) := by
  simp [pick, rules, lit, litLen, numLen, signLen, digitsLen, fracLen, expLen, identLen]

theorem pick_tan (r : List Char) :
    pick ('t' :: 'a' :: 'n' :: ' ' :: r) (rules symrec) = (3, .tok (identTok symrec)) := by
  simp [pick, rules, lit, litLen, numLen, signLen, digitsLen, fracLen, expLen, identLen]

theorem pick_asin (r : List Char) :
    pick ('a' :: 's' :: 'i' :: 'n' :: ' ' :: r) (rules symrec) = (4, .tok (identTok symrec)) := by
  simp [pick, rules, lit, litLen, numLen, signLen, digitsLen, fracLen, expLen, identLen]

theorem pick_acos (r : List Char) :
    pick ('a' :: 'c' :: 'o' :: 's' :: ' ' :: r) (rules symrec) = (4, .tok (identTok symrec)) := by
  simp [pick, rules, lit, litLen, numLen, signLen, digitsLen, fracLen, expLen, identLen]

theorem pick_atan (r : List Char) :
    pick ('a' :: 't' :: 'a' :: 'n' :: ' ' :: r) (rules symrec) = (4, .tok (identTok symrec)) := by
  simp [pick, rules, lit, litLen, numLen, signLen, digitsLen, fracLen, expLen, identLen]

theorem pick_ln (r : List Char) :
    pick ('l' :: 'n' :: ' ' :: r) (rules symrec) = (2, .tok (identTok symrec)) := by
  simp [pick, rules, lit, litLen, numLen, signLen, digitsLen, fracLen, expLen, identLen]

theorem pick_exp (r : List Char) :
    pick ('e' :: 'x' :: 'p' :: ' ' :: r) (rules symrec) = (3, .tok (identTok symrec)) := by
  simp [pick, rules, lit, litLen, numLen, signLen, digitsLen, fracLen, expLen, identLen]

theorem pick_sqrt (r : List Char) :
    pick ('s' :: 'q' :: 'r' :: 't' :: ' ' :: r) (rules symrec) = (4, .tok (identTok symrec)) := by
  simp [pick, rules, lit, litLen, numLen, signLen, digitsLen, fracLen, expLen, identLen]

theorem lexN_tok (n : ℕ) (t : Tok) (r : List Char) (h : plain t) :
    lexN symrec (n + 1) (tokText t ++ ' ' :: r) = t :: lexN symrec n (' ' :: r) := by
  cases t with
  | num s =>
    have hn := numLen_number h
    obtain ⟨d, s', rfl, hd⟩ := number_head h
    have := pick_num d s' r hd hn
    simp only [tokText, List.cons_append] at this ⊢
    rw [lexN_step this]
    simp
  | fnct f =>
    simp only [plain, List.mem_cons, List.not_mem_nil, or_false] at h
    rcases h with rfl | rfl | rfl | rfl | rfl | rfl | rfl | rfl | rfl
    · exact (lexN_step (pick_sin r)).trans (congrArg (· :: lexN symrec n (' ' :: r))
        (show identTok symrec ['s', 'i', 'n'] = .fnct "sin" by decide +kernel))
    · exact (lexN_step (pick_cos r)).trans (congrArg (· :: lexN symrec n (' ' :: r))
        (show identTok symrec ['c', 'o', 's'] = .fnct "cos" by decide +kernel))
    · exact (lexN_step (pick_tan r)).trans (congrArg (· :: lexN symrec n (' ' :: r))
        (show identTok symrec ['t', 'a', 'n'] = .fnct "tan" by decide +kernel))
    · exact (lexN_step (pick_asin r)).trans (congrArg (· :: lexN symrec n (' ' :: r))
        (show identTok symrec ['a', 's', 'i', 'n'] = .fnct "asin" by decide +kernel))
    · exact (lexN_step (pick_acos r)).trans (congrArg (· :: lexN symrec n (' ' :: r))
        (show identTok symrec ['a', 'c', 'o', 's'] = .fnct "acos" by decide +kernel))
    · exact (lexN_step (pick_atan r)).trans (congrArg (· :: lexN symrec n (' ' :: r))
        (show identTok symrec ['a', 't', 'a', 'n'] = .fnct "atan" by decide +kernel))
    · exact (lexN_step (pick_ln r)).trans (congrArg (· :: lexN symrec n (' ' :: r))
        (show identTok symrec ['l', 'n'] = .fnct "log" by decide +kernel))
    · exact (lexN_step (pick_exp r)).trans (congrArg (· :: lexN symrec n (' ' :: r))
        (show identTok symrec ['e', 'x', 'p'] = .fnct "exp" by decide +kernel))
    · exact (lexN_step (pick_sqrt r)).trans (congrArg (· :: lexN symrec n (' ' :: r))
        (show identTok symrec ['s', 'q', 'r', 't'] = .fnct "sqrt" by decide +kernel))
  | plus => exact lexN_step (pick_plus r)
  | minus => exact lexN_step (pick_minus r)
  | times => exact lexN_step (pick_times r)
  | divide => exact lexN_step (pick_divide r)
  | caret => exact lexN_step (pick_caret r)
  | lpar => exact lexN_step (pick_lpar r)
  | rpar => exact lexN_step (pick_rpar r)
  | _ => exact absurd h (by simp [plain])

theorem tokText_head {t : Tok} (h : plain t) :
    ∃ c r, tokText t = c :: r ∧ c ≠ ' ' ∧ c ≠ '\t' := by
  cases t with
  | num s =>
    obtain ⟨d, s', rfl, hd⟩ := number_head h
    refine ⟨d, s', rfl, ?_, ?_⟩ <;> (rintro rfl; simp at hd)
  | fnct f =>
    simp only [plain, List.mem_cons, List.not_mem_nil, or_false] at h
    rcases h with rfl | rfl | rfl | rfl | rfl | rfl | rfl | rfl | rfl <;>
      exact ⟨_, _, rfl, by decide, by decide⟩
  | plus => exact ⟨_, _, rfl, by decide, by decide⟩
  | minus => exact ⟨_, _, rfl, by decide, by decide⟩
  | times => exact ⟨_, _, rfl, by decide, by decide⟩
  | divide => exact ⟨_, _, rfl, by decide, by decide⟩
  | caret => exact ⟨_, _, rfl, by decide, by decide⟩
  | lpar => exact ⟨_, _, rfl, by decide, by decide⟩
  | rpar => exact ⟨_, _, rfl, by decide, by decide⟩
  | _ => exact absurd h (by simp [plain])

theorem lexN_spaced (ts : List Tok) (h : ∀ t ∈ ts, plain t) :
    ∀ n, (spaced ts).length ≤ n → lexN symrec n (spaced ts) = ts := by
  induction ts with
  | nil => intro n _; cases n <;> simp [spaced, lexN]
  | cons t ts ih =>
    intro n hn
    have ht := h t (by simp)
    have hts : ∀ u ∈ ts, plain u := fun u hu => h u (by simp [hu])
    have e : spaced (t :: ts) = tokText t ++ ' ' :: spaced ts := by
      simp [spaced]
    obtain ⟨c, r, hc, -, -⟩ := tokText_head ht
    rw [e] at hn ⊢
    simp only [hc, List.length_append, List.length_cons] at hn
    obtain ⟨m, rfl⟩ : ∃ m, n = m + 2 := ⟨n - 2, by omega⟩
    rw [lexN_tok _ _ _ ht, lexN_blank]
    · rw [ih hts m (by omega)]
    · intro c hc
      cases ts with
      | nil => simp [spaced] at hc
      | cons u us =>
        obtain ⟨c', r', hc', h1, h2⟩ := tokText_head (hts u (by simp))
        simp [spaced, hc'] at hc
        subst hc
        exact ⟨h1, h2⟩

end MaRC.Calc
