import Verif.Lemmas.ScannerText

/-! # Lemmas about scanning expressions in input files -/

namespace MaRC.Scan

open MaRC.Calc (Tok Table litLen symrec numLen identLen digitsLen signLen fracLen expLen identTok)
open MaRC.InputFile

/-- A literal of the expression condition. -/
def xlit (p : String × Tok) : Rule :=
  ⟨(· == .expression), litLen p.1.toList, fun _ => some (.ex p.2), none⟩

def xNote : Rule := ⟨(· == .expression),
  fun cs => if cs.head? = some '#' then (cs.takeWhile (· ≠ '\n')).length else 0, fun _ => none, none⟩

def xBlank : Rule := ⟨(· == .expression),
  fun cs => (cs.takeWhile fun c => c = ' ' ∨ c = '\t').length, fun _ => none, none⟩

def xlast (w : String) : Rule :=
  ⟨(· == .expression), litLen w.toList, fun _ => some (.ex (.kw w)), some .initial⟩

def xNum : Rule := ⟨(· == .expression), numLen, fun s => some (.ex (.num s)), none⟩

def xIdent : Rule := ⟨(· == .expression), identLen, fun s => some (.ex (identTok symrec s)), none⟩

def opToks : List (String × Tok) :=
  [("=", .eq), ("+", .plus), ("-", .minus), ("*", .times), ("/", .divide), ("^", .caret),
   ("(", .lpar), (")", .rpar)]

def unitToks : List (String × Tok) :=
  [("C", .kw "C"), ("G", .kw "G"), ("N", .kw "N"), ("S", .kw "S"), ("E", .kw "E"), ("W", .kw "W"),
   ("AU", .kw "AU"), ("KM", .kw "KM"), ("CW", .kw "CW"), ("CCW", .kw "CCW")]

/-- Rules that match one character at most. -/
def xTail : List Rule :=
  [⟨(· == .expression), fun cs => if cs.head? = some '\n' then 0 else 1,
      fun _ => some (.ex .unmatched), some .initial⟩,
   ⟨(· == .expression), fun _ => 1, fun _ => none, some .initial⟩,
   ⟨fun _ => true, fun cs => if cs.head? = some '\n' then 0 else 1,
      fun _ => some (.ex .unmatched), none⟩,
   ⟨fun _ => true, fun _ => 1, fun _ => none, none⟩]

theorem active_x : active symrec .expression =
    xNote :: xBlank :: xlast "AUTO" :: xlast "TABLE" ::
      (opToks.map xlit ++ (unitToks.map xlit ++ (xNum :: xIdent :: xTail))) := by
  rfl

theorem xTail_le (cs : List Char) : ∀ y ∈ xTail, y.len cs ≤ 1 := by
  intro y hy
  simp only [xTail, List.mem_cons, List.not_mem_nil, or_false] at hy
  rcases hy with rfl | rfl | rfl | rfl <;> simp only <;> first | omega | (split <;> omega)

theorem digitsLen_sep (s r : List Char) (hr : ∀ c, r.head? = some c → c.isDigit = false) :
    digitsLen (s ++ r) = digitsLen s := by
  induction s with
  | nil =>
    cases r with
    | nil => rfl
    | cons c r => simp [digitsLen, hr c rfl]
  | cons x s ih =>
    by_cases hx : x.isDigit = true
    · simp only [digitsLen, List.cons_append, List.takeWhile_cons_of_pos hx, List.length_cons] at ih ⊢
      rw [ih]
    · simp [digitsLen, hx]

/-- Characters that do not continue a number. -/
def endsNum (c : Char) : Prop := c.isDigit = false ∧ c ≠ '.' ∧ c ≠ 'E' ∧ c ≠ 'e'

theorem numLen_real {s : List Char} (h : isReal s) (r : List Char)
    (hr : ∀ c, r.head? = some c → endsNum c) : numLen (s ++ r) = s.length := by
  obtain ⟨sign, a, b, c, rfl, hs, ha, hb, hab, hc⟩ := h
  have hbh : ∀ x, (b ++ (c ++ r)).head? = some x → x.isDigit = false := by
    intro x hx
    rcases hb with rfl | ⟨d, rfl, -, -⟩
    · rcases hc with rfl | ⟨e, sg, ds, rfl, he, -⟩
      · exact (hr x (by simpa using hx)).1
      · simp at hx; subst hx
        rcases he with rfl | rfl <;> rfl
    · simp at hx; subst hx; rfl
  have hch : ∀ x, (c ++ r).head? = some x → x.isDigit = false ∧ x ≠ '.' := by
    intro x hx
    rcases hc with rfl | ⟨e, sg, ds, rfl, he, -⟩
    · have := hr x (by simpa using hx); exact ⟨this.1, this.2.1⟩
    · simp at hx; subst hx
      rcases he with rfl | rfl <;> simp
  have hcl : expLen (c ++ r) = c.length := by
    rcases hc with rfl | ⟨e, sg, ds, rfl, he, hsg, hd, h1, h3⟩
    · cases r with
      | nil => rfl
      | cons x r => have := hr x rfl; simp [expLen, this.2.2.1, this.2.2.2]
    · have hsign : signLen (sg ++ ds ++ r) = sg.length := by
        rcases hsg with rfl | rfl | rfl
        · cases ds with
          | nil => simp at h1
          | cons x ds =>
            have := hd x (by simp)
            have h1 : x ≠ '-' := by rintro rfl; simp at this
            have h2 : x ≠ '+' := by rintro rfl; simp at this
            simp [signLen, h1, h2]
        · simp [signLen]
        · simp [signLen]
      have hdl : digitsLen (ds ++ r) = ds.length := by
        rw [digitsLen_sep ds r fun c hc => (hr c hc).1, Calc.digitsLen_all ds hd]
      simp only [List.cons_append, expLen, he, if_true, hsign]
      rw [List.append_assoc sg ds r, List.drop_left, hdl, min_eq_right h3, if_neg (by omega)]
      simp; omega
  have hbl : fracLen (b ++ (c ++ r)) = b.length := by
    rcases hb with rfl | ⟨d, rfl, hd, -⟩
    · cases hcr : c ++ r with
      | nil => rfl
      | cons x l => simp [fracLen, (hch x (by simp [hcr])).2]
    · simp only [List.cons_append, fracLen, if_true]
      rw [digitsLen_sep d _ fun x hx => (hch x hx).1, Calc.digitsLen_all d hd]
      simp; omega
  have hal : digitsLen (a ++ (b ++ (c ++ r))) = a.length := by
    rw [digitsLen_sep a _ hbh, Calc.digitsLen_all a ha]
  have hsl : signLen (sign ++ (a ++ (b ++ (c ++ r)))) = sign.length := by
    rcases hs with rfl | rfl | rfl
    · have : ∃ x l, a ++ (b ++ (c ++ r)) = x :: l ∧ x ≠ '-' ∧ x ≠ '+' := by
        cases a with
        | nil =>
          rcases hb with rfl | ⟨d, rfl, -, -⟩
          · simp at hab
          · exact ⟨'.', _, rfl, by decide, by decide⟩
        | cons x a =>
          have := ha x (by simp)
          refine ⟨x, _, rfl, ?_, ?_⟩ <;> (rintro rfl; simp at this)
      obtain ⟨x, l, hx, h1, h2⟩ := this
      rw [List.nil_append, hx]
      simp [signLen, h1, h2]
    · simp [signLen]
    · simp [signLen]
  have e : sign ++ a ++ b ++ c ++ r = sign ++ (a ++ (b ++ (c ++ r))) := by simp
  have d1 : (sign ++ (a ++ (b ++ (c ++ r)))).drop sign.length = a ++ (b ++ (c ++ r)) :=
    List.drop_left
  have d2 : (sign ++ (a ++ (b ++ (c ++ r)))).drop (sign.length + a.length) = b ++ (c ++ r) := by
    rw [← List.append_assoc, ← List.length_append, List.drop_left]
  have d3 : (sign ++ (a ++ (b ++ (c ++ r)))).drop (sign.length + a.length + b.length) = c ++ r := by
    rw [← List.append_assoc, ← List.append_assoc, ← List.length_append, ← List.length_append,
      List.drop_left]
  simp only [numLen, e, hsl, d1, hal, d2, hbl, d3, hcl]
  simp; omega

/-- The first character of a number. -/
theorem real_head {s : List Char} (h : isReal s) :
    ∃ d s', s = d :: s' ∧ (d.isDigit = true ∨ d = '.' ∨ (d = '+' ∨ d = '-') ∧ s' ≠ []) := by
  obtain ⟨sign, a, b, c, rfl, hs, ha, hb, hab, hc⟩ := h
  have hne : a ++ b ++ c ≠ [] := by intro h; simp at h; apply hab; simp [h.1, h.2.1]
  rcases hs with rfl | rfl | rfl
  · cases a with
    | nil =>
      rcases hb with rfl | ⟨d, rfl, -, -⟩
      · simp at hab
      · exact ⟨'.', d ++ c, by simp, by simp⟩
    | cons x a => exact ⟨x, a ++ b ++ c, by simp, .inl (ha x (by simp))⟩
  · exact ⟨'+', a ++ b ++ c, by simp, .inr (.inr ⟨.inl rfl, hne⟩)⟩
  · exact ⟨'-', a ++ b ++ c, by simp, .inr (.inr ⟨.inr rfl, hne⟩)⟩

theorem opToks_le (cs : List Char) : ∀ y ∈ opToks.map xlit, y.len cs ≤ 1 := by
  intro y hy
  simp only [opToks, List.map_cons, List.map_nil, List.mem_cons, List.not_mem_nil, or_false] at hy
  rcases hy with rfl | rfl | rfl | rfl | rfl | rfl | rfl | rfl <;>
    exact (litLen_le _ _).trans (by decide)

/-- Literals that are words match nothing before a character that is no letter. -/
theorem words_zero {d : Char} (hd : d.toLower.isLower = false) (r : List Char) :
    ∀ y ∈ xlast "AUTO" :: xlast "TABLE" :: unitToks.map xlit, y.len (d :: r) = 0 := by
  have h : ∀ (a : Char) (w : List Char), a.toLower.isLower = true → litLen (a :: w) (d :: r) = 0 := by
    intro a w ha
    apply litLen_head
    intro e
    rw [e, hd] at ha
    simp at ha
  intro y hy
  simp only [unitToks, List.map_cons, List.map_nil, List.mem_cons, List.not_mem_nil, or_false] at hy
  rcases hy with rfl | rfl | rfl | rfl | rfl | rfl | rfl | rfl | rfl | rfl | rfl | rfl <;>
    exact h _ _ (by decide)

theorem scanFrom_num {s : List Char} (h : isReal s) (r : List Char)
    (hr : ∀ c, r.head? = some c → endsNum c) :
    scanFrom symrec .expression (s ++ r) = .ex (.num s) :: scanFrom symrec .expression r := by
  obtain ⟨d, s', hds, hd⟩ := real_head h
  have hne : s ≠ [] := by rw [hds]; simp
  have hlen : 1 ≤ s.length := by rw [hds]; simp
  have hdig : ∀ c : Char, c.isDigit = true → c.toLower.isLower = false ∧ c.isAlpha = false ∧
      c ≠ '#' ∧ c ≠ ' ' ∧ c ≠ '\t' ∧ c ≠ '=' ∧ c.toLower = c := by
    intro c hc
    have hv : 48 ≤ c.val.toNat ∧ c.val.toNat ≤ 57 := by
      simp only [Char.isDigit, Bool.and_eq_true, decide_eq_true_eq, UInt32.le_iff_toNat_le,
        ge_iff_le] at hc
      exact hc
    have hl : c.toLower = c := by
      unfold Char.toLower
      rw [dif_neg]
      rintro ⟨h1, -⟩
      simp only [UInt32.le_iff_toNat_le, ge_iff_le] at h1
      have : 'A'.val.toNat = 65 := rfl
      omega
    have hlow : c.isLower = false := by
      simp only [Char.isLower, Bool.and_eq_false_iff, decide_eq_false_iff_not,
        UInt32.le_iff_toNat_le, ge_iff_le]
      have : 'a'.val.toNat = 97 := rfl
      omega
    have hup : c.isUpper = false := by
      simp only [Char.isUpper, decide_eq_false_iff_not,
        UInt32.le_iff_toNat_le, ge_iff_le]
      have : 'A'.val.toNat = 65 := rfl
      omega
    refine ⟨by rw [hl]; exact hlow, by simp [Char.isAlpha, hlow, hup], ?_, ?_, ?_, ?_, hl⟩ <;>
      (rintro rfl; simp at hc)
  have hfacts : d.toLower.isLower = false ∧ d.isAlpha = false ∧ d ≠ '#' ∧ d ≠ ' ' ∧ d ≠ '\t' := by
    rcases hd with hd | rfl | ⟨rfl | rfl, -⟩
    · obtain ⟨h1, h2, h3, h4, h5, -, -⟩ := hdig d hd; exact ⟨h1, h2, h3, h4, h5⟩
    all_goals decide
  have hnum := numLen_real h r hr
  have hw := words_zero hfacts.1 (s' ++ r)
  have hops : ∀ y ∈ opToks.map xlit, y.len (s ++ r) < s.length := by
    intro y hy
    by_cases h1 : s.length = 1
    · have hs' : s' = [] := by rw [hds] at h1; simpa using h1
      have hd' : d.isDigit = true ∨ d = '.' := by
        rcases hd with hd | hd | ⟨-, hd⟩
        · exact .inl hd
        · exact .inr hd
        · exact absurd hs' hd
      have h0 : ∀ a : Char, a ∈ ['=', '+', '-', '*', '/', '^', '(', ')'] →
          litLen [a] (d :: (s' ++ r)) = 0 := by
        intro a ha
        apply litLen_head
        intro e
        rcases hd' with hd' | rfl
        · rw [(hdig d hd').2.2.2.2.2.2] at e
          rw [← e] at hd'
          revert hd'
          simp only [List.mem_cons, List.not_mem_nil, or_false] at ha
          rcases ha with rfl | rfl | rfl | rfl | rfl | rfl | rfl | rfl <;> decide
        · revert e
          simp only [List.mem_cons, List.not_mem_nil, or_false] at ha
          rcases ha with rfl | rfl | rfl | rfl | rfl | rfl | rfl | rfl <;> decide
      have : y.len (s ++ r) = 0 := by
        rw [hds, List.cons_append]
        simp only [opToks, List.map_cons, List.map_nil, List.mem_cons, List.not_mem_nil,
          or_false] at hy
        rcases hy with rfl | rfl | rfl | rfl | rfl | rfl | rfl | rfl <;> exact h0 _ (by decide)
      omega
    · have := opToks_le (s ++ r) y hy
      omega
  have hp : pick (s ++ r) (active symrec .expression) =
      (s.length, (fun s => some (.ex (.num s))), none) := by
    rw [active_x]
    have := pick_first (cs := s ++ r)
      (l1 := xNote :: xBlank :: xlast "AUTO" :: xlast "TABLE" ::
        (opToks.map xlit ++ unitToks.map xlit)) (r := xNum) (l2 := xIdent :: xTail) ?_ ?_
    · have e : xNum.len (s ++ r) = s.length := hnum
      rw [e] at this
      rw [show xNum.act = fun s => some (.ex (.num s)) from rfl,
        show xNum.next = none from rfl] at this
      simpa using this
    · intro y hy
      have e : xNum.len (s ++ r) = s.length := hnum
      rw [e]
      simp only [List.mem_cons, List.mem_append] at hy
      rcases hy with rfl | rfl | rfl | rfl | hy | hy
      · simp [xNote, hds, hfacts.2.2.1]
      · simp [xBlank, hds, hfacts.2.2.2.1, hfacts.2.2.2.2]
      · have := hw (xlast "AUTO") (by simp)
        rw [hds, List.cons_append, this]; simp
      · have := hw (xlast "TABLE") (by simp)
        rw [hds, List.cons_append, this]; simp
      · exact hops y hy
      · have := hw y (by simp only [List.mem_cons]; exact .inr (.inr hy))
        rw [hds, List.cons_append, this]; simp
    · intro y hy
      have e : xNum.len (s ++ r) = s.length := hnum
      rw [e]
      rcases List.mem_cons.mp hy with rfl | hy
      · simp [xIdent, identLen, hds, hfacts.2.1]
      · exact (xTail_le _ y hy).trans hlen
  rw [scanFrom_match hne hp]
  rfl

theorem isAlpha_iff (c : Char) : c.toLower.isLower = c.isAlpha := by
  unfold Char.toLower
  split
  · rename_i hu
    have h1 : 65 ≤ c.val.toNat := by simpa [UInt32.le_iff_toNat_le] using hu.1
    have h2 : c.val.toNat ≤ 90 := by simpa [UInt32.le_iff_toNat_le] using hu.2
    have e : (c.val + ('a'.val - 'A'.val)).toNat = c.val.toNat + 32 := by
      rw [UInt32.toNat_add]
      have : ('a'.val - 'A'.val).toNat = 32 := by decide
      rw [this]
      omega
    have e1 : 'a'.val.toNat = 97 := rfl
    have e2 : 'z'.val.toNat = 122 := rfl
    have hl : ∀ h, Char.isLower ⟨c.val + ('a'.val - 'A'.val), h⟩ = true := by
      intro h
      simp only [Char.isLower, Bool.and_eq_true, decide_eq_true_eq, UInt32.le_iff_toNat_le,
        ge_iff_le, e, e1, e2]
      omega
    have hup : c.isUpper = true := by
      simp only [Char.isUpper, decide_eq_true_eq]
      exact hu
    rw [hl]
    simp [Char.isAlpha, hup]
  · rename_i hu
    have hup : c.isUpper = false := by
      by_contra h
      simp only [Bool.not_eq_false, Char.isUpper, decide_eq_true_eq] at h
      exact hu h
    simp [Char.isAlpha, hup]

theorem pick_congr {cs cs' : List Char} {l : List Rule} (h : ∀ r ∈ l, r.len cs = r.len cs') :
    pick cs l = pick cs' l := by
  induction l with
  | nil => rfl
  | cons r l ih =>
    have e := ih fun x hx => h x (by simp [hx])
    simp only [pick, e, h r (by simp)]

/-! ## Words in expressions -/

/-- Words of the expression condition: units, functions, `AUTO` and `TABLE`. -/
def xWords : List String :=
  units ++ ["sin", "cos", "tan", "asin", "acos", "atan", "ln", "exp", "sqrt", "AUTO", "TABLE"]

theorem xWords_alpha : ∀ w ∈ xWords, ∀ x ∈ w.toList, x.isAlpha = true := by decide +kernel

theorem xWords_ne : ∀ w ∈ xWords, w.toList ≠ [] := by decide +kernel

theorem xWords_num : ∀ w ∈ xWords, numLen w.toList = 0 := by decide +kernel

theorem alpha_facts {c : Char} (h : c.isAlpha = true) : c ≠ '#' ∧ c ≠ ' ' ∧ c ≠ '\t' ∧ c ≠ '\n' ∧
    ∀ a ∈ ['=', '+', '-', '*', '/', '^', '(', ')'], a.toLower ≠ c.toLower := by
  refine ⟨?_, ?_, ?_, ?_, ?_⟩
  · rintro rfl; simp at h
  · rintro rfl; simp at h
  · rintro rfl; simp at h
  · rintro rfl; simp at h
  · intro a ha e
    rw [← isAlpha_iff, ← e] at h
    revert h
    simp only [List.mem_cons, List.not_mem_nil, or_false] at ha
    rcases ha with rfl | rfl | rfl | rfl | rfl | rfl | rfl | rfl <;> decide

/-- Characters that end a word of an expression. -/
def endsWord (c : Char) : Prop := c.isAlpha = false ∧ c.isDigit = false

theorem identLen_word {s r : List Char} (hne : s ≠ []) (hs : ∀ x ∈ s, x.isAlpha = true)
    (hr : ∀ c, r.head? = some c → endsWord c) : identLen (s ++ r) = s.length := by
  have h1 : (s ++ r).takeWhile Char.isAlpha = s := by
    rw [List.takeWhile_append_of_pos hs]
    cases r with
    | nil => simp
    | cons c r => simp [(hr c rfl).1]
  have h2 : digitsLen r = 0 := by
    have := digitsLen_sep [] r fun c hc => (hr c hc).2
    simpa [digitsLen] using this
  have h3 : s.length ≠ 0 := by simpa using hne
  simp only [identLen, h1, if_neg h3, List.drop_left, h2]
  omega

/-- A word before such a character is matched as if it stood alone. -/
theorem pick_word {w : String} (hw : w ∈ xWords) {s r : List Char} (hs : SameWord w s)
    (hr : ∀ c, r.head? = some c → endsWord c) (hn : numLen (s ++ r) = 0) :
    pick (s ++ r) (active symrec .expression) = pick w.toList (active symrec .expression) := by
  have hne : s ≠ [] := by
    rintro rfl
    exact xWords_ne w hw (by simpa [SameWord] using hs)
  have hal : ∀ x ∈ s, x.isAlpha = true := by
    intro x hx
    have : x.toLower ∈ w.toList.map Char.toLower := by rw [hs]; exact List.mem_map_of_mem hx
    obtain ⟨y, hy, he⟩ := List.mem_map.mp this
    rw [← isAlpha_iff, ← he, isAlpha_iff]
    exact xWords_alpha w hw y hy
  have hlen : s.length = w.toList.length := by
    have := congrArg List.length hs
    simpa using this.symm
  obtain ⟨x, s', hx⟩ := List.exists_cons_of_ne_nil hne
  obtain ⟨y, w', hy⟩ := List.exists_cons_of_ne_nil (xWords_ne w hw)
  have fx := alpha_facts (hal x (by simp [hx]))
  have fy := alpha_facts (xWords_alpha w hw y (by simp [hy]))
  have hlit : ∀ v : String, (∀ z ∈ v.toList, z.isAlpha = true) →
      litLen v.toList (s ++ r) = litLen v.toList w.toList := by
    intro v hv
    rw [litLen_sep s r]
    · exact litLen_congr _ hs.symm
    · intro c hc z hz e
      have h1 := hv z hz
      have h2 := (hr c hc).1
      rw [← isAlpha_iff, e, isAlpha_iff, h2] at h1
      simp at h1
  have hop : ∀ a ∈ ['=', '+', '-', '*', '/', '^', '(', ')'],
      litLen [a] (s ++ r) = litLen [a] w.toList := by
    intro a ha
    rw [hx, hy, List.cons_append, litLen_head _ _ (fx.2.2.2.2 a ha),
      litLen_head _ _ (fy.2.2.2.2 a ha)]
  apply pick_congr
  rw [active_x]
  intro z hz
  simp only [List.mem_cons, List.mem_append] at hz
  rcases hz with rfl | rfl | rfl | rfl | hz | hz | rfl | rfl | hz
  · simp [xNote, hx, hy, fx.1, fy.1]
  · simp [xBlank, hx, hy, fx.2.1, fx.2.2.1, fy.2.1, fy.2.2.1]
  · exact hlit "AUTO" (by decide)
  · exact hlit "TABLE" (by decide)
  · simp only [opToks, List.map_cons, List.map_nil, List.mem_cons, List.not_mem_nil,
      or_false] at hz
    rcases hz with rfl | rfl | rfl | rfl | rfl | rfl | rfl | rfl <;> exact hop _ (by decide)
  · simp only [unitToks, List.map_cons, List.map_nil, List.mem_cons, List.not_mem_nil,
      or_false] at hz
    rcases hz with rfl | rfl | rfl | rfl | rfl | rfl | rfl | rfl | rfl | rfl <;>
      exact hlit _ (by decide)
  · simp only [xNum, hn, xWords_num w hw]
  · simp only [xIdent]
    rw [identLen_word hne hal hr, hlen]
    have := identLen_word (r := []) (xWords_ne w hw) (xWords_alpha w hw) (by simp)
    simpa using this.symm
  · simp only [xTail, List.mem_cons, List.not_mem_nil, or_false] at hz
    rcases hz with rfl | rfl | rfl | rfl <;> simp [hx, hy, fx.2.2.2.1, fy.2.2.2.1]

theorem numLen_letter {c : Char} (hc : c.isAlpha = true) (r : List Char)
    (he : c = 'E' ∨ c = 'e' → digitsLen (r.drop (signLen r)) = 0) : numLen (c :: r) = 0 := by
  have h1 : c ≠ '-' := by rintro rfl; simp at hc
  have h2 : c ≠ '+' := by rintro rfl; simp at hc
  have h3 : c ≠ '.' := by rintro rfl; simp at hc
  have h4 : c.isDigit = false := by
    by_contra h
    simp only [Bool.not_eq_false, Char.isAlpha, Char.isUpper, Char.isLower, Char.isDigit,
      Bool.or_eq_true, Bool.and_eq_true, decide_eq_true_eq, UInt32.le_iff_toNat_le] at h hc
    simp at h hc
    omega
  have h5 : expLen (c :: r) = 0 := by
    simp only [expLen]
    by_cases h : c = 'E' ∨ c = 'e'
    · rw [if_pos h, he h]; simp
    · rw [if_neg h]
  simp [numLen, signLen, h1, h2, digitsLen, h4, fracLen, h3, h5]

/-- A unit before a blank, a comment or the end of the line. -/
theorem scanFrom_unit {u : String} (hu : u ∈ units) {s r : List Char} (hs : SameWord u s)
    (hr : ∀ c, r.head? = some c → c = ' ' ∨ c = '\t' ∨ c = '\n' ∨ c = '#') :
    scanFrom symrec .expression (s ++ r) = .ex (.kw u) :: scanFrom symrec .expression r := by
  have hw : u ∈ xWords := List.mem_append_left _ hu
  have hr' : ∀ c, r.head? = some c → endsWord c := by
    intro c hc
    rcases hr c hc with rfl | rfl | rfl | rfl <;> exact ⟨by decide, by decide⟩
  have hne : s ≠ [] := by
    rintro rfl
    exact xWords_ne u hw (by simpa [SameWord] using hs)
  have hn : numLen (s ++ r) = 0 := by
    obtain ⟨x, s', rfl⟩ := List.exists_cons_of_ne_nil hne
    have hx : x.toLower ∈ u.toList.map Char.toLower := by rw [hs]; simp
    obtain ⟨y, hy, he⟩ := List.mem_map.mp hx
    have hal : x.isAlpha = true := by
      rw [← isAlpha_iff, ← he, isAlpha_iff]; exact xWords_alpha u hw y hy
    rw [List.cons_append]
    apply numLen_letter hal
    intro hE
    have hs' : s' = [] := by
      have h1 := congrArg List.head? hs
      have h2 := congrArg List.length hs
      have hE' : x.toLower = 'e' := by rcases hE with rfl | rfl <;> decide
      simp only [List.map_cons, List.head?_cons, hE'] at h1
      simp only [List.length_map, List.length_cons] at h2
      simp only [units, List.mem_cons, List.not_mem_nil, or_false] at hu
      rcases hu with rfl | rfl | rfl | rfl | rfl | rfl | rfl | rfl | rfl | rfl <;>
        first
          | (simp at h1; done)
          | (simp at h2; exact h2)
    subst hs'
    cases r with
    | nil => rfl
    | cons c r =>
      rcases hr c rfl with rfl | rfl | rfl | rfl <;> simp [signLen, digitsLen]
  have hlen : s.length = u.toList.length := by
    have := congrArg List.length hs
    simpa using this.symm
  have hp : pick (s ++ r) (active symrec .expression) =
      (s.length, (fun _ => some (.ex (.kw u))), none) := by
    rw [pick_word hw hs hr' hn, hlen]
    simp only [units, List.mem_cons, List.not_mem_nil, or_false] at hu
    rcases hu with rfl | rfl | rfl | rfl | rfl | rfl | rfl | rfl | rfl | rfl <;> rfl
  rw [scanFrom_match hne hp]
  rfl

/-- `AUTO` and `TABLE` end the expression. -/
theorem scanFrom_auto {w : String} (hu : w = "AUTO" ∨ w = "TABLE") {s r : List Char}
    (hs : SameWord w s)
    (hr : ∀ c, r.head? = some c → c = ' ' ∨ c = '\t' ∨ c = '\n' ∨ c = '#') :
    scanFrom symrec .expression (s ++ r) = .ex (.kw w) :: scanFrom symrec .initial r := by
  have hw : w ∈ xWords := by rcases hu with rfl | rfl <;> decide
  have hr' : ∀ c, r.head? = some c → endsWord c := by
    intro c hc
    rcases hr c hc with rfl | rfl | rfl | rfl <;> exact ⟨by decide, by decide⟩
  have hne : s ≠ [] := by
    rintro rfl
    exact xWords_ne w hw (by simpa [SameWord] using hs)
  have hn : numLen (s ++ r) = 0 := by
    obtain ⟨x, s', rfl⟩ := List.exists_cons_of_ne_nil hne
    have hx : x.toLower ∈ w.toList.map Char.toLower := by rw [hs]; simp
    obtain ⟨y, hy, he⟩ := List.mem_map.mp hx
    have hal : x.isAlpha = true := by
      rw [← isAlpha_iff, ← he, isAlpha_iff]; exact xWords_alpha w hw y hy
    rw [List.cons_append]
    apply numLen_letter hal
    intro hE
    exfalso
    have h1 := congrArg List.head? hs
    have hE' : x.toLower = 'e' := by rcases hE with rfl | rfl <;> decide
    simp only [List.map_cons, List.head?_cons, hE'] at h1
    rcases hu with rfl | rfl <;> simp at h1
  have hlen : s.length = w.toList.length := by
    have := congrArg List.length hs
    simpa using this.symm
  have hp : pick (s ++ r) (active symrec .expression) =
      (s.length, (fun _ => some (.ex (.kw w))), some .initial) := by
    rw [pick_word hw hs hr' hn, hlen]
    rcases hu with rfl | rfl <;> rfl
  rw [scanFrom_match hne hp]
  rfl

/-- A function before a character that ends a word. -/
theorem scanFrom_fnct {f : String} {s r : List Char} (hs : Spells (.fnct f) s)
    (hr : ∀ c, r.head? = some c → endsWord c) :
    scanFrom symrec .expression (s ++ r) = .ex (.fnct f) :: scanFrom symrec .expression r := by
  have key : ∀ w : String, w ∈ xWords → s = w.toList →
      pick w.toList (active symrec .expression) =
        (w.toList.length, (fun s => some (.ex (identTok symrec s))), none) →
      (w = "exp" ∨ ∀ a, w.toList.head? = some a → a ≠ 'E' ∧ a ≠ 'e') →
      identTok symrec w.toList = .fnct f →
      scanFrom symrec .expression (s ++ r) = .ex (.fnct f) :: scanFrom symrec .expression r := by
    intro w hw he hp hE hid
    subst he
    have hn : numLen (w.toList ++ r) = 0 := by
      obtain ⟨y, w', hy⟩ := List.exists_cons_of_ne_nil (xWords_ne w hw)
      rw [hy, List.cons_append]
      apply numLen_letter (xWords_alpha w hw y (by simp [hy]))
      intro h
      rcases hE with rfl | hE
      · simp at hy
        obtain ⟨rfl, rfl⟩ := hy
        simp [signLen, digitsLen]
      · have := hE y (by simp [hy])
        rcases h with h | h
        · exact absurd h this.1
        · exact absurd h this.2
    have := pick_word hw (s := w.toList) (r := r) rfl hr hn
    rw [hp] at this
    rw [scanFrom_match (xWords_ne w hw) this]
    simp only [hid]
    rfl
  simp only [Spells, List.mem_cons, List.not_mem_nil, or_false, Prod.mk.injEq] at hs
  have hof : ∀ w : String, String.ofList s = w → s = w.toList := by
    rintro w rfl; simp
  rcases hs with ⟨rfl, h⟩ | ⟨rfl, h⟩ | ⟨rfl, h⟩ | ⟨rfl, h⟩ | ⟨rfl, h⟩ | ⟨rfl, h⟩ | ⟨rfl, h⟩ |
      ⟨rfl, h⟩ | ⟨rfl, h⟩
  · exact key "sin" (by decide) (hof _ h) rfl (.inr (by simp)) (by decide +kernel)
  · exact key "cos" (by decide) (hof _ h) rfl (.inr (by simp)) (by decide +kernel)
  · exact key "tan" (by decide) (hof _ h) rfl (.inr (by simp)) (by decide +kernel)
  · exact key "asin" (by decide) (hof _ h) rfl (.inr (by simp)) (by decide +kernel)
  · exact key "acos" (by decide) (hof _ h) rfl (.inr (by simp)) (by decide +kernel)
  · exact key "atan" (by decide) (hof _ h) rfl (.inr (by simp)) (by decide +kernel)
  · exact key "ln" (by decide) (hof _ h) rfl (.inr (by simp)) (by decide +kernel)
  · exact key "exp" (by decide) (hof _ h) rfl (.inl rfl) (by decide +kernel)
  · exact key "sqrt" (by decide) (hof _ h) rfl (.inr (by simp)) (by decide +kernel)

end MaRC.Scan
