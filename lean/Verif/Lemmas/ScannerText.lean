import Verif.Lemmas.Scanner
import Mathlib.Data.List.TakeWhile

/-! # Lemmas about scanning the parts of entries -/

namespace MaRC.Scan

open MaRC.Calc (Tok Table litLen symrec numLen identLen digitsLen signLen fracLen expLen)
open MaRC.InputFile

/-- The rules before the keywords in an inclusive condition. -/
def front (c : Cond) : List Rule := firstRules.filter (·.on c)

theorem active_eq (tab : Table) {c : Cond} (hc : c.inclusive = true) :
    active tab c = front c ++ (K ++ lastRules) := by
  cases c <;> first | rfl | simp [Cond.inclusive] at hc

/-- White space. -/
def isBlank (c : Char) : Bool := decide (c = ' ' ∨ c = '\t' ∨ c = '\n')

theorem front_blank {c : Cond} (hc : c.inclusive = true) {x : Char} (hx : isBlank x = true)
    (r : List Char) : ∀ y ∈ front c, y.len (x :: r) = 0 := by
  simp only [isBlank, decide_eq_true_eq] at hx
  cases c <;> simp [Cond.inclusive] at hc <;> rcases hx with rfl | rfl | rfl <;>
    simp [front, firstRules, Cond.inclusive, litLen, isGraph, List.takeWhile]

theorem pick_blank {c : Cond} (hc : c.inclusive = true) {x : Char} (hx : isBlank x = true)
    (r : List Char) : pick (x :: r) (active symrec c) =
      (((x :: r).takeWhile isBlank).length, (fun _ => none), none) := by
  have hlast : pick (x :: r) lastRules =
      (((x :: r).takeWhile isBlank).length, (fun _ => none), none) := by
    have e : ((x :: r).takeWhile fun c => decide (c = ' ' ∨ c = '\t' ∨ c = '\n')) =
      (x :: r).takeWhile isBlank := rfl
    have hn : 1 ≤ ((x :: r).takeWhile isBlank).length := by simp [hx]
    have h0 : x ≠ '#' := by rintro rfl; simp [isBlank] at hx
    simp only [lastRules]
    rw [pick_cons_neg, pick_cons_pos]
    · rfl
    · apply pick_le
      intro y hy
      simp only [List.mem_cons, List.not_mem_nil, or_false] at hy
      show _ ≤ ((x :: r).takeWhile isBlank).length
      rcases hy with rfl | rfl <;> simp only
      · split <;> omega
      · exact hn
    · rw [pick_cons_pos]
      · simp only [e, List.head?_cons, Option.some.injEq, h0, if_false]; omega
      · apply pick_le
        intro y hy
        simp only [List.mem_cons, List.not_mem_nil, or_false] at hy
        show _ ≤ ((x :: r).takeWhile isBlank).length
        rcases hy with rfl | rfl <;> simp only
        · split <;> omega
        · exact hn
  have hn : 1 ≤ (pick (x :: r) lastRules).1 := by rw [hlast]; simp [hx]
  have hs : x ∈ seps := by
    simp only [isBlank, decide_eq_true_eq] at hx
    rcases hx with rfl | rfl | rfl <;> simp [seps]
  have hK : pick (x :: r) (K ++ lastRules) = pick (x :: r) lastRules := by
    apply pick_right
    intro y hy
    have := le_pick (cs := x :: r) hy
    have := K_sep hs r
    omega
  rw [active_eq _ hc, pick_right, hK, hlast]
  intro y hy
  rw [front_blank hc hx r y hy, hK]
  omega

theorem scanFrom_run {c : Cond} (hc : c.inclusive = true) (cs : List Char) :
    scanFrom symrec c cs = scanFrom symrec c (cs.dropWhile isBlank) := by
  cases cs with
  | nil => rfl
  | cons x r =>
    by_cases hx : isBlank x = true
    · rw [scanFrom_step (by simp) (pick_blank hc hx r)]
      simp only [Option.toList_none, List.nil_append, Option.getD_none]
      congr 1
      conv_lhs => rw [← List.takeWhile_append_dropWhile (p := isBlank) (l := x :: r)]
      rw [List.drop_append]
      simp
    · rw [List.dropWhile_cons_of_neg hx]

theorem scanFrom_blank {c : Cond} (hc : c.inclusive = true) {x : Char} (hx : isBlank x = true)
    (r : List Char) : scanFrom symrec c (x :: r) = scanFrom symrec c r := by
  rw [scanFrom_run hc, scanFrom_run hc r, List.dropWhile_cons_of_pos hx]

/-- What is left of a text after a comment up to its line break. -/
theorem takeWhile_note (s r : List Char) (hs : '\n' ∉ s) (hr : ∀ c, r.head? = some c → c = '\n') :
    (s ++ r).takeWhile (fun c => decide (c ≠ '\n')) = s := by
  induction s with
  | nil =>
    cases r with
    | nil => rfl
    | cons c r => simp [hr c rfl]
  | cons x s ih =>
    simp only [List.mem_cons, not_or] at hs
    have : x ≠ '\n' := fun h => hs.1 h.symm
    rw [List.cons_append, List.takeWhile_cons_of_pos (by simp [this]), ih hs.2]

theorem pick_note {c : Cond} (hc : c.inclusive = true) (s r : List Char) (hs : '\n' ∉ s)
    (hr : ∀ c, r.head? = some c → c = '\n')
    (hg : c = .string → ∃ x ∈ s, isGraph x = false) :
    pick ('#' :: s ++ r) (active symrec c) = (s.length + 1, (fun _ => none), none) := by
  have hlast : pick ('#' :: s ++ r) lastRules = (s.length + 1, (fun _ => none), none) := by
    have e : (('#' :: s ++ r).takeWhile fun c => decide (c ≠ '\n')).length = s.length + 1 := by
      rw [List.cons_append, List.takeWhile_cons_of_pos (by decide), takeWhile_note s r hs hr]
      rfl
    simp only [lastRules]
    rw [pick_cons_pos]
    · simp only [List.cons_append, List.head?_cons, if_true] at e ⊢
      rw [e]
    · apply pick_le
      intro y hy
      simp only [List.cons_append, List.head?_cons, if_true] at e ⊢
      rw [e]
      simp only [List.mem_cons, List.not_mem_nil, or_false] at hy
      rcases hy with rfl | rfl | rfl <;> simp
  have hK : pick ('#' :: s ++ r) (K ++ lastRules) = pick ('#' :: s ++ r) lastRules := by
    apply pick_right
    intro y hy
    have h1 := le_pick (cs := '#' :: s ++ r) hy
    have h2 := K_sep (c := '#') (by simp [seps]) (s ++ r)
    rw [hlast]
    simp only [List.cons_append] at h1 ⊢
    omega
  rw [active_eq _ hc, pick_right, hK, hlast]
  intro y hy
  rw [hK, hlast]
  cases c <;> simp [Cond.inclusive] at hc <;>
    simp [front, firstRules] at hy
  case string =>
    rcases hy with rfl | rfl | ⟨rfl, -⟩
    · simp [litLen]
    · obtain ⟨x, hx, hx'⟩ := hg rfl
      show ((('#' :: s) ++ r).takeWhile isGraph).length < s.length + 1
      obtain ⟨a, b, rfl⟩ := List.append_of_mem hx
      have h := List.takeWhile_append_dropWhile (p := isGraph) (l := ('#' :: (a ++ x :: b)) ++ r)
      by_contra hcon
      simp only [not_lt] at hcon
      have hmem : x ∈ ((('#' :: (a ++ x :: b)) ++ r).takeWhile isGraph) := by
        have hp : (('#' :: (a ++ x :: b)) ++ r).takeWhile isGraph <+: ('#' :: (a ++ x :: b)) ++ r :=
          List.takeWhile_prefix _
        have hq : ('#' :: (a ++ x :: b)) <+: ('#' :: (a ++ x :: b)) ++ r := List.prefix_append _ _
        have := List.prefix_of_prefix_length_le hq hp (by simpa using hcon)
        exact this.subset (by simp)
      have := List.mem_takeWhile_imp hmem
      simp [hx'] at this
    · simp [litLen]
  case initial => obtain ⟨rfl, -⟩ := hy; simp [litLen]
  case commentInit => rcases hy with rfl | ⟨rfl, -⟩ <;> simp [litLen]
  case keyword => rcases hy with rfl | ⟨rfl, -⟩ <;> simp [litLen]
  case pole => rcases hy with rfl | rfl | rfl | rfl | rfl | ⟨rfl, -⟩ <;> simp [litLen]

theorem scanFrom_note {c : Cond} (hc : c.inclusive = true) (s r : List Char) (hs : '\n' ∉ s)
    (hr : ∀ c, r.head? = some c → c = '\n')
    (hg : c = .string → ∃ x ∈ s, isGraph x = false) :
    scanFrom symrec c ('#' :: s ++ r) = scanFrom symrec c r := by
  have h := pick_note hc s r hs hr hg
  have := scanFrom_match (s := '#' :: s) (by simp) (by simpa using h)
  simpa using this

theorem scanFrom_gap {c : Cond} (hc : c.inclusive = true) (hs : c ≠ .string) {g : List Char}
    (hg : Gap g) (r : List Char) : scanFrom symrec c (g ++ r) = scanFrom symrec c r := by
  induction hg with
  | nil => rfl
  | blank h _ ih => rw [List.cons_append, scanFrom_blank hc (by simpa [isBlank] using h), ih]
  | @note s g h _ ih =>
    have e : '#' :: s ++ '\n' :: g ++ r = '#' :: s ++ ('\n' :: (g ++ r)) := by simp
    rw [e, scanFrom_note hc s _ h (by simp) (fun h => absurd h hs),
      scanFrom_blank hc (by simp [isBlank]), ih]

theorem scanFrom_nameGap {g : List Char} (hg : NameGap g) (r : List Char) :
    scanFrom symrec .string (g ++ r) = scanFrom symrec .string r := by
  induction hg with
  | nil => rfl
  | blank h _ ih => rw [List.cons_append, scanFrom_blank rfl (by simpa [isBlank] using h), ih]
  | @note s g h h' _ ih =>
    have e : '#' :: s ++ '\n' :: g ++ r = '#' :: s ++ ('\n' :: (g ++ r)) := by simp
    rw [e, scanFrom_note rfl s _ h (by simp), scanFrom_blank rfl (by simp [isBlank]), ih]
    intro _
    rcases h' with h' | h'
    · exact ⟨_, h', by decide⟩
    · exact ⟨_, h', by decide⟩

/-! ## Keywords and colons -/

theorem pick_last (x : Char) (r : List Char) (h : isBlank x = false) (h' : x ≠ '#') :
    (pick (x :: r) lastRules).1 = 1 := by
  have e : ((x :: r).takeWhile fun c => decide (c = ' ' ∨ c = '\t' ∨ c = '\n')) = [] := by
    rw [List.takeWhile_cons_of_neg]
    simpa [isBlank] using h
  have hx : x ≠ '\n' := by rintro rfl; simp [isBlank] at h
  apply le_antisymm
  · apply pick_le
    intro y hy
    simp only [lastRules, List.mem_cons, List.not_mem_nil, or_false] at hy
    rcases hy with rfl | rfl | rfl | rfl
    · simp [h']
    · simp only [e]; simp
    · simp [hx]
    · simp
  · refine le_pick (r := ⟨fun _ => true, fun _ => 1, fun _ => none, none⟩) ?_
    simp [lastRules]

theorem keywords_head : ∀ k ∈ keywords, ∀ x ∈ k.1.toList, isBlank x.toLower = false ∧
    x.toLower ≠ '#' ∧ x.toLower ≠ ':' := by decide +kernel

theorem toLower_fix {c : Char} (h : c ∈ seps) : c.toLower = c := by
  simp only [seps, List.mem_cons, List.not_mem_nil, or_false] at h
  rcases h with rfl | rfl | rfl | rfl | rfl <;> decide

/-- A keyword in the condition `INITIAL`. -/
theorem scanFrom_keyword {k : String × String × Option Cond} (hk : k ∈ keywords)
    {s r : List Char} (hs : SameWord k.1 s) (hr : ∀ c, r.head? = some c → c ∈ seps) :
    scanFrom symrec .initial (s ++ r) =
      kw k.2.1 :: scanFrom symrec (k.2.2.getD .initial) r := by
  have hK := K_word hk hs hr
  have hne : s ≠ [] := by
    rintro rfl
    exact keywords_ne k hk (by simpa [SameWord] using hs)
  obtain ⟨x, s', rfl⟩ := List.exists_cons_of_ne_nil hne
  have hx : isBlank x = false ∧ x ≠ '#' ∧ x ≠ ':' := by
    have : x.toLower ∈ k.1.toList.map Char.toLower := by rw [hs]; simp
    obtain ⟨y, hy, he⟩ := List.mem_map.mp this
    have h := keywords_seps k hk y hy
    rw [he] at h
    refine ⟨?_, ?_, ?_⟩
    · by_contra hb
      simp only [Bool.not_eq_false, isBlank, decide_eq_true_eq] at hb
      have hm : x ∈ seps := by rcases hb with rfl | rfl | rfl <;> simp [seps]
      exact h x hm rfl
    · rintro rfl; exact h '#' (by simp [seps]) rfl
    · rintro rfl; exact h ':' (by simp [seps]) rfl
  have hlast := pick_last x (s' ++ r) hx.1 hx.2.1
  have hKL : pick (x :: s' ++ r) (K ++ lastRules) = ((x :: s').length, (fun _ => some (kw k.2.1)), k.2.2) := by
    rw [pick_left (by simp [K, keywords]), hK]
    rw [hK]
    simp only [List.cons_append] at hlast ⊢
    rw [hlast]
    simp
  have hpick : pick (x :: s' ++ r) (active symrec .initial) =
      ((x :: s').length, (fun _ => some (kw k.2.1)), k.2.2) := by
    rw [active_initial, pick_cons_neg, hKL]
    rw [hKL]
    have : litLen [':'] (x :: s' ++ r) = 0 := by
      rw [List.cons_append]
      apply litLen_head
      intro he
      have : x.toLower ∈ k.1.toList.map Char.toLower := by rw [hs]; simp
      obtain ⟨y, hy, hy'⟩ := List.mem_map.mp this
      exact (keywords_head k hk y hy).2.2 (by rw [hy', ← he]; decide)
    simp only [this]
    simp
  rw [scanFrom_match hne hpick]
  rfl

theorem pick_colon_rest (r : List Char) : (pick (':' :: r) (K ++ lastRules)).1 ≤ 1 := by
  have h1 := K_sep (c := ':') (by simp [seps]) r
  have h2 := pick_last ':' r (by decide) (by decide)
  rw [pick_right, h2]
  intro y hy
  have := le_pick (cs := ':' :: r) hy
  omega

theorem litLen_colon (r : List Char) : litLen [':'] (':' :: r) = 1 := by simp [litLen]

theorem scanFrom_colon_initial (r : List Char) :
    scanFrom symrec .initial (':' :: r) = .colon :: scanFrom symrec .expression r := by
  have h := pick_colon_rest r
  have hp : pick (':' :: r) (active symrec .initial) =
      (1, (fun _ => some .colon), some .expression) := by
    rw [active_initial, pick_cons_pos]
    · simp [litLen_colon]
    · simpa [litLen_colon] using h
  rw [scanFrom_step (by simp) hp]
  rfl

theorem scanFrom_colon_commentInit (r : List Char) :
    scanFrom symrec .commentInit (':' :: r) = .colon :: scanFrom symrec .comment r := by
  have h := pick_colon_rest r
  have hp : pick (':' :: r) (active symrec .commentInit) =
      (1, (fun _ => some .colon), some .comment) := by
    rw [active_commentInit, pick_cons_pos]
    · simp [litLen_colon]
    · rw [pick_cons_pos (by simpa [litLen_colon] using h)]
  rw [scanFrom_step (by simp) hp]
  rfl

theorem scanFrom_colon_keyword (r : List Char) :
    scanFrom symrec .keyword (':' :: r) = .colon :: scanFrom symrec .initial r := by
  have h := pick_colon_rest r
  have hp : pick (':' :: r) (active symrec .keyword) =
      (1, (fun _ => some .colon), some .initial) := by
    rw [active_keyword, pick_cons_pos]
    · simp [litLen_colon]
    · rw [pick_cons_pos (by simpa [litLen_colon] using h)]
  rw [scanFrom_step (by simp) hp]
  rfl

theorem scanFrom_colon_pole (r : List Char) :
    scanFrom symrec .pole (':' :: r) = .colon :: scanFrom symrec .pole r := by
  have h := pick_colon_rest r
  have hp : pick (':' :: r) (active symrec .pole) = (1, (fun _ => some .colon), none) := by
    rw [active_pole, pick_cons_pos]
    · simp [litLen_colon]
    · simp only [litLen_colon]
      rw [show ∀ a b c d e l, (a :: b :: c :: d :: e :: l : List Rule) = [a, b, c, d] ++ e :: l
        from fun _ _ _ _ _ _ => rfl]
      rw [pick_right, pick_cons_pos]
      · simp [litLen_colon]
      · simpa [litLen_colon] using h
      · intro y hy
        rw [pick_cons_pos (by simpa [litLen_colon] using h)]
        simp only [litLen_colon]
        simp only [List.mem_cons, List.not_mem_nil, or_false] at hy
        rcases hy with rfl | rfl | rfl | rfl <;> simp [litLen]
  rw [scanFrom_step (by simp) hp]
  rfl

theorem scanFrom_colon_string (r : List Char) (hr : ∀ c, r.head? = some c → isGraph c = false) :
    scanFrom symrec .string (':' :: r) = .colon :: scanFrom symrec .string r := by
  have h := pick_colon_rest r
  have hgr : r.takeWhile isGraph = [] := by
    cases r with
    | nil => rfl
    | cons c r => simp [hr c rfl]
  have hp : pick (':' :: r) (active symrec .string) = (1, (fun _ => some .colon), none) := by
    rw [active_string, pick_cons_pos]
    · simp [litLen_colon]
    · simp only [litLen_colon]
      have h2 : (pick (':' :: r) (⟨Cond.inclusive, litLen [':'], fun _ => some .colon,
          some .expression⟩ :: (K ++ lastRules))).1 = 1 := by
        rw [pick_cons_pos] <;> simp [litLen_colon, h]
      have h3 : ((':' :: r).takeWhile isGraph).length = 1 := by
        rw [List.takeWhile_cons_of_pos (by decide), hgr]; rfl
      rw [pick_cons_pos (by rw [h2]; exact h3.ge)]
      exact h3.le
  rw [scanFrom_step (by simp) hp]
  rfl

/-! ## Texts, names and poles -/

theorem scanFrom_text (t r : List Char) (hne : t ≠ []) (ht : '\n' ∉ t)
    (hr : ∀ c, r.head? = some c → c = '\n') :
    scanFrom symrec .comment (t ++ r) = .str t :: scanFrom symrec .initial r := by
  have e := takeWhile_note t r ht hr
  have hl : 1 ≤ t.length := List.length_pos_iff.mpr hne
  have hp : pick (t ++ r) (active symrec .comment) =
      (t.length, (fun s => some (.str s)), some .initial) := by
    rw [active_comment, pick_cons_pos]
    · simp only [e]
    · simp only [e]
      apply pick_le
      intro y hy
      simp only [List.mem_cons, List.not_mem_nil, or_false] at hy
      rcases hy with rfl | rfl <;> simp only
      · split <;> omega
      · exact hl
  rw [scanFrom_match hne hp]
  rfl

theorem toLower_eq {x y : Char} (h : x.toLower = y.toLower) (hy : y.toLower.isLower = false) :
    x = y.toLower := by
  rw [← h] at hy ⊢
  unfold Char.toLower at hy ⊢
  split at hy
  · exfalso
    rename_i hu
    have h1 : 65 ≤ x.val.toNat := by simpa [UInt32.le_iff_toNat_le] using hu.1
    have h2 : x.val.toNat ≤ 90 := by simpa [UInt32.le_iff_toNat_le] using hu.2
    simp only [Char.isLower, Bool.and_eq_false_iff,
      decide_eq_false_iff_not, UInt32.le_iff_toNat_le, ge_iff_le] at hy
    have e : (x.val + ('a'.val - 'A'.val)).toNat = x.val.toNat + 32 := by
      rw [UInt32.toNat_add]
      have : ('a'.val - 'A'.val).toNat = 32 := by decide
      rw [this]
      omega
    rw [e] at hy
    have e1 : 'a'.val.toNat = 97 := rfl
    have e2 : 'z'.val.toNat = 122 := rfl
    rw [e1, e2] at hy
    omega
  · rename_i hu
    rw [dif_neg hu]

theorem litLen_le_length (w s : List Char) : litLen w s ≤ s.length := by
  simp only [litLen]
  split
  · rename_i h
    have := congrArg List.length h
    simp at this
    omega
  · omega

theorem litLen_congr (w : List Char) {s s' : List Char}
    (h : s.map Char.toLower = s'.map Char.toLower) : litLen w s = litLen w s' := by
  simp only [litLen, List.map_take, h]

/-- Keywords do not reach over a separator. -/
theorem K_le (s r : List Char) (hr : ∀ c, r.head? = some c → c ∈ seps) :
    ∀ x ∈ K, x.len (s ++ r) ≤ s.length := by
  intro x hx
  simp only [K, List.mem_map] at hx
  obtain ⟨k, hk, rfl⟩ := hx
  simp only [ofKeyword]
  rw [litLen_sep s r fun c hc x hx => keywords_seps k hk x hx c (hr c hc)]
  exact litLen_le_length _ _

theorem scanFrom_name (f r : List Char) (hne : f ≠ []) (hf : ∀ x ∈ f, isGraph x = true)
    (h1 : f.head? ≠ some '#') (h2 : f.head? ≠ some ':')
    (hr : ∀ c, r.head? = some c → isBlank c = true) :
    scanFrom symrec .string (f ++ r) = .str f :: scanFrom symrec .initial r := by
  obtain ⟨x, f', rfl⟩ := List.exists_cons_of_ne_nil hne
  have hsep : ∀ c, r.head? = some c → c ∈ seps := by
    intro c hc
    have := hr c hc
    simp only [isBlank, decide_eq_true_eq] at this
    rcases this with rfl | rfl | rfl <;> simp [seps]
  have hgr : (x :: f' ++ r).takeWhile isGraph = x :: f' := by
    rw [List.takeWhile_append_of_pos hf]
    cases r with
    | nil => simp
    | cons c r =>
      have : isGraph c = false := by
        have := hr c rfl
        simp only [isBlank, decide_eq_true_eq] at this
        rcases this with rfl | rfl | rfl <;> decide
      simp [this]
  have hx : isGraph x = true := hf x (by simp)
  have hb : isBlank x = false := by
    by_contra h
    simp only [Bool.not_eq_false, isBlank, decide_eq_true_eq] at h
    rcases h with rfl | rfl | rfl <;> simp [isGraph] at hx
  have hlit : litLen [':'] (x :: f' ++ r) = 0 := by
    apply litLen_head
    intro h
    apply h2
    rw [toLower_eq h.symm (by decide)]
    rfl
  have hp : pick (x :: f' ++ r) (active symrec .string) =
      ((x :: f').length, (fun s => some (.str s)), some .initial) := by
    rw [active_string]
    have := pick_first (cs := x :: f' ++ r)
      (l1 := [⟨(· == .string), litLen [':'], fun _ => some .colon, none⟩])
      (r := ⟨(· == .string), fun cs => (cs.takeWhile isGraph).length, fun s => some (.str s),
        some .initial⟩)
      (l2 := ⟨Cond.inclusive, litLen [':'], fun _ => some .colon, some .expression⟩ ::
        (K ++ lastRules)) ?_ ?_
    · simp only [hgr] at this; exact this
    · intro y hy
      simp only [List.mem_singleton] at hy
      subst hy
      simp only [hlit, hgr]
      simp
    · intro y hy
      simp only [hgr]
      simp only [List.mem_cons, List.mem_append] at hy
      rcases hy with rfl | hy | hy
      · simp only [hlit]; omega
      · exact K_le _ _ hsep y hy
      · have h3 := le_pick (cs := x :: f' ++ r) hy
        have h4 := pick_last x (f' ++ r) hb (by simpa using h1)
        simp only [List.cons_append] at h3 h4 ⊢
        rw [h4] at h3
        simp; omega
  rw [scanFrom_match hne hp]
  rfl

theorem scanFrom_pole {north : Bool} {w : String} {s r : List Char}
    (hw : w ∈ if north then ["N", "NORTH"] else ["S", "SOUTH"]) (hs : SameWord w s)
    (hr : ∀ c, r.head? = some c → c ∈ seps) :
    scanFrom symrec .pole (s ++ r) =
      kw (if north then "N" else "S") :: scanFrom symrec .initial r := by
  have hne : s ≠ [] := by
    rintro rfl
    cases north <;> simp at hw <;> rcases hw with rfl | rfl <;> simp [SameWord] at hs
  have hlen : s.length = w.toList.length := by
    have := congrArg List.length hs
    simpa using this.symm
  have hpos : 1 ≤ s.length := List.length_pos_iff.mpr hne
  have hword : ∀ v : List Char, (∀ c ∈ seps, ∀ x ∈ v, x.toLower ≠ c.toLower) →
      litLen v (s ++ r) = litLen v w.toList := by
    intro v hv
    rw [litLen_sep s r fun c hc => hv c (hr c hc)]
    exact litLen_congr v hs.symm
  have hN := hword ['N'] (by decide)
  have hNorth := hword "NORTH".toList (by decide)
  have hS := hword ['S'] (by decide)
  have hSouth := hword "SOUTH".toList (by decide)
  have hcol : litLen [':'] (s ++ r) = 0 := by
    obtain ⟨x, s', rfl⟩ := List.exists_cons_of_ne_nil hne
    apply litLen_head
    have hx : x.toLower ∈ w.toList.map Char.toLower := by rw [hs]; simp
    cases north <;> simp at hw <;> rcases hw with rfl | rfl <;> simp at hx <;>
      intro h <;> rw [← h] at hx <;> revert hx <;> decide
  have hlast : ∀ y ∈ lastRules, y.len (s ++ r) ≤ 1 := by
    obtain ⟨x, s', rfl⟩ := List.exists_cons_of_ne_nil hne
    intro y hy
    rw [List.cons_append, ← pick_last x (s' ++ r)]
    · exact le_pick hy
    · have hx : x.toLower ∈ w.toList.map Char.toLower := by rw [hs]; simp
      by_contra h
      simp only [Bool.not_eq_false, isBlank, decide_eq_true_eq] at h
      cases north <;> simp at hw <;> rcases hw with rfl | rfl <;> simp at hx <;>
        rcases h with rfl | rfl | rfl <;> revert hx <;> decide
    · have hx : x.toLower ∈ w.toList.map Char.toLower := by rw [hs]; simp
      rintro rfl
      cases north <;> simp at hw <;> rcases hw with rfl | rfl <;> simp at hx
  have hrest : ∀ y ∈ K ++ lastRules, y.len (s ++ r) ≤ s.length := by
    intro y hy
    rcases List.mem_append.mp hy with hy | hy
    · exact K_le s r hr y hy
    · exact (hlast y hy).trans hpos
  have hp : pick (s ++ r) (active symrec .pole) =
      (s.length, (fun _ => some (kw (if north then "N" else "S"))), some .initial) := by
    rw [active_pole, hlen]
    have hR : (pick (s ++ r) (⟨Cond.inclusive, litLen [':'], fun _ => some .colon,
        some .expression⟩ :: (K ++ lastRules))).1 ≤ w.toList.length := by
      apply pick_le
      intro y hy
      rcases List.mem_cons.mp hy with rfl | hy
      · simp only [hcol]; omega
      · rw [← hlen]; exact hrest y hy
    generalize (⟨Cond.inclusive, litLen [':'], fun _ => some .colon,
        some .expression⟩ :: (K ++ lastRules) : List Rule) = R at hR
    have hR' : ∀ y ∈ R, y.len (s ++ r) ≤ w.toList.length := fun y hy => (le_pick hy).trans hR
    generalize hc0 : (⟨(· == .pole), litLen [':'], fun _ => some .colon, none⟩ : Rule) = c0
    generalize hc1 : (⟨(· == .pole), litLen ['N'], fun _ => some (kw "N"), some .initial⟩ : Rule) = c1
    generalize hc2 : (⟨(· == .pole), litLen "NORTH".toList, fun _ => some (kw "N"),
      some .initial⟩ : Rule) = c2
    generalize hc3 : (⟨(· == .pole), litLen ['S'], fun _ => some (kw "S"), some .initial⟩ : Rule) = c3
    generalize hc4 : (⟨(· == .pole), litLen "SOUTH".toList, fun _ => some (kw "S"),
      some .initial⟩ : Rule) = c4
    have l0 : c0.len (s ++ r) = 0 := by rw [← hc0]; exact hcol
    have l1 : c1.len (s ++ r) = litLen ['N'] w.toList := by rw [← hc1]; exact hN
    have l2 : c2.len (s ++ r) = litLen "NORTH".toList w.toList := by rw [← hc2]; exact hNorth
    have l3 : c3.len (s ++ r) = litLen ['S'] w.toList := by rw [← hc3]; exact hS
    have l4 : c4.len (s ++ r) = litLen "SOUTH".toList w.toList := by rw [← hc4]; exact hSouth
    cases north
    · simp only [Bool.false_eq_true, if_false, List.mem_cons, List.not_mem_nil, or_false] at hw
      rcases hw with rfl | rfl
      · have e := pick_first (cs := s ++ r) (l1 := [c0, c1, c2]) (r := c3) (l2 := c4 :: R)
          (by simp only [List.mem_cons, List.not_mem_nil, or_false]
              rintro y (rfl | rfl | rfl) <;> rw [l3] <;> simp only [l0, l1, l2] <;> decide)
          (by simp only [List.mem_cons]
              rintro y (rfl | hy)
              · rw [l3, l4]; decide
              · rw [l3]; exact hR' y hy)
        rw [l3] at e
        exact e.trans (by rw [← hc3]; rfl)
      · have e := pick_first (cs := s ++ r) (l1 := [c0, c1, c2, c3]) (r := c4) (l2 := R)
          (by simp only [List.mem_cons, List.not_mem_nil, or_false]
              rintro y (rfl | rfl | rfl | rfl) <;> rw [l4] <;> simp only [l0, l1, l2, l3] <;> decide)
          (by intro y hy; rw [l4]; exact hR' y hy)
        rw [l4] at e
        exact e.trans (by rw [← hc4]; rfl)
    · simp only [if_true, List.mem_cons, List.not_mem_nil, or_false] at hw
      rcases hw with rfl | rfl
      · have e := pick_first (cs := s ++ r) (l1 := [c0]) (r := c1) (l2 := c2 :: c3 :: c4 :: R)
          (by simp only [List.mem_cons, List.not_mem_nil, or_false]
              rintro y rfl; rw [l0, l1]; decide)
          (by simp only [List.mem_cons]
              rintro y (rfl | rfl | rfl | hy)
              · rw [l1, l2]; decide
              · rw [l1, l3]; decide
              · rw [l1, l4]; decide
              · rw [l1]; exact hR' y hy)
        rw [l1] at e
        exact e.trans (by rw [← hc1]; rfl)
      · have e := pick_first (cs := s ++ r) (l1 := [c0, c1]) (r := c2) (l2 := c3 :: c4 :: R)
          (by simp only [List.mem_cons, List.not_mem_nil, or_false]
              rintro y (rfl | rfl) <;> rw [l2] <;> simp only [l0, l1] <;> decide)
          (by simp only [List.mem_cons]
              rintro y (rfl | rfl | hy)
              · rw [l2, l3]; decide
              · rw [l2, l4]; decide
              · rw [l2]; exact hR' y hy)
        rw [l2] at e
        exact e.trans (by rw [← hc2]; rfl)
  rw [scanFrom_match hne hp]
  rfl

end MaRC.Scan
