import Verif.Spec.InputFile
import Verif.Lemmas.Lexer
import Mathlib.Data.List.Nodup

/-! # Lemmas about the scanner of input files -/

namespace MaRC.Scan

open MaRC.Calc (Tok Table litLen symrec numLen identLen digitsLen signLen fracLen expLen)
open MaRC.InputFile

/-! ## Choosing a rule -/

theorem pick_le {cs : List Char} {l : List Rule} {n : ℕ} (h : ∀ r ∈ l, r.len cs ≤ n) :
    (pick cs l).1 ≤ n := by
  induction l with
  | nil => simp [pick]
  | cons r l ih =>
    simp only [pick]
    split
    · exact h r (by simp)
    · exact ih fun x hx => h x (by simp [hx])

theorem le_pick {cs : List Char} {l : List Rule} {r : Rule} (h : r ∈ l) :
    r.len cs ≤ (pick cs l).1 := by
  induction l with
  | nil => simp at h
  | cons x l ih =>
    simp only [pick]
    rcases List.mem_cons.mp h with rfl | h
    · split
      · exact le_rfl
      · omega
    · have := ih h
      split
      · simp only; omega
      · exact this

theorem pick_cons_pos {cs : List Char} {r : Rule} {l : List Rule} (h : (pick cs l).1 ≤ r.len cs) :
    pick cs (r :: l) = (r.len cs, r.act, r.next) := if_pos h

theorem pick_cons_neg {cs : List Char} {r : Rule} {l : List Rule} (h : r.len cs < (pick cs l).1) :
    pick cs (r :: l) = pick cs l := if_neg (by omega)

theorem pick_right {cs : List Char} {l1 l2 : List Rule} (h : ∀ r ∈ l1, r.len cs < (pick cs l2).1) :
    pick cs (l1 ++ l2) = pick cs l2 := by
  induction l1 with
  | nil => rfl
  | cons r l1 ih =>
    have e := ih fun x hx => h x (by simp [hx])
    rw [List.cons_append, pick_cons_neg (by rw [e]; exact h r (by simp)), e]

theorem pick_left {cs : List Char} {l1 l2 : List Rule} (hne : l1 ≠ [])
    (h : (pick cs l2).1 ≤ (pick cs l1).1) : pick cs (l1 ++ l2) = pick cs l1 := by
  induction l1 with
  | nil => exact absurd rfl hne
  | cons r l1 ih =>
    rw [List.cons_append]
    by_cases h1 : (pick cs l1).1 ≤ r.len cs
    · rw [pick_cons_pos h1] at h
      rw [pick_cons_pos h1, pick_cons_pos]
      by_cases hl : l1 = []
      · subst hl; exact h
      · by_cases h2 : (pick cs l2).1 ≤ (pick cs l1).1
        · rw [ih hl h2]; exact h1
        · rw [pick_right]
          · exact h
          · intro x hx
            have := le_pick (cs := cs) hx
            omega
    · have h1 : r.len cs < (pick cs l1).1 := by omega
      rw [pick_cons_neg h1] at h
      have hl : l1 ≠ [] := by rintro rfl; simp [pick] at h1
      rw [pick_cons_neg h1, pick_cons_neg (by rw [ih hl h]; exact h1), ih hl h]

theorem pick_first {cs : List Char} {l1 l2 : List Rule} {r : Rule}
    (h1 : ∀ x ∈ l1, x.len cs < r.len cs) (h2 : ∀ x ∈ l2, x.len cs ≤ r.len cs) :
    pick cs (l1 ++ r :: l2) = (r.len cs, r.act, r.next) := by
  induction l1 with
  | nil => simp [pick, pick_le h2]
  | cons x l1 ih =>
    have hx := h1 x (by simp)
    rw [List.cons_append, pick, ih fun y hy => h1 y (by simp [hy])]
    rw [if_neg (by simp only; omega)]

theorem pick_unique {cs : List Char} {l : List Rule} {r : Rule} (hr : r ∈ l)
    (h : ∀ x ∈ l, x = r ∨ x.len cs < r.len cs) : pick cs l = (r.len cs, r.act, r.next) := by
  induction l with
  | nil => simp at hr
  | cons x l ih =>
    have hl : ∀ y ∈ l, y = r ∨ y.len cs < r.len cs := fun y hy => h y (by simp [hy])
    by_cases hm : r ∈ l
    · rw [pick, ih hm hl]
      rcases h x (by simp) with rfl | hx
      · simp
      · rw [if_neg (by simp only; omega)]
    · have : x = r := by
        rcases List.mem_cons.mp hr with rfl | h'
        · rfl
        · exact absurd h' hm
      subst this
      rw [pick, if_pos]
      apply pick_le
      intro y hy
      rcases hl y hy with rfl | h'
      · exact absurd hy hm
      · omega

/-! ## Fuel -/

/-- The default rule is active in every condition. -/
theorem pick_pos (tab : Table) (c : Cond) (cs : List Char) : 1 ≤ (pick cs (active tab c)).1 := by
  have : (⟨fun _ => true, fun _ => 1, fun _ => none, none⟩ : Rule) ∈ active tab c := by
    simp [active, rules, lastRules]
  exact le_pick this

theorem scanN_fuel (tab : Table) : ∀ (n m : ℕ) (c : Cond) (cs : List Char), cs.length ≤ n →
    cs.length ≤ m → scanN tab n c cs = scanN tab m c cs := by
  intro n
  induction n with
  | zero =>
    intro m c cs hn hm
    have : cs = [] := List.length_eq_zero_iff.mp (by omega)
    subst this
    cases m <;> rfl
  | succ n ih =>
    intro m c cs hn hm
    cases cs with
    | nil => cases m <;> rfl
    | cons x r =>
      cases m with
      | zero => simp at hm
      | succ m =>
        simp only [scanN]
        have hp := pick_pos tab c (x :: r)
        rw [ih m]
        · simp only [List.length_drop, List.length_cons] at *; omega
        · simp only [List.length_drop, List.length_cons] at *; omega

/-- Scanning to the end from a condition. -/
def scanFrom (tab : Table) (c : Cond) (cs : List Char) : List Token := scanN tab cs.length c cs

theorem scanFrom_nil (tab : Table) (c : Cond) : scanFrom tab c [] = [] := rfl

theorem scanFrom_step {tab : Table} {c : Cond} {cs : List Char} {k : ℕ}
    {f : List Char → Option Token} {nx : Option Cond} (hne : cs ≠ [])
    (h : pick cs (active tab c) = (k, f, nx)) :
    scanFrom tab c cs = (f (cs.take k)).toList ++ scanFrom tab (nx.getD c) (cs.drop k) := by
  cases cs with
  | nil => exact absurd rfl hne
  | cons x r =>
    have hp := pick_pos tab c (x :: r)
    rw [h] at hp
    simp only [scanFrom, List.length_cons, scanN, h]
    congr 1
    apply scanN_fuel
    · simp only [List.length_drop, List.length_cons] at *; omega
    · simp

/-- A match of `s` at the front. -/
theorem scanFrom_match {tab : Table} {c : Cond} {s r : List Char}
    {f : List Char → Option Token} {nx : Option Cond} (hne : s ≠ [])
    (h : pick (s ++ r) (active tab c) = (s.length, f, nx)) :
    scanFrom tab c (s ++ r) = (f s).toList ++ scanFrom tab (nx.getD c) r := by
  rw [scanFrom_step (by simp [hne]) h]
  simp

/-! ## The active rules -/

/-- The keyword rules. -/
def K : List Rule := keywords.map ofKeyword

theorem active_initial (tab : Table) : active tab .initial =
    ⟨Cond.inclusive, litLen [':'], fun _ => some .colon, some .expression⟩ :: (K ++ lastRules) := by
  rfl

theorem active_commentInit (tab : Table) : active tab .commentInit =
    ⟨(· == .commentInit), litLen [':'], fun _ => some .colon, some .comment⟩ ::
    ⟨Cond.inclusive, litLen [':'], fun _ => some .colon, some .expression⟩ :: (K ++ lastRules) := by
  rfl

theorem active_keyword (tab : Table) : active tab .keyword =
    ⟨(· == .keyword), litLen [':'], fun _ => some .colon, some .initial⟩ ::
    ⟨Cond.inclusive, litLen [':'], fun _ => some .colon, some .expression⟩ :: (K ++ lastRules) := by
  rfl

theorem active_string (tab : Table) : active tab .string =
    ⟨(· == .string), litLen [':'], fun _ => some .colon, none⟩ ::
    ⟨(· == .string), fun cs => (cs.takeWhile isGraph).length, fun s => some (.str s),
      some .initial⟩ ::
    ⟨Cond.inclusive, litLen [':'], fun _ => some .colon, some .expression⟩ :: (K ++ lastRules) := by
  rfl

theorem active_pole (tab : Table) : active tab .pole =
    ⟨(· == .pole), litLen [':'], fun _ => some .colon, none⟩ ::
    ⟨(· == .pole), litLen ['N'], fun _ => some (kw "N"), some .initial⟩ ::
    ⟨(· == .pole), litLen "NORTH".toList, fun _ => some (kw "N"), some .initial⟩ ::
    ⟨(· == .pole), litLen ['S'], fun _ => some (kw "S"), some .initial⟩ ::
    ⟨(· == .pole), litLen "SOUTH".toList, fun _ => some (kw "S"), some .initial⟩ ::
    ⟨Cond.inclusive, litLen [':'], fun _ => some .colon, some .expression⟩ :: (K ++ lastRules) := by
  rfl

theorem active_comment (tab : Table) : active tab .comment =
    [⟨(· == .comment), fun cs => (cs.takeWhile (· ≠ '\n')).length, fun s => some (.str s),
      some .initial⟩,
    ⟨fun _ => true, fun cs => if cs.head? = some '\n' then 0 else 1,
      fun _ => some (.ex .unmatched), none⟩,
    ⟨fun _ => true, fun _ => 1, fun _ => none, none⟩ ] := by
  rfl

theorem active_expression (tab : Table) : active tab .expression =
    (Calc.rules tab).map ofExpr ++
    [⟨fun _ => true, fun cs => if cs.head? = some '\n' then 0 else 1,
      fun _ => some (.ex .unmatched), none⟩,
    ⟨fun _ => true, fun _ => 1, fun _ => none, none⟩ ] := by
  rfl

/-! ## Literals -/

theorem litLen_le (w cs : List Char) : litLen w cs ≤ w.length := by
  simp only [litLen]; split <;> omega

theorem litLen_head {a c : Char} (w r : List Char) (h : a.toLower ≠ c.toLower) :
    litLen (a :: w) (c :: r) = 0 := by
  simp only [litLen]
  rw [if_neg]
  simp [h]

theorem litLen_same {w s : List Char} (r : List Char) (h : w.map Char.toLower = s.map Char.toLower) :
    litLen w (s ++ r) = s.length := by
  have hl : w.length = s.length := by simpa using congrArg List.length h
  simp only [litLen, hl, List.take_left, h, if_true]

/-- No literal reaches over a character it does not have. -/
theorem litLen_sep {w : List Char} (s r : List Char)
    (hr : ∀ c, r.head? = some c → ∀ x ∈ w, x.toLower ≠ c.toLower) :
    litLen w (s ++ r) = litLen w s := by
  simp only [litLen]
  by_cases hl : w.length ≤ s.length
  · rw [List.take_append_of_le_length hl]
  · have h1 : ¬ w.map Char.toLower = (s.take w.length).map Char.toLower := by
      intro h
      have := congrArg List.length h
      simp at this
      omega
    rw [if_neg h1, if_neg]
    intro h
    have hlen := congrArg List.length h
    simp only [List.length_map, List.length_take, List.length_append] at hlen
    cases r with
    | nil => simp at hlen; omega
    | cons c r =>
      have hc : c.toLower ∈ ((s ++ c :: r).take w.length).map Char.toLower := by
        apply List.mem_map_of_mem
        rw [List.mem_take_iff_getElem]
        refine ⟨s.length, ?_, by simp⟩
        simp; omega
      rw [← h, List.mem_map] at hc
      obtain ⟨x, hx, he⟩ := hc
      exact hr c rfl x hx he

theorem litLen_lt {w s : List Char} (r : List Char) (hs : s ≠ [])
    (hne : w.map Char.toLower ≠ s.map Char.toLower)
    (hr : ∀ c, r.head? = some c → ∀ x ∈ w, x.toLower ≠ c.toLower) :
    litLen w (s ++ r) < s.length := by
  rw [litLen_sep s r hr]
  have hpos : 0 < s.length := List.length_pos_iff.mpr hs
  simp only [litLen]
  split
  · rename_i h
    have hl := congrArg List.length h
    simp only [List.length_map, List.length_take] at hl
    rcases Nat.lt_or_ge w.length s.length with h' | h'
    · exact h'
    · rw [List.take_of_length_le h'] at h
      exact absurd h hne
  · exact hpos

/-! ## Keywords -/

/-- Characters that end a word. -/
def seps : List Char := [' ', '\t', '\n', '#', ':']

theorem keywords_seps : ∀ k ∈ keywords, ∀ x ∈ k.1.toList, ∀ c ∈ seps, x.toLower ≠ c.toLower := by
  decide +kernel

theorem keywords_ne : ∀ k ∈ keywords, k.1.toList ≠ [] := by decide +kernel

theorem keywords_nodup : (keywords.map fun k => k.1.toList.map Char.toLower).Nodup := by
  decide +kernel

/-- Before a separator no keyword matches. -/
theorem K_sep {c : Char} (hc : c ∈ seps) (r : List Char) : (pick (c :: r) K).1 ≤ 0 := by
  apply pick_le
  intro x hx
  simp only [K, List.mem_map] at hx
  obtain ⟨k, hk, rfl⟩ := hx
  have h1 := keywords_seps k hk
  have h2 := keywords_ne k hk
  simp only [ofKeyword]
  cases hw : k.1.toList with
  | nil => exact absurd hw h2
  | cons a w => rw [litLen_head w r (h1 a (by simp [hw]) c hc)]

/-- A keyword before a separator is matched as a whole. -/
theorem K_word {k : String × String × Option Cond} (hk : k ∈ keywords) {s r : List Char}
    (hs : SameWord k.1 s) (hr : ∀ c, r.head? = some c → c ∈ seps) :
    pick (s ++ r) K = (s.length, (fun _ => some (kw k.2.1)), k.2.2) := by
  have hne : s ≠ [] := by
    rintro rfl
    exact keywords_ne k hk (by simpa [SameWord] using hs)
  have hlen : (ofKeyword k).len (s ++ r) = s.length := litLen_same r hs
  have hu : ∀ x ∈ K, x = ofKeyword k ∨ x.len (s ++ r) < (ofKeyword k).len (s ++ r) := by
    intro x hx
    simp only [K, List.mem_map] at hx
    obtain ⟨k', hk', rfl⟩ := hx
    by_cases he : k'.1.toList.map Char.toLower = k.1.toList.map Char.toLower
    · left
      rw [List.inj_on_of_nodup_map keywords_nodup hk' hk he]
    · right
      rw [hlen]
      apply litLen_lt r hne
      · rw [← hs]; exact he
      · intro c hc x hx
        exact keywords_seps k' hk' x hx c (hr c hc)
  have hm : ofKeyword k ∈ K := List.mem_map_of_mem hk
  rw [pick_unique hm hu, hlen]
  rfl

end MaRC.Scan
