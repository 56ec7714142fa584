import Verif.Spec.Header

/-! Lemmas on headers. -/

namespace MaRC.Execute

open MapParams

theorem valueOf_updateKey (k n : String) (v : Value) (h : List Card) :
    valueOf k (updateKey n v h) = if k = n then some v else valueOf k h := by
  induction h with
  | nil => by_cases e : k = n <;> simp [updateKey, valueOf, e, eq_comm]
  | cons c cs ih =>
    cases c with
    | key m w =>
      simp only [updateKey, Card.isKey]
      by_cases e : m = n
      · subst e
        simp only [beq_self_eq_true, if_true, valueOf]
        by_cases e' : m = k
        · simp [e']
        · simp [e', Ne.symm e']
      · simp only [beq_iff_eq, e, if_false, valueOf, ih]
        by_cases e' : m = k
        · subst e'; simp [e]
        · simp [e']
    | comment s => simpa [updateKey, Card.isKey, valueOf] using ih
    | history s => simpa [updateKey, Card.isKey, valueOf] using ih

theorem commentsOf_updateKey (n : String) (v : Value) (h : List Card) :
    commentsOf (updateKey n v h) = commentsOf h := by
  induction h with
  | nil => rfl
  | cons c cs ih =>
    cases c with
    | key m w => simp only [updateKey]; split_ifs <;> simp [commentsOf, ih]
    | comment s => simpa [updateKey, Card.isKey, commentsOf] using ih
    | history s => simpa [updateKey, Card.isKey, commentsOf] using ih

theorem historiesOf_updateKey (n : String) (v : Value) (h : List Card) :
    historiesOf (updateKey n v h) = historiesOf h := by
  induction h with
  | nil => rfl
  | cons c cs ih =>
    cases c with
    | key m w => simp only [updateKey]; split_ifs <;> simp [historiesOf, ih]
    | comment s => simpa [updateKey, Card.isKey, historiesOf] using ih
    | history s => simpa [updateKey, Card.isKey, historiesOf] using ih

theorem valueOf_append_comment (k s : String) (h : List Card) :
    valueOf k (addComment s h) = valueOf k h := by
  unfold addComment
  induction h with
  | nil => rfl
  | cons c cs ih => cases c <;> simp [valueOf, ih]

theorem valueOf_append_history (k : String) (n : Note) (h : List Card) :
    valueOf k (addHistory n h) = valueOf k h := by
  unfold addHistory
  induction h with
  | nil => rfl
  | cons c cs ih => cases c <;> simp [valueOf, ih]

theorem commentsOf_append_comment (s : String) (h : List Card) :
    commentsOf (addComment s h) = commentsOf h ++ [s] := by
  unfold addComment
  induction h with
  | nil => rfl
  | cons c cs ih => cases c <;> simp [commentsOf, ih]

theorem commentsOf_append_history (n : Note) (h : List Card) :
    commentsOf (addHistory n h) = commentsOf h := by
  unfold addHistory
  induction h with
  | nil => rfl
  | cons c cs ih => cases c <;> simp [commentsOf, ih]

theorem historiesOf_append_comment (s : String) (h : List Card) :
    historiesOf (addComment s h) = historiesOf h := by
  unfold addComment
  induction h with
  | nil => rfl
  | cons c cs ih => cases c <;> simp [historiesOf, ih]

theorem historiesOf_append_history (n : Note) (h : List Card) :
    historiesOf (addHistory n h) = historiesOf h ++ [n] := by
  unfold addHistory
  induction h with
  | nil => rfl
  | cons c cs ih => cases c <;> simp [historiesOf, ih]

theorem valueOf_updateStr (k n s : String) (h : List Card) :
    valueOf k (updateStr n s h) = if k = n ∧ s ≠ "" then some (.str s) else valueOf k h := by
  unfold updateStr
  split_ifs <;> simp_all [valueOf_updateKey]

theorem commentsOf_updateStr (n s : String) (h : List Card) :
    commentsOf (updateStr n s h) = commentsOf h := by
  unfold updateStr; split_ifs <;> simp [commentsOf_updateKey]

theorem historiesOf_updateStr (n s : String) (h : List Card) :
    historiesOf (updateStr n s h) = historiesOf h := by
  unfold updateStr; split_ifs <;> simp [historiesOf_updateKey]

theorem valueOf_updateReal (k n : String) (x : Dbl) (h : List Card) :
    valueOf k (updateReal n x h) =
      if k = n ∧ x.isNaN = false then some (.real x) else valueOf k h := by
  unfold updateReal
  split_ifs <;> simp_all [valueOf_updateKey]

theorem commentsOf_updateReal (n : String) (x : Dbl) (h : List Card) :
    commentsOf (updateReal n x h) = commentsOf h := by
  unfold updateReal; split_ifs <;> simp [commentsOf_updateKey]

theorem historiesOf_updateReal (n : String) (x : Dbl) (h : List Card) :
    historiesOf (updateReal n x h) = historiesOf h := by
  unfold updateReal; split_ifs <;> simp [historiesOf_updateKey]

theorem valueOf_updateBlank (k : String) (T : MapType) (b : Option ℤ) (h : List Card)
    (hk : k ≠ "BLANK") : valueOf k (updateBlank T b h) = valueOf k h := by
  unfold updateBlank; split <;> simp [valueOf_updateKey, hk]

theorem commentsOf_updateBlank (T : MapType) (b : Option ℤ) (h : List Card) :
    commentsOf (updateBlank T b h) = commentsOf h := by
  unfold updateBlank; split <;> simp [commentsOf_updateKey]

theorem historiesOf_updateBlank (T : MapType) (b : Option ℤ) (h : List Card) :
    historiesOf (updateBlank T b h) = historiesOf h := by
  unfold updateBlank; split <;> simp [historiesOf_updateKey]

theorem updateExtremum_eq (T : MapType) (n : String) (v : Dbl) (h : List Card) :
    updateExtremum T n (some v) h = updateKey n (numValue T v) h := by
  cases hT : T.isIntegral <;> cases v <;> simp [updateExtremum, numValue, hT]

theorem valueOf_updateExtremum (k : String) (T : MapType) (n : String) (v : Option Dbl)
    (h : List Card) : valueOf k (updateExtremum T n v h) =
      if k = n ∧ v.isSome then v.map (numValue T) else valueOf k h := by
  cases v with
  | none => simp [updateExtremum]
  | some v => rw [updateExtremum_eq, valueOf_updateKey]; simp

theorem commentsOf_updateExtremum (T : MapType) (n : String) (v : Option Dbl)
    (h : List Card) : commentsOf (updateExtremum T n v h) = commentsOf h := by
  cases v with
  | none => rfl
  | some v => rw [updateExtremum_eq, commentsOf_updateKey]

theorem historiesOf_updateExtremum (T : MapType) (n : String) (v : Option Dbl)
    (h : List Card) : historiesOf (updateExtremum T n v h) = historiesOf h := by
  cases v with
  | none => rfl
  | some v => rw [updateExtremum_eq, historiesOf_updateKey]

theorem valueOf_comments (k : String) (ss : List String) (h : List Card) :
    valueOf k (ss.foldl (fun h s => addComment s h) h) = valueOf k h := by
  induction ss generalizing h with
  | nil => rfl
  | cons s ss ih => rw [List.foldl_cons, ih, valueOf_append_comment]

theorem commentsOf_comments (ss : List String) (h : List Card) :
    commentsOf (ss.foldl (fun h s => addComment s h) h) = commentsOf h ++ ss := by
  induction ss generalizing h with
  | nil => simp
  | cons s ss ih => rw [List.foldl_cons, ih, commentsOf_append_comment]; simp

theorem historiesOf_comments (ss : List String) (h : List Card) :
    historiesOf (ss.foldl (fun h s => addComment s h) h) = historiesOf h := by
  induction ss generalizing h with
  | nil => rfl
  | cons s ss ih => rw [List.foldl_cons, ih, historiesOf_append_comment]

theorem valueOf_imageFacts (F : Fp) (p : Params) (b : ℤ) (i n : ℕ) (v : Option VirtualImage)
    (h : List Card) (k : String) (h1 : k ≠ "BUNIT") (h2 : k ≠ "BSCALE") (h3 : k ≠ "BZERO") :
    valueOf k (imageFacts F p b i n v h) = valueOf k h := by
  unfold imageFacts
  cases v with
  | none => rfl
  | some v =>
    simp only
    by_cases hb : b < 0
    · rw [if_pos hb]
    · rw [if_neg hb]
      by_cases hn : n = 1
      · rw [if_pos hn]; simp [valueOf_updateReal, valueOf_updateStr, h1, h2, h3]
      · rw [if_neg hn]; simp [valueOf_append_history, valueOf_updateStr, h1]

theorem commentsOf_imageFacts (F : Fp) (p : Params) (b : ℤ) (i n : ℕ) (v : Option VirtualImage)
    (h : List Card) : commentsOf (imageFacts F p b i n v h) = commentsOf h := by
  unfold imageFacts
  cases v with
  | none => rfl
  | some v =>
    simp only
    by_cases hb : b < 0
    · rw [if_pos hb]
    · rw [if_neg hb]
      by_cases hn : n = 1
      · rw [if_pos hn]; simp [commentsOf_updateReal, commentsOf_updateStr]
      · rw [if_neg hn]; simp [commentsOf_append_history, commentsOf_updateStr]

end MaRC.Execute
