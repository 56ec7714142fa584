import Verif.Spec.Locations
import Verif.Lemmas.Locations

/-!
# C99: messages name the line of the token they are about

`m.loc` is what the parser gets for a match and prints in front of a message
(`src/parse.yy` 78-82): `firstLine` and `firstColumn`.  `eol` says whether the
scanner Flex generates counts the newlines of its default rule; here these are
newlines right behind the colon of a header keyword.
-/

namespace MaRC.Scan

open MaRC.Calc (Table symrec)
open MaRC.LocSpec

/-- The matches of a file are its text, cut into pieces, and their tokens are
those of the file: what the other theorems say about the matches before a token
is about the text before it. -/
theorem C99_matches (tab : Table) (eol : Bool) (cs : List Char) :
    (allMatches tab eol cs).flatMap (·.text) = cs ∧
      (allMatches tab eol cs).filterMap (·.tok) = scan tab cs :=
  ⟨matchesN_texts tab eol _ _ _ cs le_rfl, matchesN_tokens tab eol _ _ _ cs⟩

/-- **C99.** Every token is reported on the line it stands on, if the generated
scanner counts all newlines or no line of the file ends with a colon. -/
theorem C99_line (tab : Table) (eol : Bool) (cs : List Char)
    (h : eol = true ∨ NoBareColon cs) (before after : List Match) (m : Match)
    (hm : allMatches tab eol cs = before ++ m :: after) (ht : m.tok ≠ none) :
    m.loc.firstLine = lineAfter (before.flatMap (·.text)) ∧
      m.loc.lastLine = m.loc.firstLine := by
  obtain ⟨e1, e2⟩ := matchesN_line tab eol _ _ _ _ before after m hm
  refine ⟨?_, e2⟩
  have hf := matchesN_flat tab eol _ _ _ _ m (by rw [show matchesN tab eol _ _ _ _ = _ from hm]; simp) ht
  rw [e1, lines_eq]
  · simp only [texts, List.flatMap_append, List.count_append, List.flatMap_cons, List.flatMap_nil,
      List.append_nil, List.count_eq_zero_of_not_mem hf, lineAfter, Counters.start]
    omega
  · refine h.imp_right fun h' w hw => ?_
    refine matchesN_echoed tab eol cs.length .initial .start cs h' (by simp) w ?_
    rw [show matchesN tab eol _ _ _ _ = _ from hm]
    simp only [List.mem_append, List.mem_cons, List.not_mem_nil, or_false] at hw ⊢
    tauto

/-- **C99.** What is missing at the end of a file is reported on its last
line. -/
theorem C99_end (tab : Table) (eol : Bool) (cs : List Char) (h : eol = true ∨ NoBareColon cs) :
    (endLoc (allMatches tab eol cs)).firstLine = lineAfter cs := by
  have hc := matchesN_texts tab eol cs.length .initial .start cs le_rfl
  rcases List.eq_nil_or_concat (allMatches tab eol cs) with e | ⟨a, m, e⟩
  · rw [e]
    rw [show matchesN tab eol _ _ _ _ = _ from e] at hc
    rw [← hc]
    rfl
  · rw [List.concat_eq_append] at e
    obtain ⟨e1, -⟩ := matchesN_line tab eol _ _ _ _ a [] m e
    rw [show matchesN tab eol _ _ _ _ = _ from e] at hc
    rw [e]
    simp only [endLoc, List.getLast?_append, List.getLast?_singleton, Option.some_or,
      Option.map_some, Option.getD_some]
    rw [e1, lines_eq, hc]
    · simp only [lineAfter, Counters.start]; omega
    · refine h.imp_right fun h' w hw => ?_
      exact matchesN_echoed tab eol cs.length .initial .start cs h' (by simp) w
        (by rw [show matchesN tab eol _ _ _ _ = _ from e]; exact hw)

/-- **C99, columns, what holds.** A token at the start of the file is reported
in its column. -/
theorem C99_column_partial (tab : Table) (eol : Bool) (cs : List Char) (after : List Match)
    (m : Match) (hm : allMatches tab eol cs = m :: after) (ht : m.tok ≠ none) :
    m.loc.firstColumn = columnAfter [] := by
  have hf := matchesN_flat tab eol _ _ _ _ m (by rw [show matchesN tab eol _ _ _ _ = _ from hm]; simp) ht
  rw [matchesN_column tab eol _ _ _ _ [] after m hm (by simp [texts]) hf]
  rfl

theorem columnAfter_flat {s : List Char} (h : '\n' ∉ s) : columnAfter s = s.length + 1 := by
  simp only [columnAfter]
  rw [← List.append_nil s.reverse, List.takeWhile_append_of_pos]
  · simp
  · intro x hx
    simp only [decide_eq_true_eq]
    rintro rfl
    exact h (List.mem_reverse.mp hx)

theorem columnAfter_newline (a : List Char) {s : List Char} (h : '\n' ∉ s) :
    columnAfter (a ++ '\n' :: s) = s.length + 1 := by
  simp only [columnAfter, List.reverse_append, List.reverse_cons, List.append_assoc]
  rw [List.takeWhile_append_of_pos]
  · simp
  · intro x hx
    simp only [decide_eq_true_eq]
    rintro rfl
    exact h (List.mem_reverse.mp hx)

/-- **C99, columns.** All other tokens of the first line are reported two
columns before the one they stand in: `lexer.ll` 47 takes the 0-based column of
the token for the 1-based column behind it. -/
theorem C99_column_violated (tab : Table) (eol : Bool) (cs : List Char)
    (before after : List Match) (m : Match)
    (hm : allMatches tab eol cs = before ++ m :: after) (ht : m.tok ≠ none)
    (h0 : before.flatMap (·.text) ≠ []) (h1 : '\n' ∉ before.flatMap (·.text)) :
    (m.loc.firstColumn : ℤ) = columnAfter (before.flatMap (·.text)) - 2 := by
  have hf := matchesN_flat tab eol _ _ _ _ m (by rw [show matchesN tab eol _ _ _ _ = _ from hm]; simp) ht
  rw [matchesN_column tab eol _ _ _ _ before after m hm h1 hf, columnAfter_flat h1]
  have hl : 0 < (before.flatMap (·.text)).length := List.length_pos_of_ne_nil h0
  simp only [Counters.start, texts, Nat.zero_add]
  rw [if_neg (by omega)]
  omega

/-- **C99, columns.** On later lines a token is reported one column before the
one it stands in, if the line before ends right behind what was matched there:
`w` is the newline with the indentation of the line. -/
theorem C99_indented_violated (tab : Table) (eol : Bool) (cs indent : List Char)
    (before line after : List Match) (w m : Match)
    (hm : allMatches tab eol cs = before ++ w :: line ++ m :: after) (ht : m.tok ≠ none)
    (hw : w.text = '\n' :: indent) (he : w.echoed = false) (hi : '\n' ∉ indent)
    (hl : '\n' ∉ line.flatMap (·.text)) :
    (m.loc.firstColumn : ℤ) =
      columnAfter ((before ++ w :: line).flatMap (·.text)) - 1 := by
  have hf := matchesN_flat tab eol _ _ _ _ m (by rw [show matchesN tab eol _ _ _ _ = _ from hm]; simp) ht
  obtain ⟨n', c', k', cs', e, -⟩ := matchesN_tail tab eol _ _ _ _ before (line ++ m :: after) w
    (by rw [show matchesN tab eol _ _ _ _ = _ from hm]; simp)
  rw [matchesN_newline tab eol n' c' k' cs' line after w m (by rw [e]; rfl) (by simp [hw])
    (by simp [he]) hl hf]
  have hs : '\n' ∉ indent ++ line.flatMap (·.text) := by
    simp only [List.mem_append, not_or]; exact ⟨hi, hl⟩
  have : (before ++ w :: line).flatMap (·.text) =
      before.flatMap (·.text) ++ '\n' :: (indent ++ line.flatMap (·.text)) := by
    simp [hw]
  rw [this, columnAfter_newline _ hs]
  simp only [hw, List.length_cons, List.length_append, texts]
  omega

/-- A file for the examples. -/
def sample : List Char := "MAP: a.fits\n  LINES: 5\n".toList

/-- `LINES` stands in line 2, column 3; line 2, column 2 is reported.  The colon
of line 1 stands in column 4; column 2 is reported. -/
example : (allMatches symrec true sample).map (fun m => (m.tok, m.loc.firstLine, m.loc.firstColumn))
    = [(some (kw "MAP"), 1, 1), (some .colon, 1, 2), (none, 1, 3),
       (some (.str "a.fits".toList), 1, 4), (none, 2, 1), (some (kw "LINES"), 2, 2),
       (some .colon, 2, 7), (none, 2, 8), (some (.ex (.num ['5'])), 2, 9), (none, 3, 1)] := by
  decide +kernel

example : NoBareColon sample := by
  have : ¬ [':', '\n'] <:+: sample := by decide +kernel
  exact this

example : lineAfter "MAP: a.fits\n  ".toList = 2 ∧ columnAfter "MAP: a.fits\n  ".toList = 3 := by
  decide +kernel

/-- **C99, lines behind empty comments.** If the generated scanner does not
count the newlines of its default rule, tokens behind an empty header comment are
reported on a line too early: here `MAP` stands in line 3. -/
theorem C99_line_violated :
    ∃ before m after, allMatches symrec false "COMMENT:\nx\nMAP".toList = before ++ m :: after ∧
      m.tok = some (kw "MAP") ∧ lineAfter (before.flatMap (·.text)) = 3 ∧ m.loc.firstLine = 2 := by
  refine ⟨(allMatches symrec false "COMMENT:\nx\nMAP".toList).take 5,
    ⟨"MAP".toList, some (kw "MAP"), ⟨2, 2, 0, 4⟩, false⟩, [], ?_, rfl, ?_, rfl⟩ <;>
    decide +kernel

end MaRC.Scan
