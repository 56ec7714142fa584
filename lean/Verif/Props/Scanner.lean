import Verif.Lemmas.ScannerItems

/-!
# C86: how input files are read

The text of an input file is read as the entries written in it, whatever the
case of the letters of its keywords and however blanks, line breaks and
comments are put between them.  `Written` in `Verif.Spec.InputFile` says how
entries may be written.
-/

namespace MaRC.Props

open MaRC.Scan MaRC.InputFile
open MaRC.Calc (Tok symrec)

/-- Every way of writing a list of entries is read as the tokens of these
entries, in their order. -/
theorem C86_layout {items : List Item} {text : List Char} (h : Written items text) :
    scan symrec text = items.flatMap Item.tokens :=
  scanFrom_written h

/-- A few entries with comments, tabs and letters of both cases. -/
example : Written
    [.name "MAP" "a.fits".toList, .text "COMMENT" "A # b".toList, .mark "ROTATION",
     .word "PROGRADE", .expr "SUB_OBSERV_LON" [.num "15.2".toList, .kw "E"], .pole true]
    (([] ++ ("Map".toList ++ [] ++ ':' :: '\t' :: ([] ++ "a.fits".toList))) ++
      ((' ' :: ('#' :: " one".toList ++ '\n' :: [])) ++ ("COMMENT".toList ++ [] ++
        ':' :: "A # b".toList) ++
      (['\n'] ++ ("rotation".toList ++ [' '] ++ [':']) ++
      (['\t'] ++ "Prograde".toList ++
      (['\n'] ++ ("SUB_OBSERV_LON".toList ++ [] ++
        ':' :: ("\t".toList ++ "15.2".toList ++ ([' '] ++ ['e'] ++ ([' '] ++ '#' :: " x".toList)))) ++
      (['\n'] ++ ("POLE".toList ++ [] ++ ':' :: ([' '] ++ "north".toList)) ++
      ([' '] ++ '#' :: " end".toList))))))) := by
  refine .cons .nil (.name (by decide) (by decide) .nil (by decide) .nil (by decide) (by decide)
    (by decide) (by decide)) (by simp [Follows]) ?_
  refine .cons (.blank (by decide) (.note (by decide) .nil))
    (.text (by decide) (by decide) .nil (by decide) (by decide)) (by simp [Follows]) ?_
  refine .cons (.blank (by decide) .nil)
    (.mark (by decide) (by decide) (.blank (by decide) .nil)) trivial ?_
  refine .cons (.blank (by decide) .nil) (.word (by decide) (by decide)) (by simp [Follows]) ?_
  refine .cons (.blank (by decide) .nil) (.expr (by decide) (by decide) .nil (.cons (by decide)
    ⟨rfl, [], "15".toList, ".2".toList, [], by decide, by decide, by decide,
      .inr ⟨"2".toList, by decide, by decide, by decide⟩, by decide, .inl rfl⟩
    (.cons (by decide) ⟨by decide, by decide⟩ (.nil (by decide) (.inr ⟨" x".toList, rfl, by decide⟩))
      (.inr (.inl ⟨' ', '#' :: " x".toList, rfl, .inl rfl⟩)))
    (.inr (.inl ⟨' ', 'e' :: ([' '] ++ '#' :: " x".toList), rfl, .inl rfl⟩)))) (by simp [Follows]) ?_
  refine .cons (.blank (by decide) .nil) (.pole (w := "NORTH") (by decide) .nil
    (.blank (by decide) .nil) (by decide) (by decide)) (by simp [Follows]) ?_
  exact .nil (.blank (by decide) .nil) (.inr ⟨" end".toList, rfl, by decide⟩)

/-- An expression with operators and a function, without blanks. -/
example : Written
    [.expr "HI_LAT" [.num "-8".toList, .times, .fnct "sqrt", .lpar, .num "4".toList, .rpar]]
    ([] ++ ("HI_LAT".toList ++ [] ++ ':' :: ([] ++ "-8".toList ++ ([] ++ ['*'] ++ ([] ++
      "sqrt".toList ++ ([] ++ ['('] ++ ([] ++ ['4'] ++ ([] ++ [')'] ++ ([] ++ [])))))))) ++
      (['\n'] ++ [])) := by
  refine .cons .nil (.expr (by decide) (by decide) .nil (.cons (by decide)
    ⟨rfl, ['-'], ['8'], [], [], by decide, by decide, by decide, .inl rfl, by decide, .inl rfl⟩
    (.cons (by decide) rfl (.cons (by decide) (by simp [Spells]) (.cons (by decide) rfl
      (.cons (by decide) ⟨rfl, [], ['4'], [], [], by decide, by decide, by decide, .inl rfl,
        by decide, .inl rfl⟩ (.cons (by decide) rfl (.nil (by decide) (.inl rfl)) (.inl rfl))
      (.inr (.inr ⟨_, rfl, trivial⟩))) (.inr (.inr ⟨_, rfl, trivial⟩)))
      (.inr (.inr ⟨_, rfl, trivial⟩))) (.inr (.inr ⟨_, rfl, trivial⟩)))
    (.inr (.inr ⟨_, rfl, trivial⟩)))) (by simp [Follows]) ?_
  exact .nil (.blank (by decide) .nil) (.inl rfl)

/-- The first lines of `doc/examples/101.inp`. -/
example : scan symrec ("MAP:\tMAP_101c.fits   # An input file comment.\n" ++
      "COMMENT:A map comment to be placed in the FITS primary image.\n" ++
      "\tBODY:\tJupiter\t\t\t# This is an end of line comment.\n" ++
      "  # This is a one line comment.\n\t\tEQ_RAD:\t\t71492 # Kilometers\n").toList =
    [Item.name "MAP" "MAP_101c.fits".toList,
      .text "COMMENT" "A map comment to be placed in the FITS primary image.".toList,
      .name "BODY" "Jupiter".toList, .expr "EQ_RAD" [.num "71492".toList]].flatMap Item.tokens := by
  decide +kernel

/-- The manual says that comments may be placed anywhere, and that what follows
`#` is ignored.  A comment of one word before a name is taken as the name. -/
theorem C86_note_violated :
    scan symrec "MAP: #old\n jupiter.fits\n".toList ≠
      (Item.name "MAP" "jupiter.fits".toList).tokens ∧
    scan symrec "MAP: #old\n jupiter.fits\n".toList =
      (Item.name "MAP" "#old".toList).tokens ++
        List.replicate "jupiter.fits".length (.ex .unmatched) := by
  decide +kernel

/-- A name right after the colon, without a blank, takes the colon in. -/
theorem C86_tight_violated :
    scan symrec "MAP:jupiter.fits\n".toList ≠ (Item.name "MAP" "jupiter.fits".toList).tokens ∧
    scan symrec "MAP:jupiter.fits\n".toList = [tokenOf "MAP", .str ":jupiter.fits".toList] := by
  decide +kernel

/-- An empty text takes the next line of the input file. -/
theorem C86_empty_text_violated :
    scan symrec "AUTHOR:\nBODY: Jupiter\n".toList ≠
      (Item.text "AUTHOR" []).tokens ++ (Item.name "BODY" "Jupiter".toList).tokens ∧
    scan symrec "AUTHOR:\nBODY: Jupiter\n".toList =
      (Item.text "AUTHOR" "BODY: Jupiter".toList).tokens := by
  decide +kernel

/-- Although the scanner ignores case, the names of functions do not: in upper
case they are not known. -/
theorem C86_function_case_violated :
    scan symrec "SAMPLES: SQRT(4)\n".toList ≠
      (Item.expr "SAMPLES" [.fnct "sqrt", .lpar, .num ['4'], .rpar]).tokens ∧
    .ex .unmatched ∈ scan symrec "SAMPLES: SQRT(4)\n".toList := by
  decide +kernel

/-- Carriage returns before line breaks, as written on some systems, are not
read as blanks. -/
theorem C86_crlf_violated :
    scan symrec "SAMPLES: 4\r\nLINES: 2\r\n".toList ≠
      (Item.expr "SAMPLES" [.num ['4']]).tokens ++ (Item.expr "LINES" [.num ['2']]).tokens ∧
    .ex .unmatched ∈ scan symrec "SAMPLES: 4\r\nLINES: 2\r\n".toList := by
  decide +kernel

end MaRC.Props
