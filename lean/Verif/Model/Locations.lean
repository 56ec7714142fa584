import Verif.Model.Scanner

/-!
# Locations of tokens

Models how `src/lexer.ll` 40-50 keeps the lines and columns that
`src/parse.yy` 64-83 prints in messages about input files, with the counters of
a scanner generated with `%option yylineno` (`src/lexer.ll` 57).

Not modelled: the numbers are `int` in C++; files have fewer than 2^31 lines and
columns here.
-/

namespace MaRC.Scan

open MaRC.Calc (Table)

/-- `YYLTYPE`: what the parser is told about a match (`src/lexer.ll` 40-50). -/
structure Loc where
  firstLine : ℕ
  lastLine : ℕ
  /-- `int` in C++: `column - 1` is not negative where it is used. -/
  firstColumn : ℕ
  lastColumn : ℕ
  deriving DecidableEq, Repr

/-- Counters of the scanner, `yylineno` and `yycolumn`. -/
structure Counters where
  line : ℕ
  column : ℕ
  deriving DecidableEq, Repr

/-- `yylex_init` and the first buffer (`src/marc.cpp` 117-130): line 1, column 0. -/
def Counters.start : Counters := ⟨1, 0⟩

/-- What a generated scanner does before the action of a rule: each newline of
the matched text counts a line and puts the column back to 0.  `counted` is
false for rules it thinks have no newlines. -/
def Counters.count (k : Counters) (counted : Bool) (text : List Char) : Counters :=
  if counted && text.contains '\n' then ⟨k.line + text.count '\n', 0⟩ else k

/-- `YY_USER_ACTION` (`src/lexer.ll` 40-50): the location of a match and the
column afterwards. -/
def userAction (k : Counters) (text : List Char) : Loc × Counters :=
  let last := k.column + text.length
  (⟨k.line, k.line, if k.column = 0 then 1 else k.column - 1, last⟩, ⟨k.line, last⟩)

/-- One match: its text, the token returned for it, if any, and its location;
`echoed` tells whether Flex's default rule matched it. -/
structure Match where
  text : List Char
  tok : Option Token
  loc : Loc
  echoed : Bool
  deriving DecidableEq

/-- At most `n` matches as in `scanN`.  Flex's default rule applies to newlines
right behind the colon of `AUTHOR`, `ORIGIN`, `COMMENT` and `XCOMMENT`, where
`[^\n]*` matches nothing (`src/lexer.ll` 75); everything else is matched by a
rule of the file.  `eol` tells whether the generated scanner counts the newlines
of its default rule, which is up to Flex. -/
def matchesN (tab : Table) (eol : Bool) : ℕ → Cond → Counters → List Char → List Match
  | 0, _, _, _ => []
  | _ + 1, _, _, [] => []
  | n + 1, c, k, x :: r =>
    let p := pick (x :: r) (active tab c)
    let text := (x :: r).take p.1
    let echoed := decide (c = .comment) && decide (x = '\n')
    let u := userAction (k.count (eol || !echoed) text) text
    ⟨text, p.2.1 text, u.1, echoed⟩ ::
      matchesN tab eol n (p.2.2.getD c) u.2 ((x :: r).drop p.1)

/-- All matches of an input file. -/
def allMatches (tab : Table) (eol : Bool) (cs : List Char) : List Match :=
  matchesN tab eol cs.length .initial .start cs

/-- The location the parser reports for the end of the input: nothing is
matched there, so it keeps the one of the last match; Bison begins with line 1,
column 1. -/
def endLoc (ms : List Match) : Loc := (ms.getLast?.map (·.loc)).getD ⟨1, 1, 1, 1⟩

end MaRC.Scan
