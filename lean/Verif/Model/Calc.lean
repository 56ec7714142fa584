import Verif.Model.Num

/-!
# Symbol table, expression scanner and calculator

Models `src/calc.cpp`, the `expression` start condition of `src/lexer.ll` and
the `expr` rules of `src/parse.yy`.
-/

namespace MaRC.Calc

/-- Symbol table entry: a variable with its value or a function, which is
identified by the name of the C function (`src/calc.h` 24-62). -/
inductive SymEntry where
  | var (v : Dbl)
  | fnct (f : String)
  deriving DecidableEq, Repr

/-- The symbol table `std::map<std::string, sym_entry>` (`src/calc.h` 76),
as an association list without repeated keys. -/
abbrev Table := List (String × SymEntry)

/-- `symrec::getsym` (`src/calc.cpp` 79-88): `none` is the null pointer. -/
def getsym (t : Table) (name : String) : Option SymEntry :=
  match t with
  | [] => none
  | (k, e) :: r => if k = name then some e else getsym r name

/-- `std::map::emplace`: nothing is inserted when the key is present. -/
def emplace (t : Table) (name : String) (e : SymEntry) : Table :=
  match getsym t name with
  | some _ => t
  | none => (name, e) :: t

/-- `symrec::putsym` (`src/calc.cpp` 66-77). -/
def putsym (t : Table) (name : String) : Table := emplace t name (.var (.fin 0))

/-- `arith_fncts` (`src/calc.cpp` 47-58): name in input files and C function. -/
def arithFncts : List (String × String) :=
  [("sin", "sin"), ("cos", "cos"), ("tan", "tan"), ("asin", "asin"),
   ("acos", "acos"), ("atan", "atan"), ("ln", "log"), ("exp", "exp"),
   ("sqrt", "sqrt")]

/-- `symrec::symrec` (`src/calc.cpp` 35-64). -/
def symrec : Table :=
  arithFncts.foldl (fun t i => emplace t i.1 (.fnct i.2)) []

/-- Tokens returned in the `expression` start condition (`src/lexer.ll`
95-156). -/
inductive Tok where
  | num (s : List Char)
  | var (name : String)
  | fnct (f : String)
  | eq | plus | minus | times | divide | caret | lpar | rpar
  /-- `C G N S E W AU KM CW CCW AUTO TABLE`. -/
  | kw (w : String)
  | unmatched
  deriving DecidableEq, Repr

/-- Length of `[-+]?`. -/
def signLen : List Char → ℕ
  | c :: _ => if c = '-' ∨ c = '+' then 1 else 0
  | [] => 0

/-- Length of `[[:digit:]]*`. -/
def digitsLen (cs : List Char) : ℕ := (cs.takeWhile Char.isDigit).length

/-- Length of `("."[[:digit:]]*)?`. -/
def fracLen : List Char → ℕ
  | c :: r => if c = '.' then 1 + digitsLen r else 0
  | [] => 0

/-- Length of `(E[-+]?[[:digit:]]{1,3})?` (the scanner ignores case,
`src/lexer.ll` 55). -/
def expLen : List Char → ℕ
  | c :: r =>
    if c = 'E' ∨ c = 'e' then
      let s := signLen r
      let d := min 3 (digitsLen (r.drop s))
      if d = 0 then 0 else 1 + s + d
    else 0
  | [] => 0

/-- Longest match of the number pattern (`src/lexer.ll` 118); zero when there
is none.  Every part is optional and taken as far as possible, which is the
longest match for this pattern. -/
def numLen (cs : List Char) : ℕ :=
  let a := signLen cs
  let b := a + digitsLen (cs.drop a)
  let c := b + fracLen (cs.drop b)
  c + expLen (cs.drop c)

/-- Longest match of `[[:alpha:]]+[[:digit:]]*` (`src/lexer.ll` 124). -/
def identLen (cs : List Char) : ℕ :=
  let a := (cs.takeWhile Char.isAlpha).length
  if a = 0 then 0 else a + digitsLen (cs.drop a)

/-- Match of a literal, ignoring case. -/
def litLen : List Char → List Char → ℕ
  | w, cs => if w.map Char.toLower = (cs.take w.length).map Char.toLower then w.length else 0

/-- What a matched scanner rule does. -/
inductive Action where
  /-- Discard the text and go on. -/
  | skip
  /-- Return a token and stay in the start condition. -/
  | tok (f : List Char → Tok)
  /-- Return a token and leave the start condition. -/
  | last (t : Tok)
  /-- Leave the start condition without a token (end of line). -/
  | stop

/-- One scanner rule: length of its longest match and its action. -/
structure Rule where
  len : List Char → ℕ
  act : Action

/-- A rule for a literal token. -/
def lit (w : String) (t : Tok) : Rule := ⟨litLen w.toList, .tok fun _ => t⟩

/-- The identifier action (`src/lexer.ll` 124-146): an unknown name is
`UNMATCHED`, a known one is a variable or a function. -/
def identTok (tab : Table) (s : List Char) : Tok :=
  match getsym tab (String.ofList s) with
  | none => .unmatched
  | some (.var _) => .var (String.ofList s)
  | some (.fnct f) => .fnct f

/-- The rules of the `expression` start condition in file order
(`src/lexer.ll` 96-156). -/
def rules (tab : Table) : List Rule :=
  [ ⟨fun cs => if cs.head? = some '#' then (cs.takeWhile (· ≠ '\n')).length else 0, .skip⟩,
    ⟨fun cs => (cs.takeWhile fun c => c = ' ' ∨ c = '\t').length, .skip⟩,
    ⟨litLen "AUTO".toList, .last (.kw "AUTO")⟩,
    ⟨litLen "TABLE".toList, .last (.kw "TABLE")⟩,
    lit "=" .eq, lit "+" .plus, lit "-" .minus, lit "*" .times, lit "/" .divide,
    lit "^" .caret, lit "(" .lpar, lit ")" .rpar,
    lit "C" (.kw "C"), lit "G" (.kw "G"), lit "N" (.kw "N"), lit "S" (.kw "S"),
    lit "E" (.kw "E"), lit "W" (.kw "W"), lit "AU" (.kw "AU"), lit "KM" (.kw "KM"),
    lit "CW" (.kw "CW"), lit "CCW" (.kw "CCW"),
    ⟨numLen, .tok .num⟩,
    ⟨identLen, .tok (identTok tab)⟩,
    ⟨fun cs => if cs.head? = some '\n' then 0 else 1, .last .unmatched⟩,
    ⟨fun _ => 1, .stop⟩ ]

/-- Flex picks the longest match and, among equals, the first rule. -/
def pick (cs : List Char) : List Rule → ℕ × Action
  | [] => (0, .stop)
  | r :: rs => if (pick cs rs).1 ≤ r.len cs then (r.len cs, r.act) else pick cs rs

/-- Run the action of the matched rule; `go` scans what follows. -/
def act (go : List Char → List Tok) (cs : List Char) : ℕ × Action → List Tok
  | (k, .skip) => go (cs.drop k)
  | (k, .tok f) => f (cs.take k) :: go (cs.drop k)
  | (_, .last t) => [t]
  | (_, .stop) => []

/-- Scan at most `n` tokens or blanks of the text. -/
def lexN (tab : Table) : ℕ → List Char → List Tok
  | 0, _ => []
  | _ + 1, [] => []
  | n + 1, c :: r => act (lexN tab n) (c :: r) (pick (c :: r) (rules tab))

/-- Tokens of an expression: the text after a keyword's `:` up to the end of
the line (`src/lexer.ll` 94-156).  Simplification: what the scanner returns
after it left the start condition is not part of the list. -/
def lex (tab : Table) (cs : List Char) : List Tok := lexN tab cs.length cs

/-- Binary operators of the grammar. -/
inductive BinOp where
  | add | sub | mul | div | pow
  deriving DecidableEq, Repr

/-- Precedence and left associativity declared for an operator token
(`src/parse.yy` 458-461): `'-' '+'` lowest, then `'*' '/'`, `NEG`, `'^'`. -/
def BinOp.prec : BinOp → ℕ × Bool
  | .add => (1, true)
  | .sub => (1, true)
  | .mul => (2, true)
  | .div => (2, true)
  | .pow => (4, false)

/-- Precedence of `'-' expr %prec NEG` (`src/parse.yy` 460, 2153). -/
def negPrec : ℕ := 3

/-- The operator a token denotes after an operand. -/
def Tok.binOp? : Tok → Option BinOp
  | .plus => some .add
  | .minus => some .sub
  | .times => some .mul
  | .divide => some .div
  | .caret => some .pow
  | _ => none

/-- Semantic actions of the `expr` rules; `none` is `YYERROR`. -/
structure Actions (α : Type) where
  num : List Char → Option α
  fn : String → α → Option α
  bin : BinOp → α → α → Option α
  neg : α → Option α

/-- What the parser stack holds below the operand being read: the left part of
an unfinished rule. -/
inductive Frame (α : Type) where
  | bin (op : BinOp) (lhs : α)
  | neg
  | paren
  | call (f : String)

/-- Bison's resolution of a conflict between reducing the rule on top of the
stack and shifting the operator `op`: reduce when the rule has the higher
precedence, or the same and the operator is left associative.  Parentheses are
no conflict. -/
def reduces {α : Type} (op : BinOp) : Frame α → Bool
  | .bin r _ => decide (op.prec.1 < r.prec.1) || (decide (op.prec.1 = r.prec.1) && op.prec.2)
  | .neg => decide (op.prec.1 < negPrec) || (decide (op.prec.1 = negPrec) && op.prec.2)
  | .paren => false
  | .call _ => false

/-- Whether a rule is complete when its operand is followed by a token that
cannot continue an expression. -/
def complete {α : Type} : Frame α → Bool
  | .bin _ _ => true
  | .neg => true
  | .paren => false
  | .call _ => false

/-- Run the action of the rule on top of the stack. -/
def reduce {α : Type} (A : Actions α) : Frame α → α → Option α
  | .bin op a, v => A.bin op a v
  | .neg, v => A.neg v
  | .paren, v => some v
  | .call f, v => A.fn f v

/-- Reduce while `p` says so. -/
def reduceWhile {α : Type} (A : Actions α) (p : Frame α → Bool) :
    List (Frame α) → α → Option (List (Frame α) × α)
  | [], v => some ([], v)
  | f :: st, v => if p f then (reduce A f v).bind (reduceWhile A p st) else some (f :: st, v)

/-- A closing parenthesis: the rest of the stack and the value. -/
def close {α : Type} (A : Actions α) : List (Frame α) × α → Option (List (Frame α) × α)
  | (.paren :: st, v) => some (st, v)
  | (.call f :: st, v) => (A.fn f v).map fun w => (st, w)
  | _ => none

/-- The shift/reduce parser Bison generates for `expr` (`src/parse.yy`
457-461, 2131-2156), on a stack of unfinished rules: `none` for the second
argument when an operand is expected.  The result is the value and the tokens
that follow.  `none` is a syntax error or an error in an action.
Simplification: `VAR` and `'='` are syntax errors here.  The scanner never
returns `VAR`, because `putsym` has no caller. -/
def run {α : Type} (A : Actions α) :
    List (Frame α) → Option α → List Tok → Option (α × List Tok)
  | st, none, .num s :: ts => (A.num s).bind fun v => run A st (some v) ts
  | st, none, .minus :: ts => run A (.neg :: st) none ts
  | st, none, .lpar :: ts => run A (.paren :: st) none ts
  | st, none, .fnct f :: .lpar :: ts => run A (.call f :: st) none ts
  | _, none, _ => none
  | st, some v, [] =>
    (reduceWhile A complete st v).bind fun r => if r.1.isEmpty then some (r.2, []) else none
  | st, some v, t :: ts =>
    match t.binOp? with
    | some op =>
      (reduceWhile A (reduces op) st v).bind fun r => run A (.bin op r.2 :: r.1) none ts
    | none =>
      (reduceWhile A complete st v).bind fun r =>
        if t = .rpar then (close A r).bind fun r' => run A r'.1 (some r'.2) ts
        else if r.1.isEmpty then some (r.2, t :: ts) else none

/-- The library functions the calculator uses. -/
structure Lib where
  /-- `from_string<double>` (`src/parse.yy` 275-313): `none` when the text is
  no number or out of range. -/
  strtod : List Char → Option Dbl
  /-- `std::pow`. -/
  pow : Dbl → Dbl → Dbl
  /-- The C function of the given name. -/
  fn : String → Dbl → Dbl

/-- The action of a binary rule (`src/parse.yy` 2139-2154). -/
def binAction (F : Fp) (L : Lib) : BinOp → Dbl → Dbl → Option Dbl
  | .add, a, b => some (F.add a b)
  | .sub, a, b => some (F.sub a b)
  | .mul, a, b => some (F.mul a b)
  | .div, a, b => if Dbl.eq b (.fin 0) then none else some (F.div a b)
  | .pow, a, b => some (L.pow a b)

/-- The actions of the `expr` rules (`src/parse.yy` 2131-2156). -/
def actions (F : Fp) (L : Lib) : Actions Dbl where
  num := L.strtod
  fn f v := some (L.fn f v)
  bin := binAction F L
  neg v := some v.neg

/-- Value of a keyword's expression text, and the tokens after it. -/
def evalText (F : Fp) (L : Lib) (tab : Table) (cs : List Char) : Option (Dbl × List Tok) :=
  run (actions F L) [] none (lex tab cs)

end MaRC.Calc
