import Verif.Model.Num
import Verif.Model.Calc

/-!
# What an arithmetic expression means

The usual layered grammar, in which precedence and associativity are visible
in the rules, and the value of an expression tree.  Nothing here refers to the
parser of the model; only its token type is used.
-/

namespace MaRC.ExprSpec

open MaRC.Calc (Tok)

/-- Expression trees. -/
inductive Expr where
  | num (s : List Char)
  | add (a b : Expr)
  | sub (a b : Expr)
  | mul (a b : Expr)
  | div (a b : Expr)
  | pow (a b : Expr)
  | neg (a : Expr)
  | call (f : String) (a : Expr)
  deriving DecidableEq, Repr

/-- Layers of the grammar. -/
inductive Layer where
  | sum | term | factor | power | atom
  deriving DecidableEq, Repr

/-- `Derives l ts e`: the tokens `ts` read as `e` in layer `l`.

* sum    → term   | sum `+` term | sum `-` term        (left associative)
* term   → factor | term `*` factor | term `/` factor  (left associative)
* factor → power  | `-` factor                         (tighter than `*`)
* power  → atom   | atom `^` factor                    (right associative)
* atom   → number | `(` sum `)` | function `(` sum `)` -/
inductive Derives : Layer → List Tok → Expr → Prop where
  | sumTerm {ts e} : Derives .term ts e → Derives .sum ts e
  | add {t1 t2 a b} : Derives .sum t1 a → Derives .term t2 b →
      Derives .sum (t1 ++ .plus :: t2) (.add a b)
  | sub {t1 t2 a b} : Derives .sum t1 a → Derives .term t2 b →
      Derives .sum (t1 ++ .minus :: t2) (.sub a b)
  | termFactor {ts e} : Derives .factor ts e → Derives .term ts e
  | mul {t1 t2 a b} : Derives .term t1 a → Derives .factor t2 b →
      Derives .term (t1 ++ .times :: t2) (.mul a b)
  | div {t1 t2 a b} : Derives .term t1 a → Derives .factor t2 b →
      Derives .term (t1 ++ .divide :: t2) (.div a b)
  | factorPower {ts e} : Derives .power ts e → Derives .factor ts e
  | neg {ts a} : Derives .factor ts a → Derives .factor (.minus :: ts) (.neg a)
  | powerAtom {ts e} : Derives .atom ts e → Derives .power ts e
  | pow {t1 t2 a b} : Derives .atom t1 a → Derives .factor t2 b →
      Derives .power (t1 ++ .caret :: t2) (.pow a b)
  | num {s} : Derives .atom [.num s] (.num s)
  | paren {ts e} : Derives .sum ts e → Derives .atom (.lpar :: (ts ++ [.rpar])) e
  | call {f ts e} : Derives .sum ts e →
      Derives .atom (.fnct f :: .lpar :: (ts ++ [.rpar])) (.call f e)

/-- Value of a tree with the given numbers, arithmetic and functions; `none`
when a number is malformed or a divisor is zero. -/
def Expr.value (F : Fp) (strtod : List Char → Option Dbl) (pow : Dbl → Dbl → Dbl)
    (fn : String → Dbl → Dbl) : Expr → Option Dbl
  | .num s => strtod s
  | .add a b => do return F.add (← a.value F strtod pow fn) (← b.value F strtod pow fn)
  | .sub a b => do return F.sub (← a.value F strtod pow fn) (← b.value F strtod pow fn)
  | .mul a b => do return F.mul (← a.value F strtod pow fn) (← b.value F strtod pow fn)
  | .div a b => do
    let x ← a.value F strtod pow fn
    let y ← b.value F strtod pow fn
    if y = .fin 0 then none else return F.div x y
  | .pow a b => do return pow (← a.value F strtod pow fn) (← b.value F strtod pow fn)
  | .neg a => do return (← a.value F strtod pow fn).neg
  | .call f a => do return fn f (← a.value F strtod pow fn)

/-- The text of a token as a user may write it. -/
def tokText : Tok → List Char
  | .num s => s
  | .fnct "log" => "ln".toList
  | .fnct f => f.toList
  | .plus => ['+']
  | .minus => ['-']
  | .times => ['*']
  | .divide => ['/']
  | .caret => ['^']
  | .lpar => ['(']
  | .rpar => [')']
  | _ => []

/-- Text in which every token is followed by a blank. -/
def spaced (ts : List Tok) : List Char := ts.flatMap fun t => tokText t ++ [' ']

/-- An exponent part: `E`, perhaps a sign, and one to three digits. -/
def isExponent (s : List Char) : Prop :=
  ∃ e sign ds, s = e :: (sign ++ ds) ∧ (e = 'E' ∨ e = 'e') ∧
    (sign = [] ∨ sign = ['+'] ∨ sign = ['-']) ∧ (∀ c ∈ ds, c.isDigit = true) ∧
    1 ≤ ds.length ∧ ds.length ≤ 3

/-- An unsigned decimal number: digits, perhaps a point with more digits,
perhaps an exponent. -/
def isNumber (s : List Char) : Prop :=
  ∃ a b c, s = a ++ b ++ c ∧ a ≠ [] ∧ (∀ x ∈ a, x.isDigit = true) ∧
    (b = [] ∨ ∃ d, b = '.' :: d ∧ ∀ x ∈ d, x.isDigit = true) ∧ (c = [] ∨ isExponent c)

/-- Tokens a user can write in an expression: unsigned numbers, the built-in
functions (named by their C function), operators and parentheses. -/
def plain : Tok → Prop
  | .num s => isNumber s
  | .fnct f => f ∈ ["sin", "cos", "tan", "asin", "acos", "atan", "log", "exp", "sqrt"]
  | .plus => True
  | .minus => True
  | .times => True
  | .divide => True
  | .caret => True
  | .lpar => True
  | .rpar => True
  | _ => False

end MaRC.ExprSpec
