import Verif.Model.Num

/-!
# `src/command_line.cpp`: command line parsing without Argp
-/

namespace MaRC.CommandLine

/-- How parsing ends: with the list of files, or by `exit(EXIT_SUCCESS)` or
`exit(EX_USAGE)`. -/
inductive Result where
  | files (l : List String)
  | exitSuccess
  | exitUsage
  deriving DecidableEq, Repr

/-- `std::rotate(arg, arg + 1, end)` on the argument array. -/
def rotate (a : List String) (arg fin : ℕ) : List String :=
  let mid := (a.take fin).drop arg
  a.take arg ++ (mid.drop 1 ++ mid.take 1) ++ a.drop fin

/-- `(*arg)[0] == '-'` -/
def isDash (s : String) : Bool := s.toList.head? == some '-'

/-- The loop (src/command_line.cpp:119-185).  `a` is `argv[1]` … `argv[argc - 1]`
(followed by the null pointer), `arg` and `fin` the positions of `arg` and `end` in
it.  Reading past the null pointer, or rotating a range that is not one, is
undefined. -/
def loop (a : List String) (arg fin : ℕ) (nropts : Bool) : Outcome (Result ⊕ (List String × ℕ)) :=
  if arg = fin then .ok (.inr (a, fin))
  else if h : arg ≤ a.length then
    match a[arg]? with
    | none => .ok (.inr (a, fin))
    | some s =>
      if isDash s && !nropts then
        if s = "--" then
          if hf : arg < fin ∧ fin ≤ a.length then
            have : (rotate a arg fin).length + 1 - (arg + 1) < a.length + 1 - arg := by
              simp only [rotate, List.length_append, List.length_drop, List.length_take]
              omega
            loop (rotate a arg fin) (arg + 1) (fin - 1) true
          else .ub
        else if s = "--usage" then .ok (.inl .exitSuccess)
        else if s = "--help" ∨ s = "-?" then .ok (.inl .exitSuccess)
        else if s = "--version" ∨ s = "-V" then .ok (.inl .exitSuccess)
        else .ok (.inl .exitUsage)
      else loop a (arg + 1) fin nropts
  else .ub
termination_by a.length + 1 - arg

/-- `command_line::parse` (src/command_line.cpp:101-199) without Argp; `args` is the
argument vector after the program name (at least the program name is assumed to be
given). -/
def parse (args : List String) : Outcome Result := do
  let r ← loop args 0 args.length false
  match r with
  | .inl e => .ok e
  | .inr (a, fin) => if fin = 0 then .ok .exitUsage else .ok (.files (a.take fin))

end MaRC.CommandLine
