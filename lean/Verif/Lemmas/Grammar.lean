import Verif.Model.Grammar
import Verif.Lemmas.Calc

/-! # Lemmas about the grammar of input files: trees are determined by their tokens -/

namespace MaRC.Grammar

open MaRC.Calc (Tok run treeActions derives_of_run run_of_derives run_ev ends)
open MaRC.Scan (Token kw)
open MaRC.Parser (Hemisphere Side Averaging)
open MaRC.ExprSpec (Derives)

/-! ## Expressions -/

theorem Operand.ext {x y : Operand} (h : x.toks = y.toks) : x = y := by
  cases x; cases y; simp only at h; subst h; rfl

theorem evE_syntaxOnly (e : ExprSpec.Expr) : Calc.evE syntaxOnly e = some () := by
  induction e <;> simp_all [Calc.evE, syntaxOnly]

/-- Operands are the expressions of the layered grammar. -/
theorem operand_iff (ts : List Tok) :
    run syntaxOnly [] none ts = some ((), []) ↔ ∃ e, Derives .sum ts e := by
  rw [run_ev]
  constructor
  · intro h
    rw [Option.bind_eq_some_iff] at h
    obtain ⟨⟨e, r⟩, h1, h2⟩ := h
    simp only [Calc.evR, evE_syntaxOnly, Option.map_some, Option.some.injEq, Prod.mk.injEq,
      true_and] at h2
    subst h2
    obtain ⟨t1, h4, h5, -⟩ := derives_of_run h1
    rw [List.append_nil] at h4
    subst h4
    exact ⟨e, h5⟩
  · rintro ⟨e, h⟩
    have := run_of_derives (rest := []) h trivial
    rw [List.append_nil] at this
    rw [this]
    simp [Calc.evR, evE_syntaxOnly]

theorem Operand.run_append (x : Operand) {rest : List Tok} (h : ends rest) :
    ∃ e, run treeActions [] none (x.toks ++ rest) = some (e, rest) := by
  obtain ⟨e, he⟩ := (operand_iff x.toks).mp x.ok
  exact ⟨e, run_of_derives he h⟩

/-- Tokens that may follow: no operator, no closing parenthesis, none of the
given keywords. -/
def Fol (ks : List String) (r : List Token) : Prop :=
  ∀ t l, r = t :: l → (∀ u, t = .ex u → u.binOp? = none ∧ u ≠ .rpar) ∧ ∀ k ∈ ks, t ≠ kw k

theorem Fol.nil (ks : List String) : Fol ks [] := by intro t l h; simp at h

theorem Fol.kw {ks : List String} {k : String} {l : List Token} (h : k ∉ ks) :
    Fol ks (kw k :: l) := by
  intro t l' e
  simp only [List.cons.injEq] at e
  obtain ⟨rfl, -⟩ := e
  refine ⟨fun u hu => ?_, fun k' hk' e => ?_⟩
  · simp only [Scan.kw, Token.ex.injEq] at hu
    subst hu
    simp [Calc.Tok.binOp?]
  · simp only [Scan.kw, Token.ex.injEq, Tok.kw.injEq] at e
    subst e
    exact h hk'

theorem Fol.num {ks : List String} {s : List Char} {l : List Token} :
    Fol ks (.ex (.num s) :: l) := by
  intro t l' e
  simp only [List.cons.injEq] at e
  obtain ⟨rfl, -⟩ := e
  refine ⟨fun u hu => ?_, fun k' hk' e => ?_⟩
  · simp only [Token.ex.injEq] at hu
    subst hu
    simp [Calc.Tok.binOp?]
  · simp [Scan.kw] at e

theorem Fol.mono {ks ks' : List String} {r : List Token} (h : Fol ks r) (hs : ∀ k ∈ ks', k ∈ ks) :
    Fol ks' r := fun t l e => ⟨(h t l e).1, fun k hk => (h t l e).2 k (hs k hk)⟩

theorem Fol.ne {ks : List String} {r : List Token} (h : Fol ks r) {k : String} (hk : k ∈ ks)
    (l : List Token) : r ≠ Scan.kw k :: l := fun e => (h _ l e).2 k hk rfl

/-- The tokens of an expression at the front. -/
def exs : List Token → List Tok
  | .ex t :: r => t :: exs r
  | _ => []

theorem exs_append (ts : List Tok) (r : List Token) : exs (ts.map .ex ++ r) = ts ++ exs r := by
  induction ts with
  | nil => rfl
  | cons t ts ih => simp [exs, ih]

theorem ends_exs {ks : List String} {r : List Token} (h : Fol ks r) : ends (exs r) := by
  cases r with
  | nil => trivial
  | cons t r =>
    cases t with
    | ex u => exact (h _ _ rfl).1 u rfl
    | _ => trivial

theorem op_inj {x y : Operand} {r r' : List Token} {ks ks' : List String} (hr : Fol ks r)
    (hr' : Fol ks' r') (h : x.yield ++ r = y.yield ++ r') : x = y ∧ r = r' := by
  have e := congrArg exs h
  simp only [Operand.yield, exs_append] at e
  obtain ⟨e1, h1⟩ := x.run_append (ends_exs hr)
  obtain ⟨e2, h2⟩ := y.run_append (ends_exs hr')
  rw [e, h2] at h1
  simp only [Option.some.injEq, Prod.mk.injEq] at h1
  rw [h1.2] at e
  have hxy := Operand.ext (List.append_cancel_right e)
  subst hxy
  exact ⟨rfl, List.append_cancel_left h⟩

theorem op_iff {x y : Operand} {r r' : List Token} (hr : Fol [] r) (hr' : Fol [] r') :
    x.yield ++ r = y.yield ++ r' ↔ x = y ∧ r = r' :=
  ⟨op_inj hr hr', by rintro ⟨rfl, rfl⟩; rfl⟩

theorem op_iff_nil {x y : Operand} {r' : List Token} (hr' : Fol [] r') :
    x.yield = y.yield ++ r' ↔ x = y ∧ [] = r' := by
  have := op_iff (x := x) (y := y) (Fol.nil []) hr'
  rwa [List.append_nil] at this

/-- What an expression begins with. -/
theorem op_head (x : Operand) : ∃ t l, x.yield = .ex t :: l ∧
    ((∃ s, t = .num s) ∨ t = .minus ∨ t = .lpar ∨ ∃ f, t = .fnct f) := by
  have h := x.ok
  obtain ⟨ts, ok⟩ := x
  simp only [Operand.yield]
  cases ts with
  | nil => simp [run] at h
  | cons t l =>
    refine ⟨t, l.map .ex, rfl, ?_⟩
    cases t <;> simp_all [run]

theorem kw_inj {a b : String} : kw a = kw b ↔ a = b := by simp [Scan.kw]

theorem Fol.opt {ks : List String} {k : String} {o : Option Operand} {r : List Token} (h : k ∉ ks)
    (hr : Fol ks r) : Fol ks (optExpr k o ++ r) := by
  cases o with
  | none => exact hr
  | some x => exact Fol.kw h

theorem Fol.optStr {ks : List String} {k : String} {o : Option (List Char)} {r : List Token}
    (h : k ∉ ks) (hr : Fol ks r) : Fol ks (optStr k o ++ r) := by
  cases o with
  | none => exact hr
  | some x => exact Fol.kw h

theorem Fol.optNum {ks : List String} {k : String} {o : Option (List Char)} {r : List Token}
    (h : k ∉ ks) (hr : Fol ks r) : Fol ks (optNum k o ++ r) := by
  cases o with
  | none => exact hr
  | some x => exact Fol.kw h

theorem Fol.optYes {ks : List String} {k : String} {o : Option Bool} {r : List Token}
    (h : k ∉ ks) (hr : Fol ks r) : Fol ks (optYes k o ++ r) := by
  cases o with
  | none => exact hr
  | some x => exact Fol.kw h

/-- Show what may follow. -/
syntax "fol" : tactic
macro_rules | `(tactic| fol) => `(tactic| first
  | exact Fol.nil _
  | exact Fol.num
  | exact Fol.kw (by decide)
  | exact Fol.kw (by assumption)
  | exact Fol.kw (by simp; done)
  | assumption
  | exact Fol.mono (by assumption) (by decide)
  | (refine Fol.mono (by assumption) ?_; simp; done)
  | fail)

/-- Compare the tokens of two trees. -/
syntax "toks" "[" Lean.Parser.Tactic.simpLemma,* "]" "at" ident : tactic
macro_rules | `(tactic| toks [$ls,*] at $h) => `(tactic|
  simp (disch := fol) only [$ls,*, key, keyStr, keyNum, keyYes, kw_inj, List.cons_append,
    List.nil_append, List.append_assoc, List.append_nil, List.cons.injEq, op_iff, Token.str.injEq,
    Token.ex.injEq, Tok.num.injEq, true_and, and_true, reduceCtorEq, false_and, and_false,
    String.reduceEq] at $h:ident)

/-- Make the keywords that do not follow available. -/
syntax "nofol" ident ident : tactic
macro_rules | `(tactic| nofol $hr $hr') => `(tactic|
  (have nf := fun k hk => Fol.ne (k := k) $hr hk
   have nf' := fun k hk l e => Fol.ne (k := k) $hr' hk l (Eq.symm e)
   simp only [List.mem_cons, List.not_mem_nil, or_false, forall_eq_or_imp, forall_eq] at nf nf'))

section
variable {r r' : List Token}

theorem optExpr_iff {k : String} {a b : Option Operand} (hr : Fol [k] r) (hr' : Fol [k] r') :
    optExpr k a ++ r = optExpr k b ++ r' ↔ a = b ∧ r = r' := by
  refine ⟨fun h => ?_, by rintro ⟨rfl, rfl⟩; rfl⟩
  nofol hr hr'
  have h0 := hr.mono (ks' := []) (by simp)
  have h0' := hr'.mono (ks' := []) (by simp)
  cases a <;> cases b <;> (toks [optExpr] at h; simp_all)

theorem optStr_iff {k : String} {a b : Option (List Char)} (hr : Fol [k] r) (hr' : Fol [k] r') :
    optStr k a ++ r = optStr k b ++ r' ↔ a = b ∧ r = r' := by
  refine ⟨fun h => ?_, by rintro ⟨rfl, rfl⟩; rfl⟩
  nofol hr hr'
  cases a <;> cases b <;> (toks [optStr] at h; simp_all)

theorem optNum_iff {k : String} {a b : Option (List Char)} (hr : Fol [k] r) (hr' : Fol [k] r') :
    optNum k a ++ r = optNum k b ++ r' ↔ a = b ∧ r = r' := by
  refine ⟨fun h => ?_, by rintro ⟨rfl, rfl⟩; rfl⟩
  nofol hr hr'
  cases a <;> cases b <;> (toks [optNum] at h; simp_all)

theorem optYes_iff {k : String} {a b : Option Bool} (hr : Fol [k] r) (hr' : Fol [k] r') :
    optYes k a ++ r = optYes k b ++ r' ↔ a = b ∧ r = r' := by
  refine ⟨fun h => ?_, by rintro ⟨rfl, rfl⟩; rfl⟩
  nofol hr hr'
  rcases a with _ | _ | _ <;> rcases b with _ | _ | _ <;>
    (toks [optYes, if_true, if_false, Bool.false_eq_true] at h; try simp_all)

theorem Lat.iff {a b : Lat} (hr : Fol ["N", "S", "C", "G"] r) (hr' : Fol ["N", "S", "C", "G"] r') :
    a.yield ++ r = b.yield ++ r' ↔ a = b ∧ r = r' := by
  refine ⟨fun h => ?_, by rintro ⟨rfl, rfl⟩; rfl⟩
  obtain ⟨x, s, g⟩ := a
  obtain ⟨x', s', g'⟩ := b
  nofol hr hr'
  cases s <;> cases s' <;> rcases g with _ | _ | _ <;> rcases g' with _ | _ | _ <;>
    (toks [Lat.yield] at h; try simp_all)

theorem Lon.iff {a b : Lon} (hr : Fol ["E", "W"] r) (hr' : Fol ["E", "W"] r') :
    a.yield ++ r = b.yield ++ r' ↔ a = b ∧ r = r' := by
  refine ⟨fun h => ?_, by rintro ⟨rfl, rfl⟩; rfl⟩
  obtain ⟨x, s⟩ := a
  obtain ⟨x', s'⟩ := b
  nofol hr hr'
  cases s <;> cases s' <;> (toks [Lon.yield] at h; try simp_all)

theorem Turn.iff {a b : Turn} (hr : Fol ["CW", "CCW"] r) (hr' : Fol ["CW", "CCW"] r') :
    a.yield ++ r = b.yield ++ r' ↔ a = b ∧ r = r' := by
  refine ⟨fun h => ?_, by rintro ⟨rfl, rfl⟩; rfl⟩
  obtain ⟨x, s⟩ := a
  obtain ⟨x', s'⟩ := b
  nofol hr hr'
  rcases s with _ | _ | _ <;> rcases s' with _ | _ | _ <;> (toks [Turn.yield] at h; try simp_all)

theorem Distance.iff {a b : Distance} (hr : Fol ["KM", "AU"] r) (hr' : Fol ["KM", "AU"] r') :
    a.yield ++ r = b.yield ++ r' ↔ a = b ∧ r = r' := by
  refine ⟨fun h => ?_, by rintro ⟨rfl, rfl⟩; rfl⟩
  obtain ⟨x, s⟩ := a
  obtain ⟨x', s'⟩ := b
  nofol hr hr'
  rcases s with _ | _ | _ <;> rcases s' with _ | _ | _ <;> (toks [Distance.yield] at h; try simp_all)

/-- Letters after angles. -/
def angleUnits : List String := ["N", "S", "C", "G", "E", "W"]

theorem Point.iff {kLat kLon : String} (hk : kLat ≠ kLon) (h1 : kLat ∉ angleUnits)
    (h2 : kLon ∉ angleUnits) {a b : Point} (hr : Fol angleUnits r) (hr' : Fol angleUnits r') :
    a.yield kLat kLon ++ r = b.yield kLat kLon ++ r' ↔ a = b ∧ r = r' := by
  refine ⟨fun h => ?_, by rintro ⟨rfl, rfl⟩; rfl⟩
  have l1 : kLat ∉ ["E", "W"] := fun h => h1 (by simp [angleUnits] at h ⊢; tauto)
  have l2 : kLon ∉ ["N", "S", "C", "G"] := fun h => h2 (by simp [angleUnits] at h ⊢; tauto)
  have a1 := hr.mono (ks' := ["N", "S", "C", "G"]) (by decide)
  have a2 := hr.mono (ks' := ["E", "W"]) (by decide)
  have a1' := hr'.mono (ks' := ["N", "S", "C", "G"]) (by decide)
  have a2' := hr'.mono (ks' := ["E", "W"]) (by decide)
  have hk' := hk.symm
  cases a <;> cases b <;> (toks [Point.yield, Lat.iff, Lon.iff, hk, hk'] at h; try simp_all)

theorem Pair.iff {kA kB : String} (hk : kA ≠ kB) {a b : Pair} (hr : Fol [] r) (hr' : Fol [] r') :
    a.yield kA kB ++ r = b.yield kA kB ++ r' ↔ a = b ∧ r = r' := by
  refine ⟨fun h => ?_, by rintro ⟨rfl, rfl⟩; rfl⟩
  have hk' := hk.symm
  cases a <;> cases b <;> (toks [Pair.yield, hk, hk'] at h; try simp_all)

theorem Radii.iff {a b : Radii} (hr : Fol [] r) (hr' : Fol [] r') :
    a.yield ++ r = b.yield ++ r' ↔ a = b ∧ r = r' := by
  refine ⟨fun h => ?_, by rintro ⟨rfl, rfl⟩; rfl⟩
  cases a <;> cases b <;> (toks [Radii.yield] at h; try simp_all)

theorem rotation_iff {a b : Bool} : rotation a ++ r = rotation b ++ r' ↔ a = b ∧ r = r' := by
  refine ⟨fun h => ?_, by rintro ⟨rfl, rfl⟩; rfl⟩
  cases a <;> cases b <;> (toks [rotation, if_true, if_false, Bool.false_eq_true] at h; try simp_all)

theorem dataType_iff {a b : Option DataType} (hr : Fol ["DATA_TYPE"] r)
    (hr' : Fol ["DATA_TYPE"] r') : dataType a ++ r = dataType b ++ r' ↔ a = b ∧ r = r' := by
  refine ⟨fun h => ?_, by rintro ⟨rfl, rfl⟩; rfl⟩
  nofol hr hr'
  rcases a with _ | a <;> rcases b with _ | b
  · toks [dataType] at h; simp_all
  · toks [dataType] at h; simp_all
  · toks [dataType] at h; simp_all
  · cases a <;> cases b <;> (toks [dataType, DataType.token] at h; try simp_all)

theorem Intervals.iff {a b : Intervals} (hr : Fol ["LAT_GRID_INTERVAL", "LON_GRID_INTERVAL"] r)
    (hr' : Fol ["LAT_GRID_INTERVAL", "LON_GRID_INTERVAL"] r') :
    a.yield ++ r = b.yield ++ r' ↔ a = b ∧ r = r' := by
  refine ⟨fun h => ?_, by rintro ⟨rfl, rfl⟩; rfl⟩
  nofol hr hr'
  cases a <;> cases b <;> (toks [Intervals.yield] at h; try simp_all)

/-- Keywords of a grid. -/
def gridKeys : List String := ["GRID", "GRID_INTERVAL", "LAT_GRID_INTERVAL", "LON_GRID_INTERVAL"]

theorem Fol.intervals {ks : List String} {i : Intervals}
    (h : ∀ k ∈ ["GRID_INTERVAL", "LAT_GRID_INTERVAL", "LON_GRID_INTERVAL"], k ∉ ks) :
    Fol ks (i.yield ++ r) := by
  cases i <;> exact Fol.kw (h _ (by decide))

theorem Grid.iff {a b : Grid} (hr : Fol gridKeys r) (hr' : Fol gridKeys r') :
    a.yield ++ r = b.yield ++ r' ↔ a = b ∧ r = r' := by
  refine ⟨fun h => ?_, by rintro ⟨rfl, rfl⟩; rfl⟩
  have a1 := hr.mono (ks' := ["LAT_GRID_INTERVAL", "LON_GRID_INTERVAL"]) (by decide)
  have a1' := hr'.mono (ks' := ["LAT_GRID_INTERVAL", "LON_GRID_INTERVAL"]) (by decide)
  unfold gridKeys at hr hr'
  nofol hr hr'
  have i1 : ∀ (i : Intervals) l, i.yield ++ l ≠ r := by
    intro i l e
    cases i <;> simp only [Intervals.yield, key, List.cons_append, List.append_assoc] at e <;>
      exact hr.ne (by decide) _ e.symm
  have i1' : ∀ (i : Intervals) l, i.yield ++ l ≠ r' := by
    intro i l e
    cases i <;> simp only [Intervals.yield, key, List.cons_append, List.append_assoc] at e <;>
      exact hr'.ne (by decide) _ e.symm
  have i2 : ∀ (i : Intervals) l, r ≠ i.yield ++ l := fun i l e => i1 i l e.symm
  have i2' : ∀ (i : Intervals) l, r' ≠ i.yield ++ l := fun i l e => i1' i l e.symm
  rcases a with _ | (_ | _) | ⟨_ | _, _⟩ <;> rcases b with _ | (_ | _) | ⟨_ | _, _⟩ <;>
    (toks [Grid.yield, Intervals.iff, if_true, if_false, Bool.false_eq_true] at h
     try first | exact absurd h (i2 _ _) | exact absurd h (i1' _ _) | simp_all)

theorem Range.iff {a b : Range} (hr : Fol ["DATA_MIN", "DATA_MAX"] r)
    (hr' : Fol ["DATA_MIN", "DATA_MAX"] r') :
    a.yield ++ r = b.yield ++ r' ↔ a = b ∧ r = r' := by
  refine ⟨fun h => ?_, by rintro ⟨rfl, rfl⟩; rfl⟩
  nofol hr hr'
  cases a <;> cases b <;> (toks [Range.yield] at h; try simp_all)

theorem averaging_iff {a b : Option Averaging} (hr : Fol ["AVERAGING"] r)
    (hr' : Fol ["AVERAGING"] r') : averaging a ++ r = averaging b ++ r' ↔ a = b ∧ r = r' := by
  refine ⟨fun h => ?_, by rintro ⟨rfl, rfl⟩; rfl⟩
  nofol hr hr'
  rcases a with _ | _ | _ | _ <;> rcases b with _ | _ | _ | _ <;>
    (toks [averaging] at h; try simp_all)

theorem LatType.iff {a b : LatType} (hr : Fol ["LATITUDE_TYPE", "GRAPHIC", "CENTRIC"] r)
    (hr' : Fol ["LATITUDE_TYPE", "GRAPHIC", "CENTRIC"] r') :
    a.yield ++ r = b.yield ++ r' ↔ a = b ∧ r = r' := by
  refine ⟨fun h => ?_, by rintro ⟨rfl, rfl⟩; rfl⟩
  nofol hr hr'
  rcases a with _ | (_ | _) | (_ | _) <;> rcases b with _ | (_ | _) | (_ | _) <;>
    (toks [LatType.yield, if_true, if_false, Bool.false_eq_true] at h; try simp_all)

theorem Centers.iff {a b : Centers} (hr : Fol angleUnits r) (hr' : Fol angleUnits r') :
    a.yield ++ r = b.yield ++ r' ↔ a = b ∧ r = r' := by
  refine ⟨fun h => ?_, by rintro ⟨rfl, rfl⟩; rfl⟩
  have a0 := hr.mono (ks' := []) (by simp)
  have a0' := hr'.mono (ks' := []) (by simp)
  rcases a with p | p <;> rcases b with q | q
  · simp only [Centers.yield] at h
    obtain ⟨rfl, rfl⟩ := (Pair.iff (by decide) a0 a0').mp h
    simp
  · rcases p with _ | _ <;> rcases q with _ | _ <;>
      (toks [Centers.yield, Pair.yield, Point.yield] at h)
  · rcases p with _ | _ <;> rcases q with _ | _ <;>
      (toks [Centers.yield, Pair.yield, Point.yield] at h)
  · simp only [Centers.yield] at h
    obtain ⟨rfl, rfl⟩ := (Point.iff (by decide) (by decide) (by decide) hr hr').mp h
    simp

theorem subObserv_iff {a b : Point} (hr : Fol angleUnits r) (hr' : Fol angleUnits r') :
    subObserv a ++ r = subObserv b ++ r' ↔ a = b ∧ r = r' :=
  Point.iff (by decide) (by decide) (by decide) hr hr'

theorem subSolar_iff {a b : Point} (hr : Fol angleUnits r) (hr' : Fol angleUnits r') :
    subSolar a ++ r = subSolar b ++ r' ↔ a = b ∧ r = r' :=
  Point.iff (by decide) (by decide) (by decide) hr hr'

/-! ### What may follow, clause by clause -/

variable {ks : List String}

theorem Fol.point {kLat kLon : String} {p : Point} (h : ∀ k ∈ [kLat, kLon], k ∉ ks) :
    Fol ks (p.yield kLat kLon ++ r) := by
  cases p <;> exact Fol.kw (h _ (by simp))

theorem Fol.subObserv {p : Point} (h : ∀ k ∈ ["SUB_OBSERV_LAT", "SUB_OBSERV_LON"], k ∉ ks) :
    Fol ks (subObserv p ++ r) := Fol.point h

theorem Fol.subSolar {p : Point} (h : ∀ k ∈ ["SUB_SOLAR_LAT", "SUB_SOLAR_LON"], k ∉ ks) :
    Fol ks (subSolar p ++ r) := Fol.point h

theorem Fol.pair {kA kB : String} {p : Pair} (h : ∀ k ∈ [kA, kB], k ∉ ks) :
    Fol ks (p.yield kA kB ++ r) := by
  cases p <;> exact Fol.kw (h _ (by simp))

theorem Fol.radii {p : Radii} (h : ∀ k ∈ ["EQ_RAD", "POL_RAD", "FLATTENING"], k ∉ ks) :
    Fol ks (p.yield ++ r) := by
  cases p <;> exact Fol.kw (h _ (by simp))

theorem Fol.rotation {b : Bool} (h : "ROTATION" ∉ ks) : Fol ks (rotation b ++ r) := Fol.kw h

theorem Fol.dataType {o : Option DataType} (h : "DATA_TYPE" ∉ ks) (hr : Fol ks r) :
    Fol ks (dataType o ++ r) := by
  cases o with
  | none => exact hr
  | some x => exact Fol.kw h

theorem Fol.grid {g : Grid} (h : ∀ k ∈ gridKeys, k ∉ ks) (hr : Fol ks r) :
    Fol ks (g.yield ++ r) := by
  cases g with
  | absent => exact hr
  | plain => exact Fol.kw (h _ (by decide))
  | intervals => exact Fol.kw (h _ (by decide))

theorem Fol.range {g : Range} (h : ∀ k ∈ ["DATA_MIN", "DATA_MAX"], k ∉ ks) (hr : Fol ks r) :
    Fol ks (g.yield ++ r) := by
  cases g <;> first | exact hr | exact Fol.kw (h _ (by decide))

theorem Fol.averaging {o : Option Averaging} (h : "AVERAGING" ∉ ks) (hr : Fol ks r) :
    Fol ks (averaging o ++ r) := by
  rcases o with _ | _ | _ | _ <;> first | exact hr | exact Fol.kw h

theorem Fol.latType {g : LatType} (h : ∀ k ∈ ["LATITUDE_TYPE", "GRAPHIC", "CENTRIC"], k ∉ ks)
    (hr : Fol ks r) : Fol ks (g.yield ++ r) := by
  rcases g with _ | (_ | _) | (_ | _) <;> first | exact hr | exact Fol.kw (h _ (by decide))

theorem Fol.centers {c : Centers}
    (h : ∀ k ∈ ["SAMPLE_CENTER", "LINE_CENTER", "LAT_AT_CENTER", "LON_AT_CENTER"], k ∉ ks) :
    Fol ks (c.yield ++ r) := by
  rcases c with (_ | _) | (_ | _) <;> exact Fol.kw (h _ (by decide))

theorem Fol.turn {t : Turn} (h : "POSITION_ANGLE" ∉ ks) : Fol ks (t.yield ++ r) := Fol.kw h

theorem Fol.distance {t : Distance} (h : "RANGE" ∉ ks) : Fol ks (t.yield ++ r) := Fol.kw h

theorem Fol.latRange {t : LatRange} (h : ∀ k ∈ ["LO_LAT", "HI_LAT"], k ∉ ks) :
    Fol ks (t.yield ++ r) := by
  cases t <;> exact Fol.kw (h _ (by simp))

theorem Fol.lonRange {t : LonRange} (h : ∀ k ∈ ["LO_LON", "HI_LON"], k ∉ ks) :
    Fol ks (t.yield ++ r) := by
  cases t <;> exact Fol.kw (h _ (by simp))

theorem Fol.ranges {t : Ranges} (h : ∀ k ∈ ["LO_LAT", "HI_LAT", "LO_LON", "HI_LON"], k ∉ ks)
    (hr : Fol ks r) : Fol ks (t.yield ++ r) := by
  rcases t with _ | a | a | ⟨a, b⟩ | ⟨a, b⟩
  · exact hr
  · exact Fol.latRange fun k hk => h k (by simp at hk ⊢; tauto)
  · exact Fol.lonRange fun k hk => h k (by simp at hk ⊢; tauto)
  · rw [Ranges.yield, List.append_assoc]
    exact Fol.latRange fun k hk => h k (by simp at hk ⊢; tauto)
  · rw [Ranges.yield, List.append_assoc]
    exact Fol.lonRange fun k hk => h k (by simp at hk ⊢; tauto)

theorem Fol.maxLatitude {o : Option Lat} (h : "MAX_LAT" ∉ ks) (hr : Fol ks r) :
    Fol ks (maxLatitude o ++ r) := by
  cases o with
  | none => exact hr
  | some x => exact Fol.kw h

theorem Fol.pole {b : Bool} (h : "POLE" ∉ ks) : Fol ks (pole b ++ r) := Fol.kw h

theorem Fol.projection {p : Projection} (h : "MAP_TYPE" ∉ ks) : Fol ks (p.yield ++ r) := Fol.kw h

theorem Fol.sides {kA kB : String} {p : Sides} (h : ∀ k ∈ [kA, kB], k ∉ ks) :
    Fol ks (p.yield kA kB ++ r) := by
  cases p <;> exact Fol.kw (h _ (by simp))

/-- Keywords of nibbling. -/
def nibbleKeys : List String :=
  ["NIBBLE", "NIBBLE_LEFT", "NIBBLE_RIGHT", "NIBBLE_TOP", "NIBBLE_BOTTOM"]

theorem Fol.nibble {t : Nibble} (h : ∀ k ∈ nibbleKeys, k ∉ ks) (hr : Fol ks r) :
    Fol ks (t.yield ++ r) := by
  unfold nibbleKeys at h
  rcases t with _ | a | a | a | ⟨a, b⟩ | ⟨a, b⟩
  · exact hr
  · exact Fol.kw (h _ (by decide))
  · exact Fol.sides fun k hk => h k (by simp at hk ⊢; tauto)
  · exact Fol.sides fun k hk => h k (by simp at hk ⊢; tauto)
  · rw [Nibble.yield, List.append_assoc]
    exact Fol.sides fun k hk => h k (by simp at hk ⊢; tauto)
  · rw [Nibble.yield, List.append_assoc]
    exact Fol.sides fun k hk => h k (by simp at hk ⊢; tauto)

theorem Fol.inversion {o : Option Inversion} (h : "INVERT" ∉ ks) (hr : Fol ks r) :
    Fol ks (inversion o ++ r) := by
  rcases o with _ | _ | _ | _ <;> first | exact hr | exact Fol.kw h

theorem Fol.opticalAxis {o : Option Pair} (h : ∀ k ∈ ["SAMPLE_OA", "LINE_OA"], k ∉ ks)
    (hr : Fol ks r) : Fol ks (opticalAxis o ++ r) := by
  cases o with
  | none => exact hr
  | some x => exact Fol.pair h

theorem Fol.minnaert {o : Minnaert} (h : "MINNAERT" ∉ ks) (hr : Fol ks r) :
    Fol ks (o.yield ++ r) := by
  cases o <;> first | exact hr | exact Fol.kw h

theorem Fol.scale {o : Scale}
    (h : ∀ k ∈ ["KM_PER_PIXEL", "ARCSEC_PER_PIX", "FOCAL_LENGTH", "PIXEL_SCALE"], k ∉ ks) :
    Fol ks (o.yield ++ r) := by
  rcases o with _ | _ | (_ | _) <;> exact Fol.kw (h _ (by decide))

theorem Fol.photo {p : Photo} (h : "IMAGE" ∉ ks) : Fol ks (p.yield ++ r) := Fol.kw h

theorem Fol.planeType {p : PlaneType}
    (h : ∀ k ∈ ["IMAGE", "MU", "MU0", "PHASE", "LATITUDE", "LONGITUDE"], k ∉ ks) :
    Fol ks (p.yield ++ r) := by
  cases p <;> exact Fol.kw (h _ (by decide))

theorem Fol.plane {p : Plane} (h : "PLANE" ∉ ks) : Fol ks (p.yield ++ r) := Fol.kw h

theorem Fol.map {p : Map} (h : "MAP" ∉ ks) : Fol ks (p.yield ++ r) := Fol.kw h

theorem Fol.flatMap {α : Type} {y : α → List Token} {l : List α}
    (hy : ∀ a r, Fol ks (y a ++ r)) (hr : Fol ks r) : Fol ks (l.flatMap y ++ r) := by
  cases l with
  | nil => exact hr
  | cons a l => rw [List.flatMap_cons, List.append_assoc]; exact hy a _

theorem Fol.keyStrs {k : String} {l : List (List Char)} (h : k ∉ ks) (hr : Fol ks r) :
    Fol ks (l.flatMap (keyStr k) ++ r) := Fol.flatMap (fun _ _ => Fol.kw h) hr

macro_rules | `(tactic| fol) => `(tactic| first
  | refine Fol.opt (by decide) ?_; fol
  | refine Fol.optStr (by decide) ?_; fol
  | refine Fol.optNum (by decide) ?_; fol
  | refine Fol.optYes (by decide) ?_; fol
  | refine Fol.dataType (by decide) ?_; fol
  | refine Fol.grid (by decide) ?_; fol
  | refine Fol.range (by decide) ?_; fol
  | refine Fol.averaging (by decide) ?_; fol
  | refine Fol.latType (by decide) ?_; fol
  | refine Fol.ranges (by decide) ?_; fol
  | refine Fol.maxLatitude (by decide) ?_; fol
  | refine Fol.nibble (by decide) ?_; fol
  | refine Fol.inversion (by decide) ?_; fol
  | refine Fol.opticalAxis (by decide) ?_; fol
  | refine Fol.minnaert (by decide) ?_; fol
  | refine Fol.keyStrs (by decide) ?_; fol
  | exact Fol.subObserv (by decide)
  | exact Fol.subSolar (by decide)
  | exact Fol.radii (by decide)
  | exact Fol.rotation (by decide)
  | exact Fol.intervals (by decide)
  | exact Fol.centers (by decide)
  | exact Fol.turn (by decide)
  | exact Fol.distance (by decide)
  | exact Fol.latRange (by decide)
  | exact Fol.lonRange (by decide)
  | exact Fol.pole (by decide)
  | exact Fol.projection (by decide)
  | exact Fol.scale (by decide)
  | exact Fol.photo (by decide)
  | exact Fol.planeType (by decide)
  | exact Fol.plane (by decide)
  | exact Fol.map (by decide)
  | fail)

/-! ### What cannot stand where another clause is expected -/

theorem kw_not {k : String} {l : List Token} (h : Fol [k] r) : (r = kw k :: l) ↔ False :=
  ⟨fun e => h.ne (by simp) l e, False.elim⟩

theorem kw_not' {k : String} {l : List Token} (h : Fol [k] r) : (kw k :: l = r) ↔ False :=
  ⟨fun e => h.ne (by simp) l e.symm, False.elim⟩

theorem point_not {kLat kLon : String} {p : Point} {l : List Token} (h : Fol [kLat, kLon] r) :
    (r = p.yield kLat kLon ++ l) ↔ False := by
  refine ⟨fun e => ?_, False.elim⟩
  cases p <;> (simp only [Point.yield, key, List.cons_append] at e; exact h.ne (by simp) _ e)

theorem subObserv_not {p : Point} {l : List Token} (h : Fol ["SUB_OBSERV_LAT", "SUB_OBSERV_LON"] r) :
    (r = subObserv p ++ l) ↔ False := point_not h

theorem subObserv_not' {p : Point} {l : List Token}
    (h : Fol ["SUB_OBSERV_LAT", "SUB_OBSERV_LON"] r) : (subObserv p ++ l = r) ↔ False :=
  eq_comm.trans (point_not h)

theorem subSolar_not {p : Point} {l : List Token} (h : Fol ["SUB_SOLAR_LAT", "SUB_SOLAR_LON"] r) :
    (r = subSolar p ++ l) ↔ False := point_not h

theorem subSolar_not' {p : Point} {l : List Token}
    (h : Fol ["SUB_SOLAR_LAT", "SUB_SOLAR_LON"] r) : (subSolar p ++ l = r) ↔ False :=
  eq_comm.trans (point_not h)

theorem turn_not {p : Turn} {l : List Token} (h : Fol ["POSITION_ANGLE"] r) :
    (r = p.yield ++ l) ↔ False := by
  refine ⟨fun e => ?_, False.elim⟩
  simp only [Turn.yield, key, List.cons_append] at e; exact h.ne (by simp) _ e

theorem turn_not' {p : Turn} {l : List Token} (h : Fol ["POSITION_ANGLE"] r) :
    (p.yield ++ l = r) ↔ False := eq_comm.trans (turn_not h)

theorem centers_not {c : Centers} {l : List Token}
    (h : Fol ["SAMPLE_CENTER", "LINE_CENTER", "LAT_AT_CENTER", "LON_AT_CENTER"] r) :
    (r = c.yield ++ l) ↔ False := by
  refine ⟨fun e => ?_, False.elim⟩
  rcases c with (_ | _) | (_ | _) <;>
    (simp only [Centers.yield, Pair.yield, Point.yield, key, List.cons_append] at e
     exact h.ne (by simp) _ e)

theorem centers_not' {c : Centers} {l : List Token}
    (h : Fol ["SAMPLE_CENTER", "LINE_CENTER", "LAT_AT_CENTER", "LON_AT_CENTER"] r) :
    (c.yield ++ l = r) ↔ False := eq_comm.trans (centers_not h)

theorem latRange_not {c : LatRange} {l : List Token} (h : Fol ["LO_LAT", "HI_LAT"] r) :
    (r = c.yield ++ l) ↔ False := by
  refine ⟨fun e => ?_, False.elim⟩
  cases c <;> (simp only [LatRange.yield, key, List.cons_append] at e; exact h.ne (by simp) _ e)

theorem latRange_not' {c : LatRange} {l : List Token} (h : Fol ["LO_LAT", "HI_LAT"] r) :
    (c.yield ++ l = r) ↔ False := eq_comm.trans (latRange_not h)

theorem lonRange_not {c : LonRange} {l : List Token} (h : Fol ["LO_LON", "HI_LON"] r) :
    (r = c.yield ++ l) ↔ False := by
  refine ⟨fun e => ?_, False.elim⟩
  cases c <;> (simp only [LonRange.yield, key, List.cons_append] at e; exact h.ne (by simp) _ e)

theorem lonRange_not' {c : LonRange} {l : List Token} (h : Fol ["LO_LON", "HI_LON"] r) :
    (c.yield ++ l = r) ↔ False := eq_comm.trans (lonRange_not h)

theorem sides_not {kA kB : String} {c : Sides} {l : List Token} (h : Fol [kA, kB] r) :
    (r = c.yield kA kB ++ l) ↔ False := by
  refine ⟨fun e => ?_, False.elim⟩
  cases c <;> (simp only [Sides.yield, keyNum, key, List.cons_append] at e; exact h.ne (by simp) _ e)

theorem Fol.nibbleSamples {c : Sides} (h : ∀ k ∈ ["NIBBLE_LEFT", "NIBBLE_RIGHT"], k ∉ ks) :
    Fol ks (nibbleSamples c ++ r) := Fol.sides h

theorem Fol.nibbleLines {c : Sides} (h : ∀ k ∈ ["NIBBLE_TOP", "NIBBLE_BOTTOM"], k ∉ ks) :
    Fol ks (nibbleLines c ++ r) := Fol.sides h

theorem nibbleSamples_not {c : Sides} {l : List Token} (h : Fol ["NIBBLE_LEFT", "NIBBLE_RIGHT"] r) :
    (r = nibbleSamples c ++ l) ↔ False := sides_not h

theorem nibbleSamples_not' {c : Sides} {l : List Token}
    (h : Fol ["NIBBLE_LEFT", "NIBBLE_RIGHT"] r) : (nibbleSamples c ++ l = r) ↔ False :=
  eq_comm.trans (sides_not h)

theorem nibbleLines_not {c : Sides} {l : List Token} (h : Fol ["NIBBLE_TOP", "NIBBLE_BOTTOM"] r) :
    (r = nibbleLines c ++ l) ↔ False := sides_not h

theorem nibbleLines_not' {c : Sides} {l : List Token}
    (h : Fol ["NIBBLE_TOP", "NIBBLE_BOTTOM"] r) : (nibbleLines c ++ l = r) ↔ False :=
  eq_comm.trans (sides_not h)

macro_rules | `(tactic| fol) => `(tactic| first
  | exact Fol.nibbleSamples (by decide)
  | exact Fol.nibbleLines (by decide)
  | fail)

/-! ### Longer clauses -/

/-- Keywords of the options of an orthographic projection. -/
def orthoKeys : List String :=
  ["SUB_OBSERV_LAT", "SUB_OBSERV_LON", "POSITION_ANGLE", "KM_PER_PIXEL", "SAMPLE_CENTER",
    "LINE_CENTER", "LAT_AT_CENTER", "LON_AT_CENTER", "CW", "CCW", "N", "S", "C", "G", "E", "W"]

theorem OrthoOpts.iff {a b : OrthoOpts} (hr : Fol orthoKeys r) (hr' : Fol orthoKeys r') :
    a.yield ++ r = b.yield ++ r' ↔ a = b ∧ r = r' := by
  refine ⟨fun h => ?_, by rintro ⟨rfl, rfl⟩; rfl⟩
  cases a <;> cases b <;>
    (toks [OrthoOpts.yield, subObserv_iff, subObserv_not, subObserv_not', Turn.iff, turn_not,
       turn_not', Centers.iff, centers_not, centers_not', kw_not, kw_not'] at h
     try simp_all only [and_self])

theorem LatRange.iff {a b : LatRange} (hr : Fol ["N", "S", "C", "G"] r)
    (hr' : Fol ["N", "S", "C", "G"] r') : a.yield ++ r = b.yield ++ r' ↔ a = b ∧ r = r' := by
  refine ⟨fun h => ?_, by rintro ⟨rfl, rfl⟩; rfl⟩
  cases a <;> cases b <;> (toks [LatRange.yield, Lat.iff] at h; try simp_all only [and_self])

theorem LonRange.iff {a b : LonRange} (hr : Fol ["E", "W"] r)
    (hr' : Fol ["E", "W"] r') : a.yield ++ r = b.yield ++ r' ↔ a = b ∧ r = r' := by
  refine ⟨fun h => ?_, by rintro ⟨rfl, rfl⟩; rfl⟩
  cases a <;> cases b <;> (toks [LonRange.yield, Lon.iff] at h; try simp_all only [and_self])

/-- Keywords of ranges of latitudes and longitudes. -/
def rangeKeys : List String :=
  ["LO_LAT", "HI_LAT", "LO_LON", "HI_LON", "N", "S", "C", "G", "E", "W"]

theorem Ranges.iff {a b : Ranges} (hr : Fol rangeKeys r) (hr' : Fol rangeKeys r') :
    a.yield ++ r = b.yield ++ r' ↔ a = b ∧ r = r' := by
  refine ⟨fun h => ?_, by rintro ⟨rfl, rfl⟩; rfl⟩
  cases a <;> cases b <;>
    (toks [Ranges.yield, LatRange.iff, latRange_not, latRange_not', LonRange.iff, lonRange_not,
       lonRange_not'] at h
     try simp_all only [and_self])

theorem maxLatitude_iff {a b : Option Lat} (hr : Fol ["MAX_LAT", "N", "S", "C", "G"] r)
    (hr' : Fol ["MAX_LAT", "N", "S", "C", "G"] r') :
    maxLatitude a ++ r = maxLatitude b ++ r' ↔ a = b ∧ r = r' := by
  refine ⟨fun h => ?_, by rintro ⟨rfl, rfl⟩; rfl⟩
  cases a <;> cases b <;>
    (toks [maxLatitude, Lat.iff, kw_not, kw_not'] at h; try simp_all only [and_self])

theorem pole_iff {a b : Bool} : pole a ++ r = pole b ++ r' ↔ a = b ∧ r = r' := by
  refine ⟨fun h => ?_, by rintro ⟨rfl, rfl⟩; rfl⟩
  cases a <;> cases b <;>
    (toks [pole, if_true, if_false, Bool.false_eq_true] at h; try simp_all only [and_self])

theorem nibbleSamples_iff {a b : Sides} (hr : Fol ["NIBBLE_LEFT", "NIBBLE_RIGHT"] r)
    (hr' : Fol ["NIBBLE_LEFT", "NIBBLE_RIGHT"] r') :
    nibbleSamples a ++ r = nibbleSamples b ++ r' ↔ a = b ∧ r = r' := by
  refine ⟨fun h => ?_, by rintro ⟨rfl, rfl⟩; rfl⟩
  cases a <;> cases b <;>
    (toks [nibbleSamples, Sides.yield, kw_not, kw_not'] at h; try simp_all only [and_self])

theorem nibbleLines_iff {a b : Sides} (hr : Fol ["NIBBLE_TOP", "NIBBLE_BOTTOM"] r)
    (hr' : Fol ["NIBBLE_TOP", "NIBBLE_BOTTOM"] r') :
    nibbleLines a ++ r = nibbleLines b ++ r' ↔ a = b ∧ r = r' := by
  refine ⟨fun h => ?_, by rintro ⟨rfl, rfl⟩; rfl⟩
  cases a <;> cases b <;>
    (toks [nibbleLines, Sides.yield, kw_not, kw_not'] at h; try simp_all only [and_self])

theorem Nibble.iff {a b : Nibble} (hr : Fol nibbleKeys r) (hr' : Fol nibbleKeys r') :
    a.yield ++ r = b.yield ++ r' ↔ a = b ∧ r = r' := by
  refine ⟨fun h => ?_, by rintro ⟨rfl, rfl⟩; rfl⟩
  cases a <;> cases b <;>
    (toks [Nibble.yield, nibbleSamples_iff, nibbleLines_iff, nibbleSamples_not, nibbleSamples_not',
       nibbleLines_not, nibbleLines_not', kw_not, kw_not'] at h
     try simp_all only [and_self])

theorem inversion_iff {a b : Option Inversion} (hr : Fol ["INVERT"] r) (hr' : Fol ["INVERT"] r') :
    inversion a ++ r = inversion b ++ r' ↔ a = b ∧ r = r' := by
  refine ⟨fun h => ?_, by rintro ⟨rfl, rfl⟩; rfl⟩
  rcases a with _ | _ | _ | _ <;> rcases b with _ | _ | _ | _ <;>
    (toks [inversion, kw_not, kw_not'] at h; try simp_all only [and_self])

theorem pair_not {kA kB : String} {p : Pair} {l : List Token} (h : Fol [kA, kB] r) :
    (r = p.yield kA kB ++ l) ↔ False := by
  refine ⟨fun e => ?_, False.elim⟩
  cases p <;> (simp only [Pair.yield, key, List.cons_append] at e; exact h.ne (by simp) _ e)

theorem pair_not' {kA kB : String} {p : Pair} {l : List Token} (h : Fol [kA, kB] r) :
    (p.yield kA kB ++ l = r) ↔ False := eq_comm.trans (pair_not h)

theorem opticalAxis_iff {a b : Option Pair} (hr : Fol ["SAMPLE_OA", "LINE_OA"] r)
    (hr' : Fol ["SAMPLE_OA", "LINE_OA"] r') :
    opticalAxis a ++ r = opticalAxis b ++ r' ↔ a = b ∧ r = r' := by
  refine ⟨fun h => ?_, by rintro ⟨rfl, rfl⟩; rfl⟩
  rcases a with _ | a <;> rcases b with _ | b
  · simpa [opticalAxis] using h
  · simp only [opticalAxis, List.nil_append] at h; exact ((pair_not hr).mp h).elim
  · simp only [opticalAxis, List.nil_append] at h; exact ((pair_not' hr').mp h).elim
  · simp only [opticalAxis] at h
    obtain ⟨rfl, rfl⟩ := (Pair.iff (by decide) (hr.mono (by simp)) (hr'.mono (by simp))).mp h
    simp

theorem op_not {x : Operand} {k : String} {l l' : List Token} : (x.yield ++ l = kw k :: l') ↔ False := by
  refine ⟨fun e => ?_, False.elim⟩
  obtain ⟨t, l2, h1, h2⟩ := op_head x
  rw [h1] at e
  simp only [List.cons_append, List.cons.injEq, Scan.kw, Token.ex.injEq] at e
  rcases h2 with ⟨s, rfl⟩ | rfl | rfl | ⟨f, rfl⟩ <;> simp at e

theorem op_not' {x : Operand} {k : String} {l l' : List Token} : (kw k :: l' = x.yield ++ l) ↔ False :=
  eq_comm.trans op_not

theorem Minnaert.iff {a b : Minnaert} (hr : Fol ["MINNAERT"] r) (hr' : Fol ["MINNAERT"] r') :
    a.yield ++ r = b.yield ++ r' ↔ a = b ∧ r = r' := by
  refine ⟨fun h => ?_, by rintro ⟨rfl, rfl⟩; rfl⟩
  cases a <;> cases b <;>
    (toks [Minnaert.yield, kw_not, kw_not', op_not, op_not'] at h; try simp_all only [and_self])

theorem Scale.iff {a b : Scale} (hr : Fol [] r) (hr' : Fol [] r') :
    a.yield ++ r = b.yield ++ r' ↔ a = b ∧ r = r' := by
  refine ⟨fun h => ?_, by rintro ⟨rfl, rfl⟩; rfl⟩
  rcases a with _ | _ | a <;> rcases b with _ | _ | b
  case lens.lens =>
    simp only [Scale.yield] at h
    obtain ⟨rfl, rfl⟩ := (Pair.iff (by decide) hr hr').mp h
    simp
  all_goals
    first
    | (toks [Scale.yield] at h; done)
    | (toks [Scale.yield] at h; simp_all only [and_self])
    | (cases a <;> (toks [Scale.yield, Pair.yield] at h))
    | (cases b <;> (toks [Scale.yield, Pair.yield] at h))

theorem options_not {a : Option Averaging} {p l : List Token} (h : Fol ["OPTIONS"] r) :
    (r = options a p ++ l) ↔ False := by
  refine ⟨fun e => ?_, False.elim⟩
  simp only [options, key, List.cons_append] at e; exact h.ne (by simp) _ e

theorem options_not' {a : Option Averaging} {p l : List Token} (h : Fol ["OPTIONS"] r) :
    (options a p ++ l = r) ↔ False := eq_comm.trans (options_not h)

/-- Keywords of the options of projections. -/
def projKeys : List String :=
  ["OPTIONS", "AVERAGING", "LATITUDE_TYPE", "GRAPHIC", "CENTRIC", "LO_LAT", "HI_LAT", "LO_LON",
    "HI_LON", "MAX_LAT", "POLE"] ++ orthoKeys

theorem Fol.ortho {o : OrthoOpts}
    (h : ∀ k ∈ ["SUB_OBSERV_LAT", "SUB_OBSERV_LON", "POSITION_ANGLE", "KM_PER_PIXEL",
      "SAMPLE_CENTER", "LINE_CENTER", "LAT_AT_CENTER", "LON_AT_CENTER"], k ∉ ks)
    (hr : Fol ks r) : Fol ks (o.yield ++ r) := by
  have h1 : ∀ k ∈ ["SUB_OBSERV_LAT", "SUB_OBSERV_LON"], k ∉ ks :=
    fun k hk => h k (by simp at hk ⊢; tauto)
  have h2 : ∀ k ∈ ["SAMPLE_CENTER", "LINE_CENTER", "LAT_AT_CENTER", "LON_AT_CENTER"], k ∉ ks :=
    fun k hk => h k (by simp at hk ⊢; tauto)
  cases o <;> simp only [OrthoOpts.yield, List.append_assoc]
  · exact hr
  · exact Fol.subObserv h1
  · exact Fol.turn (h _ (by simp))
  · exact Fol.kw (h _ (by simp))
  · exact Fol.centers h2
  · exact Fol.subObserv h1
  · exact Fol.subObserv h1
  · exact Fol.subObserv h1

macro_rules | `(tactic| fol) => `(tactic| first
  | refine Fol.ortho (by decide) ?_; fol
  | fail)

theorem Projection.iff {a b : Projection} (hr : Fol projKeys r) (hr' : Fol projKeys r') :
    a.yield ++ r = b.yield ++ r' ↔ a = b ∧ r = r' := by
  refine ⟨fun h => ?_, by rintro ⟨rfl, rfl⟩; rfl⟩
  rcases a with _ | _ | _ | _ <;> rcases b with _ | _ | _ | _ <;>
    toks [Projection.yield, Projection.name] at h
  · rename_i o o'
    rcases o with _ | o <;> rcases o' with _ | o' <;>
      (toks [Projection.opts, options, averaging_iff, kw_not, kw_not'] at h
       try simp_all only [and_self])
  · rename_i o o'
    rcases o with _ | ⟨a, o⟩ <;> rcases o' with _ | ⟨a', o'⟩ <;>
      (toks [Projection.opts, options, averaging_iff, OrthoOpts.iff, kw_not, kw_not'] at h
       try simp_all only [and_self])
  · rename_i o o'
    rcases o with _ | ⟨a, n, o⟩ <;> rcases o' with _ | ⟨a', n', o'⟩ <;>
      (toks [Projection.opts, options, averaging_iff, pole_iff, maxLatitude_iff, kw_not, kw_not'] at h
       try simp_all only [and_self])
  · rename_i o o'
    rcases o with _ | ⟨a, n, o⟩ <;> rcases o' with _ | ⟨a', n', o'⟩ <;>
      (toks [Projection.opts, options, averaging_iff, LatType.iff, Ranges.iff, kw_not, kw_not'] at h
       try simp_all only [and_self])

theorem Photo.iff {a b : Photo} (hr : Fol [] r) (hr' : Fol [] r') :
    a.yield ++ r = b.yield ++ r' ↔ a = b ∧ r = r' := by
  refine ⟨fun h => ?_, by rintro ⟨rfl, rfl⟩; rfl⟩
  obtain ⟨⟩ := a
  obtain ⟨⟩ := b
  toks [Photo.yield, Nibble.iff, inversion_iff, optYes_iff, Centers.iff, opticalAxis_iff,
    optStr_iff, Minnaert.iff, optExpr_iff, subObserv_iff, Turn.iff, subSolar_iff, Distance.iff,
    Scale.iff] at h
  simp_all only [and_self]

theorem flatMap_iff {α : Type} {y : α → List Token} {k : String} {as bs : List α}
    (hk : k ∉ ks) (hy : ∀ a, ∃ l, y a = kw k :: l)
    (hi : ∀ a b r r', Fol ks r → Fol ks r' → (y a ++ r = y b ++ r' ↔ a = b ∧ r = r'))
    (hr : Fol (k :: ks) r) (hr' : Fol (k :: ks) r') :
    as.flatMap y ++ r = bs.flatMap y ++ r' ↔ as = bs ∧ r = r' := by
  have hf : ∀ l : List α, ∀ r, Fol ks r → Fol ks (l.flatMap y ++ r) := fun l r h =>
    Fol.flatMap (fun a r => by obtain ⟨l, h⟩ := hy a; rw [h]; exact Fol.kw hk) h
  have h0 := hr.mono (ks' := ks) (fun _ h => List.mem_cons_of_mem _ h)
  have h0' := hr'.mono (ks' := ks) (fun _ h => List.mem_cons_of_mem _ h)
  refine ⟨fun h => ?_, by rintro ⟨rfl, rfl⟩; rfl⟩
  induction as generalizing bs with
  | nil =>
    cases bs with
    | nil => simpa using h
    | cons b bs =>
      obtain ⟨l, hl⟩ := hy b
      rw [List.flatMap_nil, List.nil_append, List.flatMap_cons, hl] at h
      exact (hr.ne (by simp) _ h).elim
  | cons a as ih =>
    cases bs with
    | nil =>
      obtain ⟨l, hl⟩ := hy a
      rw [List.flatMap_nil, List.nil_append, List.flatMap_cons, hl] at h
      exact (hr'.ne (by simp) _ h.symm).elim
    | cons b bs =>
      rw [List.flatMap_cons, List.flatMap_cons, List.append_assoc, List.append_assoc,
        hi _ _ _ _ (hf as r h0) (hf bs r' h0')] at h
      obtain ⟨rfl, h⟩ := h
      obtain ⟨rfl, rfl⟩ := ih h
      simp

theorem keyStrs_iff {k : String} {a b : List (List Char)} (hr : Fol [k] r) (hr' : Fol [k] r') :
    a.flatMap (keyStr k) ++ r = b.flatMap (keyStr k) ++ r' ↔ a = b ∧ r = r' := by
  refine flatMap_iff (ks := []) (by simp) (fun a => ⟨_, rfl⟩) (fun a b r r' _ _ => ?_) hr hr'
  refine ⟨fun h => ?_, by rintro ⟨rfl, rfl⟩; rfl⟩
  toks [keyStr] at h
  exact h

theorem photos_iff {a b : List Photo} (hr : Fol ["IMAGE"] r) (hr' : Fol ["IMAGE"] r') :
    a.flatMap Photo.yield ++ r = b.flatMap Photo.yield ++ r' ↔ a = b ∧ r = r' :=
  flatMap_iff (ks := []) (by simp) (fun a => ⟨_, rfl⟩) (fun _ _ _ _ h h' => Photo.iff h h') hr hr'

theorem photo_not {p : Photo} {l : List Token} (h : Fol ["IMAGE"] r) :
    (p.yield ++ l = r) ↔ False := by
  refine ⟨fun e => ?_, False.elim⟩
  simp only [Photo.yield, keyStr, key, List.cons_append] at e
  exact h.ne (by simp) _ e.symm

theorem photo_not' {p : Photo} {l : List Token} (h : Fol ["IMAGE"] r) :
    (r = p.yield ++ l) ↔ False := eq_comm.trans (photo_not h)

theorem Fol.photos {l : List Photo} (h : "IMAGE" ∉ ks) (hr : Fol ks r) :
    Fol ks (l.flatMap Photo.yield ++ r) := Fol.flatMap (fun _ _ => Fol.photo h) hr

theorem Fol.planes {l : List Plane} (h : "PLANE" ∉ ks) (hr : Fol ks r) :
    Fol ks (l.flatMap Plane.yield ++ r) := Fol.flatMap (fun _ _ => Fol.plane h) hr

theorem Fol.maps {l : List Map} (h : "MAP" ∉ ks) (hr : Fol ks r) :
    Fol ks (l.flatMap Map.yield ++ r) := Fol.flatMap (fun _ _ => Fol.map h) hr

macro_rules | `(tactic| fol) => `(tactic| first
  | refine Fol.photos (by decide) ?_; fol
  | refine Fol.planes (by decide) ?_; fol
  | refine Fol.maps (by decide) ?_; fol
  | fail)

/-- Keywords that may stand in a plane, other than at its beginning. -/
def planeKeys : List String :=
  ["IMAGE", "SUB_SOLAR_LAT", "SUB_SOLAR_LON", "KM", "AU", "LATITUDE_TYPE", "GRAPHIC", "CENTRIC",
    "N", "S", "C", "G", "E", "W"]

theorem PlaneType.iff {a b : PlaneType} (hr : Fol planeKeys r) (hr' : Fol planeKeys r') :
    a.yield ++ r = b.yield ++ r' ↔ a = b ∧ r = r' := by
  refine ⟨fun h => ?_, by rintro ⟨rfl, rfl⟩; rfl⟩
  cases a <;> cases b <;>
    (simp only [PlaneType.yield, List.append_assoc] at h
     try rw [Photo.iff (by fol) (by fol)] at h
     toks [photos_iff, photo_not, photo_not', subObserv_iff, subSolar_iff, Distance.iff,
       LatType.iff, subObserv_not, subObserv_not', subSolar_not, subSolar_not'] at h
     try simp_all only [and_self])

theorem planeType_head (p : PlaneType) (l : List Token) : ∃ k l', p.yield ++ l = kw k :: l' := by
  cases p <;> exact ⟨_, _, rfl⟩

theorem range_head (g : Range) (p : PlaneType) (l : List Token) :
    ∃ k l', g.yield ++ (p.yield ++ l) = kw k :: l' := by
  cases g <;> first | exact planeType_head p l | exact ⟨_, _, rfl⟩

theorem Plane.iff {a b : Plane} (hr : Fol planeKeys r) (hr' : Fol planeKeys r') :
    a.yield ++ r = b.yield ++ r' ↔ a = b ∧ r = r' := by
  refine ⟨fun h => ?_, by rintro ⟨rfl, rfl⟩; rfl⟩
  obtain ⟨n, g, t⟩ := a
  obtain ⟨n', g', t'⟩ := b
  rcases n with _ | n <;> rcases n' with _ | n'
  · toks [Plane.yield, Range.iff, PlaneType.iff] at h
    simp_all only [and_self]
  · simp only [Plane.yield, key, List.cons_append, List.nil_append, List.cons.injEq, true_and,
      List.append_assoc] at h
    obtain ⟨k, l, e⟩ := range_head g t r
    rw [e] at h
    simp [Scan.kw] at h
  · simp only [Plane.yield, key, List.cons_append, List.nil_append, List.cons.injEq, true_and,
      List.append_assoc] at h
    obtain ⟨k, l, e⟩ := range_head g' t' r'
    rw [e] at h
    simp [Scan.kw] at h
  · toks [Plane.yield, Range.iff, PlaneType.iff] at h
    simp_all only [and_self]

theorem planes_iff {a b : List Plane} (hr : Fol ("PLANE" :: planeKeys) r)
    (hr' : Fol ("PLANE" :: planeKeys) r') :
    a.flatMap Plane.yield ++ r = b.flatMap Plane.yield ++ r' ↔ a = b ∧ r = r' :=
  flatMap_iff (ks := planeKeys) (by decide) (fun a => ⟨_, rfl⟩)
    (fun _ _ _ _ h h' => Plane.iff h h') hr hr'

theorem Map.iff {a b : Map} (hr : Fol ("PLANE" :: planeKeys) r)
    (hr' : Fol ("PLANE" :: planeKeys) r') :
    a.yield ++ r = b.yield ++ r' ↔ a = b ∧ r = r' := by
  refine ⟨fun h => ?_, by rintro ⟨rfl, rfl⟩; rfl⟩
  obtain ⟨⟩ := a
  obtain ⟨⟩ := b
  toks [Map.yield, optStr_iff, keyStrs_iff, Radii.iff, rotation_iff, optExpr_iff, dataType_iff,
    optNum_iff, Grid.iff, Projection.iff, Plane.iff, planes_iff] at h
  simp_all only [and_self]

theorem maps_iff {a b : List Map} :
    a.flatMap Map.yield = b.flatMap Map.yield ↔ a = b := by
  have := flatMap_iff (as := a) (bs := b) (ks := "PLANE" :: planeKeys) (by decide)
    (y := Map.yield) (fun a => ⟨_, rfl⟩) (fun _ _ _ _ h h' => Map.iff h h') (Fol.nil _) (Fol.nil _)
  rwa [List.append_nil, List.append_nil, and_iff_left rfl] at this

theorem File.inj {a b : File} (h : a.yield = b.yield) : a = b := by
  rcases a with ⟨m, ms⟩ | ⟨i, g, n⟩ <;> rcases b with ⟨m', ms'⟩ | ⟨i', g', n'⟩
  · have : (m :: ms).flatMap Map.yield = (m' :: ms').flatMap Map.yield := by
      simpa [File.yield] using h
    obtain ⟨rfl, rfl⟩ := List.cons.inj (maps_iff.mp this)
    rfl
  · exfalso
    simp only [File.yield, Map.yield, keyStr, key, List.cons_append] at h
    have : Fol ["MAP"] (i'.yield ++ (g'.yield ++ n'.yield)) := Fol.intervals (by decide)
    exact this.ne (by simp) _ h.symm
  · exfalso
    simp only [File.yield, Map.yield, keyStr, key, List.cons_append] at h
    have : Fol ["MAP"] (i.yield ++ (g.yield ++ n.yield)) := Fol.intervals (by decide)
    exact this.ne (by simp) _ h
  · simp only [File.yield] at h
    rw [← List.append_nil n.yield, ← List.append_nil n'.yield, Intervals.iff (by fol) (by fol),
      Range.iff (by fol) (by fol), Nibble.iff (by fol) (by fol)] at h
    simp_all only

end

end MaRC.Grammar
