import Verif.Spec.InputMeaning
import Verif.Lemmas.Grammar
import Verif.Props.Calc

/-! # Lemmas about the entries of an input file: trees and their lookups -/

namespace MaRC.InputMeaning

open MaRC.Calc (Tok)
open MaRC.Scan (Token kw)
open MaRC.InputFile (Item tokenOf tokenName)
open MaRC.Grammar
open MaRC.Parser (Averaging Hemisphere Side)

/-! ## Splitting tokens at keywords -/

/-- Tokens before the next keyword with a colon. -/
def ahead : List Token → List Token
  | [] => []
  | [t] => [t]
  | t :: u :: ts => if u = .colon then [] else t :: ahead (u :: ts)

/-- The name of a keyword. -/
def nameOf : Token → String
  | .ex (.kw k) => k
  | _ => ""

/-- Keywords with a colon and the tokens after each. -/
def split : List Token → Part
  | [] => []
  | [_] => []
  | t :: u :: ts => if u = .colon then (nameOf t, ahead ts) :: split ts else split (u :: ts)

/-- No colons. -/
def Plain (ts : List Token) : Prop := Token.colon ∉ ts

/-- Does not begin with a colon. -/
def Starts (ts : List Token) : Prop := ts.head? ≠ some .colon

theorem split_plain {ts r : List Token} (h : Plain ts) (hr : Starts r) :
    split (ts ++ r) = split r ∧ ahead (ts ++ r) = ts ++ ahead r := by
  induction ts with
  | nil => simp
  | cons t ts ih =>
    have h' : Plain ts := fun hm => h (by simp [hm])
    obtain ⟨ih1, ih2⟩ := ih h'
    cases ts with
    | nil =>
      cases r with
      | nil => simp [split, ahead]
      | cons u us =>
        have hu : u ≠ .colon := by simpa [Starts] using hr
        simp [split, ahead, hu]
    | cons u us =>
      have hu : u ≠ .colon := by rintro rfl; exact h' (by simp)
      simp only [List.cons_append, split, ahead, hu, if_false]
      simp only [List.cons_append] at ih1 ih2
      exact ⟨ih1, by rw [ih2]⟩

theorem split_key {k : String} {v r : List Token} (h : Plain v) (hr : Starts r) :
    split (kw k :: .colon :: (v ++ r)) = (k, v ++ ahead r) :: split r ∧
      ahead (kw k :: .colon :: (v ++ r)) = [] := by
  simp [split, ahead, split_plain h hr, nameOf, kw]

theorem starts_items : ∀ l : List Item, Starts (l.flatMap Item.tokens)
  | [] => by simp [Starts]
  | i :: l => by cases i <;> simp [Starts, Item.tokens, tokenOf]

theorem plain_ex (ts : List Tok) : Plain (ts.map .ex) := by simp [Plain]

theorem split_items : ∀ l : List Item,
    split (l.flatMap Item.tokens) = entries l ∧ ahead (l.flatMap Item.tokens) = wordsAhead l
  | [] => by simp [split, ahead, entries, wordsAhead]
  | i :: l => by
    obtain ⟨h1, h2⟩ := split_items l
    have hs := starts_items l
    cases i with
    | expr k ts =>
      have := split_key (k := tokenName k) (plain_ex ts) hs
      rw [h1, h2] at this
      simpa [Item.tokens, entries, wordsAhead, tokenOf, kw] using this
    | auto k w =>
      have := split_key (k := tokenName k) (v := [tokenOf w]) (by simp [Plain, tokenOf]) hs
      rw [h1, h2] at this
      simpa [Item.tokens, entries, wordsAhead, tokenOf, kw] using this
    | mark k =>
      have := split_key (k := tokenName k) (v := []) (by simp [Plain]) hs
      rw [h1, h2] at this
      simpa [Item.tokens, entries, wordsAhead, tokenOf, kw] using this
    | word w =>
      have := split_plain (ts := [tokenOf w]) (by simp [Plain, tokenOf]) hs
      rw [h1, h2] at this
      simpa [Item.tokens, entries, wordsAhead] using this
    | name k s =>
      have := split_key (k := tokenName k) (v := [.str s]) (by simp [Plain]) hs
      rw [h1, h2] at this
      simpa [Item.tokens, entries, wordsAhead, tokenOf, kw] using this
    | text k s =>
      have := split_key (k := tokenName k) (v := [.str s]) (by simp [Plain]) hs
      rw [h1, h2] at this
      simpa [Item.tokens, entries, wordsAhead, tokenOf, kw] using this
    | pole north =>
      have := split_key (k := "POLE") (v := [.ex (.kw (if north then "N" else "S"))])
        (by simp [Plain]) hs
      rw [h1, h2] at this
      simpa [Item.tokens, entries, wordsAhead, tokenOf, kw, tokenName] using this

/-! ## Segments -/

/-- Nothing, or a keyword with a colon. -/
def Opens (r : List Token) : Prop := Starts r ∧ ahead r = []

/-- Tokens that stand for the given entries. -/
def Seg (ts : List Token) (es : Part) : Prop :=
  ∀ r, Opens r → Opens (ts ++ r) ∧ split (ts ++ r) = es ++ split r

theorem Seg.nil : Seg [] [] := fun _ hr => ⟨hr, rfl⟩

theorem Seg.append {a b : List Token} {ea eb : Part} (ha : Seg a ea) (hb : Seg b eb) :
    Seg (a ++ b) (ea ++ eb) := by
  intro r hr
  obtain ⟨h1, h2⟩ := hb r hr
  obtain ⟨h3, h4⟩ := ha _ h1
  rw [List.append_assoc, h4, h2, List.append_assoc]
  exact ⟨h3, rfl⟩

theorem Seg.key {k : String} {v : List Token} (h : Plain v) : Seg (key k v) [(k, v)] := by
  intro r hr
  obtain ⟨h1, h2⟩ := split_key (k := k) h hr.1
  refine ⟨⟨by simp [Starts, Grammar.key, kw], ?_⟩, ?_⟩
  · simpa [Grammar.key] using h2
  · simp only [Grammar.key, List.cons_append, h1, hr.2, List.append_nil, List.nil_append]

theorem Seg.cons {k : String} {v ts : List Token} {es : Part} (h : Plain v) (hs : Seg ts es) :
    Seg (Grammar.key k v ++ ts) ((k, v) :: es) := (Seg.key h).append hs

theorem Seg.flatMap {α : Type} {f : α → List Token} {g : α → Part} (l : List α)
    (h : ∀ x ∈ l, Seg (f x) (g x)) : Seg (l.flatMap f) (l.flatMap g) := by
  induction l with
  | nil => exact .nil
  | cons x l ih =>
    simp only [List.flatMap_cons]
    exact (h x (by simp)).append (ih fun y hy => h y (by simp [hy]))

theorem Seg.split {ts : List Token} {es : Part} (h : Seg ts es) : split ts = es := by
  have := (h [] ⟨by simp [Starts], rfl⟩).2
  simpa [InputMeaning.split] using this

/-! ## Operands -/

theorem derives_plain {l : ExprSpec.Layer} {ts : List Tok} {e : ExprSpec.Expr}
    (h : ExprSpec.Derives l ts e) (w : String) : Tok.kw w ∉ ts := by
  induction h <;> simp_all

theorem operand_kw (x : Operand) (w : String) : Tok.kw w ∉ x.toks := by
  obtain ⟨e, he⟩ := (operand_iff x.toks).mp x.ok
  exact derives_plain he w

theorem expr_ex : ∀ (ts : List Tok), (∀ w, Tok.kw w ∉ ts) → expr (ts.map .ex) = ts
  | [], _ => rfl
  | t :: ts, h => by
    have ih := expr_ex ts fun w hw => h w (by simp [hw])
    have ht : ∀ w, t ≠ .kw w := fun w hw => h w (by simp [hw])
    simp only [expr] at ih
    cases t <;> simp [expr, ih]
    exact absurd rfl (ht _)

theorem words_ex : ∀ (ts : List Tok), (∀ w, Tok.kw w ∉ ts) → words (ts.map .ex) = []
  | [], _ => rfl
  | t :: ts, h => by
    have ih := words_ex ts fun w hw => h w (by simp [hw])
    have ht : ∀ w, t ≠ .kw w := fun w hw => h w (by simp [hw])
    simp only [words] at ih
    cases t <;> simp [words, ih]
    exact absurd rfl (ht _)

@[simp] theorem expr_yield (x : Operand) : expr x.yield = x.toks := expr_ex _ (operand_kw x)

@[simp] theorem words_yield (x : Operand) : words x.yield = [] := words_ex _ (operand_kw x)

@[simp] theorem expr_append (a b : List Token) : expr (a ++ b) = expr a ++ expr b :=
  List.filterMap_append

@[simp] theorem words_append (a b : List Token) : words (a ++ b) = words a ++ words b :=
  List.filterMap_append

@[simp] theorem expr_nil : expr [] = [] := rfl
@[simp] theorem words_nil : words [] = [] := rfl
@[simp] theorem expr_kw (w : String) (l : List Token) : expr (kw w :: l) = expr l := rfl
@[simp] theorem words_kw (w : String) (l : List Token) : words (kw w :: l) = w :: words l := rfl
@[simp] theorem words_num (s : List Char) (l : List Token) :
    words (.ex (.num s) :: l) = words l := rfl
@[simp] theorem expr_num (s : List Char) (l : List Token) :
    expr (.ex (.num s) :: l) = .num s :: expr l := rfl
@[simp] theorem words_str (s : List Char) (l : List Token) : words (.str s :: l) = words l := rfl
@[simp] theorem text_str (s : List Char) (l : List Token) :
    text (.str s :: l) = some (String.ofList s) := rfl

@[simp] theorem valueOf_toks (E : Env) (x : Operand) : valueOf E x.toks = x.value E := by
  obtain ⟨e, he⟩ := (operand_iff x.toks).mp x.ok
  have hex : ∃ e, ExprSpec.Derives .sum x.toks e := ⟨e, he⟩
  rw [valueOf, dif_pos hex, Calc.C53_unambiguous hex.choose_spec he]
  have hrun : ∀ v rest, Calc.run (Calc.actions E.F E.L) [] none x.toks = some (v, rest) → rest = [] := by
    intro v rest h
    rw [Calc.run_ev] at h
    have := Calc.run_of_derives (rest := []) he trivial
    rw [List.append_nil] at this
    rw [this] at h
    simp only [Option.bind_some, Calc.evR, Option.map_eq_some_iff, Prod.mk.injEq] at h
    obtain ⟨_, -, -, rfl⟩ := h
    rfl
  rw [Operand.value]
  cases hr : Calc.run (Calc.actions E.F E.L) [] none x.toks with
  | none =>
    cases hv : e.value E.F E.L.strtod E.L.pow E.L.fn with
    | none => rfl
    | some v =>
      have := (Calc.C53_value E.F E.L x.toks [] v).mpr ⟨x.toks, e, by simp, he, hv, by simp⟩
      rw [hr] at this
      exact absurd this (by simp)
  | some r =>
    obtain ⟨v, rest⟩ := r
    obtain rfl := hrun v rest hr
    obtain ⟨t1, e', h1, h2, h3, -⟩ := (Calc.C53_value E.F E.L x.toks [] v).mp hr
    rw [List.append_nil] at h1
    subst h1
    rw [Calc.C53_unambiguous he h2, h3]
    rfl

theorem plain_op (x : Operand) : Plain x.yield := plain_ex _

theorem Plain.append {a b : List Token} (ha : Plain a) (hb : Plain b) : Plain (a ++ b) := by
  simp only [Plain, List.mem_append, not_or]; exact ⟨ha, hb⟩

theorem plain_kws (ws : List String) : Plain (ws.map kw) := by simp [Plain, kw]

theorem plain_kw (w : String) : Plain [kw w] := plain_kws [w]

theorem plain_nil : Plain [] := by simp [Plain]

theorem plain_lat (l : Lat) : Plain l.yield := by
  refine (plain_op _).append (Plain.append ?_ ?_)
  · rcases l.side <;> simp [Plain, kw]
  · rcases l.graphic with _ | _ | _ <;> simp [Plain, kw]

theorem plain_lon (l : Lon) : Plain l.yield := by
  refine (plain_op _).append ?_
  rcases l.side <;> simp [Plain, kw]

/-! ## Lookups -/

theorem get_append (k : String) (a b : Part) : get k (a ++ b) = (get k a).or (get k b) := by
  simp only [get, List.find?_append]
  cases List.find? (fun x => decide (x.1 = k)) a <;> simp

@[simp] theorem get_nil (k : String) : get k [] = none := rfl

theorem get_cons (k k' : String) (v : List Token) (es : Part) :
    get k ((k', v) :: es) = if k' = k then some v else get k es := by
  by_cases h : k' = k <;> simp [get, h]

theorem get_none {k : String} {es : Part} (h : k ∉ es.map Prod.fst) : get k es = none := by
  simp only [get, Option.map_eq_none_iff, List.find?_eq_none, decide_eq_true_eq]
  rintro e he rfl
  exact h (List.mem_map.mpr ⟨e, he, rfl⟩)

theorem real_of {E : Env} {k : String} {es : Part} {x : Operand} {ws : List Token}
    (h : get k es = some (x.yield ++ ws)) (hw : expr ws = []) : real E k es = x.value E := by
  simp [real, h, hw]

theorem real_of' {E : Env} {k : String} {es : Part} {x : Operand}
    (h : get k es = some x.yield) : real E k es = x.value E := by simp [real, h]

theorem real_none {E : Env} {k : String} {es : Part} (h : get k es = none) : real E k es = none := by
  simp [real, h]

theorem int_of {k : String} {es : Part} {s : List Char} {ws : List Token}
    (h : get k es = some (.ex (.num s) :: ws)) (hw : expr ws = []) : int k es = Parser.integer s := by
  simp [int, h, hw]

theorem latitude_of {E : Env} {b : Body} {k : String} {es : Part} {l : Lat}
    (h : get k es = some l.yield) : latitude E b k es = l.value E b := by
  obtain ⟨x, side, g⟩ := l
  rcases side <;> rcases g with _ | _ | _ <;>
    simp [latitude, h, Lat.yield, Lat.value, signedLatitude, Parser.latitudeSub, madeCentric,
      Body.centric, Dbl.ge]

theorem longitude_of {E : Env} {b : Body} {k : String} {es : Part} {l : Lon}
    (h : get k es = some l.yield) : longitude E b k es = l.value E b := by
  obtain ⟨x, side⟩ := l
  cases hb : b.prograde <;> rcases side <;>
    simp [longitude, h, Lon.yield, Lon.value, Parser.longitude, hb]

end MaRC.InputMeaning
