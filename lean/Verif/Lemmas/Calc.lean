import Verif.Spec.Expr

/-! # Lemmas about the expression parser -/

namespace MaRC.Calc

open ExprSpec

/-- Actions that build the tree. -/
def treeBin : BinOp → Expr → Expr → Expr
  | .add, a, b => .add a b
  | .sub, a, b => .sub a b
  | .mul, a, b => .mul a b
  | .div, a, b => .div a b
  | .pow, a, b => .pow a b

/-- The tree-building actions. -/
def treeActions : Actions Expr where
  num s := some (.num s)
  fn f e := some (.call f e)
  bin op a b := some (treeBin op a b)
  neg e := some (.neg e)

/-- Token of an operator. -/
def BinOp.tok : BinOp → Tok
  | .add => .plus
  | .sub => .minus
  | .mul => .times
  | .div => .divide
  | .pow => .caret

theorem binOp?_tok (op : BinOp) : op.tok.binOp? = some op := by cases op <;> rfl

theorem tok_of_binOp? {t : Tok} {op : BinOp} (h : t.binOp? = some op) : t = op.tok := by
  cases t <;> simp [Tok.binOp?] at h <;> subst h <;> rfl

/-! ## Completeness: a derivation is followed by the parser -/

/-- Collapse frames onto an operand. -/
def collapse : List (Frame Expr) → Expr → Expr
  | [], v => v
  | .bin op a :: st, v => collapse st (treeBin op a v)
  | .neg :: st, v => collapse st (.neg v)
  | .paren :: st, v => collapse st v
  | .call f :: st, v => collapse st (.call f v)

/-- Binding strength of a frame (0 for a parenthesis). -/
def Frame.strength {α : Type} : Frame α → ℕ
  | .bin op _ => op.prec.1
  | .neg => negPrec
  | .paren => 0
  | .call _ => 0

/-- Lowest strength of the frames a layer leaves behind. -/
def layerLow : Layer → ℕ
  | .sum => 1
  | .term => 2
  | .factor => 3
  | .power => 3
  | .atom => 5

/-- The stack lets a layer's own operators pile up on it. -/
def compat (l : Layer) : List (Frame Expr) → Prop
  | [] => True
  | f :: _ => f.strength < layerLow l ∨ 3 ≤ layerLow l

theorem reduceWhile_append {p : Frame Expr → Bool} (st2 st : List (Frame Expr)) (v : Expr)
    (h : ∀ f ∈ st2, p f = true) :
    reduceWhile treeActions p (st2 ++ st) v = reduceWhile treeActions p st (collapse st2 v) := by
  induction st2 generalizing v with
  | nil => rfl
  | cons f r ih =>
    have hf := h f (by simp)
    have hr : ∀ g ∈ r, p g = true := fun g hg => h g (by simp [hg])
    cases f <;>
      simp [reduceWhile, hf, reduce, treeActions, collapse] <;>
      exact ih _ hr

theorem reduceWhile_stop {p : Frame Expr → Bool} (st : List (Frame Expr)) (v : Expr)
    (h : ∀ f, st.head? = some f → p f = false) :
    reduceWhile treeActions p st v = some (st, v) := by
  cases st with
  | nil => rfl
  | cons f r => simp [reduceWhile, h f rfl]

/-- Reading a layer: the machine reaches a state whose new frames collapse to
the tree. -/
def Reads (l : Layer) (ts : List Tok) (e : Expr) : Prop :=
  ∀ st rest, compat l st → ∃ st2 v,
    run treeActions st none (ts ++ rest) = run treeActions (st2 ++ st) (some v) rest ∧
    collapse st2 v = e ∧ ∀ f ∈ st2, layerLow l ≤ f.strength

theorem collapse_append (a b : List (Frame Expr)) (v : Expr) :
    collapse (a ++ b) v = collapse b (collapse a v) := by
  induction a generalizing v with
  | nil => rfl
  | cons f r ih => cases f <;> simp [collapse, ih]

theorem run_op (op : BinOp) (st : List (Frame Expr)) (v : Expr) (ts : List Tok) :
    run treeActions st (some v) (op.tok :: ts) =
      (reduceWhile treeActions (reduces op) st v).bind
        fun r => run treeActions (.bin op r.2 :: r.1) none ts := by
  cases op <;> rfl

theorem reads_bin {l l' : Layer} {op : BinOp} {t1 t2 : List Tok} {a b : Expr}
    (hop : op.prec.1 = layerLow l) (hleft : op.prec.2 = true) (hl : layerLow l' = layerLow l + 1)
    (h3 : layerLow l < 3)
    (h1 : Reads l t1 a) (h2 : Reads l' t2 b) : Reads l (t1 ++ op.tok :: t2) (treeBin op a b) := by
  intro st rest hc
  obtain ⟨s1, v1, e1, c1, f1⟩ := h1 st (op.tok :: t2 ++ rest) hc
  have hr : reduceWhile treeActions (reduces op) (s1 ++ st) v1 = some (st, a) := by
    rw [reduceWhile_append]
    · rw [c1]
      apply reduceWhile_stop
      intro f hf
      cases st with
      | nil => simp at hf
      | cons g r =>
        simp at hf; subst hf
        have := hc
        simp only [compat] at this
        have hlt : g.strength < layerLow l := by omega
        cases g <;> simp [reduces, Frame.strength, hop] at hlt ⊢ <;> omega
    · intro f hf
      have := f1 f hf
      cases f <;> simp [reduces, Frame.strength, hop, hleft] at this ⊢ <;>
        first | omega | (cases l <;> simp [layerLow] at this h3)
  obtain ⟨s2, v2, e2, c2, f2⟩ := h2 (.bin op a :: st) rest (by
    simp only [compat, Frame.strength]; left; omega)
  refine ⟨s2 ++ [.bin op a], v2, ?_, ?_, ?_⟩
  · have : (t1 ++ op.tok :: t2) ++ rest = t1 ++ (op.tok :: t2 ++ rest) := by simp
    rw [this, e1, List.cons_append, run_op, hr]
    simp only [Option.bind_some]
    rw [e2]; simp
  · rw [collapse_append, c2]; rfl
  · intro f hf
    rcases List.mem_append.mp hf with h | h
    · have := f2 f h; omega
    · simp at h; subst h; simp [Frame.strength, hop]

theorem complete_of_low {s : List (Frame Expr)} {n : ℕ} (h : ∀ f ∈ s, n + 1 ≤ f.strength) :
    ∀ f ∈ s, complete f = true := by
  intro f hf
  have := h f hf
  cases f <;> simp [complete, Frame.strength] at this ⊢

theorem run_rpar (s st : List (Frame Expr)) (v e : Expr) (hv : collapse s v = e)
    (hs : ∀ f ∈ s, complete f = true) (g : Frame Expr) (hg : complete g = false)
    (ts : List Tok) :
    run treeActions (s ++ g :: st) (some v) (.rpar :: ts) =
      (close treeActions (g :: st, e)).bind fun r => run treeActions r.1 (some r.2) ts := by
  rw [run]
  simp only [Tok.binOp?, if_true]
  rw [reduceWhile_append _ _ _ hs, hv, reduceWhile_stop _ _ (by
    intro f hf; simp at hf; subst hf; exact hg)]
  rfl

theorem reads_of_derives {l : Layer} {ts : List Tok} {e : Expr} (h : Derives l ts e) :
    Reads l ts e := by
  induction h with
  | sumTerm _ ih =>
    intro st rest hc
    obtain ⟨s, v, h1, h2, h3⟩ := ih st rest (by
      cases st with
      | nil => trivial
      | cons f r => simp only [compat, layerLow] at hc ⊢; omega)
    exact ⟨s, v, h1, h2, fun f hf => by have := h3 f hf; simp only [layerLow] at this ⊢; omega⟩
  | termFactor _ ih =>
    intro st rest hc
    obtain ⟨s, v, h1, h2, h3⟩ := ih st rest (by
      cases st with
      | nil => trivial
      | cons f r => simp only [compat, layerLow] at hc ⊢; omega)
    exact ⟨s, v, h1, h2, fun f hf => by have := h3 f hf; simp only [layerLow] at this ⊢; omega⟩
  | add _ _ ih1 ih2 => exact reads_bin (op := .add) rfl rfl rfl (by decide) ih1 ih2
  | sub _ _ ih1 ih2 => exact reads_bin (op := .sub) rfl rfl rfl (by decide) ih1 ih2
  | mul _ _ ih1 ih2 => exact reads_bin (op := .mul) rfl rfl rfl (by decide) ih1 ih2
  | div _ _ ih1 ih2 => exact reads_bin (op := .div) rfl rfl rfl (by decide) ih1 ih2
  | factorPower _ ih => exact ih
  | powerAtom _ ih =>
    intro st rest _
    obtain ⟨s, v, h1, h2, h3⟩ := ih st rest (by cases st <;> simp [compat, layerLow])
    exact ⟨s, v, h1, h2, fun f hf => by have := h3 f hf; simp only [layerLow] at this ⊢; omega⟩
  | neg _ ih =>
    intro st rest _
    obtain ⟨s, v, h1, h2, h3⟩ := ih (.neg :: st) rest (Or.inr (by decide))
    refine ⟨s ++ [.neg], v, ?_, ?_, ?_⟩
    · rw [List.cons_append, run, h1]; simp
    · rw [collapse_append, h2]; rfl
    · intro f hf
      rcases List.mem_append.mp hf with h | h
      · exact h3 f h
      · simp at h; subst h; simp [Frame.strength, layerLow, negPrec]
  | @pow t1 t2 a b _ _ ih1 ih2 =>
    intro st rest _
    obtain ⟨s1, v1, e1, c1, f1⟩ := ih1 st (.caret :: t2 ++ rest) (by
      cases st <;> simp [compat, layerLow])
    have hs1 : s1 = [] := by
      cases s1 with
      | nil => rfl
      | cons f r =>
        have := f1 f (by simp)
        cases f with
        | bin op x => cases op <;> simp [Frame.strength, layerLow, BinOp.prec] at this
        | neg => simp [Frame.strength, layerLow, negPrec] at this
        | paren => simp [Frame.strength, layerLow] at this
        | call g => simp [Frame.strength, layerLow] at this
    subst hs1
    simp only [collapse] at c1
    subst c1
    have hr : reduceWhile treeActions (reduces .pow) st v1 = some (st, v1) := by
      apply reduceWhile_stop
      intro f _
      cases f with
      | bin op x => cases op <;> rfl
      | neg => rfl
      | paren => rfl
      | call g => rfl
    obtain ⟨s2, v2, e2, c2, f2⟩ := ih2 (.bin .pow v1 :: st) rest (Or.inr (by decide))
    refine ⟨s2 ++ [.bin .pow v1], v2, ?_, ?_, ?_⟩
    · have : (t1 ++ Tok.caret :: t2) ++ rest = t1 ++ (.caret :: t2 ++ rest) := by simp
      rw [this, e1, List.cons_append]
      have := run_op .pow st v1 (t2 ++ rest)
      simp only [BinOp.tok] at this
      rw [List.nil_append, this, hr]
      simp only [Option.bind_some]
      rw [e2]; simp
    · rw [collapse_append, c2]; rfl
    · intro f hf
      rcases List.mem_append.mp hf with h | h
      · exact f2 f h
      · simp at h; subst h; simp [Frame.strength, layerLow, BinOp.prec]
  | num =>
    intro st rest _
    exact ⟨[], _, rfl, rfl, by simp⟩
  | @paren ts e _ ih =>
    intro st rest _
    obtain ⟨s, v, h1, h2, h3⟩ := ih (.paren :: st) (.rpar :: rest) (by
      simp [compat, Frame.strength, layerLow])
    refine ⟨[], e, ?_, rfl, by simp⟩
    have : (Tok.lpar :: (ts ++ [.rpar])) ++ rest = .lpar :: (ts ++ .rpar :: rest) := by simp
    rw [this, run, h1, run_rpar _ _ _ _ h2 (complete_of_low h3) _ rfl]
    rfl
  | @call f ts e _ ih =>
    intro st rest _
    obtain ⟨s, v, h1, h2, h3⟩ := ih (.call f :: st) (.rpar :: rest) (by
      simp [compat, Frame.strength, layerLow])
    refine ⟨[], .call f e, ?_, rfl, by simp⟩
    have : (Tok.fnct f :: .lpar :: (ts ++ [.rpar])) ++ rest =
        .fnct f :: .lpar :: (ts ++ .rpar :: rest) := by simp
    rw [this, run, h1, run_rpar _ _ _ _ h2 (complete_of_low h3) _ rfl]
    rfl

/-- A token that ends an expression. -/
def ends : List Tok → Prop
  | [] => True
  | t :: _ => t.binOp? = none ∧ t ≠ .rpar

theorem run_of_derives {ts rest : List Tok} {e : Expr} (h : Derives .sum ts e)
    (hr : ends rest) : run treeActions [] none (ts ++ rest) = some (e, rest) := by
  obtain ⟨s, v, h1, h2, h3⟩ := reads_of_derives h [] rest trivial
  rw [h1]
  have hc := complete_of_low (n := 0) h3
  cases rest with
  | nil =>
    rw [run, reduceWhile_append _ _ _ hc, h2]
    rfl
  | cons t r =>
    rw [run, hr.1]
    simp only [hr.2, if_false]
    rw [reduceWhile_append _ _ _ hc, h2]
    rfl

/-! ## Soundness: whatever the parser accepts has a derivation -/

/-- Order of the layers as far as the stack is concerned. -/
def rank : Layer → ℕ
  | .sum => 0
  | .term => 1
  | .factor => 2
  | .power => 3
  | .atom => 4

/-- A derivation in a tighter layer is one in a looser layer. -/
theorem derives_weaken {l l' : Layer} {ts : List Tok} {e : Expr} (h : Derives l ts e)
    (hl : rank l' ≤ rank l) : Derives l' ts e := by
  cases l <;> cases l' <;> simp [rank] at hl <;> try exact h
  · exact .sumTerm h
  · exact .sumTerm (.termFactor h)
  · exact .termFactor h
  · exact .sumTerm (.termFactor (.factorPower h))
  · exact .termFactor (.factorPower h)
  · exact .factorPower h
  · exact .sumTerm (.termFactor (.factorPower (.powerAtom h)))
  · exact .termFactor (.factorPower (.powerAtom h))
  · exact .factorPower (.powerAtom h)
  · exact .powerAtom h

/-- `Ctx l st pre`: the stack `st` was built from the tokens `pre` and is to
be completed with an operand of layer `l` or tighter. -/
inductive Ctx : Layer → List (Frame Expr) → List Tok → Prop where
  | nil : Ctx .sum [] []
  | paren {l st pre} : Ctx l st pre → Ctx .sum (.paren :: st) (pre ++ [.lpar])
  | call {l st pre f} : Ctx l st pre → Ctx .sum (.call f :: st) (pre ++ [.fnct f, .lpar])
  | addsub {st pre t1 a op} : Ctx .sum st pre → Derives .sum t1 a → op.prec.1 = 1 →
      Ctx .term (.bin op a :: st) (pre ++ t1 ++ [op.tok])
  | muldiv {l st pre t1 a op} : Ctx l st pre → rank l ≤ 1 → Derives .term t1 a → op.prec.1 = 2 →
      Ctx .factor (.bin op a :: st) (pre ++ t1 ++ [op.tok])
  | pow {l st pre t1 a} : Ctx l st pre → rank l ≤ 2 → Derives .atom t1 a →
      Ctx .factor (.bin .pow a :: st) (pre ++ t1 ++ [.caret])
  | neg {l st pre} : Ctx l st pre → rank l ≤ 2 → Ctx .factor (.neg :: st) (pre ++ [.minus])

theorem Ctx.rank_le {l st pre} (h : Ctx l st pre) : rank l ≤ 2 := by
  cases h <;> simp [rank]

/-- Strength of a lookahead as a layer rank: what a reduction leaves is at
least this tight. -/
theorem reduceWhile_ctx {p : Frame Expr → Bool} {k : ℕ} (hk : k ≤ 2)
    (hp : ∀ f, p f = true → 0 < f.strength ∧ k ≤ min (f.strength - 1) 2)
    {l st pre} (hc : Ctx l st pre) {l' t v} (hd : Derives l' t v) (hl : rank l ≤ rank l')
    (hkl : k ≤ rank l') {st' v'} (hr : reduceWhile treeActions p st v = some (st', v')) :
    ∃ m pre' m' t', Ctx m st' pre' ∧ Derives m' t' v' ∧ rank m ≤ rank m' ∧ k ≤ rank m' ∧
      pre ++ t = pre' ++ t' ∧ ∀ f, st'.head? = some f → p f = false := by
  induction hc generalizing l' t v with
  | nil =>
    simp [reduceWhile] at hr
    obtain ⟨rfl, rfl⟩ := hr
    exact ⟨_, _, _, _, .nil, hd, hl, hkl, rfl, by simp⟩
  | @paren l0 st0 pre0 hc0 ih =>
    have hp0 : p .paren = false := by
      by_contra h; simp at h; have := (hp _ h).1; simp [Frame.strength] at this
    simp [reduceWhile, hp0] at hr
    obtain ⟨rfl, rfl⟩ := hr
    exact ⟨_, _, _, _, .paren hc0, hd, hl, hkl, rfl, by simp [hp0]⟩
  | @call l0 st0 pre0 f hc0 ih =>
    have hp0 : p (.call f) = false := by
      by_contra h; simp at h; have := (hp _ h).1; simp [Frame.strength] at this
    simp [reduceWhile, hp0] at hr
    obtain ⟨rfl, rfl⟩ := hr
    exact ⟨_, _, _, _, .call hc0, hd, hl, hkl, rfl, by simp [hp0]⟩
  | @addsub st0 pre0 t1 a op hc0 h1 hop ih =>
    by_cases hpf : p (.bin op a) = true
    · simp [reduceWhile, hpf, reduce, treeActions] at hr
      have hk0 := (hp _ hpf).2
      simp [Frame.strength, hop] at hk0
      have hd' : Derives .term t v := derives_weaken hd hl
      have hnew : Derives .sum (t1 ++ op.tok :: t) (treeBin op a v) := by
        cases op <;> simp [BinOp.prec] at hop
        · exact .add h1 hd'
        · exact .sub h1 hd'
      obtain ⟨m, pre', m', t', c, d, r1, r2, eq, hh⟩ :=
        ih hnew (by simp [rank]) (by omega) hr
      exact ⟨m, pre', m', t', c, d, r1, r2, by rw [← eq]; simp, hh⟩
    · simp [reduceWhile, hpf] at hr
      obtain ⟨rfl, rfl⟩ := hr
      exact ⟨_, _, _, _, .addsub hc0 h1 hop, hd, hl, hkl, rfl, by simpa using hpf⟩
  | @muldiv l0 st0 pre0 t1 a op hc0 hl0 h1 hop ih =>
    by_cases hpf : p (.bin op a) = true
    · simp [reduceWhile, hpf, reduce, treeActions] at hr
      have hk0 := (hp _ hpf).2
      simp [Frame.strength, hop] at hk0
      have hd' : Derives .factor t v := derives_weaken hd hl
      have hnew : Derives .term (t1 ++ op.tok :: t) (treeBin op a v) := by
        cases op <;> simp [BinOp.prec] at hop
        · exact .mul h1 hd'
        · exact .div h1 hd'
      obtain ⟨m, pre', m', t', c, d, r1, r2, eq, hh⟩ :=
        ih hnew (by simpa [rank] using hl0) (by simpa [rank] using hk0) hr
      exact ⟨m, pre', m', t', c, d, r1, r2, by rw [← eq]; simp, hh⟩
    · simp [reduceWhile, hpf] at hr
      obtain ⟨rfl, rfl⟩ := hr
      exact ⟨_, _, _, _, .muldiv hc0 hl0 h1 hop, hd, hl, hkl, rfl, by simpa using hpf⟩
  | @pow l0 st0 pre0 t1 a hc0 hl0 h1 ih =>
    by_cases hpf : p (.bin .pow a) = true
    · simp [reduceWhile, hpf, reduce, treeActions] at hr
      have hd' : Derives .factor t v := derives_weaken hd hl
      have hnew : Derives .power (t1 ++ .caret :: t) (treeBin .pow a v) := .pow h1 hd'
      obtain ⟨m, pre', m', t', c, d, r1, r2, eq, hh⟩ :=
        ih hnew (show rank l0 ≤ 3 by omega) (show k ≤ 3 by omega) hr
      exact ⟨m, pre', m', t', c, d, r1, r2, by rw [← eq]; simp, hh⟩
    · simp [reduceWhile, hpf] at hr
      obtain ⟨rfl, rfl⟩ := hr
      exact ⟨_, _, _, _, .pow hc0 hl0 h1, hd, hl, hkl, rfl, by simpa using hpf⟩
  | @neg l0 st0 pre0 hc0 hl0 ih =>
    by_cases hpf : p .neg = true
    · simp [reduceWhile, hpf, reduce, treeActions] at hr
      have hd' : Derives .factor t v := derives_weaken hd hl
      have hnew : Derives .factor (.minus :: t) (.neg v) := .neg hd'
      obtain ⟨m, pre', m', t', c, d, r1, r2, eq, hh⟩ :=
        ih hnew (by simpa [rank] using hl0) (by simpa [rank] using hk) hr
      exact ⟨m, pre', m', t', c, d, r1, r2, by rw [← eq]; simp, hh⟩
    · simp [reduceWhile, hpf] at hr
      obtain ⟨rfl, rfl⟩ := hr
      exact ⟨_, _, _, _, .neg hc0 hl0, hd, hl, hkl, rfl, by simpa using hpf⟩

theorem reduces_strength (op : BinOp) (f : Frame Expr) (h : reduces op f = true) :
    0 < f.strength ∧ min (op.prec.1 - 1) 2 ≤ min (f.strength - 1) 2 := by
  cases f with
  | bin r a => cases op <;> cases r <;> simp [reduces, Frame.strength, BinOp.prec] at h ⊢
  | neg => cases op <;> simp [reduces, Frame.strength, BinOp.prec, negPrec] at h ⊢
  | paren => simp [reduces] at h
  | call g => simp [reduces] at h

theorem complete_strength (f : Frame Expr) (h : complete f = true) :
    0 < f.strength ∧ 0 ≤ min (f.strength - 1) 2 := by
  cases f with
  | bin r a => cases r <;> simp [Frame.strength, BinOp.prec]
  | neg => simp [Frame.strength, negPrec]
  | paren => simp [complete] at h
  | call g => simp [complete] at h

theorem reduceWhile_pow (st : List (Frame Expr)) (v : Expr) :
    reduceWhile treeActions (reduces .pow) st v = some (st, v) := by
  apply reduceWhile_stop
  intro f _
  cases f with
  | bin op x => cases op <;> rfl
  | neg => rfl
  | paren => rfl
  | call g => rfl

theorem derives_of_run_aux (n : ℕ) : ∀ ts : List Tok, ts.length ≤ n →
    (∀ {l st pre e rest}, Ctx l st pre → run treeActions st none ts = some (e, rest) →
      ∃ t1, ts = t1 ++ rest ∧ Derives .sum (pre ++ t1) e ∧ ends rest) ∧
    (∀ {l st pre t v e rest}, Ctx l st pre → Derives .atom t v →
      run treeActions st (some v) ts = some (e, rest) →
      ∃ t1, ts = t1 ++ rest ∧ Derives .sum (pre ++ t ++ t1) e ∧ ends rest) := by
  induction n with
  | zero =>
    intro ts hts
    have : ts = [] := by simpa using hts
    subst this
    refine ⟨fun _ h => by simp [run] at h, ?_⟩
    intro l st pre t v e rest hc hd h
    rw [run] at h
    cases hr : reduceWhile treeActions complete st v with
    | none => simp [hr] at h
    | some r =>
      obtain ⟨st', v'⟩ := r
      obtain ⟨m, pre', m', t', c, d, r1, r2, eq, hh⟩ :=
        reduceWhile_ctx (k := 0) (by omega) complete_strength hc hd (by
          have := hc.rank_le; simp only [rank] at *; omega) (by omega) hr
      simp only [hr, Option.bind_some] at h
      split_ifs at h with hst
      simp only [List.isEmpty_iff] at hst
      subst hst
      simp at h
      obtain ⟨rfl, rfl⟩ := h
      cases c
      exact ⟨[], rfl, by simpa [eq] using derives_weaken d (by simp [rank]), trivial⟩
  | succ n ih =>
    intro ts hts
    constructor
    · intro l st pre e rest hc h
      match ts, h with
      | .num s :: ts, h =>
        rw [run] at h
        obtain ⟨t1, e1, d, hr⟩ := (ih ts (by simp at hts; omega)).2 hc .num h
        exact ⟨.num s :: t1, by simp [e1], by simpa using d, hr⟩
      | .minus :: ts, h =>
        rw [run] at h
        obtain ⟨t1, e1, d, hr⟩ := (ih ts (by simp at hts; omega)).1 (.neg hc hc.rank_le) h
        exact ⟨.minus :: t1, by simp [e1], by simpa using d, hr⟩
      | .lpar :: ts, h =>
        rw [run] at h
        obtain ⟨t1, e1, d, hr⟩ := (ih ts (by simp at hts; omega)).1 (.paren hc) h
        exact ⟨.lpar :: t1, by simp [e1], by simpa using d, hr⟩
      | .fnct f :: .lpar :: ts, h =>
        rw [run] at h
        obtain ⟨t1, e1, d, hr⟩ := (ih ts (by simp at hts; omega)).1 (.call (f := f) hc) h
        exact ⟨.fnct f :: .lpar :: t1, by simp [e1], by simpa using d, hr⟩
      | [], h => simp [run] at h
      | .fnct f :: [], h => simp [run] at h
      | .fnct f :: .num _ :: _, h => simp [run] at h
      | .fnct f :: .var _ :: _, h => simp [run] at h
      | .fnct f :: .fnct _ :: _, h => simp [run] at h
      | .fnct f :: .eq :: _, h => simp [run] at h
      | .fnct f :: .plus :: _, h => simp [run] at h
      | .fnct f :: .minus :: _, h => simp [run] at h
      | .fnct f :: .times :: _, h => simp [run] at h
      | .fnct f :: .divide :: _, h => simp [run] at h
      | .fnct f :: .caret :: _, h => simp [run] at h
      | .fnct f :: .rpar :: _, h => simp [run] at h
      | .fnct f :: .kw _ :: _, h => simp [run] at h
      | .fnct f :: .unmatched :: _, h => simp [run] at h
      | .var _ :: _, h => simp [run] at h
      | .eq :: _, h => simp [run] at h
      | .plus :: _, h => simp [run] at h
      | .times :: _, h => simp [run] at h
      | .divide :: _, h => simp [run] at h
      | .caret :: _, h => simp [run] at h
      | .rpar :: _, h => simp [run] at h
      | .kw _ :: _, h => simp [run] at h
      | .unmatched :: _, h => simp [run] at h
    · intro l st pre t v e rest hc hd h
      have hrk : rank l ≤ rank .atom := by
        have := hc.rank_le; simp only [rank] at *; omega
      cases ts with
      | nil => exact (ih [] (by simp)).2 hc hd h
      | cons tk ts =>
        cases hop : tk.binOp? with
        | some op =>
          have := tok_of_binOp? hop
          subst this
          rw [run_op] at h
          cases hr : reduceWhile treeActions (reduces op) st v with
          | none => simp [hr] at h
          | some r =>
            obtain ⟨st', v'⟩ := r
            simp only [hr, Option.bind_some] at h
            have key : ∃ m pre' t', Ctx m (.bin op v' :: st') (pre' ++ t' ++ [op.tok]) ∧
                pre ++ t = pre' ++ t' := by
              by_cases hpow : op = .pow
              · subst hpow
                rw [reduceWhile_pow] at hr
                simp at hr
                obtain ⟨rfl, rfl⟩ := hr
                exact ⟨_, pre, t, .pow hc hc.rank_le hd, rfl⟩
              · obtain ⟨m, pre', m', t', c, d, r1, r2, eq, hh⟩ :=
                  reduceWhile_ctx (k := min (op.prec.1 - 1) 2) (by omega)
                    (reduces_strength op) hc hd hrk (by
                      simp only [rank]; omega) hr
                have hadd : op.prec.1 = 1 ∨ op.prec.1 = 2 := by
                  cases op <;> simp [BinOp.prec] at hpow ⊢
                have hleft : op.prec.2 = true := by
                  cases op <;> simp [BinOp.prec] at hpow ⊢
                rcases hadd with h1 | h2
                · have hm : m = .sum := by
                    cases c with
                    | nil => rfl
                    | paren => rfl
                    | call => rfl
                    | addsub _ _ ho =>
                      have := hh _ rfl; simp [reduces, h1, ho, hleft] at this
                    | muldiv _ _ _ ho =>
                      have := hh _ rfl; simp [reduces, h1, ho] at this
                    | pow =>
                      have := hh _ rfl; simp [reduces, h1, show BinOp.pow.prec.1 = 4 from rfl] at this
                    | neg =>
                      have := hh _ rfl; simp [reduces, h1, negPrec] at this
                  subst hm
                  exact ⟨_, pre', t', .addsub c (derives_weaken d (by simp [rank])) h1, eq⟩
                · have hm : rank m ≤ 1 := by
                    cases c with
                    | nil => simp [rank]
                    | paren => simp [rank]
                    | call => simp [rank]
                    | addsub _ _ ho => simp [rank]
                    | muldiv _ _ _ ho =>
                      have := hh _ rfl; simp [reduces, h2, ho, hleft] at this
                    | pow =>
                      have := hh _ rfl; simp [reduces, h2, show BinOp.pow.prec.1 = 4 from rfl] at this
                    | neg =>
                      have := hh _ rfl; simp [reduces, h2, negPrec] at this
                  rw [h2] at r2
                  exact ⟨_, pre', t', .muldiv c hm (derives_weaken d r2) h2, eq⟩
            obtain ⟨m, pre', t', c, eq⟩ := key
            obtain ⟨t1, e1, d, hr'⟩ := (ih ts (by simp at hts; omega)).1 c h
            exact ⟨op.tok :: t1, by simp [e1], by rw [eq]; simpa using d, hr'⟩
        | none =>
          rw [run, hop] at h
          simp only at h
          cases hr : reduceWhile treeActions complete st v with
          | none => simp [hr] at h
          | some r =>
            obtain ⟨st', v'⟩ := r
            obtain ⟨m, pre', m', t', c, d, r1, r2, eq, hh⟩ :=
              reduceWhile_ctx (k := 0) (by omega) complete_strength hc hd hrk (by omega) hr
            simp only [hr, Option.bind_some] at h
            have hd' : Derives .sum t' v' := derives_weaken d (by simp [rank])
            split_ifs at h with hrp hst
            · subst hrp
              cases c with
              | nil => simp [close] at h
              | @paren l0 st0 pre0 c0 =>
                simp only [close, Option.bind_some] at h
                obtain ⟨t1, e1, d1, hr'⟩ :=
                  (ih ts (by simp at hts; omega)).2 c0 (.paren hd') h
                exact ⟨.rpar :: t1, by simp [e1], by rw [eq]; simpa using d1, hr'⟩
              | @call l0 st0 pre0 f c0 =>
                simp only [close, treeActions, Option.map_some, Option.bind_some] at h
                obtain ⟨t1, e1, d1, hr'⟩ :=
                  (ih ts (by simp at hts; omega)).2 c0 (.call hd') h
                exact ⟨.rpar :: t1, by simp [e1], by rw [eq]; simpa using d1, hr'⟩
              | addsub => simp [close] at h
              | muldiv => simp [close] at h
              | pow => simp [close] at h
              | neg => simp [close] at h
            · simp only [List.isEmpty_iff] at hst
              subst hst
              simp at h
              obtain ⟨rfl, rfl⟩ := h
              cases c
              exact ⟨[], rfl, by simpa [eq] using hd', ⟨hop, hrp⟩⟩

theorem derives_of_run {ts rest : List Tok} {e : Expr}
    (h : run treeActions [] none ts = some (e, rest)) :
    ∃ t1, ts = t1 ++ rest ∧ Derives .sum t1 e ∧ ends rest := by
  obtain ⟨t1, h1, h2, h3⟩ := (derives_of_run_aux ts.length ts le_rfl).1 .nil h
  exact ⟨t1, h1, by simpa using h2, h3⟩

/-! ## Values: parsing with actions is parsing to a tree, then evaluating -/

section Eval
variable {α : Type} (A : Actions α)

/-- Evaluate a tree with the actions. -/
def evE : Expr → Option α
  | .num s => A.num s
  | .add a b => (evE a).bind fun x => (evE b).bind fun y => A.bin .add x y
  | .sub a b => (evE a).bind fun x => (evE b).bind fun y => A.bin .sub x y
  | .mul a b => (evE a).bind fun x => (evE b).bind fun y => A.bin .mul x y
  | .div a b => (evE a).bind fun x => (evE b).bind fun y => A.bin .div x y
  | .pow a b => (evE a).bind fun x => (evE b).bind fun y => A.bin .pow x y
  | .neg a => (evE a).bind A.neg
  | .call f a => (evE a).bind (A.fn f)

theorem evE_bin (op : BinOp) (a b : Expr) :
    evE A (treeBin op a b) = (evE A a).bind fun x => (evE A b).bind fun y => A.bin op x y := by
  cases op <;> rfl

/-- Evaluate the operands held in a frame. -/
def evF : Frame Expr → Option (Frame α)
  | .bin op a => (evE A a).map (.bin op)
  | .neg => some .neg
  | .paren => some .paren
  | .call f => some (.call f)

/-- Evaluate a stack. -/
def evStack : List (Frame Expr) → Option (List (Frame α))
  | [] => some []
  | f :: st => (evF A f).bind fun f' => (evStack st).map (f' :: ·)

/-- Evaluate a stack and an operand. -/
def evS (st : List (Frame Expr)) (v : Expr) : Option (List (Frame α) × α) :=
  (evStack A st).bind fun s => (evE A v).map fun x => (s, x)

theorem evF_reduces {op : BinOp} {f : Frame Expr} {f' : Frame α} (h : evF A f = some f') :
    reduces op f' = reduces op f := by
  cases f with
  | bin r a =>
    simp only [evF, Option.map_eq_some_iff] at h
    obtain ⟨x, -, rfl⟩ := h; rfl
  | neg => simp [evF] at h; subst h; rfl
  | paren => simp [evF] at h; subst h; rfl
  | call g => simp [evF] at h; subst h; rfl

theorem evF_complete {f : Frame Expr} {f' : Frame α} (h : evF A f = some f') :
    complete f' = complete f := by
  cases f with
  | bin r a =>
    simp only [evF, Option.map_eq_some_iff] at h
    obtain ⟨x, -, rfl⟩ := h; rfl
  | neg => simp [evF] at h; subst h; rfl
  | paren => simp [evF] at h; subst h; rfl
  | call g => simp [evF] at h; subst h; rfl

/-- Tree of a reduced frame. -/
def reduceT : Frame Expr → Expr → Expr
  | .bin op a, v => treeBin op a v
  | .neg, v => .neg v
  | .paren, v => v
  | .call f, v => .call f v

theorem reduce_tree (f : Frame Expr) (v : Expr) :
    reduce treeActions f v = some (reduceT f v) := by cases f <;> rfl

theorem evE_reduceT (f : Frame Expr) (v : Expr) :
    evE A (reduceT f v) = (evF A f).bind fun f' => (evE A v).bind (reduce A f') := by
  cases f with
  | bin op a => simp only [reduceT, evE_bin, evF]; cases evE A a <;> rfl
  | neg => rfl
  | paren => simp only [reduceT, evF, reduce, Option.bind_some]; cases evE A v <;> rfl
  | call g => rfl

theorem reduceWhile_ev {p : Frame Expr → Bool} {p' : Frame α → Bool}
    (hp : ∀ f f', evF A f = some f' → p' f' = p f) (st : List (Frame Expr)) (v : Expr) :
    ∃ r, reduceWhile treeActions p st v = some r ∧
      evS A r.1 r.2 = (evS A st v).bind fun q => reduceWhile A p' q.1 q.2 := by
  induction st generalizing v with
  | nil =>
    refine ⟨([], v), rfl, ?_⟩
    simp only [evS, evStack, Option.bind_some]
    cases evE A v <;> rfl
  | cons f st ih =>
    by_cases hf : p f = true
    · obtain ⟨r, h1, h2⟩ := ih (reduceT f v)
      refine ⟨r, by simp [reduceWhile, hf, reduce_tree, h1], ?_⟩
      rw [h2]
      simp only [evS, evStack, evE_reduceT]
      cases h3 : evF A f with
      | none => simp
      | some f' =>
        cases h4 : evStack A st with
        | none => simp
        | some s =>
          cases h5 : evE A v with
          | none => simp
          | some x =>
            have := hp f f' h3
            simp only [Option.bind_some, Option.map_some, reduceWhile, this, hf, if_true]
            cases reduce A f' x <;> rfl
    · refine ⟨(f :: st, v), by simp [reduceWhile, hf], ?_⟩
      simp only [evS, evStack]
      cases h3 : evF A f with
      | none => simp
      | some f' =>
        cases h4 : evStack A st with
        | none => simp
        | some s =>
          cases h5 : evE A v with
          | none => simp
          | some x =>
            have := hp f f' h3
            simp [reduceWhile, this, hf]

/-- Evaluate a parser result. -/
def evR (r : Expr × List Tok) : Option (α × List Tok) := (evE A r.1).map fun x => (x, r.2)

theorem evStack_isEmpty {st : List (Frame Expr)} {s : List (Frame α)}
    (h : evStack A st = some s) : s.isEmpty = st.isEmpty := by
  cases st with
  | nil => simp [evStack] at h; subst h; rfl
  | cons f r =>
    simp only [evStack, Option.bind_eq_some_iff, Option.map_eq_some_iff] at h
    obtain ⟨f', -, s', -, rfl⟩ := h; rfl

theorem evS_cons (f : Frame Expr) (st : List (Frame Expr)) (v : Expr) :
    evS A (f :: st) v =
      (evF A f).bind fun f' => (evS A st v).map fun q => (f' :: q.1, q.2) := by
  simp only [evS, evStack]
  cases evF A f <;> cases evStack A st <;> cases evE A v <;> rfl

theorem end_ev (r : List (Frame Expr) × Expr) (rest : List Tok) :
    (if r.1.isEmpty then some (r.2, rest) else none).bind (evR A) =
      (evS A r.1 r.2).bind fun q => if q.1.isEmpty then some (q.2, rest) else none := by
  obtain ⟨st, v⟩ := r
  cases st with
  | nil => simp only [evS, evStack, evR, List.isEmpty_nil, if_true, Option.bind_some]
           cases evE A v <;> rfl
  | cons f st =>
    rw [evS_cons]
    simp only [List.isEmpty_cons, Bool.false_eq_true, if_false, Option.bind_none]
    cases evF A f <;> cases evS A st v <;> rfl

theorem close_ev (r : List (Frame Expr) × Expr) :
    ((close treeActions r).bind fun r' => evS A r'.1 r'.2) = (evS A r.1 r.2).bind (close A) := by
  obtain ⟨st, v⟩ := r
  cases st with
  | nil => simp only [close, evS, evStack]; cases evE A v <;> rfl
  | cons f st =>
    rw [evS_cons]
    cases f with
    | bin op a => simp only [close, evF]; cases evE A a <;> cases evS A st v <;> rfl
    | neg => simp only [close, evF]; cases evS A st v <;> rfl
    | paren => simp only [close, evF, Option.bind_some]; cases evS A st v <;> rfl
    | call g =>
      simp only [close, evF, Option.bind_some, treeActions, Option.map_some, evS, evE]
      cases evStack A st with
      | none => rfl
      | some s =>
        cases evE A v with
        | none => rfl
        | some x => simp [close]

theorem run_ev_aux (n : ℕ) : ∀ ts : List Tok, ts.length ≤ n →
    (∀ st, (run treeActions st none ts).bind (evR A) =
      (evStack A st).bind fun s => run A s none ts) ∧
    (∀ st v, (run treeActions st (some v) ts).bind (evR A) =
      (evS A st v).bind fun q => run A q.1 (some q.2) ts) := by
  induction n with
  | zero =>
    intro ts hts
    have : ts = [] := by simpa using hts
    subst this
    refine ⟨fun st => ?_, fun st v => ?_⟩
    · simp only [run]; cases evStack A st <;> rfl
    · obtain ⟨r, h1, h2⟩ := reduceWhile_ev A (fun f f' h => evF_complete A h) st v
      simp only [run, h1, Option.bind_some, end_ev, h2, Option.bind_assoc]
  | succ n ih =>
    intro ts hts
    constructor
    · intro st
      match ts with
      | .num s :: ts =>
        simp only [run]
        have := (ih ts (by simp at hts; omega)).2 st (.num s)
        simp only [treeActions, Option.bind_some] at this ⊢
        rw [this]
        simp only [evS, evE]
        cases evStack A st with
        | none => simp
        | some q => cases A.num s <;> simp
      | .minus :: ts =>
        simp only [run]
        rw [(ih ts (by simp at hts; omega)).1]
        simp only [evStack, evF, Option.bind_some]
        cases evStack A st <;> rfl
      | .lpar :: ts =>
        simp only [run]
        rw [(ih ts (by simp at hts; omega)).1]
        simp only [evStack, evF, Option.bind_some]
        cases evStack A st <;> rfl
      | .fnct f :: .lpar :: ts =>
        simp only [run]
        rw [(ih ts (by simp at hts; omega)).1]
        simp only [evStack, evF, Option.bind_some]
        cases evStack A st <;> rfl
      | [] => simp [run]
      | .fnct f :: [] => simp [run]
      | .fnct f :: .num _ :: _ => simp [run]
      | .fnct f :: .var _ :: _ => simp [run]
      | .fnct f :: .fnct _ :: _ => simp [run]
      | .fnct f :: .eq :: _ => simp [run]
      | .fnct f :: .plus :: _ => simp [run]
      | .fnct f :: .minus :: _ => simp [run]
      | .fnct f :: .times :: _ => simp [run]
      | .fnct f :: .divide :: _ => simp [run]
      | .fnct f :: .caret :: _ => simp [run]
      | .fnct f :: .rpar :: _ => simp [run]
      | .fnct f :: .kw _ :: _ => simp [run]
      | .fnct f :: .unmatched :: _ => simp [run]
      | .var _ :: _ => simp [run]
      | .eq :: _ => simp [run]
      | .plus :: _ => simp [run]
      | .times :: _ => simp [run]
      | .divide :: _ => simp [run]
      | .caret :: _ => simp [run]
      | .rpar :: _ => simp [run]
      | .kw _ :: _ => simp [run]
      | .unmatched :: _ => simp [run]
    · intro st v
      cases ts with
      | nil => exact (ih [] (by simp)).2 st v
      | cons tk ts =>
        cases hop : tk.binOp? with
        | some op =>
          obtain ⟨r, h1, h2⟩ := reduceWhile_ev A (fun f f' h => evF_reduces A (op := op) h) st v
          simp only [run, hop, h1, Option.bind_some]
          rw [(ih ts (by simp at hts; omega)).1, ← Option.bind_assoc, ← h2]
          simp only [evStack, evF, evS]
          cases evStack A r.1 <;> cases evE A r.2 <;> rfl
        | none =>
          obtain ⟨r, h1, h2⟩ := reduceWhile_ev A (fun f f' h => evF_complete A h) st v
          simp only [run, hop, h1, Option.bind_some]
          rw [← Option.bind_assoc, ← h2]
          by_cases hrp : tk = .rpar
          · simp only [hrp, if_true]
            have e : ((evS A r.1 r.2).bind fun a => (close A a).bind
                fun r' => run A r'.1 (some r'.2) ts) =
                ((evS A r.1 r.2).bind (close A)).bind fun r' => run A r'.1 (some r'.2) ts :=
              (Option.bind_assoc _ _ _).symm
            rw [e, ← close_ev, Option.bind_assoc, Option.bind_assoc]
            congr 1
            funext r'
            exact (ih ts (by simp at hts; omega)).2 _ _
          · simp only [hrp, if_false]
            exact end_ev A r _

theorem run_ev (ts : List Tok) :
    run A [] none ts = (run treeActions [] none ts).bind (evR A) := by
  rw [(run_ev_aux A ts.length ts le_rfl).1]; rfl
end Eval

end MaRC.Calc
