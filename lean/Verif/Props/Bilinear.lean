import Verif.Lemmas.PhotoImage
import Mathlib.Tactic.FieldSimp
import Mathlib.Tactic.Ring
import Mathlib.Tactic.Linarith
import Mathlib.Tactic.IntervalCases

/-!
# C28: bilinear interpolation
-/

namespace MaRC.Bilinear

/-! ## Specification -/

/-- Specification: an image of `samples` by `lines` pixels that fits in memory,
interpolated inside the rectangle left by nibbling. -/
structure Setup (data : List Dbl) (samples lines nl nr nt nb : ℕ) : Prop where
  size : data.length = samples * lines
  memory : samples * lines < 2 ^ 64
  hs : samples < 2 ^ 64
  hl : lines < 2 ^ 64
  right : nr ≤ samples
  bottom : nb ≤ lines

/-- Specification: pixel (sample `i`, line `k`). -/
def px (data : List Dbl) (samples i k : ℕ) : Dbl := (data[k * samples + i]?).getD .nan

/-- Specification: the 2 by 2 cell at `(i, k)` lies inside the nibbled
rectangle. -/
def Inside (samples lines nl nr nt nb i k : ℕ) : Prop :=
  nl ≤ i ∧ i + 1 + nr < samples ∧ nt ≤ k ∧ k + 1 + nb < lines

/-- Specification: `f` of two pixels, if both are defined. -/
def pair (f : ℚ → ℚ → List ℚ) : Option ℚ → Option ℚ → List ℚ
  | some a, some b => f a b
  | _, _ => []

/-- Specification: the values of the edge interpolations over the pairs that are
fully defined. -/
def terms (bl br tl tr : Option ℚ) (u v : ℚ) : List ℚ :=
  pair (fun a b => [a + (b - a) * u, b + (b - a) * v]) bl br ++
  pair (fun a b => [a + (b - a) * u]) tl tr ++
  pair (fun a b => [a + (b - a) * v]) bl tl

/-- A pixel value: undefined (NaN) or a number. -/
def ofOpt : Option ℚ → Dbl
  | none => .nan
  | some q => .fin q

/-! ## Helper lemmas -/

@[simp] theorem exact_add (a b : ℚ) : Fp.exact.add (.fin a) (.fin b) = .fin (a + b) := rfl
@[simp] theorem exact_sub (a b : ℚ) : Fp.exact.sub (.fin a) (.fin b) = .fin (a - b) := by
  show Dbl.fin (a + -b) = _; rw [sub_eq_add_neg]
@[simp] theorem exact_mul (a b : ℚ) : Fp.exact.mul (.fin a) (.fin b) = .fin (a * b) := rfl

theorem exact_edge (a b t : ℚ) : edge .exact (.fin a) (.fin b) (.fin t) = .fin (a + (b - a) * t) := by
  unfold edge; simp; ring

theorem contributions_exact (bl br tl tr : Option ℚ) (u v : ℚ) :
    contributions .exact (ofOpt bl) (ofOpt br) (ofOpt tl) (ofOpt tr) (.fin u) (.fin v) =
      (.fin (terms bl br tl tr u v).sum, (terms bl br tl tr u v).length) := by
  cases bl <;> cases br <;> cases tl <;> cases tr <;>
    simp [contributions, terms, pair, ofOpt, Dbl.isNaN, exact_edge, -List.sum_cons] <;>
    simp <;> ring

theorem arrayAt_px {data : List Dbl} {samples i k n : ℕ} (h : k * samples + i < n)
    (hl : data.length = n) : arrayAt data (k * samples + i) = .ok (px data samples i k) := by
  unfold px
  rw [arrayAt_ok (by omega), List.getElem?_eq_getElem (by omega)]
  rfl

theorem interpolate_eq (F : Fp) {data : List Dbl} {samples lines nl nr nt nb : ℕ}
    (h : Setup data samples lines nl nr nt nb) {x z : ℚ} {i k : ℕ}
    (hx : (i : ℚ) ≤ x) (hx' : x < i + 1) (hz : (k : ℚ) ≤ z) (hz' : z < k + 1)
    (hi : i < 2 ^ 64 - 1) (hk : k < 2 ^ 64 - 1) (datum : Dbl) :
    (Inside samples lines nl nr nt nb i k →
      interpolate F (new samples lines nl nr nt nb) data (.fin x) (.fin z) datum =
      (let c := contributions F (px data samples i k) (px data samples (i + 1) k)
        (px data samples i (k + 1)) (px data samples (i + 1) (k + 1))
        (F.sub (.fin x) (F.rnd i)) (F.sub (.fin z) (F.rnd k))
      if c.2 > 0 then .ok (true, F.div c.1 (.fin c.2)) else .ok (false, datum))) ∧
    (¬ Inside samples lines nl nr nt nb i k →
      interpolate F (new samples lines nl nr nt nb) data (.fin x) (.fin z) datum =
        .ok (false, datum)) := by
  obtain ⟨hlen, hmem, hs, hl, hr, hb⟩ := h
  have x0 : 0 ≤ x := le_trans (by positivity) hx
  have z0 : 0 ≤ z := le_trans (by positivity) hz
  have fx : ⌊x⌋.toNat = i := by
    have : ⌊x⌋ = (i : ℤ) := by rw [Int.floor_eq_iff]; push_cast; exact ⟨hx, hx'⟩
    rw [this]; rfl
  have fz : ⌊z⌋.toNat = k := by
    have : ⌊z⌋ = (k : ℤ) := by rw [Int.floor_eq_iff]; push_cast; exact ⟨hz, hz'⟩
    rw [this]; rfl
  have x2 : x < 2 ^ 64 := by
    refine hx'.trans_le ?_
    exact_mod_cast (by omega : i + 1 ≤ 2 ^ 64)
  have z2 : z < 2 ^ 64 := by
    refine hz'.trans_le ?_
    exact_mod_cast (by omega : k + 1 ≤ 2 ^ 64)
  unfold interpolate new
  simp only [castSize_fin x0 x2, castSize_fin z0 z2, fx, fz, Outcome.bind_ok,
    szSub_eq hr hs, szSub_eq hb hl]
  rw [szAdd_eq (a := i) (b := 1) (by omega), szAdd_eq (a := k) (b := 1) (by omega)]
  constructor
  · rintro ⟨h1, h2, h3, h4⟩
    have hi1 : i + 1 < samples := by omega
    have hk1 : k + 1 < lines := by omega
    have hi0 : i < samples := by omega
    have hk0 : k < lines := by omega
    have e1 := index_lt hi1 hk0
    have e2 := index_lt hi0 hk0
    have e3 := index_lt hi1 hk1
    have e4 := index_lt hi0 hk1
    rw [if_neg (by omega), szMul_eq (a := k) (by omega), szMul_eq (a := k + 1) (by omega),
      szAdd_eq (by omega), szAdd_eq (by omega), szAdd_eq (by omega), szAdd_eq (by omega),
      arrayAt_px e1 hlen, arrayAt_px e2 hlen, arrayAt_px e3 hlen, arrayAt_px e4 hlen]
    rfl
  · intro hn
    rw [if_pos]
    unfold Inside at hn
    omega

/-- The interpolated value in exact arithmetic: the mean of the edge
interpolations. -/
theorem interpolate_exact {data : List Dbl} {samples lines nl nr nt nb : ℕ}
    (h : Setup data samples lines nl nr nt nb) {x z : ℚ} {i k : ℕ}
    (hx : (i : ℚ) ≤ x) (hx' : x < i + 1) (hz : (k : ℚ) ≤ z) (hz' : z < k + 1)
    (hin : Inside samples lines nl nr nt nb i k) {bl br tl tr : Option ℚ}
    (h1 : px data samples i k = ofOpt bl) (h2 : px data samples (i + 1) k = ofOpt br)
    (h3 : px data samples i (k + 1) = ofOpt tl)
    (h4 : px data samples (i + 1) (k + 1) = ofOpt tr) (datum : Dbl) :
    interpolate .exact (new samples lines nl nr nt nb) data (.fin x) (.fin z) datum =
      if terms bl br tl tr (x - i) (z - k) = [] then .ok (false, datum)
      else .ok (true, .fin ((terms bl br tl tr (x - i) (z - k)).sum /
        (terms bl br tl tr (x - i) (z - k)).length)) := by
  have hh := h.hs
  have hh' := h.hl
  have := (interpolate_eq .exact h hx hx' hz hz' (by have := hin.2.1; omega)
    (by have := hin.2.2.2; omega) datum).1 hin
  rw [this, h1, h2, h3, h4]
  have e1 : Fp.exact.sub (.fin x) (Fp.exact.rnd i) = .fin (x - i) := exact_sub x i
  have e2 : Fp.exact.sub (.fin z) (Fp.exact.rnd k) = .fin (z - k) := exact_sub z k
  rw [e1, e2, contributions_exact]
  simp only
  by_cases ht : terms bl br tl tr (x - i) (z - k) = []
  · simp [ht]
  · have hl : 0 < (terms bl br tl tr (x - i) (z - k)).length := List.length_pos_iff.mpr ht
    rw [if_pos hl, if_neg ht]
    have : ((terms bl br tl tr (x - i) (z - k)).length : ℚ) ≠ 0 := by
      exact_mod_cast hl.ne'
    simp [Fp.div, this, Fp.exact]

/-! ## C28 -/

/-- C28: in whatever floating point arithmetic, the interpolation fails exactly
when the cell leaves the nibbled rectangle or none of the lower, upper and left
pairs of pixels is fully defined; it then leaves the datum alone.  (A defined
pair on the right alone is not used.) -/
theorem C28_fails_iff (F : Fp) {data : List Dbl} {samples lines nl nr nt nb : ℕ}
    (h : Setup data samples lines nl nr nt nb) {x z : ℚ} {i k : ℕ}
    (hx : (i : ℚ) ≤ x) (hx' : x < i + 1) (hz : (k : ℚ) ≤ z) (hz' : z < k + 1)
    (hi : i < 2 ^ 64 - 1) (hk : k < 2 ^ 64 - 1) (datum : Dbl) :
    ∃ ok d, interpolate F (new samples lines nl nr nt nb) data (.fin x) (.fin z) datum =
        .ok (ok, d) ∧
      (ok = false → d = datum) ∧
      (ok = true ↔ Inside samples lines nl nr nt nb i k ∧
        ((px data samples i k ≠ .nan ∧ px data samples (i + 1) k ≠ .nan) ∨
         (px data samples i (k + 1) ≠ .nan ∧ px data samples (i + 1) (k + 1) ≠ .nan) ∨
         (px data samples i k ≠ .nan ∧ px data samples i (k + 1) ≠ .nan))) := by
  have hnan : ∀ d : Dbl, d.isNaN = false ↔ d ≠ .nan := by intro d; cases d <;> simp [Dbl.isNaN]
  by_cases hin : Inside samples lines nl nr nt nb i k
  · rw [(interpolate_eq F h hx hx' hz hz' hi hk datum).1 hin]
    simp only
    generalize px data samples i k = bl
    generalize px data samples (i + 1) k = br
    generalize px data samples i (k + 1) = tl
    generalize px data samples (i + 1) (k + 1) = tr
    have hc : ((contributions F bl br tl tr (F.sub (.fin x) (F.rnd i))
        (F.sub (.fin z) (F.rnd k))).2 > 0) ↔ ((bl ≠ .nan ∧ br ≠ .nan) ∨ (tl ≠ .nan ∧ tr ≠ .nan) ∨
          (bl ≠ .nan ∧ tl ≠ .nan)) := by
      simp only [← hnan]
      unfold contributions
      cases bl.isNaN <;> cases br.isNaN <;> cases tl.isNaN <;> cases tr.isNaN <;> simp
    split
    · rename_i hp
      exact ⟨_, _, rfl, by simp, by simp [hin, hc.mp hp]⟩
    · rename_i hp
      refine ⟨_, _, rfl, fun _ => rfl, ?_⟩
      simp only [Bool.false_eq_true, false_iff, not_and]
      intro _ hh
      exact hp (hc.mpr hh)
  · rw [(interpolate_eq F h hx hx' hz hz' hi hk datum).2 hin]
    exact ⟨_, _, rfl, fun _ => rfl, by simp [hin]⟩

/-- C28: only the four pixels around the coordinate matter: two images that
agree on them interpolate to the same value. -/
theorem C28_local (F : Fp) {data data' : List Dbl} {samples lines nl nr nt nb : ℕ}
    (h : Setup data samples lines nl nr nt nb) (h' : Setup data' samples lines nl nr nt nb)
    {x z : ℚ} {i k : ℕ}
    (hx : (i : ℚ) ≤ x) (hx' : x < i + 1) (hz : (k : ℚ) ≤ z) (hz' : z < k + 1)
    (hi : i < 2 ^ 64 - 1) (hk : k < 2 ^ 64 - 1)
    (heq : ∀ di ≤ 1, ∀ dk ≤ 1,
      px data samples (i + di) (k + dk) = px data' samples (i + di) (k + dk)) (datum : Dbl) :
    interpolate F (new samples lines nl nr nt nb) data (.fin x) (.fin z) datum =
      interpolate F (new samples lines nl nr nt nb) data' (.fin x) (.fin z) datum := by
  have e1 := heq 0 (by omega) 0 (by omega)
  have e2 := heq 1 (by omega) 0 (by omega)
  have e3 := heq 0 (by omega) 1 (by omega)
  have e4 := heq 1 (by omega) 1 (by omega)
  simp only [Nat.add_zero] at e1 e2 e3
  by_cases hin : Inside samples lines nl nr nt nb i k
  · rw [(interpolate_eq F h hx hx' hz hz' hi hk datum).1 hin,
      (interpolate_eq F h' hx hx' hz hz' hi hk datum).1 hin, e1, e2, e3, e4]
  · rw [(interpolate_eq F h hx hx' hz hz' hi hk datum).2 hin,
      (interpolate_eq F h' hx hx' hz hz' hi hk datum).2 hin]

/-- Specification: the pixels of an image are numbers or undefined. -/
def Numeric (data : List Dbl) : Prop := ∀ d ∈ data, d ≠ .pinf ∧ d ≠ .ninf

theorem numeric_px {data : List Dbl} (h : Numeric data) (samples i k : ℕ) :
    ∃ o, px data samples i k = ofOpt o := by
  unfold px
  cases hd : data[k * samples + i]? with
  | none => exact ⟨none, rfl⟩
  | some d =>
    have := h d (List.mem_of_getElem? hd)
    cases d with
    | nan => exact ⟨none, rfl⟩
    | fin q => exact ⟨some q, rfl⟩
    | pinf => simp at this
    | ninf => simp at this

theorem terms_nil {bl br tl tr bl' br' tl' tr' : Option ℚ} (u v : ℚ)
    (h1 : bl.isSome = bl'.isSome) (h2 : br.isSome = br'.isSome) (h3 : tl.isSome = tl'.isSome)
    (h4 : tr.isSome = tr'.isSome) :
    terms bl br tl tr u v = [] ↔ terms bl' br' tl' tr' u v = [] := by
  cases bl <;> cases br <;> cases tl <;> cases tr <;> cases bl' <;> cases br' <;> cases tl' <;>
    cases tr' <;> simp_all [terms, pair]

/-- C28: scaling and shifting the pixel values scales and shifts the result (in
exact arithmetic). -/
theorem C28_affine {data : List Dbl} (hnum : Numeric data) {samples lines nl nr nt nb : ℕ}
    (h : Setup data samples lines nl nr nt nb) {x z : ℚ} {i k : ℕ}
    (hx : (i : ℚ) ≤ x) (hx' : x < i + 1) (hz : (k : ℚ) ≤ z) (hz' : z < k + 1)
    (hi : i < 2 ^ 64 - 1) (hk : k < 2 ^ 64 - 1) (s c : ℚ) {datum d : Dbl}
    (hd : interpolate .exact (new samples lines nl nr nt nb) data (.fin x) (.fin z) datum =
      .ok (true, d)) :
    ∃ q, d = .fin q ∧ ∀ datum',
      interpolate .exact (new samples lines nl nr nt nb)
        (data.map fun | .fin p => .fin (s * p + c) | p => p) (.fin x) (.fin z) datum' =
      .ok (true, .fin (s * q + c)) := by
  set f : Dbl → Dbl := fun | .fin p => .fin (s * p + c) | p => p with hf
  have hh := h.hs
  have hh' := h.hl
  have hset : Setup (data.map f) samples lines nl nr nt nb :=
    ⟨by simp [h.size], h.memory, h.hs, h.hl, h.right, h.bottom⟩
  have hpx : ∀ i k o, px data samples i k = ofOpt o →
      px (data.map f) samples i k = ofOpt (o.map fun q => s * q + c) := by
    intro i k o ho
    unfold px at ho ⊢
    rw [List.getElem?_map]
    cases hd : data[k * samples + i]? with
    | none => rw [hd] at ho; cases o <;> simp_all [ofOpt]
    | some d => rw [hd] at ho; simp at ho; subst ho; cases o <;> simp [ofOpt, f]
  by_cases hin : Inside samples lines nl nr nt nb i k
  · obtain ⟨bl, h1⟩ := numeric_px hnum samples i k
    obtain ⟨br, h2⟩ := numeric_px hnum samples (i + 1) k
    obtain ⟨tl, h3⟩ := numeric_px hnum samples i (k + 1)
    obtain ⟨tr, h4⟩ := numeric_px hnum samples (i + 1) (k + 1)
    rw [interpolate_exact h hx hx' hz hz' hin h1 h2 h3 h4] at hd
    split at hd
    · cases hd
    rename_i hne
    simp only [Outcome.ok.injEq, Prod.mk.injEq, true_and] at hd
    refine ⟨_, hd.symm, fun datum' => ?_⟩
    rw [interpolate_exact hset hx hx' hz hz' hin (hpx _ _ _ h1) (hpx _ _ _ h2) (hpx _ _ _ h3)
      (hpx _ _ _ h4)]
    rw [if_neg]
    · congr 3
      generalize x - i = u
      generalize z - k = v
      cases bl <;> cases br <;> cases tl <;> cases tr <;> simp_all [terms, pair] <;> field_simp <;> ring
    · intro h0
      refine hne ((terms_nil _ _ ?_ ?_ ?_ ?_).mp h0) <;> simp
  · rw [(interpolate_eq .exact h hx hx' hz hz' hi hk datum).2 hin] at hd
    cases hd

theorem terms_const {bl br tl tr : Option ℚ} {q u v : ℚ}
    (h1 : ∀ a ∈ bl, a = q) (h2 : ∀ a ∈ br, a = q) (h3 : ∀ a ∈ tl, a = q) (h4 : ∀ a ∈ tr, a = q) :
    ∀ t ∈ terms bl br tl tr u v, t = q := by
  cases bl <;> cases br <;> cases tl <;> cases tr <;> simp_all [terms, pair]

/-- The mean of numbers is between their bounds. -/
theorem mean_bounds {l : List ℚ} {lo hi : ℚ} (hl : l ≠ []) (h : ∀ t ∈ l, lo ≤ t ∧ t ≤ hi) :
    lo ≤ l.sum / l.length ∧ l.sum / l.length ≤ hi := by
  have hpos : (0 : ℚ) < l.length := by exact_mod_cast List.length_pos_iff.mpr hl
  have hsum : lo * l.length ≤ l.sum ∧ l.sum ≤ hi * l.length := by
    clear hl hpos
    induction l with
    | nil => simp
    | cons a l ih =>
      have := ih fun t ht => h t (List.mem_cons_of_mem _ ht)
      have ha := h a List.mem_cons_self
      simp only [List.sum_cons, List.length_cons]
      push_cast
      constructor <;> nlinarith
  exact ⟨(le_div_iff₀ hpos).mpr hsum.1, (div_le_iff₀ hpos).mpr hsum.2⟩

/-- C28: where the defined pixels around the coordinate all have one value, that
value is the result (in exact arithmetic). -/
theorem C28_constant {data : List Dbl} {samples lines nl nr nt nb : ℕ}
    (h : Setup data samples lines nl nr nt nb) {x z : ℚ} {i k : ℕ}
    (hx : (i : ℚ) ≤ x) (hx' : x < i + 1) (hz : (k : ℚ) ≤ z) (hz' : z < k + 1)
    (hi : i < 2 ^ 64 - 1) (hk : k < 2 ^ 64 - 1) {q : ℚ}
    (hconst : ∀ di ≤ 1, ∀ dk ≤ 1, px data samples (i + di) (k + dk) = .nan ∨
      px data samples (i + di) (k + dk) = .fin q) {datum d : Dbl}
    (hd : interpolate .exact (new samples lines nl nr nt nb) data (.fin x) (.fin z) datum =
      .ok (true, d)) : d = .fin q := by
  have ho : ∀ di ≤ 1, ∀ dk ≤ 1, ∃ o : Option ℚ, px data samples (i + di) (k + dk) = ofOpt o ∧
      ∀ a ∈ o, a = q := by
    intro di h1 dk h2
    rcases hconst di h1 dk h2 with h | h
    · exact ⟨none, h, by simp⟩
    · exact ⟨some q, h, by simp⟩
  by_cases hin : Inside samples lines nl nr nt nb i k
  · obtain ⟨bl, h1, c1⟩ := ho 0 (by omega) 0 (by omega)
    obtain ⟨br, h2, c2⟩ := ho 1 (by omega) 0 (by omega)
    obtain ⟨tl, h3, c3⟩ := ho 0 (by omega) 1 (by omega)
    obtain ⟨tr, h4, c4⟩ := ho 1 (by omega) 1 (by omega)
    rw [interpolate_exact h hx hx' hz hz' hin h1 h2 h3 h4] at hd
    split at hd
    · cases hd
    rename_i hne
    have hb := mean_bounds (lo := q) (hi := q) hne fun t ht => by
      rw [terms_const c1 c2 c3 c4 t ht]; simp
    simp only [Outcome.ok.injEq, Prod.mk.injEq, true_and] at hd
    rw [← hd, le_antisymm hb.2 hb.1]
  · rw [(interpolate_eq .exact h hx hx' hz hz' hi hk datum).2 hin] at hd
    cases hd

theorem mix_bounds {a b t lo hi : ℚ} (ha : lo ≤ a ∧ a ≤ hi) (hb : lo ≤ b ∧ b ≤ hi)
    (h0 : 0 ≤ t) (h1 : t < 1) : lo ≤ a + (b - a) * t ∧ a + (b - a) * t ≤ hi := by
  constructor <;> nlinarith

theorem ext_bounds {a b t lo hi : ℚ} (ha : lo ≤ a ∧ a ≤ hi) (hb : lo ≤ b ∧ b ≤ hi)
    (h0 : 0 ≤ t) (h1 : t < 1) :
    lo - (hi - lo) ≤ b + (b - a) * t ∧ b + (b - a) * t ≤ hi + (hi - lo) := by
  constructor <;> nlinarith

theorem pair1_sum {o o' : Option ℚ} {t lo hi : ℚ} (ho : ∀ a ∈ o, lo ≤ a ∧ a ≤ hi)
    (ho' : ∀ a ∈ o', lo ≤ a ∧ a ≤ hi) (h0 : 0 ≤ t) (h1 : t < 1) :
    let l := pair (fun a b => [a + (b - a) * t]) o o'
    l = [] ∧ ¬ (o.isSome ∧ o'.isSome) ∨ l.length = 1 ∧ lo ≤ l.sum ∧ l.sum ≤ hi := by
  cases o <;> cases o' <;> simp [pair]
  rename_i a b
  exact mix_bounds (ho a rfl) (ho' b rfl) h0 h1

theorem pair2_sum {o o' : Option ℚ} {t t' lo hi : ℚ} (ho : ∀ a ∈ o, lo ≤ a ∧ a ≤ hi)
    (ho' : ∀ a ∈ o', lo ≤ a ∧ a ≤ hi) (h0 : 0 ≤ t) (h1 : t < 1) (h0' : 0 ≤ t') (h1' : t' < 1) :
    let l := pair (fun a b => [a + (b - a) * t, b + (b - a) * t']) o o'
    l = [] ∨ l.length = 2 ∧ lo + (lo - (hi - lo)) ≤ l.sum ∧ l.sum ≤ hi + (hi + (hi - lo)) ∧
      lo ≤ hi := by
  cases o <;> cases o' <;> simp [pair]
  rename_i a b
  have e1 := mix_bounds (ho a rfl) (ho' b rfl) h0 h1
  have e2 := ext_bounds (ho a rfl) (ho' b rfl) h0' h1'
  have := ho a rfl
  refine ⟨?_, ?_, ?_⟩ <;> linarith

theorem terms_mean {bl br tl tr : Option ℚ} {u v lo hi : ℚ}
    (c1 : ∀ a ∈ bl, lo ≤ a ∧ a ≤ hi) (c2 : ∀ a ∈ br, lo ≤ a ∧ a ≤ hi)
    (c3 : ∀ a ∈ tl, lo ≤ a ∧ a ≤ hi) (c4 : ∀ a ∈ tr, lo ≤ a ∧ a ≤ hi)
    (u0 : 0 ≤ u) (u1 : u < 1) (v0 : 0 ≤ v) (v1 : v < 1) (hne : terms bl br tl tr u v ≠ []) :
    let m := (terms bl br tl tr u v).sum / (terms bl br tl tr u v).length
    lo - (hi - lo) / 2 ≤ m ∧ m ≤ hi + (hi - lo) / 2 ∧
      (bl.isSome ∧ br.isSome ∧ tl.isSome ∧ tr.isSome →
        lo - (hi - lo) / 4 ≤ m ∧ m ≤ hi + (hi - lo) / 4) := by
  have hA := pair2_sum c1 c2 u0 u1 v0 v1
  have hB := pair1_sum c3 c4 u0 u1
  have hC := pair1_sum c1 c3 v0 v1
  unfold terms at hne ⊢
  generalize pair (fun a b => [a + (b - a) * u, b + (b - a) * v]) bl br = A at *
  generalize pair (fun a b => [a + (b - a) * u]) tl tr = B at *
  generalize pair (fun a b => [a + (b - a) * v]) bl tl = D at *
  simp only [List.sum_append, List.length_append]
  rcases hA with rfl | ⟨a1, a2, a3, a4⟩ <;> rcases hB with ⟨rfl, b0⟩ | ⟨b1, b2, b3⟩ <;>
    rcases hC with ⟨rfl, d0⟩ | ⟨d1, d2, d3⟩ <;>
    (try simp only [a1]) <;> (try simp only [b1]) <;> (try simp only [d1]) <;>
    (try simp only [List.sum_nil, List.length_nil]) <;> push_cast
  · simp at hne
  all_goals
    refine ⟨?_, ?_, fun hh => ⟨?_, ?_⟩⟩
  all_goals first
    | (exfalso; simp_all; done)
    | (rw [le_div_iff₀ (by norm_num)]; linarith)
    | (rw [div_le_iff₀ (by norm_num)]; linarith)

/-- C28: with exact arithmetic the result exceeds the range of the defined pixels
around the coordinate by at most half of that range, and by at most a quarter
when all four pixels are defined. -/
theorem C28_overshoot {data : List Dbl} {samples lines nl nr nt nb : ℕ}
    (h : Setup data samples lines nl nr nt nb) {x z : ℚ} {i k : ℕ}
    (hx : (i : ℚ) ≤ x) (hx' : x < i + 1) (hz : (k : ℚ) ≤ z) (hz' : z < k + 1)
    (hi : i < 2 ^ 64 - 1) (hk : k < 2 ^ 64 - 1) {lo hi' : ℚ}
    (hrange : ∀ di ≤ 1, ∀ dk ≤ 1, px data samples (i + di) (k + dk) = .nan ∨
      ∃ q, px data samples (i + di) (k + dk) = .fin q ∧ lo ≤ q ∧ q ≤ hi') {datum d : Dbl}
    (hd : interpolate .exact (new samples lines nl nr nt nb) data (.fin x) (.fin z) datum =
      .ok (true, d)) :
    ∃ q, d = .fin q ∧ lo - (hi' - lo) / 2 ≤ q ∧ q ≤ hi' + (hi' - lo) / 2 ∧
      ((∀ di ≤ 1, ∀ dk ≤ 1, px data samples (i + di) (k + dk) ≠ .nan) →
        lo - (hi' - lo) / 4 ≤ q ∧ q ≤ hi' + (hi' - lo) / 4) := by
  have ho : ∀ di ≤ 1, ∀ dk ≤ 1, ∃ o : Option ℚ, px data samples (i + di) (k + dk) = ofOpt o ∧
      ∀ a ∈ o, lo ≤ a ∧ a ≤ hi' := by
    intro di h1 dk h2
    rcases hrange di h1 dk h2 with h | ⟨q, h, hq⟩
    · exact ⟨none, h, by simp⟩
    · exact ⟨some q, h, by simpa using hq⟩
  by_cases hin : Inside samples lines nl nr nt nb i k
  · obtain ⟨bl, h1, c1⟩ := ho 0 (by omega) 0 (by omega)
    obtain ⟨br, h2, c2⟩ := ho 1 (by omega) 0 (by omega)
    obtain ⟨tl, h3, c3⟩ := ho 0 (by omega) 1 (by omega)
    obtain ⟨tr, h4, c4⟩ := ho 1 (by omega) 1 (by omega)
    rw [interpolate_exact h hx hx' hz hz' hin h1 h2 h3 h4] at hd
    split at hd
    · cases hd
    rename_i hne
    simp only [Outcome.ok.injEq, Prod.mk.injEq, true_and] at hd
    refine ⟨_, hd.symm, ?_⟩
    have hall : (∀ di ≤ 1, ∀ dk ≤ 1, px data samples (i + di) (k + dk) ≠ .nan) →
        bl.isSome ∧ br.isSome ∧ tl.isSome ∧ tr.isSome := by
      intro hh
      have e1 := hh 0 (by omega) 0 (by omega)
      have e2 := hh 1 (by omega) 0 (by omega)
      have e3 := hh 0 (by omega) 1 (by omega)
      have e4 := hh 1 (by omega) 1 (by omega)
      rw [h1] at e1; rw [h2] at e2; rw [h3] at e3; rw [h4] at e4
      cases bl <;> cases br <;> cases tl <;> cases tr <;> simp_all [ofOpt]
    have u0 : 0 ≤ x - i := by linarith
    have u1 : x - i < 1 := by linarith
    have v0 : 0 ≤ z - k := by linarith
    have v1 : z - k < 1 := by linarith
    obtain ⟨m1, m2, m3⟩ := terms_mean c1 c2 c3 c4 u0 u1 v0 v1 hne
    exact ⟨m1, m2, fun hh => m3 (hall hh)⟩
  · rw [(interpolate_eq .exact h hx hx' hz hz' hi hk datum).2 hin] at hd
    cases hd

/-- A 3 by 2 image with an undefined pixel. -/
def demo : List Dbl := [.fin 0, .fin 1, .fin 5, .fin 1, .fin 1, .nan]

theorem demo_setup : Setup demo 3 2 0 0 0 0 := by constructor <;> norm_num [demo]

theorem demo_numeric : Numeric demo := by
  intro d hd
  simp only [demo, List.mem_cons, List.not_mem_nil, or_false] at hd
  rcases hd with rfl | rfl | rfl | rfl | rfl | rfl <;> simp

example : interpolate .exact (new 3 2 0 0 0 0) demo (.fin (9/10)) (.fin (9/10)) (.fin 7) =
    .ok (true, .fin (47/40)) := by decide +kernel

example : interpolate .exact (new 3 2 0 0 0 0) demo (.fin (3/2)) (.fin (1/2)) (.fin 7) =
    .ok (true, .fin (11/3)) := by decide +kernel

/-- C28: the result can lie outside the range of the four pixels (here 47/40
between pixels 0, 1, 1, 1), so the overshoot in `C28_overshoot` is real. -/
theorem C28_hull_violated :
    Setup demo 3 2 0 0 0 0 ∧
    (∀ di ≤ 1, ∀ dk ≤ 1, ∃ q, px demo 3 (0 + di) (0 + dk) = .fin q ∧ 0 ≤ q ∧ q ≤ 1) ∧
    interpolate .exact (new 3 2 0 0 0 0) demo (.fin (9/10)) (.fin (9/10)) (.fin 7) =
      .ok (true, .fin (47/40)) := by
  refine ⟨demo_setup, ?_, by decide +kernel⟩
  intro di h1 dk h2
  interval_cases di <;> interval_cases dk <;> exact ⟨_, rfl, by norm_num, by norm_num⟩

/-- C28: at a pixel corner the pixel value is not reproduced: at the lower left
corner the result is `(2 bl + br + tl) / 4`. -/
theorem C28_corner {data : List Dbl} {samples lines nl nr nt nb : ℕ}
    (h : Setup data samples lines nl nr nt nb) {i k : ℕ}
    (hin : Inside samples lines nl nr nt nb i k) {bl br tl tr : ℚ}
    (h1 : px data samples i k = .fin bl) (h2 : px data samples (i + 1) k = .fin br)
    (h3 : px data samples i (k + 1) = .fin tl)
    (h4 : px data samples (i + 1) (k + 1) = .fin tr) (datum : Dbl) :
    interpolate .exact (new samples lines nl nr nt nb) data (.fin i) (.fin k) datum =
      .ok (true, .fin ((2 * bl + br + tl) / 4)) := by
  rw [interpolate_exact h le_rfl (by linarith) le_rfl (by linarith) hin
    (bl := some bl) (br := some br) (tl := some tl) (tr := some tr) h1 h2 h3 h4]
  simp only [terms, pair, sub_self, mul_zero, add_zero, List.cons_append, List.nil_append,
    reduceCtorEq, if_false, List.sum_cons, List.sum_nil, List.length_cons,
    List.length_nil]
  congr 3
  push_cast
  ring

/-- C28: exact reproduction at pixel corners is false. -/
theorem C28_corner_violated :
    px demo 3 0 0 = .fin 0 ∧
    interpolate .exact (new 3 2 0 0 0 0) demo (.fin 0) (.fin 0) (.fin 7) =
      .ok (true, .fin (1/2)) := ⟨rfl, by decide +kernel⟩

/-- C28: a pair of defined pixels on the right-hand side alone is not used,
while one on the left-hand side alone is. -/
theorem C28_right_pair_violated :
    interpolate .exact (new 2 2 0 0 0 0) [.nan, .fin 1, .nan, .fin 1] (.fin (1/2)) (.fin (1/2))
      (.fin 7) = .ok (false, .fin 7) ∧
    interpolate .exact (new 2 2 0 0 0 0) [.fin 1, .nan, .fin 1, .nan] (.fin (1/2)) (.fin (1/2))
      (.fin 7) = .ok (true, .fin 1) := ⟨by decide +kernel, by decide +kernel⟩

end MaRC.Bilinear
