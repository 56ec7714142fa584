import Verif.Lemmas.InputComplete

/-! # The values of accepted input files are in their ranges -/

namespace MaRC.InputMeaning

open MaRC.Calc (Tok)
open MaRC.Scan (Token kw)
open MaRC.Grammar
open MaRC.Parser (Averaging Hemisphere Side NibbleClause CenterClause ScaleClause PhotoSrc PhotoCmd
  Nibbles PhotoVars Inert RangeClause RadiiClause PlaneSrc PlaneKind PlaneCmd Globals ProjSrc Proj
  OrthoCenter IntervalClause GridClause clean)

variable {E : Env} {b : Body} {es : Part}

/-! ## Values -/

theorem given_some {α : Type} {k : String} {x : Option α} {P : α → Prop} {y : α} (h : x = some y)
    (hp : P y) : Given k es x P := fun _ => ⟨y, h, hp⟩

theorem given_absent {α : Type} {k : String} {x : Option α} {P : α → Prop} (h : get k es = none) :
    Given k es x P := fun hk => by simp [has, h] at hk

theorem given_op {k : String} {P : Dbl → Prop} {x : Operand} {y : Dbl} (hk : get k es = some x.yield)
    (hx : x.value E = some y) (hp : P y) : Given k es (real E k es) P :=
  given_some ((real_of' hk).trans hx) hp

theorem given_opt {k : String} {P : Dbl → Prop} {x : Option Operand} {y : Option Dbl}
    (hk : get k es = x.map Operand.yield) (hx : Grammar.optional (Operand.value E) x = some y)
    (hp : ∀ z, y = some z → P z) : Given k es (real E k es) P := by
  cases x with
  | none => exact given_absent hk
  | some x =>
    simp only [Grammar.optional, Option.map_eq_some_iff] at hx
    obtain ⟨z, hz, rfl⟩ := hx
    exact given_op hk hz (hp z rfl)

theorem given_pt {kA kB : String} (hk : kA ≠ kB) {P Q : Dbl → Prop} {p : Point} {v : Dbl × Dbl}
    (hv : p.value E b = some v) (hA : get kA es = get kA (ptEnts kA kB p))
    (hB : get kB es = get kB (ptEnts kA kB p)) (hp : P v.1) (hq : Q v.2) :
    Given kA es (latitude E b kA es) P ∧ Given kB es (longitude E b kB es) Q := by
  have := point_of (E := E) (b := b) hk hA hB
  rw [hv] at this
  simp only [both, Option.pure_def, Option.bind_eq_bind, Option.bind_eq_some_iff,
    Option.some.injEq] at this
  obtain ⟨x, hx, y, hy, rfl⟩ := this
  exact ⟨given_some hx hp, given_some hy hq⟩

theorem given_pair {kA kB : String} (hk : kA ≠ kB) {P Q : Dbl → Prop} {p : Pair} {v : Dbl × Dbl}
    (hv : p.value E = some v) (hA : get kA es = get kA (pairEnts kA kB p))
    (hB : get kB es = get kB (pairEnts kA kB p)) (hp : P v.1) (hq : Q v.2) :
    Given kA es (real E kA es) P ∧ Given kB es (real E kB es) Q := by
  have := pair_of (E := E) hk hA hB
  rw [hv] at this
  simp only [both, Option.pure_def, Option.bind_eq_bind, Option.bind_eq_some_iff,
    Option.some.injEq] at this
  obtain ⟨x, hx, y, hy, rfl⟩ := this
  exact ⟨given_some hx hp, given_some hy hq⟩

/-! ## Body -/

theorem radius_sound {x y : Dbl} (h : validateRadius x = .ok y) : Positive x ∧ y = x := by
  simp only [validateRadius] at h
  split at h
  · simp at h
  · rename_i hn
    simp only [Outcome.ok.injEq] at h
    refine ⟨?_, h.symm⟩
    cases x <;> simp_all [Positive, Dbl.lt, Dbl.le, Dbl.isNaN]

theorem spheroid_sound {e p e' p' : Dbl} (h : makeSpheroid e p = .ok (e', p')) :
    Positive p ∧ p.le e = true := by
  simp only [makeSpheroid] at h
  cases h1 : validateRadius e with
  | throw _ => rw [h1] at h; simp at h
  | ub => rw [h1] at h; simp at h
  | ok a =>
    rw [h1] at h
    simp only [Outcome.bind_ok] at h
    cases h2 : validateRadius p with
    | throw _ => rw [h2] at h; simp at h
    | ub => rw [h2] at h; simp at h
    | ok c =>
      rw [h2] at h
      simp only [Outcome.bind_ok] at h
      obtain ⟨p1, rfl⟩ := radius_sound h1
      obtain ⟨p2, rfl⟩ := radius_sound h2
      split at h
      · simp at h
      · rename_i hl
        refine ⟨p2, ?_⟩
        revert p1 p2 hl
        clear h h1 h2
        cases a <;> cases c <;> simp [Positive, Dbl.lt, Dbl.le]

theorem radii_sound {m : Map} (h : m.makeBody E = .done b) :
    (Positive b.polRad ∧ b.polRad.le b.eqRad = true) ∧
    Given "FLATTENING" (mapHead m) (real E "FLATTENING" (mapHead m)) fun f =>
      (Dbl.fin 0).le f = true ∧ f.lt (.fin 1) = true := by
  simp only [Map.makeBody] at h
  obtain ⟨c, h1, h⟩ := act_bind h
  obtain ⟨r, h2, h⟩ := act_bind h
  obtain ⟨⟨e, p⟩, h3, h⟩ := act_bind h
  have h4 := act_pure h
  subst h4
  replace h1 := act_option h1
  have h2' := act_outcome h2
  have hs := spheroid_sound (act_outcome h3)
  obtain ⟨rfl, rfl⟩ := spheroid_of (act_outcome h3)
  refine ⟨hs, ?_⟩
  have k3 : get "FLATTENING" (mapHead m) = get "FLATTENING" (radiiEnts m.radii) := by head_get
  have hcount : 2 ≤ c.radii.count := by
    simp only [Parser.Radii.validate] at h2'
    split at h2'
    · simp at h2'
    · omega
  have h0 : (Dbl.fin 0).lt (.fin (-1)) = false := by decide +kernel
  have key : ∀ x f, (c = .eqFlat x f ∨ c = .polFlat x f) →
      (Dbl.fin 0).le f = true ∧ f.lt (.fin 1) = true := by
    intro x f hc
    have h3 := Bool.toNat_le ((Dbl.fin 0).lt x)
    have : ((Dbl.fin 0).le f && f.lt (.fin 1)) = true := by
      by_contra hn
      simp only [Bool.not_eq_true] at hn
      rcases hc with rfl | rfl <;> rw [RadiiClause.radii, Parser.count_eq, h0, hn] at hcount <;>
        simp only [Bool.toNat_false] at hcount <;> omega
    simpa using this
  cases hm : m.radii <;> rw [hm] at h1 k3 <;>
    simp [Radii.clause, Option.bind_eq_some_iff] at h1 <;>
    simp [radiiEnts, get_cons] at k3 <;>
    obtain ⟨x, hx, y, hy, rfl⟩ := h1
  · exact given_absent k3
  · exact given_absent k3
  · exact given_op k3 hy (key x y (.inl rfl))
  · exact given_op k3 hy (key x y (.inl rfl))
  · exact given_op k3 hy (key x y (.inr rfl))
  · exact given_op k3 hy (key x y (.inr rfl))

/-! ## Parameters -/

theorem blank_sound {n k : ℤ} {s : List Char} (hn : n ∈ [0, 8, 16, 32, 64, -32, -64])
    (h : Parser.dataBlank n s = .ok (some k)) : BlankFor n k := by
  simp only [Parser.dataBlank] at h
  split at h
  · simp at h
  · split at h
    · simp at h
    · split at h
      · simp at h
      · split at h
        · rename_i hv
          simp only [Outcome.ok.injEq, Option.some.injEq] at h
          subst h
          simp only [List.mem_cons, List.not_mem_nil, or_false] at hn
          rcases hn with rfl | rfl | rfl | rfl | rfl | rfl | rfl <;>
            simp [Parser.verifyBlank, BlankFor] at hv ⊢ <;> omega
        · simp at h

theorem params_sound {m : Map} {p : MapParams.Params} (h : m.params E = .done p) :
    Given "DATA_OFFSET" (mapHead m) (real E "DATA_OFFSET" (mapHead m)) Any ∧
    Given "DATA_SCALE" (mapHead m) (real E "DATA_SCALE" (mapHead m)) Any ∧
    Given "DATA_BLANK" (mapHead m) (int "DATA_BLANK" (mapHead m)) (BlankFor (bitpix (mapHead m))) := by
  simp only [Map.params] at h
  rw [step_str (MapParams.fresh 0) .author m.author rfl, step_str _ .origin m.origin rfl,
    step_comment _ _ rfl, step_xcomment _ _ rfl] at h
  obtain ⟨off, h1, h⟩ := act_bind h
  rw [step_real _ .bzero off (by simp [MapParams.setStr, MapParams.lock, MapParams.userSupplied,
    MapParams.fresh])] at h
  obtain ⟨sc, h2, h⟩ := act_bind h
  rw [step_real _ .bscale sc (by simp [MapParams.setStr, MapParams.lock, MapParams.userSupplied,
    MapParams.fresh])] at h
  obtain ⟨q, h3, h⟩ := act_bind h
  have hb : q.bitpix = bitpix (mapHead m) := by
    have hq' := step_type h3
    simp only [MapParams.setStr, MapParams.lock, MapParams.userSupplied, MapParams.fresh,
      beq_self_eq_true, if_true] at hq'
    rw [hq', bitpix_of]
  clear h3
  refine ⟨given_opt (x := m.offset) (by head_get) (act_option h1) fun _ _ => trivial,
    given_opt (x := m.scale) (by head_get) (act_option h2) fun _ _ => trivial, ?_⟩
  have hk : get "DATA_BLANK" (mapHead m) = m.blank.map fun s => [.ex (.num s)] := by head_get
  cases hm : m.blank with
  | none => rw [hm] at hk; exact given_absent hk
  | some s =>
    rw [hm] at hk h
    obtain ⟨n, h4, -⟩ := act_bind h
    have h5 : Parser.dataBlank q.bitpix s = .ok (some n) := h4
    refine given_some ((int_of (by simpa using hk) rfl).trans (blank_some h5)) ?_
    rw [← hb]
    refine blank_sound ?_ h5
    rw [hb, bitpix_of]
    rcases m.type with _ | t
    · simp
    · cases t <;> simp [DataType.bitpix]

/-! ## Grids and ranges -/

theorem not_le_pos {x : Dbl} (h : ¬ x.le (.fin 0) = true) (hn : x ≠ .nan) : Positive x := by
  cases x <;> simp_all [Positive, Dbl.lt, Dbl.le]

theorem intervals_sound {i : Intervals} {c : IntervalClause} (hi : i.clause E = some c) (hb : ¬ c.Bad)
    (hk : ∀ k ∈ intervalKeys, get k es = get k (intervalsEnts i)) (hn : CheckedGrid E es) :
    ∀ k ∈ ["GRID_INTERVAL", "LAT_GRID_INTERVAL", "LON_GRID_INTERVAL"],
      Given k es (real E k es) Positive := by
  simp only [CheckedGrid, intervalKeys, List.forall_mem_cons] at hk hn ⊢
  obtain ⟨k1, k2, k3, -⟩ := hk
  obtain ⟨n1, n2, n3, -⟩ := hn
  have key : ∀ {k : String} {x : Operand} {y : Dbl}, get k es = some x.yield → x.value E = some y →
      real E k es ≠ some .nan → ¬ y.le (.fin 0) = true → Given k es (real E k es) Positive := by
    intro k x y hk hx hn hl
    refine given_op hk hx (not_le_pos hl ?_)
    rintro rfl
    exact hn ((real_of' hk).trans hx)
  cases i <;> simp [Intervals.clause, Option.bind_eq_some_iff] at hi <;>
    simp [intervalsEnts, get_cons] at k1 k2 k3
  · obtain ⟨x, hx, rfl⟩ := hi
    exact ⟨key k1 hx n1 hb, given_absent k2, given_absent k3, by simp⟩
  · obtain ⟨x, hx, rfl⟩ := hi
    exact ⟨given_absent k1, key k2 hx n2 hb, given_absent k3, by simp⟩
  · obtain ⟨x, hx, rfl⟩ := hi
    exact ⟨given_absent k1, given_absent k2, key k3 hx n3 hb, by simp⟩
  · obtain ⟨x, hx, y, hy, rfl⟩ := hi
    simp only [IntervalClause.Bad, not_or] at hb
    exact ⟨given_absent k1, key k2 hx n2 hb.1, key k3 hy n3 hb.2, by simp⟩
  · obtain ⟨y, hy, x, hx, rfl⟩ := hi
    simp only [IntervalClause.Bad, not_or] at hb
    exact ⟨given_absent k1, key k2 hx n2 hb.2, key k3 hy n3 hb.1, by simp⟩

theorem grid_sound {m : Map} {c : GridClause} (hc : m.grid.clause E = some c) (hb : ¬ c.Bad)
    (hn : CheckedGrid E (mapHead m)) :
    ∀ k ∈ ["GRID_INTERVAL", "LAT_GRID_INTERVAL", "LON_GRID_INTERVAL"],
      Given k (mapHead m) (real E k (mapHead m)) Positive := by
  have k : ∀ k ∈ intervalKeys, get k (mapHead m) = get k (gridEnts m.grid) := by
    simp only [intervalKeys, List.forall_mem_cons]
    refine ⟨?_, ?_, ?_, by simp⟩ <;> head_get
  cases hm : m.grid with
  | absent =>
    rw [hm] at k
    exact fun j hj => given_absent (k j hj)
  | plain y =>
    rw [hm] at k
    intro j hj
    refine given_absent ((k j hj).trans ?_)
    have : "GRID" ≠ j := by revert j; decide
    simp [gridEnts, get_cons, this]
  | intervals y i =>
    rw [hm] at k hc
    simp only [Grid.clause, Option.pure_def, Option.bind_eq_bind, Option.bind_eq_some_iff,
      Option.some.injEq] at hc
    obtain ⟨ic, hi, rfl⟩ := hc
    refine intervals_sound hi ?_ ?_ hn
    · cases y <;> exact hb
    · intro j hj
      rw [k j hj]
      have : "GRID" ≠ j := by revert j; decide
      simp [gridEnts, get_cons, this]

theorem range_sound {r : Range} {c : RangeClause} {ws : List Token} (hw : expr ws = [])
    (hc : r.clause E = some c) (ho : c.Ordered)
    (hk : ∀ k ∈ rangeKeys, get k es = get k (rangeEnts ws r)) :
    (∀ k ∈ ["DATA_MIN", "DATA_MAX"], Given k es (real E k es) Any) ∧
    ∀ x y, real E "DATA_MIN" es = some x → real E "DATA_MAX" es = some y → x.lt y = true := by
  simp only [rangeKeys, List.forall_mem_cons] at hk ⊢
  obtain ⟨k1, k2, -⟩ := hk
  cases r <;> simp [rangeEnts, get_cons] at k1 k2 <;>
    simp [Range.clause, Option.bind_eq_some_iff] at hc
  · exact ⟨⟨given_absent k1, given_absent k2, by simp⟩, by simp [real_none k1]⟩
  · obtain ⟨x, hx, rfl⟩ := hc
    exact ⟨⟨given_some ((real_of k1 hw).trans hx) trivial, given_absent k2, by simp⟩,
      by simp [real_none k2]⟩
  · obtain ⟨x, hx, rfl⟩ := hc
    exact ⟨⟨given_absent k1, given_some ((real_of k2 hw).trans hx) trivial, by simp⟩,
      by simp [real_none k1]⟩
  · obtain ⟨x, hx, y, hy, rfl⟩ := hc
    refine ⟨⟨given_op k1 hx trivial, given_some ((real_of k2 hw).trans hy) trivial, by simp⟩, ?_⟩
    rw [real_of' k1, real_of k2 hw, hx, hy]
    rintro _ _ ⟨⟩ ⟨⟩
    exact ho
  · obtain ⟨y, hy, x, hx, rfl⟩ := hc
    refine ⟨⟨given_some ((real_of k1 hw).trans hx) trivial, given_op k2 hy trivial, by simp⟩, ?_⟩
    rw [real_of' k2, real_of k1 hw, hx, hy]
    rintro _ _ ⟨⟩ ⟨⟩
    exact ho

end MaRC.InputMeaning
