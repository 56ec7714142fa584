import Verif.Lemmas.InputCommands
import Verif.Spec.InputValid

/-! # Input files with valid values are accepted -/

namespace MaRC.InputMeaning

open MaRC.Calc (Tok)
open MaRC.Scan (Token kw)
open MaRC.Grammar
open MaRC.Parser (Averaging Hemisphere Side NibbleClause CenterClause ScaleClause PhotoSrc PhotoCmd
  Nibbles PhotoVars Inert RangeClause RadiiClause PlaneSrc PlaneKind PlaneCmd Globals ProjSrc Proj
  OrthoCenter IntervalClause GridClause clean)

variable {E : Env} {b : Body} {es : Part}

/-! ## Values -/

theorem Given.at {α : Type} {k : String} {x : Option α} {P : α → Prop} (h : Given k es x P)
    {v : List Token} (hk : get k es = some v) : ∃ y, x = some y ∧ P y := h (by simp [has, hk])

theorem op_ok {k : String} {P : Dbl → Prop} (h : Given k es (real E k es) P) {x : Operand}
    (hk : get k es = some x.yield) : ∃ y, x.value E = some y ∧ P y := by
  have := h.at hk
  rwa [real_of' hk] at this

theorem lat_ok {k : String} {P : Dbl → Prop} (h : Given k es (latitude E b k es) P) {x : Lat}
    (hk : get k es = some x.yield) : ∃ y, x.value E b = some y ∧ P y := by
  have := h.at hk
  rwa [latitude_of hk] at this

theorem lon_ok {k : String} {P : Dbl → Prop} (h : Given k es (longitude E b k es) P) {x : Lon}
    (hk : get k es = some x.yield) : ∃ y, x.value E b = some y ∧ P y := by
  have := h.at hk
  rwa [longitude_of hk] at this

theorem turn_ok {P : Dbl → Prop} (h : Given "POSITION_ANGLE" es (turn E es) P) {x : Turn}
    (hk : get "POSITION_ANGLE" es = some (turnVal x)) : ∃ y, x.value E = some y ∧ P y := by
  have := h.at hk
  rwa [turn_of hk] at this

theorem int_ok {k : String} {P : ℤ → Prop} (h : Given k es (int k es) P) {s : List Char}
    (hk : get k es = some [.ex (.num s)]) : ∃ y, Parser.integer s = some y ∧ P y := by
  have := h.at hk
  rwa [int_of hk rfl] at this

theorem opt_ok {k : String} {P : Dbl → Prop} (h : Given k es (real E k es) P) {x : Option Operand}
    (hk : get k es = x.map Operand.yield) :
    ∃ y, Grammar.optional (Operand.value E) x = some y ∧ ∀ z, y = some z → P z := by
  cases x with
  | none => exact ⟨none, rfl, by simp⟩
  | some x =>
    obtain ⟨y, h1, h2⟩ := op_ok h hk
    exact ⟨some y, by simp [Grammar.optional, h1], by rintro z ⟨⟩; exact h2⟩

theorem optInt_ok {k : String} {P : ℤ → Prop} (h : Given k es (int k es) P)
    {x : Option (List Char)} (hk : get k es = x.map fun s => [.ex (.num s)]) :
    ∃ y, Grammar.optional Parser.integer x = some y ∧ y.isSome = x.isSome ∧ ∀ z, y = some z → P z := by
  cases x with
  | none => exact ⟨none, rfl, rfl, by simp⟩
  | some x =>
    obtain ⟨y, h1, h2⟩ := int_ok h hk
    exact ⟨some y, by simp [Grammar.optional, h1], rfl, by rintro z ⟨⟩; exact h2⟩

theorem point_ok {kA kB : String} (hk : kA ≠ kB) {P Q : Dbl → Prop} {p : Point}
    (h1 : Given kA es (latitude E b kA es) P) (h2 : Given kB es (longitude E b kB es) Q)
    (hA : get kA es = get kA (ptEnts kA kB p)) (hB : get kB es = get kB (ptEnts kA kB p)) :
    ∃ v, p.value E b = some v ∧ P v.1 ∧ Q v.2 := by
  cases p with
  | latLon x y | lonLat y x =>
    simp [ptEnts, get_cons, hk, hk.symm] at hA hB
    obtain ⟨a, ha, hp⟩ := lat_ok h1 hA
    obtain ⟨c, hc, hq⟩ := lon_ok h2 hB
    exact ⟨(a, c), by simp [Point.value, ha, hc], hp, hq⟩

theorem pair_ok {kA kB : String} (hk : kA ≠ kB) {P Q : Dbl → Prop} {p : Pair}
    (h1 : Given kA es (real E kA es) P) (h2 : Given kB es (real E kB es) Q)
    (hA : get kA es = get kA (pairEnts kA kB p)) (hB : get kB es = get kB (pairEnts kA kB p)) :
    ∃ v, p.value E = some v ∧ P v.1 ∧ Q v.2 := by
  cases p with
  | fst x y | snd y x =>
    simp [pairEnts, get_cons, hk, hk.symm] at hA hB
    obtain ⟨a, ha, hp⟩ := op_ok h1 hA
    obtain ⟨c, hc, hq⟩ := op_ok h2 hB
    exact ⟨(a, c), by simp [Pair.value, ha, hc], hp, hq⟩

/-! ## Body -/

theorem le_not_lt {a c : Dbl} (h : a.le c = true) : c.lt a = false := by
  cases a <;> cases c <;> simp_all [Dbl.lt, Dbl.le]

theorem pos_not_neg {a : Dbl} (h : Positive a) : a.lt (.fin 0) = false :=
  le_not_lt (Dbl.le_of_lt h)

theorem act_do {α β : Type} {x : Act α} {f : α → Act β} {a : α} (h : x = .done a) :
    (x >>= f) = f a := by subst h; rfl

theorem spheroid_ok {e p : Dbl} (hp : Positive p) (hl : p.le e = true) :
    makeSpheroid e p = .ok (e, p) := by
  have he : Positive e := Dbl.lt_of_lt_of_le hp hl
  have hv : ∀ x : Dbl, Positive x → validateRadius x = .ok x := by
    intro x hx
    have h1 : x.isNaN = false := Dbl.notNaN_of_le_right (Dbl.le_of_lt hx)
    have h2 : x.le (.fin 0) = false := by
      cases x <;> simp_all [Positive, Dbl.lt, Dbl.le]
    simp [validateRadius, h1, h2]
  simp only [makeSpheroid, hv e he, hv p hp, Outcome.bind_ok, le_not_lt hl, Bool.false_eq_true,
    if_false]

theorem validate_ok {F : Fp} {c : RadiiClause} {r : Parser.Radii} (hr : c.radii.fill F = r)
    (h2 : 2 ≤ c.radii.count) (hl : r.polRad.le r.eqRad = true) :
    c.radii.validate F = .ok r := by
  simp only [Parser.Radii.validate, hr, le_not_lt hl, Bool.false_eq_true, if_false]
  rw [if_neg (by omega)]

theorem body_ok {m : Map} (hb : HasBody E (mapHead m) b)
    (hr : Positive b.polRad ∧ b.polRad.le b.eqRad = true)
    (hf : Given "FLATTENING" (mapHead m) (real E "FLATTENING" (mapHead m)) fun f =>
      (Dbl.fin 0).le f = true ∧ f.lt (.fin 1) = true) : m.makeBody E = .done b := by
  obtain ⟨hrot, hb⟩ := hb
  have he : Positive b.eqRad := Dbl.lt_of_lt_of_le hr.1 hr.2
  have h0 : (Dbl.fin 0).lt (.fin (-1)) = false := by decide +kernel
  have h1 : (Dbl.fin 0).le (.fin (-1)) = false := by decide +kernel
  have h2 : (Dbl.fin (-1)).lt (.fin 0) = true := by decide +kernel
  have hp : m.prograde = b.prograde := by
    have : get "ROTATION" (mapHead m) =
        some [kw (if m.prograde then "PROGRADE" else "RETROGRADE")] := by head_get
    rcases hrot with ⟨h, h'⟩ | ⟨h, h'⟩ <;> rw [h'] <;> cases hm : m.prograde <;>
      simp [choice, this, hm] at h
    all_goals rfl
  have k : ∀ k ∈ radiiKeys, get k (mapHead m) = get k (radiiEnts m.radii) := by
    simp only [radiiKeys, List.forall_mem_cons]
    refine ⟨?_, ?_, ?_, by simp⟩ <;> head_get
  simp only [radiiKeys, List.forall_mem_cons] at k
  obtain ⟨k1, k2, k3, -⟩ := k
  suffices h : ∃ c r, m.radii.clause E = some c ∧ c.radii.validate E.F = .ok r ∧
      r.eqRad = b.eqRad ∧ r.polRad = b.polRad by
    obtain ⟨c, r, hc, hv, e1, e2⟩ := h
    simp only [Map.makeBody]
    rw [act_do (a := c) (by rw [hc]; rfl), act_do (a := r) (by rw [hv]; rfl),
      act_do (a := (b.eqRad, b.polRad)) (by rw [e1, e2, spheroid_ok hr.1 hr.2]; rfl), hp]
    rfl
  have hreal := @real_of' E
  cases hm : m.radii with
  | eqPol e p | polEq p e =>
    rw [hm] at k1 k2 k3
    simp [radiiEnts, get_cons] at k1 k2 k3
    rcases hb with ⟨b1, b2⟩ | ⟨f, b1, -⟩ | ⟨f, b1, -⟩
    · rw [hreal k1] at b1
      rw [hreal k2] at b2
      refine ⟨.eqPol b.eqRad b.polRad, ⟨b.eqRad, b.polRad, .fin (-1)⟩, by simp [Radii.clause, b1, b2],
        validate_ok ?_ ?_ hr.2, rfl, rfl⟩
      · simp [RadiiClause.radii, Parser.Radii.fill, pos_not_neg he, pos_not_neg hr.1]
      · have a1 := he
        have a2 := hr.1
        unfold Positive at a1 a2
        simp [RadiiClause.radii, Parser.count_eq, a1, a2]
    · rw [real_none k3] at b1; simp at b1
    · rw [real_none k3] at b1; simp at b1
  | eqFlat e f | flatEq f e =>
    rw [hm] at k1 k2 k3
    simp [radiiEnts, get_cons] at k1 k2 k3
    rcases hb with ⟨b1, b2⟩ | ⟨f, b1, b2, b3⟩ | ⟨f, b1, b2, -⟩
    · rw [real_none k2] at b2; simp at b2
    · obtain ⟨f', hf1, hf2, hf3⟩ := hf.at k3
      rw [b1] at hf1
      obtain rfl := Option.some.inj hf1
      rw [hreal k3] at b1
      rw [hreal k1] at b2
      refine ⟨.eqFlat b.eqRad f, ⟨b.eqRad, b.polRad, f⟩, by simp [Radii.clause, b1, b2],
        validate_ok ?_ ?_ hr.2, rfl, rfl⟩
      · simp [RadiiClause.radii, Parser.Radii.fill, pos_not_neg he, h2, b3]
      · have a1 := he
        unfold Positive at a1
        simp [RadiiClause.radii, Parser.count_eq, a1, hf2, hf3]
    · rw [real_none k2] at b2; simp at b2
  | polFlat p f | flatPol f p =>
    rw [hm] at k1 k2 k3
    simp [radiiEnts, get_cons] at k1 k2 k3
    rcases hb with ⟨b1, b2⟩ | ⟨f, b1, b2, b3⟩ | ⟨f, b1, b2, b3⟩
    · rw [real_none k1] at b1; simp at b1
    · rw [real_none k1] at b2; simp at b2
    · obtain ⟨f', hf1, hf2, hf3⟩ := hf.at k3
      rw [b1] at hf1
      obtain rfl := Option.some.inj hf1
      rw [hreal k3] at b1
      rw [hreal k2] at b2
      refine ⟨.polFlat b.polRad f, ⟨b.eqRad, b.polRad, f⟩, by simp [Radii.clause, b1, b2],
        validate_ok ?_ ?_ hr.2, rfl, rfl⟩
      · simp [RadiiClause.radii, Parser.Radii.fill, h2, b3]
      · have a1 := hr.1
        unfold Positive at a1
        simp [RadiiClause.radii, Parser.count_eq, a1, hf2, hf3]

/-! ## Parameters -/

theorem params_ok {m : Map} (h1 : Given "DATA_OFFSET" (mapHead m) (real E "DATA_OFFSET" (mapHead m)) Any)
    (h2 : Given "DATA_SCALE" (mapHead m) (real E "DATA_SCALE" (mapHead m)) Any)
    (h3 : Given "DATA_BLANK" (mapHead m) (int "DATA_BLANK" (mapHead m))
      (BlankFor (bitpix (mapHead m)))) : ∃ p, m.params E = .done p := by
  obtain ⟨off, e1, -⟩ := opt_ok h1 (x := m.offset) (by head_get)
  obtain ⟨sc, e2, -⟩ := opt_ok h2 (x := m.scale) (by head_get)
  have hset : ∀ x : MapParams.Params, ∃ q,
      m.type.elim (Act.done x) (fun t => Act.ofOutcome (MapParams.setBitpix x t.bitpix)) = .done q := by
    intro x
    rcases m.type with _ | t
    · exact ⟨x, rfl⟩
    · cases t <;> exact ⟨_, rfl⟩
  simp only [Map.params]
  rw [step_str (MapParams.fresh 0) .author m.author rfl, step_str _ .origin m.origin rfl,
    step_comment _ _ rfl, step_xcomment _ _ rfl]
  rw [act_do (a := off) (by rw [e1]; rfl), act_do (a := sc) (by rw [e2]; rfl)]
  rw [step_real _ .bzero off (by simp [MapParams.setStr, MapParams.lock, MapParams.userSupplied,
    MapParams.fresh]), step_real _ .bscale sc (by simp [MapParams.setStr, MapParams.lock,
    MapParams.userSupplied, MapParams.fresh])]
  obtain ⟨q, hq⟩ := hset _
  rw [act_do hq]
  clear hset
  have hb : q.bitpix = bitpix (mapHead m) := by
    have hq' := step_type hq
    simp only [MapParams.setStr, MapParams.lock, MapParams.userSupplied, MapParams.fresh,
      beq_self_eq_true, if_true] at hq'
    rw [hq', bitpix_of]
  cases hm : m.blank with
  | none => exact ⟨q, rfl⟩
  | some s =>
    obtain ⟨n, i1, i2⟩ := int_ok h3 (s := s) (by
      have : get "DATA_BLANK" (mapHead m) = m.blank.map fun s => [.ex (.num s)] := by head_get
      rw [this, hm]; rfl)
    have hd : Parser.dataBlank q.bitpix s = .ok (some n) := by
      rw [hb]
      rw [Parser.dataBlank, i1]
      rcases i2 with ⟨h, h', h''⟩ | ⟨h, h', h''⟩ | ⟨h, h', h''⟩ | h <;> rw [h] <;>
        simp [Parser.verifyBlank] <;> omega
    clear hq
    exact ⟨MapParams.setBlank q (some n), act_do (x := (Parser.dataBlank q.bitpix s : Act ℤ))
      (f := fun n => pure (MapParams.setBlank q (some n))) hd⟩

end MaRC.InputMeaning
