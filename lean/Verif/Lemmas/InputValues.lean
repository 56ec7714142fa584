import Verif.Lemmas.InputLookups

/-! # Values looked up in the entries of trees -/

namespace MaRC.InputMeaning

open MaRC.Calc (Tok)
open MaRC.Scan (Token kw)
open MaRC.Grammar
open MaRC.Parser (Averaging Hemisphere Side NibbleClause CenterClause ScaleClause PhotoSrc)

variable {E : Env} {b : Body} {es : Part}

theorem real_congr {k : String} {a c : Part} (h : get k a = get k c) : real E k a = real E k c := by
  rw [real, real, h]

theorem latitude_congr {k : String} {a c : Part} (h : get k a = get k c) :
    latitude E b k a = latitude E b k c := by rw [latitude, latitude, h]

theorem longitude_congr {k : String} {a c : Part} (h : get k a = get k c) :
    longitude E b k a = longitude E b k c := by rw [longitude, longitude, h]

theorem int_congr {k : String} {a c : Part} (h : get k a = get k c) : int k a = int k c := by
  rw [int, int, h]

theorem choice_congr {k : String} {a c : Part} (h : get k a = get k c) : choice k a = choice k c := by
  rw [choice, choice, h]

theorem real_opt {k : String} (o : Option Operand) (h : get k es = o.map Operand.yield) :
    real E k es = o.bind (Operand.value E) := by
  cases o <;> simp [real, h]

theorem string_opt {k : String} (o : Option (List Char)) (h : get k es = o.map fun s => [.str s]) :
    string k es = o.map String.ofList := by
  cases o <;> simp [string, h]

theorem yes_opt {k : String} (o : Option Bool) (h : get k es = o.map yesWord) : yes k es = o := by
  rcases o with _ | _ | _ <;> simp [yes, choice, h, yesWord]

theorem optional_bind {α β : Type} {f : α → Option β} {o : Option α} {x : Option β}
    (h : Grammar.optional f o = some x) : o.bind f = x := by
  cases o with
  | none => simpa [Grammar.optional] using h
  | some a =>
    simp only [Grammar.optional, Option.map_eq_some_iff] at h
    obtain ⟨y, h1, rfl⟩ := h
    simpa using h1

theorem pair_of {kA kB : String} (hk : kA ≠ kB) {p : Pair}
    (hA : get kA es = get kA (pairEnts kA kB p)) (hB : get kB es = get kB (pairEnts kA kB p)) :
    both (real E kA es) (real E kB es) = p.value E := by
  cases p <;> simp [pairEnts, get_cons, hk, hk.symm] at hA hB <;>
    simp [real, hA, hB, both, Pair.value]

theorem point_of {kA kB : String} (hk : kA ≠ kB) {p : Point}
    (hA : get kA es = get kA (ptEnts kA kB p)) (hB : get kB es = get kB (ptEnts kA kB p)) :
    both (latitude E b kA es) (longitude E b kB es) = p.value E b := by
  cases p <;> simp [ptEnts, get_cons, hk, hk.symm] at hA hB <;>
    rw [latitude_of hA, longitude_of hB] <;> rfl

theorem both_none_left {α β : Type} (y : Option β) : both (none : Option α) y = none := rfl

theorem center_of {c : Centers} (h : ∀ k ∈ centerKeys, get k es = get k (centersEnts c)) :
    center E b es = c.clause E b := by
  simp only [centerKeys, List.forall_mem_cons] at h
  obtain ⟨h1, h2, h3, h4, -⟩ := h
  cases c with
  | pixel p =>
    simp only [centersEnts] at h1 h2 h3
    rw [(keys_pair _ _ p).get (k := "LAT_AT_CENTER") (by decide)] at h3
    have e : latitude E b "LAT_AT_CENTER" es = none := by simp [latitude, h3]
    rw [center, pair_of (by decide) h1 h2, e, both_none_left, Centers.clause]
    cases p.value E <;> rfl
  | latLon p =>
    simp only [centersEnts] at h1 h3 h4
    rw [(keys_point _ _ p).get (k := "SAMPLE_CENTER") (by decide)] at h1
    rw [center, point_of (by decide) h3 h4, real_none h1, both_none_left, Centers.clause]
    cases p.value E b <;> rfl

theorem scale_of {s : Scale} (h : ∀ k ∈ scaleKeys, get k es = get k (scaleEnts s)) :
    scale E es = s.clause E := by
  simp only [scaleKeys, List.forall_mem_cons] at h
  obtain ⟨h1, h2, h3, h4, -⟩ := h
  cases s with
  | km x =>
    simp [scaleEnts, get_cons] at h1 h2 h3 h4
    simp only [scale, real_of' h1, real_none h2, real_none h3, real_none h4, both_none_left,
      Scale.clause]
    cases x.value E <;> rfl
  | arcsec x =>
    simp [scaleEnts, get_cons] at h1 h2 h3 h4
    simp only [scale, real_of' h2, real_none h1, real_none h3, real_none h4, both_none_left,
      Scale.clause]
    cases x.value E <;> rfl
  | lens p =>
    have e1 : get "KM_PER_PIXEL" es = none := h1.trans ((keys_pair _ _ p).get (by decide))
    have e2 : get "ARCSEC_PER_PIX" es = none := h2.trans ((keys_pair _ _ p).get (by decide))
    rw [scale, real_none e1, real_none e2, pair_of (by decide) h3 h4, Scale.clause]
    cases p.value E <;> rfl

theorem turn_of {t : Turn} (h : get "POSITION_ANGLE" es = some (turnVal t)) :
    turn E es = t.value E := by
  obtain ⟨x, cw⟩ := t
  rcases cw with _ | _ | _ <;> simp [turn, h, turnVal, Turn.value, Parser.positionAngle]

theorem range_of {d : Distance} (h : get "RANGE" es = some (distVal d)) :
    real E "RANGE" es = d.x.value E ∧ inAu es = decide (d.au = some true) := by
  obtain ⟨x, au⟩ := d
  rcases au with _ | _ | _ <;> simp [real, inAu, h, distVal]

theorem distance_of {d : Distance} (h : get "RANGE" es = some (distVal d)) :
    distance E es = d.value E := by
  obtain ⟨h1, h2⟩ := range_of (E := E) h
  rw [distance, h1, h2, Distance.value]
  cases d.x.value E <;> simp [Parser.range, Parser.astronomicalUnit]

/-! ## Nibbles -/

theorem sides_of {kA kB : String} (hk : kA ≠ kB) {s : Sides} {v : Option ℤ × Option ℤ}
    (hA : get kA es = get kA (sidesEnts kA kB s)) (hB : get kB es = get kB (sidesEnts kA kB s))
    (h : s.value = some v) : int kA es = v.1 ∧ int kB es = v.2 := by
  cases s <;> simp [sidesEnts, get_cons, hk, hk.symm] at hA hB <;>
    simp [Sides.value, Option.bind_eq_some_iff] at h <;> simp only [int, hA, hB] <;> simp
  · obtain ⟨x, hx, rfl⟩ := h; simp [hx]
  · obtain ⟨x, hx, rfl⟩ := h; simp [hx]
  · obtain ⟨x, hx, y, hy, rfl⟩ := h; simp [hx, hy]
  · obtain ⟨x, hx, y, hy, rfl⟩ := h; simp [hx, hy]

theorem nibble_of {n : Nibble} {c : NibbleClause} (h : ∀ k ∈ nibbleKeys, get k es = get k (nibbleEnts n))
    (hc : n.clause = some c) :
    (∀ d, (nibble es).wanted d = c.wanted d) ∧ (nibble es).numbers = c.numbers := by
  simp only [nibbleKeys, List.forall_mem_cons] at h
  obtain ⟨h0, h1, h2, h3, h4, -⟩ := h
  have i0 : ∀ {k : String}, get k es = none → int k es = none := by intro k hk; simp [int, hk]
  cases n with
  | empty =>
    simp [nibbleEnts] at h0 h1 h2 h3 h4
    simp [Nibble.clause] at hc
    subst hc
    simp [nibble, i0 h0, i0 h1, i0 h2, i0 h3, i0 h4, NibbleClause.wanted, NibbleClause.numbers]
  | all n =>
    simp [nibbleEnts, get_cons] at h0
    simp [Nibble.clause, Option.bind_eq_some_iff] at hc
    obtain ⟨x, hx, rfl⟩ := hc
    have : int "NIBBLE" es = some x := by rw [int_of h0 rfl, hx]
    simp [nibble, this]
  | samples s =>
    simp [Nibble.clause, Option.bind_eq_some_iff] at hc
    obtain ⟨x, y, hx, rfl⟩ := hc
    have e := sides_of (by decide) h1 h2 hx
    have e0 := i0 (h0.trans ((keys_samples s).get (by decide)))
    have e3 := i0 (h3.trans ((keys_samples s).get (by decide)))
    have e4 := i0 (h4.trans ((keys_samples s).get (by decide)))
    simp [nibble, e.1, e.2, e0, e3, e4]
  | lines s =>
    simp [Nibble.clause, Option.bind_eq_some_iff] at hc
    obtain ⟨x, y, hx, rfl⟩ := hc
    have e := sides_of (by decide) h3 h4 hx
    have e0 := i0 (h0.trans ((keys_lines s).get (by decide)))
    have e1 := i0 (h1.trans ((keys_lines s).get (by decide)))
    have e2 := i0 (h2.trans ((keys_lines s).get (by decide)))
    simp [nibble, e.1, e.2, e0, e1, e2]
  | samplesLines s l =>
    simp [Nibble.clause, Option.bind_eq_some_iff] at hc
    obtain ⟨x, y, hx, x', y', hy, rfl⟩ := hc
    simp only [nibbleEnts, get_append] at h0 h1 h2 h3 h4
    rw [(keys_samples s).get (by decide), (keys_lines l).get (by decide)] at h0
    rw [(keys_lines l).get (by decide), Option.or_none] at h1 h2
    rw [(keys_samples s).get (by decide), Option.none_or] at h3 h4
    have e := sides_of (by decide) h1 h2 hx
    have e' := sides_of (by decide) h3 h4 hy
    simp [nibble, e.1, e.2, e'.1, e'.2, i0 h0]
  | linesSamples l s =>
    simp [Nibble.clause, Option.bind_eq_some_iff] at hc
    obtain ⟨x, y, hx, x', y', hy, rfl⟩ := hc
    simp only [nibbleEnts, get_append] at h0 h1 h2 h3 h4
    rw [(keys_samples s).get (by decide), (keys_lines l).get (by decide)] at h0
    rw [(keys_lines l).get (by decide), Option.none_or] at h1 h2
    rw [(keys_samples s).get (by decide), Option.or_none] at h3 h4
    have e := sides_of (by decide) h1 h2 hx
    have e' := sides_of (by decide) h3 h4 hy
    simp [nibble, e.1, e.2, e'.1, e'.2, i0 h0]

theorem integer_lt {s : List Char} {n : ℤ} (h : Parser.integer s = some n) : n < 2 ^ 63 := by
  simp only [Parser.integer] at h
  split at h
  · simp at h
  · split at h
    · rename_i h1
      simp only [Option.some.injEq] at h
      rw [← h]; exact h1.2
    · simp at h

theorem sides_lt {s : Sides} {v : Option ℤ × Option ℤ} (h : s.value = some v) :
    (∀ n, v.1 = some n → n < 2 ^ 63) ∧ ∀ n, v.2 = some n → n < 2 ^ 63 := by
  cases s <;> simp [Sides.value, Option.bind_eq_some_iff] at h
  · obtain ⟨x, hx, rfl⟩ := h
    refine ⟨?_, by simp⟩
    rintro n ⟨⟩
    exact integer_lt hx
  · obtain ⟨x, hx, rfl⟩ := h
    refine ⟨by simp, ?_⟩
    rintro n ⟨⟩
    exact integer_lt hx
  all_goals
    obtain ⟨x, hx, y, hy, rfl⟩ := h
    constructor
    · rintro n ⟨⟩
      exact integer_lt hx
    · rintro n ⟨⟩
      exact integer_lt hy

theorem nibble_lt {n : Nibble} {c : NibbleClause} (h : n.clause = some c) :
    ∀ k ∈ c.numbers, k < 2 ^ 63 := by
  have key : ∀ l r t b : Option ℤ, (∀ n, l = some n → n < 2 ^ 63) → (∀ n, r = some n → n < 2 ^ 63) →
      (∀ n, t = some n → n < 2 ^ 63) → (∀ n, b = some n → n < 2 ^ 63) →
      ∀ k ∈ (NibbleClause.sides l r t b).numbers, k < 2 ^ 63 := by
    intro l r t b h1 h2 h3 h4 k hk
    simp only [NibbleClause.numbers, List.mem_filterMap, List.mem_cons, List.not_mem_nil, or_false,
      id] at hk
    obtain ⟨a, ha, rfl⟩ := hk
    rcases ha with ha | ha | ha | ha
    · exact h1 k ha.symm
    · exact h2 k ha.symm
    · exact h3 k ha.symm
    · exact h4 k ha.symm
  cases n <;> simp [Nibble.clause, Option.bind_eq_some_iff] at h
  · subst h; simp [NibbleClause.numbers]
  · obtain ⟨x, hx, rfl⟩ := h
    simpa [NibbleClause.numbers] using integer_lt hx
  · obtain ⟨x, y, hx, rfl⟩ := h
    exact key _ _ _ _ (sides_lt hx).1 (sides_lt hx).2 (by simp) (by simp)
  · obtain ⟨x, y, hx, rfl⟩ := h
    exact key _ _ _ _ (by simp) (by simp) (sides_lt hx).1 (sides_lt hx).2
  · obtain ⟨x, y, hx, x', y', hy, rfl⟩ := h
    exact key _ _ _ _ (sides_lt hx).1 (sides_lt hx).2 (sides_lt hy).1 (sides_lt hy).2
  · obtain ⟨x, y, hx, x', y', hy, rfl⟩ := h
    exact key _ _ _ _ (sides_lt hx).1 (sides_lt hx).2 (sides_lt hy).1 (sides_lt hy).2

end MaRC.InputMeaning
