import Verif.Lemmas.Grammar
import Verif.Spec.InputDoc

/-! # The grammar accepts the entries in their order -/

namespace MaRC.Grammar

open MaRC.Calc (Tok)
open MaRC.Scan (Token kw)
open MaRC.Parser (Hemisphere Side Averaging)
open MaRC.InputFile (Item tokenOf tokenName)
open MaRC.InputDoc

/-- The token lists of a form. -/
def Lang (F : Form) (ts : List Token) : Prop := ∃ l, F l ∧ l.flatMap Item.tokens = ts

/-- The token lists of a form are those of a type of trees. -/
def Is {α : Type} (F : Form) (f : α → List Token) : Prop := ∀ ts, Lang F ts ↔ ∃ x, f x = ts

variable {α β : Type} {a b F : Form} {f : α → List Token} {g : β → List Token}

theorem Is.seq (ha : Is a f) (hb : Is b g) : Is (a ⋆ b) (fun p : α × β => f p.1 ++ g p.2) := by
  intro ts
  constructor
  · rintro ⟨l, ⟨x, y, rfl, hx, hy⟩, rfl⟩
    obtain ⟨u, hu⟩ := (ha _).mp ⟨x, hx, rfl⟩
    obtain ⟨v, hv⟩ := (hb _).mp ⟨y, hy, rfl⟩
    exact ⟨(u, v), by simp [hu, hv]⟩
  · rintro ⟨⟨u, v⟩, rfl⟩
    obtain ⟨x, hx, ex⟩ := (ha _).mpr ⟨u, rfl⟩
    obtain ⟨y, hy, ey⟩ := (hb _).mpr ⟨v, rfl⟩
    exact ⟨x ++ y, ⟨x, y, rfl, hx, hy⟩, by simp [ex, ey]⟩

theorem Is.alt (ha : Is a f) (hb : Is b g) : Is (a ⋎ b) (Sum.elim f g) := by
  intro ts
  constructor
  · rintro ⟨l, h | h, rfl⟩
    · obtain ⟨u, hu⟩ := (ha _).mp ⟨l, h, rfl⟩
      exact ⟨.inl u, hu⟩
    · obtain ⟨u, hu⟩ := (hb _).mp ⟨l, h, rfl⟩
      exact ⟨.inr u, hu⟩
  · rintro ⟨u | v, rfl⟩
    · obtain ⟨x, hx, ex⟩ := (ha _).mpr ⟨u, rfl⟩
      exact ⟨x, .inl hx, ex⟩
    · obtain ⟨x, hx, ex⟩ := (hb _).mpr ⟨v, rfl⟩
      exact ⟨x, .inr hx, ex⟩

/-- The tokens of an optional clause. -/
def maybe (f : α → List Token) : Option α → List Token
  | none => []
  | some x => f x

theorem Is.opt (ha : Is a f) : Is (opt a) (maybe f) := by
  intro ts
  constructor
  · rintro ⟨l, rfl | h, rfl⟩
    · exact ⟨none, rfl⟩
    · obtain ⟨u, hu⟩ := (ha _).mp ⟨l, h, rfl⟩
      exact ⟨some u, hu⟩
  · rintro ⟨_ | u, rfl⟩
    · exact ⟨[], .inl rfl, rfl⟩
    · obtain ⟨x, hx, ex⟩ := (ha _).mpr ⟨u, rfl⟩
      exact ⟨x, .inr hx, ex⟩

theorem Is.many (ha : Is a f) : Is (many a) (fun l : List α => l.flatMap f) := by
  intro ts
  constructor
  · rintro ⟨l, ⟨ls, rfl, h⟩, rfl⟩
    induction ls with
    | nil => exact ⟨[], rfl⟩
    | cons x ls ih =>
      obtain ⟨us, hus⟩ := ih fun y hy => h y (List.mem_cons_of_mem _ hy)
      obtain ⟨u, hu⟩ := (ha _).mp ⟨x, h x (by simp), rfl⟩
      exact ⟨u :: us, by simp only [List.flatMap_cons, List.flatten_cons, List.flatMap_append, hu, hus]⟩
  · rintro ⟨us, rfl⟩
    induction us with
    | nil => exact ⟨[], ⟨[], rfl, by simp⟩, rfl⟩
    | cons u us ih =>
      obtain ⟨l, ⟨ls, rfl, h⟩, e⟩ := ih
      obtain ⟨x, hx, ex⟩ := (ha _).mpr ⟨u, rfl⟩
      refine ⟨x ++ ls.flatten, ⟨x :: ls, rfl, ?_⟩, by
        simp only [List.flatMap_cons, List.flatMap_append, ex, e]⟩
      intro y hy
      rcases List.mem_cons.mp hy with rfl | hy
      · exact hx
      · exact h y hy

theorem Is.of (ha : Is a f) (e : β → α) (he : ∀ x, ∃ y, e y = x) (hg : ∀ y, f (e y) = g y) :
    Is a g := by
  intro ts
  rw [ha ts]
  constructor
  · rintro ⟨x, rfl⟩
    obtain ⟨y, rfl⟩ := he x
    exact ⟨y, (hg y).symm⟩
  · rintro ⟨y, rfl⟩
    exact ⟨e y, hg y⟩

theorem Is.one {p : Item → Prop} (h1 : ∀ i, p i → ∃ x, f x = i.tokens)
    (h2 : ∀ x, ∃ i, p i ∧ i.tokens = f x) : Is (one p) f := by
  intro ts
  constructor
  · rintro ⟨l, ⟨i, rfl, h⟩, rfl⟩
    obtain ⟨x, hx⟩ := h1 i h
    exact ⟨x, by simpa using hx⟩
  · rintro ⟨x, rfl⟩
    obtain ⟨i, hi, e⟩ := h2 x
    exact ⟨[i], ⟨i, rfl, hi⟩, by simpa using e⟩

theorem operand_of {ts : List Tok} (h : IsExpr ts) : ∃ x : Operand, x.toks = ts :=
  ⟨⟨ts, (operand_iff ts).mpr h⟩, rfl⟩

theorem of_operand (x : Operand) : IsExpr x.toks := (operand_iff x.toks).mp x.ok

theorem tokenOf_eq {k : String} (h : tokenName k = k) : tokenOf k = kw k := by
  rw [InputFile.tokenOf, h]; rfl

theorem is_val {k : String} (hk : tokenName k = k) :
    Is (val k) (fun x : Operand => key k x.yield) := by
  refine Is.one ?_ ?_
  · rintro i ⟨ts, h, rfl⟩
    obtain ⟨x, rfl⟩ := operand_of h
    exact ⟨x, by simp [Item.tokens, key, Operand.yield, tokenOf_eq hk]⟩
  · intro x
    exact ⟨.expr k x.toks, ⟨_, of_operand x, rfl⟩,
      by simp [Item.tokens, key, Operand.yield, tokenOf_eq hk]⟩

theorem is_num {k : String} (hk : tokenName k = k) : Is (num k) (keyNum k) := by
  refine Is.one ?_ ?_
  · rintro i ⟨s, rfl⟩
    exact ⟨s, by simp [Item.tokens, key, keyNum, tokenOf_eq hk]⟩
  · intro s
    exact ⟨.expr k [.num s], ⟨_, rfl⟩, by simp [Item.tokens, key, keyNum, tokenOf_eq hk]⟩

theorem is_name {k : String} (hk : tokenName k = k) : Is (name k) (keyStr k) := by
  refine Is.one ?_ ?_
  · rintro i ⟨s, rfl⟩
    exact ⟨s, by simp [Item.tokens, key, keyStr, tokenOf_eq hk]⟩
  · intro s
    exact ⟨.name k s, ⟨_, rfl⟩, by simp [Item.tokens, key, keyStr, tokenOf_eq hk]⟩

theorem is_text {k : String} (hk : tokenName k = k) : Is (text k) (keyStr k) := by
  refine Is.one ?_ ?_
  · rintro i ⟨s, rfl⟩
    exact ⟨s, by simp [Item.tokens, key, keyStr, tokenOf_eq hk]⟩
  · intro s
    exact ⟨.text k s, ⟨_, rfl⟩, by simp [Item.tokens, key, keyStr, tokenOf_eq hk]⟩

theorem is_mark {k k' : String} (hk : tokenName k = k') :
    Is (mark k) (fun _ : Unit => [kw k', .colon]) := by
  have : tokenOf k = kw k' := by rw [InputFile.tokenOf, hk]; rfl
  refine Is.one ?_ ?_
  · rintro i rfl
    exact ⟨(), by simp [Item.tokens, this]⟩
  · intro _
    exact ⟨.mark k, rfl, by simp [Item.tokens, this]⟩

/-- Words with the values they stand for. -/
theorem is_word {ws : List String} {v : α → String} (h1 : ∀ w ∈ ws, ∃ x, v x = tokenName w)
    (h2 : ∀ x, ∃ w ∈ ws, tokenName w = v x) : Is (word ws) (fun x => [kw (v x)]) := by
  refine Is.one ?_ ?_
  · rintro i ⟨w, hw, rfl⟩
    obtain ⟨x, hx⟩ := h1 w hw
    exact ⟨x, by simp [Item.tokens, InputFile.tokenOf, hx, kw]⟩
  · intro x
    obtain ⟨w, hw, e⟩ := h2 x
    exact ⟨.word w, ⟨w, hw, rfl⟩, by simp [Item.tokens, InputFile.tokenOf, e, kw]⟩

theorem is_choice {k k' : String} {ws : List String} {v : α → String} (hk : tokenName k = k')
    (h1 : ∀ w ∈ ws, ∃ x, v x = tokenName w) (h2 : ∀ x, ∃ w ∈ ws, tokenName w = v x) :
    Is (choice k ws) (fun x => key k' [kw (v x)]) :=
  ((is_mark hk).seq (is_word h1 h2)).of (fun x => ((), x)) (fun ⟨_, x⟩ => ⟨x, rfl⟩) fun _ => rfl

theorem is_yesNo {k : String} (hk : tokenName k = k) : Is (yesNo k) (keyYes k) := by
  refine is_choice (v := fun b : Bool => if b then "YES" else "NO") hk ?_ ?_
  · intro w hw
    simp only [List.mem_cons, List.not_mem_nil, or_false] at hw
    rcases hw with rfl | rfl | rfl | rfl
    · exact ⟨true, by decide⟩
    · exact ⟨true, by decide⟩
    · exact ⟨false, by decide⟩
    · exact ⟨false, by decide⟩
  · intro b
    cases b
    · exact ⟨"NO", by simp, by decide⟩
    · exact ⟨"YES", by simp, by decide⟩

theorem is_withUnit {k u v : String} (hk : tokenName k = k) :
    Is (withUnit k [u, v]) (fun p : Operand × Option Bool => key k (p.1.yield ++
      (match p.2 with | none => [] | some true => [kw u] | some false => [kw v]))) := by
  refine Is.one ?_ ?_
  · rintro i ⟨ts, w, h, hw, rfl⟩
    obtain ⟨x, rfl⟩ := operand_of h
    rcases hw with rfl | ⟨w, hw, rfl⟩
    · exact ⟨(x, none), by simp [Item.tokens, key, Operand.yield, tokenOf_eq hk]⟩
    · simp only [List.mem_cons, List.not_mem_nil, or_false] at hw
      rcases hw with rfl | rfl
      · exact ⟨(x, some true), by simp [Item.tokens, key, Operand.yield, tokenOf_eq hk, kw]⟩
      · exact ⟨(x, some false), by simp [Item.tokens, key, Operand.yield, tokenOf_eq hk, kw]⟩
  · rintro ⟨x, _ | _ | _⟩
    · exact ⟨_, ⟨x.toks, [], of_operand x, .inl rfl, rfl⟩,
        by simp [Item.tokens, key, Operand.yield, tokenOf_eq hk]⟩
    · exact ⟨_, ⟨x.toks, _, of_operand x, .inr ⟨v, by simp, rfl⟩, rfl⟩,
        by simp [Item.tokens, key, Operand.yield, tokenOf_eq hk, kw]⟩
    · exact ⟨_, ⟨x.toks, _, of_operand x, .inr ⟨u, by simp, rfl⟩, rfl⟩,
        by simp [Item.tokens, key, Operand.yield, tokenOf_eq hk, kw]⟩

theorem is_lat {k : String} (hk : tokenName k = k) :
    Is (lat k) (fun l : Lat => key k l.yield) := by
  refine Is.one ?_ ?_
  · rintro i ⟨ts, u, v, h, hu, hv, rfl⟩
    obtain ⟨x, rfl⟩ := operand_of h
    rcases hu with rfl | rfl | rfl <;> rcases hv with rfl | rfl | rfl
    · exact ⟨⟨x, .plain, none⟩, by simp [Item.tokens, key, Lat.yield, Operand.yield, tokenOf_eq hk]⟩
    · exact ⟨⟨x, .plain, some false⟩,
        by simp [Item.tokens, key, Lat.yield, Operand.yield, tokenOf_eq hk, kw]⟩
    · exact ⟨⟨x, .plain, some true⟩,
        by simp [Item.tokens, key, Lat.yield, Operand.yield, tokenOf_eq hk, kw]⟩
    · exact ⟨⟨x, .north, none⟩,
        by simp [Item.tokens, key, Lat.yield, Operand.yield, tokenOf_eq hk, kw]⟩
    · exact ⟨⟨x, .north, some false⟩,
        by simp [Item.tokens, key, Lat.yield, Operand.yield, tokenOf_eq hk, kw]⟩
    · exact ⟨⟨x, .north, some true⟩,
        by simp [Item.tokens, key, Lat.yield, Operand.yield, tokenOf_eq hk, kw]⟩
    · exact ⟨⟨x, .south, none⟩,
        by simp [Item.tokens, key, Lat.yield, Operand.yield, tokenOf_eq hk, kw]⟩
    · exact ⟨⟨x, .south, some false⟩,
        by simp [Item.tokens, key, Lat.yield, Operand.yield, tokenOf_eq hk, kw]⟩
    · exact ⟨⟨x, .south, some true⟩,
        by simp [Item.tokens, key, Lat.yield, Operand.yield, tokenOf_eq hk, kw]⟩
  · rintro ⟨x, s, c⟩
    refine ⟨_, ⟨x.toks, match s with | .plain => [] | .north => [.kw "N"] | .south => [.kw "S"],
      match c with | none => [] | some false => [.kw "C"] | some true => [.kw "G"],
      of_operand x, ?_, ?_, rfl⟩, ?_⟩
    · cases s <;> simp
    · rcases c with _ | _ | _ <;> simp
    · cases s <;> rcases c with _ | _ | _ <;>
        simp [Item.tokens, key, Lat.yield, Operand.yield, tokenOf_eq hk, kw]

theorem is_lon {k : String} (hk : tokenName k = k) :
    Is (lon k) (fun l : Lon => key k l.yield) := by
  refine (is_withUnit (u := "E") (v := "W") hk).of
    (fun l => (l.x, match l.side with | .plain => none | .east => some true | .west => some false))
    ?_ ?_
  · rintro ⟨x, _ | _ | _⟩
    · exact ⟨⟨x, .plain⟩, rfl⟩
    · exact ⟨⟨x, .west⟩, rfl⟩
    · exact ⟨⟨x, .east⟩, rfl⟩
  · rintro ⟨x, _ | _ | _⟩ <;> rfl

theorem is_turn : Is turn Turn.yield := by
  refine (is_withUnit (u := "CW") (v := "CCW") (by decide)).of (fun l => (l.x, l.cw)) ?_ ?_
  · rintro ⟨x, c⟩; exact ⟨⟨x, c⟩, rfl⟩
  · rintro ⟨x, _ | _ | _⟩ <;> rfl

theorem is_distance : Is distance Distance.yield := by
  refine (is_withUnit (u := "KM") (v := "AU") (by decide)).of (fun l => (l.x, l.au.map (!·))) ?_ ?_
  · rintro ⟨x, c⟩; exact ⟨⟨x, c.map (!·)⟩, by cases c <;> simp⟩
  · rintro ⟨x, _ | _ | _⟩ <;> rfl

theorem Is.both (ha : Is a f) (hb : Is b g) :
    Is (both a b) (Sum.elim (fun p : α × β => f p.1 ++ g p.2) (fun p : β × α => g p.1 ++ f p.2)) :=
  (ha.seq hb).alt (hb.seq ha)

theorem is_point {kLat kLon : String} (h1 : tokenName kLat = kLat) (h2 : tokenName kLon = kLon) :
    Is (InputDoc.both (lat kLat) (lon kLon)) (Point.yield kLat kLon) := by
  refine ((is_lat h1).both (is_lon h2)).of
    (fun p => match p with | .latLon a b => .inl (a, b) | .lonLat b a => .inr (b, a)) ?_ ?_
  · rintro (⟨x, y⟩ | ⟨x, y⟩)
    · exact ⟨.latLon x y, rfl⟩
    · exact ⟨.lonLat x y, rfl⟩
  · rintro (_ | _) <;> rfl

theorem is_pair {kA kB : String} (h1 : tokenName kA = kA) (h2 : tokenName kB = kB) :
    Is (InputDoc.both (val kA) (val kB)) (Pair.yield kA kB) := by
  refine ((is_val h1).both (is_val h2)).of
    (fun p => match p with | .fst a b => .inl (a, b) | .snd b a => .inr (b, a)) ?_ ?_
  · rintro (⟨x, y⟩ | ⟨x, y⟩)
    · exact ⟨.fst x y, rfl⟩
    · exact ⟨.snd x y, rfl⟩
  · rintro (_ | _) <;> rfl

theorem is_radii : Is radii Radii.yield := by
  have e := is_val (k := "EQ_RAD") (by decide)
  have p := is_val (k := "POL_RAD") (by decide)
  have f := is_val (k := "FLATTENING") (by decide)
  refine ((e.both p).alt ((e.both f).alt (p.both f))).of
    (fun r => match r with
      | .eqPol a b => .inl (.inl (a, b)) | .polEq a b => .inl (.inr (a, b))
      | .eqFlat a b => .inr (.inl (.inl (a, b))) | .flatEq a b => .inr (.inl (.inr (a, b)))
      | .polFlat a b => .inr (.inr (.inl (a, b))) | .flatPol a b => .inr (.inr (.inr (a, b)))) ?_ ?_
  · rintro ((⟨a, b⟩ | ⟨a, b⟩) | (⟨a, b⟩ | ⟨a, b⟩) | (⟨a, b⟩ | ⟨a, b⟩))
    · exact ⟨.eqPol a b, rfl⟩
    · exact ⟨.polEq a b, rfl⟩
    · exact ⟨.eqFlat a b, rfl⟩
    · exact ⟨.flatEq a b, rfl⟩
    · exact ⟨.polFlat a b, rfl⟩
    · exact ⟨.flatPol a b, rfl⟩
  · rintro (_ | _ | _ | _ | _ | _) <;> rfl

theorem is_intervals : Is intervals Intervals.yield := by
  have g := is_val (k := "GRID_INTERVAL") (by decide)
  have a := is_val (k := "LAT_GRID_INTERVAL") (by decide)
  have o := is_val (k := "LON_GRID_INTERVAL") (by decide)
  refine (g.alt (a.alt (o.alt (a.both o)))).of
    (fun r => match r with
      | .both x => .inl x | .lat x => .inr (.inl x) | .lon x => .inr (.inr (.inl x))
      | .latLon x y => .inr (.inr (.inr (.inl (x, y))))
      | .lonLat x y => .inr (.inr (.inr (.inr (x, y))))) ?_ ?_
  · rintro (x | x | x | ⟨x, y⟩ | ⟨x, y⟩)
    · exact ⟨.both x, rfl⟩
    · exact ⟨.lat x, rfl⟩
    · exact ⟨.lon x, rfl⟩
    · exact ⟨.latLon x y, rfl⟩
    · exact ⟨.lonLat x y, rfl⟩
  · rintro (_ | _ | _ | _ | _) <;> rfl

theorem is_grid : Is grid Grid.yield := by
  have y := is_yesNo (k := "GRID") (by decide)
  refine ((y.seq is_intervals.opt).opt).of
    (fun r => match r with
      | .absent => none | .plain b => some (b, none) | .intervals b i => some (b, some i)) ?_ ?_
  · rintro (_ | ⟨b, _ | i⟩)
    · exact ⟨.absent, rfl⟩
    · exact ⟨.plain b, rfl⟩
    · exact ⟨.intervals b i, rfl⟩
  · rintro (_ | _ | _)
    · rfl
    · simp [maybe, Grid.yield, keyYes]
    · simp [maybe, Grid.yield, keyYes, key]

theorem is_range : Is InputDoc.range Range.yield := by
  have a := is_val (k := "DATA_MIN") (by decide)
  have b := is_val (k := "DATA_MAX") (by decide)
  refine ((a.alt (b.alt (a.both b))).opt).of
    (fun r => match r with
      | .empty => none | .min x => some (.inl x) | .max x => some (.inr (.inl x))
      | .minMax x y => some (.inr (.inr (.inl (x, y))))
      | .maxMin x y => some (.inr (.inr (.inr (x, y))))) ?_ ?_
  · rintro (_ | x | x | ⟨x, y⟩ | ⟨x, y⟩)
    · exact ⟨.empty, rfl⟩
    · exact ⟨.min x, rfl⟩
    · exact ⟨.max x, rfl⟩
    · exact ⟨.minMax x y, rfl⟩
    · exact ⟨.maxMin x y, rfl⟩
  · rintro (_ | _ | _ | _ | _) <;> rfl

theorem is_sides {kA kB : String} (h1 : tokenName kA = kA) (h2 : tokenName kB = kB) :
    Is (sides kA kB) (Sides.yield kA kB) := by
  have a := is_num h1
  have b := is_num h2
  refine (a.alt (b.alt (a.both b))).of
    (fun r => match r with
      | .fst x => .inl x | .snd x => .inr (.inl x)
      | .fstSnd x y => .inr (.inr (.inl (x, y))) | .sndFst x y => .inr (.inr (.inr (x, y)))) ?_ ?_
  · rintro (x | x | ⟨x, y⟩ | ⟨x, y⟩)
    · exact ⟨.fst x, rfl⟩
    · exact ⟨.snd x, rfl⟩
    · exact ⟨.fstSnd x y, rfl⟩
    · exact ⟨.sndFst x y, rfl⟩
  · rintro (_ | _ | _ | _) <;> rfl

theorem is_nibble : Is nibble Nibble.yield := by
  have n := is_num (k := "NIBBLE") (by decide)
  have a := is_sides (kA := "NIBBLE_LEFT") (kB := "NIBBLE_RIGHT") (by decide) (by decide)
  have b := is_sides (kA := "NIBBLE_TOP") (kB := "NIBBLE_BOTTOM") (by decide) (by decide)
  refine ((n.alt (a.alt (b.alt (a.both b)))).opt).of
    (fun r => match r with
      | .empty => none | .all x => some (.inl x) | .samples x => some (.inr (.inl x))
      | .lines x => some (.inr (.inr (.inl x)))
      | .samplesLines x y => some (.inr (.inr (.inr (.inl (x, y)))))
      | .linesSamples x y => some (.inr (.inr (.inr (.inr (x, y)))))) ?_ ?_
  · rintro (_ | x | x | x | ⟨x, y⟩ | ⟨x, y⟩)
    · exact ⟨.empty, rfl⟩
    · exact ⟨.all x, rfl⟩
    · exact ⟨.samples x, rfl⟩
    · exact ⟨.lines x, rfl⟩
    · exact ⟨.samplesLines x y, rfl⟩
    · exact ⟨.linesSamples x y, rfl⟩
  · rintro (_ | _ | _ | _ | _ | _) <;> rfl

theorem is_centers : Is centers Centers.yield := by
  refine ((is_pair (kA := "SAMPLE_CENTER") (kB := "LINE_CENTER") (by decide) (by decide)).alt
    (is_point (kLat := "LAT_AT_CENTER") (kLon := "LON_AT_CENTER") (by decide) (by decide))).of
    (fun r => match r with | .pixel p => .inl p | .latLon p => .inr p) ?_ ?_
  · rintro (x | x)
    · exact ⟨.pixel x, rfl⟩
    · exact ⟨.latLon x, rfl⟩
  · rintro (_ | _) <;> rfl

theorem is_subObserv : Is InputDoc.subObserv subObserv := is_point (by decide) (by decide)

theorem is_subSolar : Is InputDoc.subSolar subSolar := is_point (by decide) (by decide)

theorem graphic_words : (∀ w ∈ ["CENTRIC", "CENTRIC_LAT", "GRAPHIC", "GRAPHIC_LAT"],
      ∃ b : Bool, (if b then "GRAPHIC" else "CENTRIC") = tokenName w) ∧
    ∀ b : Bool, ∃ w ∈ ["CENTRIC", "CENTRIC_LAT", "GRAPHIC", "GRAPHIC_LAT"],
      tokenName w = (if b then "GRAPHIC" else "CENTRIC") := by
  constructor
  · intro w hw
    simp only [List.mem_cons, List.not_mem_nil, or_false] at hw
    rcases hw with rfl | rfl | rfl | rfl
    · exact ⟨false, by decide⟩
    · exact ⟨false, by decide⟩
    · exact ⟨true, by decide⟩
    · exact ⟨true, by decide⟩
  · intro b
    cases b
    · exact ⟨"CENTRIC", by simp, by decide⟩
    · exact ⟨"GRAPHIC", by simp, by decide⟩

theorem is_latType : Is latType LatType.yield := by
  obtain ⟨h1, h2⟩ := graphic_words
  have a := is_choice (k := "LATITUDE_TYPE") (k' := "LATITUDE_TYPE")
    (v := fun b : Bool => if b then "GRAPHIC" else "CENTRIC") (by decide) h1 h2
  have b := is_word (v := fun b : Bool => if b then "GRAPHIC" else "CENTRIC") h1 h2
  refine ((a.alt b).opt).of
    (fun r => match r with
      | .empty => none | .typed x => some (.inl x) | .bare x => some (.inr x)) ?_ ?_
  · rintro (_ | x | x)
    · exact ⟨.empty, rfl⟩
    · exact ⟨.typed x, rfl⟩
    · exact ⟨.bare x, rfl⟩
  · rintro (_ | _ | _) <;> rfl

theorem is_latRange : Is (InputDoc.both (lat "LO_LAT") (lat "HI_LAT")) LatRange.yield := by
  refine ((is_lat (k := "LO_LAT") (by decide)).both (is_lat (k := "HI_LAT") (by decide))).of
    (fun p => match p with | .loHi a b => .inl (a, b) | .hiLo b a => .inr (b, a)) ?_ ?_
  · rintro (⟨x, y⟩ | ⟨x, y⟩)
    · exact ⟨.loHi x y, rfl⟩
    · exact ⟨.hiLo x y, rfl⟩
  · rintro (_ | _) <;> rfl

theorem is_lonRange : Is (InputDoc.both (lon "LO_LON") (lon "HI_LON")) LonRange.yield := by
  refine ((is_lon (k := "LO_LON") (by decide)).both (is_lon (k := "HI_LON") (by decide))).of
    (fun p => match p with | .loHi a b => .inl (a, b) | .hiLo b a => .inr (b, a)) ?_ ?_
  · rintro (⟨x, y⟩ | ⟨x, y⟩)
    · exact ⟨.loHi x y, rfl⟩
    · exact ⟨.hiLo x y, rfl⟩
  · rintro (_ | _) <;> rfl

theorem is_ranges : Is ranges Ranges.yield := by
  have a := is_latRange
  have b := is_lonRange
  refine ((a.alt (b.alt (a.both b))).opt).of
    (fun r => match r with
      | .empty => none | .lat x => some (.inl x) | .lon x => some (.inr (.inl x))
      | .latLon x y => some (.inr (.inr (.inl (x, y))))
      | .lonLat x y => some (.inr (.inr (.inr (x, y))))) ?_ ?_
  · rintro (_ | x | x | ⟨x, y⟩ | ⟨x, y⟩)
    · exact ⟨.empty, rfl⟩
    · exact ⟨.lat x, rfl⟩
    · exact ⟨.lon x, rfl⟩
    · exact ⟨.latLon x y, rfl⟩
    · exact ⟨.lonLat x y, rfl⟩
  · rintro (_ | _ | _ | _ | _) <;> rfl

/-- The word of a way of averaging. -/
def averagingWord : Averaging → String
  | .none => "NONE"
  | .unweighted => "UNWEIGHTED"
  | .weighted => "WEIGHTED"

theorem is_options : Is InputDoc.options (fun a => options a []) := by
  have a := is_choice (k := "AVERAGING") (k' := "AVERAGING") (ws := ["UNWEIGHTED", "WEIGHTED", "NONE"])
    (v := averagingWord) (by decide)
    (by
      intro w hw
      simp only [List.mem_cons, List.not_mem_nil, or_false] at hw
      rcases hw with rfl | rfl | rfl
      · exact ⟨.unweighted, by decide⟩
      · exact ⟨.weighted, by decide⟩
      · exact ⟨.none, by decide⟩)
    (by
      intro b
      cases b
      · exact ⟨"NONE", by simp, by decide⟩
      · exact ⟨"UNWEIGHTED", by simp, by decide⟩
      · exact ⟨"WEIGHTED", by simp, by decide⟩)
  refine ((is_mark (k := "OPTIONS") (k' := "OPTIONS") (by decide)).seq a.opt).of
    (fun a => ((), a)) (fun ⟨_, x⟩ => ⟨x, rfl⟩) ?_
  rintro (_ | _ | _ | _) <;> rfl

theorem is_ortho : Is ortho OrthoOpts.yield := by
  have s := is_subObserv
  have t := is_turn
  have k := is_val (k := "KM_PER_PIXEL") (by decide)
  have c := is_centers
  refine ((s.alt (t.alt (k.alt (c.alt ((s.seq t).alt ((s.seq (t.seq k)).alt
    (s.seq (t.seq (k.seq c))))))))).opt).of
    (fun r => match r with
      | .empty => none | .sub x => some (.inl x) | .turn x => some (.inr (.inl x))
      | .km x => some (.inr (.inr (.inl x))) | .centers x => some (.inr (.inr (.inr (.inl x))))
      | .subTurn x y => some (.inr (.inr (.inr (.inr (.inl (x, y))))))
      | .subTurnKm x y z => some (.inr (.inr (.inr (.inr (.inr (.inl (x, y, z)))))))
      | .subTurnKmCenters x y z w =>
        some (.inr (.inr (.inr (.inr (.inr (.inr (x, y, z, w)))))))) ?_ ?_
  · rintro (_ | x | x | x | x | ⟨x, y⟩ | ⟨x, y, z⟩ | ⟨x, y, z, w⟩)
    · exact ⟨.empty, rfl⟩
    · exact ⟨.sub x, rfl⟩
    · exact ⟨.turn x, rfl⟩
    · exact ⟨.km x, rfl⟩
    · exact ⟨.centers x, rfl⟩
    · exact ⟨.subTurn x y, rfl⟩
    · exact ⟨.subTurnKm x y z, rfl⟩
    · exact ⟨.subTurnKmCenters x y z w, rfl⟩
  · rintro (_ | _ | _ | _ | _ | _ | _ | _) <;> rfl

theorem is_pole : Is InputDoc.pole pole := by
  refine Is.one ?_ ?_
  · rintro i ⟨b, rfl⟩
    exact ⟨b, rfl⟩
  · intro b
    exact ⟨.pole b, ⟨b, rfl⟩, rfl⟩

theorem is_typeKey : Is typeKey (fun _ : Unit => [kw "MAP_TYPE", .colon]) := by
  intro ts
  rw [typeKey, ((is_mark (k := "TYPE") (k' := "MAP_TYPE") (by decide)).alt
    (is_mark (k := "PROJECTION") (k' := "MAP_TYPE") (by decide))) ts]
  constructor
  · rintro ⟨_ | _, rfl⟩ <;> exact ⟨(), rfl⟩
  · rintro ⟨_, rfl⟩
    exact ⟨.inl (), rfl⟩

theorem is_oneWord {w : String} (hw : tokenName w = w) :
    Is (word [w]) (fun _ : Unit => [kw w]) :=
  is_word (v := fun _ : Unit => w) (by simp [hw]) (by simp [hw])

theorem is_maxLat : Is (opt (lat "MAX_LAT")) maxLatitude := by
  refine (is_lat (k := "MAX_LAT") (by decide)).opt.of id (fun x => ⟨x, rfl⟩) ?_
  rintro (_ | _) <;> rfl

theorem is_projection : Is projection Projection.yield := by
  have k := is_typeKey
  have m := k.seq ((is_oneWord (w := "MERCATOR") (by decide)).seq is_options.opt)
  have o := k.seq ((is_oneWord (w := "ORTHO") (by decide)).seq (is_options.seq is_ortho).opt)
  have p := k.seq ((is_oneWord (w := "P_STEREO") (by decide)).seq
    (is_options.seq (is_pole.seq is_maxLat)).opt)
  have s := k.seq ((is_oneWord (w := "SIMPLE_C") (by decide)).seq
    (is_options.seq (is_latType.seq is_ranges)).opt)
  refine (m.alt (o.alt (p.alt s))).of
    (fun r => match r with
      | .mercator x => .inl ((), (), x) | .ortho x => .inr (.inl ((), (), x))
      | .polar x => .inr (.inr (.inl ((), (), x)))
      | .simple x => .inr (.inr (.inr ((), (), x)))) ?_ ?_
  · rintro (⟨_, _, x⟩ | ⟨_, _, x⟩ | ⟨_, _, x⟩ | ⟨_, _, x⟩)
    · exact ⟨.mercator x, rfl⟩
    · exact ⟨.ortho x, rfl⟩
    · exact ⟨.polar x, rfl⟩
    · exact ⟨.simple x, rfl⟩
  · rintro ((_ | _) | (_ | ⟨_, _⟩) | (_ | ⟨_, _, _⟩) | (_ | ⟨_, _, _⟩)) <;>
      simp [maybe, Projection.yield, Projection.name, Projection.opts, options, key]

theorem is_minnaert : Is minnaert Minnaert.yield := by
  have w : Is (InputDoc.one fun i => i = .auto "MINNAERT" "AUTO" ∨ i = .auto "MINNAERT" "TABLE")
      (fun b : Bool => key "MINNAERT" [kw (if b then "AUTO" else "TABLE")]) := by
    refine Is.one ?_ ?_
    · rintro i (rfl | rfl)
      · exact ⟨true, rfl⟩
      · exact ⟨false, rfl⟩
    · intro b
      cases b
      · exact ⟨_, .inr rfl, rfl⟩
      · exact ⟨_, .inl rfl, rfl⟩
  refine (((is_val (k := "MINNAERT") (by decide)).alt w).opt).of
    (fun r => match r with
      | .empty => none | .exponent x => some (.inl x) | .auto => some (.inr true)
      | .table => some (.inr false)) ?_ ?_
  · rintro (_ | x | _ | _)
    · exact ⟨.empty, rfl⟩
    · exact ⟨.exponent x, rfl⟩
    · exact ⟨.table, rfl⟩
    · exact ⟨.auto, rfl⟩
  · rintro (_ | _ | _ | _) <;> rfl

theorem is_scale : Is scale Scale.yield := by
  refine ((is_val (k := "KM_PER_PIXEL") (by decide)).alt
    ((is_val (k := "ARCSEC_PER_PIX") (by decide)).alt
    (is_pair (kA := "FOCAL_LENGTH") (kB := "PIXEL_SCALE") (by decide) (by decide)))).of
    (fun r => match r with
      | .km x => .inl x | .arcsec x => .inr (.inl x) | .lens x => .inr (.inr x)) ?_ ?_
  · rintro (x | x | x)
    · exact ⟨.km x, rfl⟩
    · exact ⟨.arcsec x, rfl⟩
    · exact ⟨.lens x, rfl⟩
  · rintro (_ | _ | _) <;> rfl

theorem is_optYes {k : String} (hk : tokenName k = k) : Is (opt (yesNo k)) (optYes k) := by
  refine (is_yesNo hk).opt.of id (fun x => ⟨x, rfl⟩) ?_
  rintro (_ | _) <;> rfl

theorem is_optVal {k : String} (hk : tokenName k = k) : Is (opt (val k)) (optExpr k) := by
  refine (is_val hk).opt.of id (fun x => ⟨x, rfl⟩) ?_
  rintro (_ | _) <;> rfl

theorem is_optNum {k : String} (hk : tokenName k = k) : Is (opt (num k)) (optNum k) := by
  refine (is_num hk).opt.of id (fun x => ⟨x, rfl⟩) ?_
  rintro (_ | _) <;> rfl

theorem is_optName {k : String} (hk : tokenName k = k) : Is (opt (name k)) (optStr k) := by
  refine (is_name hk).opt.of id (fun x => ⟨x, rfl⟩) ?_
  rintro (_ | _) <;> rfl

theorem is_optText {k : String} (hk : tokenName k = k) : Is (opt (text k)) (optStr k) := by
  refine (is_text hk).opt.of id (fun x => ⟨x, rfl⟩) ?_
  rintro (_ | _) <;> rfl

theorem is_axis : Is (opt (InputDoc.both (val "SAMPLE_OA") (val "LINE_OA"))) opticalAxis := by
  refine (is_pair (kA := "SAMPLE_OA") (kB := "LINE_OA") (by decide) (by decide)).opt.of id
    (fun x => ⟨x, rfl⟩) ?_
  rintro (_ | _) <;> rfl

/-- The word of an inversion. -/
def inversionWord : Inversion → String
  | .vertical => "VERTICAL"
  | .horizontal => "HORIZONTAL"
  | .both => "BOTH"

theorem is_inversion :
    Is (opt (choice "INVERT" ["VERTICAL", "HORIZONTAL", "BOTH"])) inversion := by
  refine (is_choice (k := "INVERT") (k' := "INVERT") (v := inversionWord) (by decide) ?_ ?_).opt.of id
    (fun x => ⟨x, rfl⟩) ?_
  · intro w hw
    simp only [List.mem_cons, List.not_mem_nil, or_false] at hw
    rcases hw with rfl | rfl | rfl
    · exact ⟨.vertical, by decide⟩
    · exact ⟨.horizontal, by decide⟩
    · exact ⟨.both, by decide⟩
  · intro b
    cases b
    · exact ⟨"VERTICAL", by simp, by decide⟩
    · exact ⟨"HORIZONTAL", by simp, by decide⟩
    · exact ⟨"BOTH", by simp, by decide⟩
  · rintro (_ | _ | _ | _) <;> rfl

theorem is_photo : Is photo Photo.yield := by
  refine ((is_name (k := "IMAGE") (by decide)).seq (is_nibble.seq (is_inversion.seq
    ((is_optYes (k := "INTERPOLATE") (by decide)).seq ((is_optYes (k := "REMOVE_SKY") (by decide)).seq
    (is_centers.seq (is_axis.seq ((is_optName (k := "FLAT_FIELD") (by decide)).seq (is_minnaert.seq
    ((is_optYes (k := "GEOM_CORRECT") (by decide)).seq ((is_optVal (k := "EMI_ANG_LIMIT") (by decide)).seq
    ((is_optYes (k := "TERMINATOR") (by decide)).seq (is_subObserv.seq (is_turn.seq (is_subSolar.seq
    (is_distance.seq is_scale)))))))))))))))).of
    (fun p => (p.file, p.nibble, p.invert, p.interpolate, p.removeSky, p.centers, p.axis,
      p.flatField, p.minnaert, p.geomCorrect, p.emiAngLimit, p.terminator, p.subObserv, p.turn,
      p.subSolar, p.distance, p.scale)) ?_ fun _ => rfl
  rintro ⟨a, b, c, d, e, f, g, h, i, j, k, l, m, n, o, p, q⟩
  exact ⟨⟨a, b, c, d, e, f, g, h, i, j, k, l, m, n, o, p, q⟩, rfl⟩

theorem is_planeType : Is planeType PlaneType.yield := by
  have s := is_subObserv
  have u := is_subSolar
  have d := is_distance
  have m := is_mark (k := "MU") (k' := "MU") (by decide)
  have z := is_mark (k := "MU0") (k' := "MU0") (by decide)
  have ph := is_mark (k := "PHASE") (k' := "PHASE") (by decide)
  have la := is_mark (k := "LATITUDE") (k' := "LATITUDE") (by decide)
  have lo := is_oneWord (w := "LONGITUDE") (by decide)
  refine ((is_photo.seq is_photo.many).alt ((m.seq (s.seq d)).alt ((m.seq (s.seq (d.seq u))).alt
    ((z.seq u).alt ((z.seq (s.seq (d.seq u))).alt ((ph.seq (s.seq (d.seq u))).alt
    ((la.seq is_latType).alt lo))))))).of
    (fun r => match r with
      | .photos p ps => .inl (p, ps) | .mu a b => .inr (.inl ((), a, b))
      | .muFull a b c => .inr (.inr (.inl ((), a, b, c)))
      | .mu0 c => .inr (.inr (.inr (.inl ((), c))))
      | .mu0Full a b c => .inr (.inr (.inr (.inr (.inl ((), a, b, c)))))
      | .phase a b c => .inr (.inr (.inr (.inr (.inr (.inl ((), a, b, c))))))
      | .latitude t => .inr (.inr (.inr (.inr (.inr (.inr (.inl ((), t)))))))
      | .longitude => .inr (.inr (.inr (.inr (.inr (.inr (.inr ()))))))) ?_ ?_
  · rintro (⟨a, b⟩ | ⟨_, a, b⟩ | ⟨_, a, b, c⟩ | ⟨_, c⟩ | ⟨_, a, b, c⟩ | ⟨_, a, b, c⟩ | ⟨_, t⟩ | _)
    · exact ⟨.photos a b, rfl⟩
    · exact ⟨.mu a b, rfl⟩
    · exact ⟨.muFull a b c, rfl⟩
    · exact ⟨.mu0 c, rfl⟩
    · exact ⟨.mu0Full a b c, rfl⟩
    · exact ⟨.phase a b c, rfl⟩
    · exact ⟨.latitude t, rfl⟩
    · exact ⟨.longitude, rfl⟩
  · rintro (_ | _ | _ | _ | _ | _ | _ | _) <;> rfl

theorem is_plane : Is plane Plane.yield := by
  have n : Is (InputDoc.one fun i => i = .expr "PLANE" [] ∨ ∃ s, i = .expr "PLANE" [.num s])
      (fun o : Option (List Char) => key "PLANE"
        (match o with | none => [] | some n => [.ex (.num n)])) := by
    refine Is.one ?_ ?_
    · rintro i (rfl | ⟨s, rfl⟩)
      · exact ⟨none, rfl⟩
      · exact ⟨some s, rfl⟩
    · rintro (_ | s)
      · exact ⟨_, .inl rfl, rfl⟩
      · exact ⟨_, .inr ⟨s, rfl⟩, rfl⟩
  refine (n.seq (is_range.seq is_planeType)).of (fun p => (p.number, p.range, p.type)) ?_ ?_
  · rintro ⟨a, b, c⟩
    exact ⟨⟨a, b, c⟩, rfl⟩
  · rintro ⟨_ | _, _, _⟩ <;> rfl

/-- The word of a type of data. -/
def dataWord : DataType → String
  | .byte => "BYTE_DATA"
  | .short => "SHORT_DATA"
  | .long => "LONG_DATA"
  | .longlong => "LONGLONG_DATA"
  | .float => "FLOAT_DATA"
  | .double => "DOUBLE_DATA"

theorem is_dataType : Is (opt (choice "DATA_TYPE"
    ["BYTE", "SHORT", "LONG", "LONGLONG", "FLOAT", "DOUBLE"])) dataType := by
  refine (is_choice (k := "DATA_TYPE") (k' := "DATA_TYPE") (v := dataWord) (by decide) ?_ ?_).opt.of id
    (fun x => ⟨x, rfl⟩) ?_
  · intro w hw
    simp only [List.mem_cons, List.not_mem_nil, or_false] at hw
    rcases hw with rfl | rfl | rfl | rfl | rfl | rfl
    · exact ⟨.byte, by decide⟩
    · exact ⟨.short, by decide⟩
    · exact ⟨.long, by decide⟩
    · exact ⟨.longlong, by decide⟩
    · exact ⟨.float, by decide⟩
    · exact ⟨.double, by decide⟩
  · intro b
    cases b
    · exact ⟨"BYTE", by simp, by decide⟩
    · exact ⟨"SHORT", by simp, by decide⟩
    · exact ⟨"LONG", by simp, by decide⟩
    · exact ⟨"LONGLONG", by simp, by decide⟩
    · exact ⟨"FLOAT", by simp, by decide⟩
    · exact ⟨"DOUBLE", by simp, by decide⟩
  · rintro (_ | _ | _ | _ | _ | _ | _) <;> rfl

theorem is_rotation : Is (choice "ROTATION" ["PROGRADE", "RETROGRADE"]) rotation := by
  refine is_choice (k := "ROTATION") (k' := "ROTATION")
    (v := fun b : Bool => if b then "PROGRADE" else "RETROGRADE") (by decide) ?_ ?_
  · intro w hw
    simp only [List.mem_cons, List.not_mem_nil, or_false] at hw
    rcases hw with rfl | rfl
    · exact ⟨true, by decide⟩
    · exact ⟨false, by decide⟩
  · intro b
    cases b
    · exact ⟨"RETROGRADE", by simp, by decide⟩
    · exact ⟨"PROGRADE", by simp, by decide⟩

/-- The clauses of a map before its projection. -/
structure Head where
  file : List Char
  author : Option (List Char)
  origin : Option (List Char)
  comments : List (List Char)
  xcomments : List (List Char)
  body : List Char
  radii : Radii
  prograde : Bool
  offset : Option Operand
  scale : Option Operand
  type : Option DataType
  blank : Option (List Char)
  grid : Grid

/-- Their tokens. -/
def Head.yield (m : Head) : List Token :=
  keyStr "MAP" m.file ++ (optStr "AUTHOR" m.author ++ (optStr "ORIGIN" m.origin ++
    (m.comments.flatMap (keyStr "COMMENT") ++ (m.xcomments.flatMap (keyStr "XCOMMENT") ++
    (keyStr "BODY" m.body ++ (m.radii.yield ++ (rotation m.prograde ++
    (optExpr "DATA_OFFSET" m.offset ++ (optExpr "DATA_SCALE" m.scale ++ (dataType m.type ++
    (optNum "DATA_BLANK" m.blank ++ m.grid.yield)))))))))))

/-- The clauses of a map before its projection. -/
def Map.head (m : Map) : Head :=
  ⟨m.file, m.author, m.origin, m.comments, m.xcomments, m.body, m.radii, m.prograde, m.offset,
    m.scale, m.type, m.blank, m.grid⟩

theorem map_split (m : Map) : m.yield = m.head.yield ++ (m.proj.yield ++
    (optNum "PLANES" m.planes ++ (keyNum "SAMPLES" m.samples ++ (keyNum "LINES" m.lines ++
      (m.plane.yield ++ m.more.flatMap Plane.yield))))) := by
  simp only [Map.yield, Map.head, Head.yield, List.append_assoc]

theorem is_header : Is header Head.yield := by
  refine ((is_name (k := "MAP") (by decide)).seq ((is_optText (k := "AUTHOR") (by decide)).seq
    ((is_optText (k := "ORIGIN") (by decide)).seq ((is_text (k := "COMMENT") (by decide)).many.seq
    ((is_text (k := "XCOMMENT") (by decide)).many.seq ((is_name (k := "BODY") (by decide)).seq
    (is_radii.seq (is_rotation.seq ((is_optVal (k := "DATA_OFFSET") (by decide)).seq
    ((is_optVal (k := "DATA_SCALE") (by decide)).seq (is_dataType.seq
    ((is_optNum (k := "DATA_BLANK") (by decide)).seq is_grid)))))))))))).of
    (fun m : Head => (m.file, m.author, m.origin, m.comments, m.xcomments, m.body, m.radii,
      m.prograde, m.offset, m.scale, m.type, m.blank, m.grid)) ?_ fun _ => rfl
  rintro ⟨a, b, c, d, e, f, g, h, i, j, k, l, m⟩
  exact ⟨⟨a, b, c, d, e, f, g, h, i, j, k, l, m⟩, rfl⟩

theorem is_map : Is InputDoc.map Map.yield := by
  refine (is_header.seq (is_projection.seq ((is_optNum (k := "PLANES") (by decide)).seq
    ((is_num (k := "SAMPLES") (by decide)).seq ((is_num (k := "LINES") (by decide)).seq
    (is_plane.seq is_plane.many)))))).of
    (fun m => (m.head, m.proj, m.planes, m.samples, m.lines, m.plane, m.more)) ?_
    fun m => (map_split m).symm
  rintro ⟨⟨a, b, c, d, e, f, g, h, i, j, k, l, m⟩, n, o, p, q, r, s⟩
  exact ⟨⟨a, b, c, d, e, f, g, h, i, j, k, l, m, n, o, p, q, r, s⟩, rfl⟩

/-- Keywords of optional clauses before the projection. -/
def headKeys : List String :=
  ["DATA_OFFSET", "DATA_SCALE", "DATA_TYPE", "DATA_BLANK", "GRID", "GRID_INTERVAL",
    "LAT_GRID_INTERVAL", "LON_GRID_INTERVAL"]

theorem Head.iff {a b : Head} {r r' : List Token} (hr : Fol headKeys r) (hr' : Fol headKeys r') :
    a.yield ++ r = b.yield ++ r' ↔ a = b ∧ r = r' := by
  refine ⟨fun h => ?_, by rintro ⟨rfl, rfl⟩; rfl⟩
  obtain ⟨⟩ := a
  obtain ⟨⟩ := b
  toks [Head.yield, optStr_iff, keyStrs_iff, Radii.iff, rotation_iff, optExpr_iff, dataType_iff,
    optNum_iff, Grid.iff] at h
  simp_all only [and_self]

theorem Lang.of {F : Form} {items : List Item} (h : F items) :
    Lang F (items.flatMap Item.tokens) := ⟨items, h, rfl⟩

/-- Tokens of further entries begin with a keyword. -/
theorem Fol.items (items : List Item) : Fol [] (items.flatMap Item.tokens) := by
  rcases items with _ | ⟨i, is⟩
  · exact Fol.nil _
  · have : ∃ k l, i.tokens = Scan.kw k :: l := by
      cases i <;> exact ⟨_, _, rfl⟩
    obtain ⟨k, l, e⟩ := this
    rw [List.flatMap_cons, e]
    exact Fol.kw (by simp)

/-- A file that begins as a map is one: its first map. -/
theorem maps_of_head {h : Head} {r : List Token} {f : File} (hf : f.yield = h.yield ++ r) :
    ∃ m ms, f = .maps m ms := by
  cases f with
  | maps m ms => exact ⟨m, ms, rfl⟩
  | user i g n =>
    exfalso
    simp only [File.yield, Head.yield, keyStr, key, List.cons_append] at hf
    have : Fol ["MAP"] (i.yield ++ (g.yield ++ n.yield)) := Fol.intervals (by decide)
    exact this.ne (by simp) _ hf

/-- What a file with the given header and a projection has after its header. -/
theorem after_head {h : Head} {r : List Token} {f : File}
    (hf : f.yield = h.yield ++ kw "MAP_TYPE" :: r) :
    ∃ (p : Projection) (n : Option (List Char)) (l : List Token),
      kw "MAP_TYPE" :: r = p.yield ++ (optNum "PLANES" n ++ kw "SAMPLES" :: l) := by
  obtain ⟨m, ms, rfl⟩ := maps_of_head hf
  simp only [File.yield, map_split, List.append_assoc, keyNum, key, List.cons_append] at hf
  rw [Head.iff (Fol.projection (by decide)) (Fol.kw (by decide))] at hf
  exact ⟨m.proj, m.planes, _, hf.2.symm⟩

/-- No orthographic projection has a center right after its position angle. -/
theorem ortho_no_center {a : Option Averaging} {s : Point} {t : Turn} {c : Centers}
    {p : Projection} {n : Option (List Char)} {rest l : List Token} :
    key "MAP_TYPE" (kw "ORTHO" :: options a (subObserv s ++ (t.yield ++ (c.yield ++ rest)))) ≠
      p.yield ++ (optNum "PLANES" n ++ kw "SAMPLES" :: l) := by
  intro h
  rcases p with _ | (_ | ⟨a', o⟩) | _ | _
  · toks [Projection.yield, Projection.name] at h
  · toks [Projection.yield, Projection.name, Projection.opts, options, kw_not'] at h
  · toks [Projection.yield, Projection.name, Projection.opts, options, averaging_iff] at h
    cases o <;>
      toks [OrthoOpts.yield, subObserv_iff, subObserv_not', Turn.iff, turn_not', centers_not'] at h
  · toks [Projection.yield, Projection.name] at h
  · toks [Projection.yield, Projection.name] at h

/-- Options of a polar projection that do not begin with the pole are refused. -/
theorem polar_no_pole {a : Option Averaging} {p : Projection} {n : Option (List Char)}
    {rest l : List Token} (hr : Fol ["POLE", "AVERAGING"] rest) :
    key "MAP_TYPE" (kw "P_STEREO" :: options a rest) ≠
      p.yield ++ (optNum "PLANES" n ++ kw "SAMPLES" :: l) := by
  intro h
  rcases p with _ | _ | (_ | ⟨a', o, m⟩) | _
  · toks [Projection.yield, Projection.name] at h
  · toks [Projection.yield, Projection.name] at h
  · toks [Projection.yield, Projection.name, Projection.opts, options, kw_not'] at h
  · toks [Projection.yield, Projection.name, Projection.opts, options, averaging_iff, pole,
      kw_not] at h
  · toks [Projection.yield, Projection.name] at h

/-- The number of samples is a single number. -/
theorem no_samples {h : Head} {p : Projection} {n : Option (List Char)} {x : Operand}
    {rest : List Token} {f : File} (hx : ∀ s, x.toks ≠ [.num s]) (hr : Fol [] rest)
    (hf : f.yield = h.yield ++ (p.yield ++ optNum "PLANES" n ++
      ((Item.expr "SAMPLES" x.toks).tokens ++ rest))) : False := by
  obtain ⟨m, ms, rfl⟩ := maps_of_head hf
  have e : (Item.expr "SAMPLES" x.toks).tokens = key "SAMPLES" x.yield := rfl
  simp only [e, File.yield, map_split, List.append_assoc, keyNum, key, List.cons_append,
    List.nil_append] at hf
  rw [Head.iff (Fol.projection (by decide)) (Fol.projection (by decide))] at hf
  have hf := hf.2
  rw [Projection.iff (Fol.optNum (by decide) (Fol.kw (by decide)))
    (Fol.optNum (by decide) (Fol.kw (by decide)))] at hf
  have hf := hf.2
  rw [optNum_iff (Fol.kw (by decide)) (Fol.kw (by decide))] at hf
  have hf := hf.2
  simp only [List.cons.injEq, true_and] at hf
  let y : Operand := ⟨[.num m.samples], rfl⟩
  have := (op_inj (x := y) (y := x) (r := kw "LINES" :: .colon :: .ex (.num m.lines) ::
    (m.plane.yield ++ (m.more.flatMap Plane.yield ++ ms.flatMap Map.yield)))
    (Fol.kw List.not_mem_nil) hr hf).1
  exact hx m.samples (by rw [← this])

theorem is_file : Is accepted File.yield := by
  refine ((is_map.seq is_map.many).alt (is_intervals.seq (is_range.seq is_nibble))).of
    (fun f => match f with | .maps m ms => .inl (m, ms) | .user i r n => .inr (i, r, n)) ?_ ?_
  · rintro (⟨m, ms⟩ | ⟨i, r, n⟩)
    · exact ⟨.maps m ms, rfl⟩
    · exact ⟨.user i r n, rfl⟩
  · rintro (_ | _) <;> rfl

end MaRC.Grammar
