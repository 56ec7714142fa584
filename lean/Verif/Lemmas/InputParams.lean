import Verif.Lemmas.InputHeads

/-! # Parameters, body and grid of a map -/

namespace MaRC.InputMeaning

open MaRC.Calc (Tok)
open MaRC.Scan (Token kw)
open MaRC.Grammar
open MaRC.Parser (Averaging RadiiClause Globals IntervalClause GridClause clean)
open MaRC.MapParams (Params)

variable {E : Env} {b : Body}

/-! ## Lookups -/

theorem get_radii {k : String} (h : k ∉ radiiKeys) (r : Radii) : get k (radiiEnts r) = none :=
  (keys_radii r).get h
theorem get_grid {k : String} (h : k ∉ gridKeys) (g : Grid) : get k (gridEnts g) = none :=
  (keys_grid g).get h
theorem get_proj {k : String} (h : k ∉ projKeys) (p : Projection) : get k (projEnts p) = none :=
  (keys_proj p).get h
theorem get_texts {k k' : String} (h : k' ≠ k) (l : List (List Char)) :
    get k (l.map fun s => (k', [Token.str s])) = none :=
  (keys_texts k' l).get (by simpa using h.symm)

/-- Look up a keyword in the entries of a map before its planes. -/
macro "head_get" : tactic => `(tactic|
  simp [mapHead, mapRest, get_cons, get_append, get_radii, get_grid, get_proj, get_texts, radiiKeys,
    gridKeys, intervalKeys, projKeys, optKeys, orthoKeys, subKeys, centerKeys, rangesKeys,
    latRangeKeys, lonRangeKeys])

/-- The entries of a map before its projection. -/
def headPre (m : Map) : Part :=
  ("MAP", [.str m.file]) :: (optEnt "AUTHOR" (m.author.map fun s => [.str s]) ++
    (optEnt "ORIGIN" (m.origin.map fun s => [.str s]) ++
    ((m.comments.map fun s => ("COMMENT", [.str s])) ++
    ((m.xcomments.map fun s => ("XCOMMENT", [.str s])) ++
    (("BODY", [.str m.body]) :: (radiiEnts m.radii ++
    (("ROTATION", [kw (if m.prograde then "PROGRADE" else "RETROGRADE")]) ::
    (optEnt "DATA_OFFSET" (m.offset.map Operand.yield) ++
    (optEnt "DATA_SCALE" (m.scale.map Operand.yield) ++
    (optEnt "DATA_TYPE" (m.type.map fun t => [t.token]) ++
    (optEnt "DATA_BLANK" (m.blank.map fun s => [.ex (.num s)]) ++ gridEnts m.grid)))))))))))

/-- The entries of a map after its projection and before its planes. -/
def headPost (m : Map) : Part :=
  optEnt "PLANES" (m.planes.map fun s => [.ex (.num s)]) ++
    (("SAMPLES", [.ex (.num m.samples)]) :: [("LINES", [.ex (.num m.lines)])])

theorem mapHead_eq (m : Map) : mapHead m = headPre m ++ (projEnts m.proj ++ headPost m) := by
  simp [mapHead, mapRest, headPre, headPost]

def otherKeys : List String :=
  ["MAP", "AUTHOR", "ORIGIN", "COMMENT", "XCOMMENT", "BODY", "ROTATION", "DATA_OFFSET",
   "DATA_SCALE", "DATA_TYPE", "DATA_BLANK", "PLANES", "SAMPLES", "LINES"] ++ (radiiKeys ++ gridKeys)

theorem keys_pre (m : Map) : Keys otherKeys (headPre m) :=
  .cons (by simp [otherKeys]) (.append (.optEnt (by simp [otherKeys]))
    (.append (.optEnt (by simp [otherKeys]))
    (.append ((keys_texts _ _).mono (by simp [otherKeys]))
    (.append ((keys_texts _ _).mono (by simp [otherKeys]))
    (.cons (by simp [otherKeys]) (.append ((keys_radii _).mono (by simp [otherKeys, radiiKeys]))
    (.cons (by simp [otherKeys]) (.append (.optEnt (by simp [otherKeys]))
    (.append (.optEnt (by simp [otherKeys])) (.append (.optEnt (by simp [otherKeys]))
    (.append (.optEnt (by simp [otherKeys]))
    ((keys_grid _).mono (by simp [otherKeys, gridKeys, intervalKeys])))))))))))))

theorem keys_post (m : Map) : Keys otherKeys (headPost m) :=
  .append (.optEnt (by simp [otherKeys])) (.cons (by simp [otherKeys])
    (.cons (by simp [otherKeys]) (.nil _)))

theorem get_head_proj (m : Map) : ∀ k ∈ projKeys, get k (mapHead m) = get k (projEnts m.proj) := by
  intro k hk
  have h : k ∉ otherKeys := by revert k; decide
  rw [mapHead_eq, get_append, get_append, (keys_pre m).get h, (keys_post m).get h]
  simp

theorem noType_pre (m : Map) : NoType (headPre m) := by
  have hs : ∀ k, ∀ o : Option (List Char), NoType (optEnt k (o.map fun s => [.str s])) := by
    intro k o; cases o
    · exact .nil
    · exact .cons (bare_str _) .nil
  have ht : ∀ k, ∀ l : List (List Char), NoType (l.map fun s => (k, [Token.str s])) := by
    intro k l e he
    obtain ⟨s, -, rfl⟩ := List.mem_map.mp he
    exact bare_str s
  have ho : ∀ k, ∀ o : Option Operand, NoType (optEnt k (o.map Operand.yield)) := by
    intro k o; cases o
    · exact .nil
    · exact .cons (bare_op _) .nil
  have hn : ∀ k, ∀ o : Option (List Char), NoType (optEnt k (o.map fun s => [.ex (.num s)])) := by
    intro k o; cases o
    · exact .nil
    · exact .cons (bare_num _) .nil
  have hr : NoType (radiiEnts m.radii) := by
    cases m.radii <;> exact .cons (bare_op _) (.cons (bare_op _) .nil)
  have hd : NoType (optEnt "DATA_TYPE" (m.type.map fun t => [t.token])) := by
    rcases m.type with _ | t
    · exact .nil
    · refine .cons ?_ .nil
      cases t <;> exact bare_kw (by decide)
  have hi : ∀ i, NoType (intervalsEnts i) := by
    intro i
    cases i <;> simp [NoType, intervalsEnts, bare_op]
  have hg : NoType (gridEnts m.grid) := by
    cases m.grid with
    | absent => exact .nil
    | plain y => exact .cons (bare_yes _) .nil
    | intervals y i => exact .cons (bare_yes _) (hi i)
  refine .cons (bare_str _) ((hs _ _).append ((hs _ _).append ((ht _ _).append ((ht _ _).append
    (.cons (bare_str _) (hr.append (.cons ?_ ((ho _ _).append ((ho _ _).append (hd.append
      ((hn _ _).append hg)))))))))))
  cases m.prograde <;> exact bare_kw (by decide)

theorem noType_post (m : Map) : NoType (headPost m) := by
  refine .append ?_ (.cons (bare_num _) (.cons (bare_num _) .nil))
  cases m.planes
  · exact .nil
  · exact .cons (bare_num _) .nil

theorem latType_head (m : Map) : latType (mapHead m) = latType (projEnts m.proj) := by
  rw [mapHead_eq, latType_left (noType_pre m), latType_right (noType_post m)]

/-! ## Body -/

theorem validate_of {F : Fp} {c : RadiiClause} {r : Parser.Radii} (h : c.radii.validate F = .ok r) :
    match c with
    | .eqPol e p => r.eqRad = e ∧ r.polRad = p
    | .eqFlat e f => r.eqRad = e ∧ r.polRad = F.mul e (F.sub (.fin 1) f)
    | .polFlat p f => r.polRad = p ∧ r.eqRad = F.div p (F.sub (.fin 1) f) := by
  have h0 : (Dbl.fin 0).lt (.fin (-1)) = false := by decide +kernel
  have h1 : (Dbl.fin 0).le (.fin (-1)) = false := by decide +kernel
  have h2 : (Dbl.fin (-1)).lt (.fin 0) = true := by decide +kernel
  have hpos : ∀ x : Dbl, (Dbl.fin 0).lt x = true → x.lt (.fin 0) = false := by
    intro x hx; cases x <;> simp [Dbl.lt] at hx ⊢; exact hx.le
  simp only [Parser.Radii.validate] at h
  split at h
  · simp at h
  · rename_i hc
    split at h
    · simp at h
    · simp only [Outcome.ok.injEq] at h
      cases c with
      | eqPol e p =>
        rw [RadiiClause.radii, Parser.count_eq, h1] at hc
        have h3 := Bool.toNat_le ((Dbl.fin 0).lt e)
        have h4 := Bool.toNat_le ((Dbl.fin 0).lt p)
        have he : (Dbl.fin 0).lt e = true := by
          by_contra hn
          simp only [Bool.not_eq_true] at hn
          simp [hn] at hc; omega
        have hp : (Dbl.fin 0).lt p = true := by
          by_contra hn
          simp only [Bool.not_eq_true] at hn
          simp [hn] at hc; omega
        simp only [RadiiClause.radii, Parser.Radii.fill, hpos e he, hpos p hp, Bool.false_eq_true,
          if_false] at h
        subst h
        exact ⟨rfl, rfl⟩
      | eqFlat e f =>
        rw [RadiiClause.radii, Parser.count_eq, h0] at hc
        have h4 := Bool.toNat_le ((Dbl.fin 0).le f && f.lt (.fin 1))
        have he : (Dbl.fin 0).lt e = true := by
          by_contra hn
          simp only [Bool.not_eq_true] at hn
          simp only [hn, Bool.toNat_false] at hc; omega
        simp only [RadiiClause.radii, Parser.Radii.fill, hpos e he, h2, Bool.false_eq_true,
          if_false, if_true] at h
        subst h
        exact ⟨rfl, rfl⟩
      | polFlat p f =>
        simp only [RadiiClause.radii, Parser.Radii.fill, h2, if_true] at h
        subst h
        exact ⟨rfl, rfl⟩

theorem spheroid_of {e p e' p' : Dbl} (h : makeSpheroid e p = .ok (e', p')) : e' = e ∧ p' = p := by
  simp only [makeSpheroid, validateRadius] at h
  split at h
  · simp at h
  · split at h
    · simp at h
    · simp only [Outcome.bind_ok] at h
      split at h
      · simp at h
      · simp only [Outcome.ok.injEq, Prod.mk.injEq] at h
        exact ⟨h.1.symm, h.2.symm⟩

theorem body_of {m : Map} (h : m.makeBody E = .done b) : HasBody E (mapHead m) b := by
  simp only [Map.makeBody] at h
  obtain ⟨c, h1, h⟩ := act_bind h
  obtain ⟨r, h2, h⟩ := act_bind h
  obtain ⟨⟨e, p⟩, h3, h⟩ := act_bind h
  have h4 := act_pure h
  subst h4
  replace h1 := act_option h1
  have h2 := validate_of (act_outcome h2)
  obtain ⟨rfl, rfl⟩ := spheroid_of (act_outcome h3)
  constructor
  · have : get "ROTATION" (mapHead m) =
        some [kw (if m.prograde then "PROGRADE" else "RETROGRADE")] := by head_get
    cases hp : m.prograde <;> simp [choice, this, hp]
  · have k : ∀ k ∈ radiiKeys, get k (mapHead m) = get k (radiiEnts m.radii) := by
      simp only [radiiKeys, List.forall_mem_cons]
      refine ⟨?_, ?_, ?_, by simp⟩ <;> head_get
    simp only [radiiKeys, List.forall_mem_cons] at k
    obtain ⟨k1, k2, k3, -⟩ := k
    have hr := @real_of' E
    cases hm : m.radii <;> rw [hm] at h1 k1 k2 k3 <;>
      simp [Radii.clause, Option.bind_eq_some_iff] at h1 <;>
      simp [radiiEnts, get_cons] at k1 k2 k3 <;>
      obtain ⟨x, hx, y, hy, rfl⟩ := h1 <;> simp only at h2
    · exact .inl ⟨by rw [hr k1, hx, h2.1], by rw [hr k2, hy, h2.2]⟩
    · exact .inl ⟨by rw [hr k1, hx, h2.1], by rw [hr k2, hy, h2.2]⟩
    · exact .inr (.inl ⟨y, by rw [hr k3, hy], by rw [hr k1, hx, h2.1], by rw [h2.2, h2.1]⟩)
    · exact .inr (.inl ⟨y, by rw [hr k3, hy], by rw [hr k1, hx, h2.1], by rw [h2.2, h2.1]⟩)
    · exact .inr (.inr ⟨y, by rw [hr k3, hy], by rw [hr k2, hx, h2.1], by rw [h2.2, h2.1]⟩)
    · exact .inr (.inr ⟨y, by rw [hr k3, hy], by rw [hr k2, hx, h2.1], by rw [h2.2, h2.1]⟩)

/-! ## Parameters -/

theorem step_str (p : Params) (k : MapParams.StrKey) (o : Option (List Char)) (hp : p.plane = 0) :
    (o.elim p fun s => MapParams.setStr p k (String.ofList s)) =
    { p with
      locked := fun j => (decide (j = .str k) && o.isSome) || p.locked j
      str := fun j => if j = k then (o.map String.ofList).getD (p.str j) else p.str j } := by
  cases o with
  | none => simp
  | some s =>
    simp only [MapParams.setStr, MapParams.lock, MapParams.userSupplied, hp]
    simp

theorem step_real (p : Params) (k : MapParams.RealKey) (o : Option Dbl) (hp : p.plane = 0) :
    (o.elim p fun x => MapParams.setReal p k (some x)) =
    { p with
      locked := fun j => (decide (j = .real k) && o.isSome) || p.locked j
      real := fun j => if j = k then o.or (p.real j) else p.real j } := by
  cases o with
  | none => simp
  | some s =>
    simp only [MapParams.setReal, MapParams.lock, MapParams.userSupplied, hp]
    simp

theorem step_comment (l : List (List Char)) (p : Params) (hp : p.plane = 0) :
    l.foldl (fun p s => MapParams.pushComment p (String.ofList s)) p =
    { p with
      locked := fun j => (decide (j = .comment) && !l.isEmpty) || p.locked j
      comments := p.comments ++ l.map String.ofList } := by
  induction l generalizing p with
  | nil => simp
  | cons s l ih =>
    rw [List.foldl_cons, ih _ (by simp [MapParams.pushComment, MapParams.lock, MapParams.userSupplied, hp])]
    simp only [MapParams.pushComment, MapParams.lock, MapParams.userSupplied, hp]
    simp
    funext j
    by_cases h : j = .comment <;> simp [h]

theorem step_xcomment (l : List (List Char)) (p : Params) (hp : p.plane = 0) :
    l.foldl (fun p s => MapParams.pushXcomment p (String.ofList s)) p =
    { p with
      locked := fun j => (decide (j = .xcomment) && !l.isEmpty) || p.locked j
      xcomments := p.xcomments ++ l.map String.ofList } := by
  induction l generalizing p with
  | nil => simp
  | cons s l ih =>
    rw [List.foldl_cons, ih _ (by simp [MapParams.pushXcomment, MapParams.lock, MapParams.userSupplied, hp])]
    simp only [MapParams.pushXcomment, MapParams.lock, MapParams.userSupplied, hp]
    simp
    funext j
    by_cases h : j = .xcomment <;> simp [h]

theorem strings_append (k : String) (a c : Part) :
    strings k (a ++ c) = strings k a ++ strings k c := by simp [strings]

theorem Keys.strings {ks : List String} {es : Part} (h : Keys ks es) {k : String} (hk : k ∉ ks) :
    strings k es = [] := by
  simp only [InputMeaning.strings, List.filterMap_eq_nil_iff]
  intro e he
  have : e.1 ≠ k := by rintro rfl; exact hk (h e he)
  simp [this]

theorem strings_texts (k : String) (l : List (List Char)) :
    strings k (l.map fun s => (k, [Token.str s])) = l.map String.ofList := by
  induction l with
  | nil => rfl
  | cons s l ih =>
    simp only [List.map_cons, strings, List.filterMap_cons, if_true, text_str]
    rw [← ih]; rfl

/-- The entries of a map before its comments. -/
def preText (m : Map) : Part :=
  ("MAP", [.str m.file]) :: (optEnt "AUTHOR" (m.author.map fun s => [.str s]) ++
    optEnt "ORIGIN" (m.origin.map fun s => [.str s]))

/-- The entries of a map from its body to its planes. -/
def postText (m : Map) : Part :=
  ("BODY", [.str m.body]) :: (radiiEnts m.radii ++
    (("ROTATION", [kw (if m.prograde then "PROGRADE" else "RETROGRADE")]) ::
    (optEnt "DATA_OFFSET" (m.offset.map Operand.yield) ++
    (optEnt "DATA_SCALE" (m.scale.map Operand.yield) ++
    (optEnt "DATA_TYPE" (m.type.map fun t => [t.token]) ++
    (optEnt "DATA_BLANK" (m.blank.map fun s => [.ex (.num s)]) ++ (gridEnts m.grid ++
    (projEnts m.proj ++ (optEnt "PLANES" (m.planes.map fun s => [.ex (.num s)]) ++
    (("SAMPLES", [.ex (.num m.samples)]) :: [("LINES", [.ex (.num m.lines)])]))))))))))

theorem mapHead_text (m : Map) : mapHead m = preText m ++
    ((m.comments.map fun s => ("COMMENT", [.str s])) ++
    ((m.xcomments.map fun s => ("XCOMMENT", [.str s])) ++ postText m)) := by
  simp [mapHead, mapRest, preText, postText]

def postKeys : List String :=
  ["BODY", "ROTATION", "DATA_OFFSET", "DATA_SCALE", "DATA_TYPE", "DATA_BLANK", "PLANES",
   "SAMPLES", "LINES"] ++ (radiiKeys ++ (gridKeys ++ projKeys))

theorem keys_preText (m : Map) : Keys ["MAP", "AUTHOR", "ORIGIN"] (preText m) :=
  .cons (by simp) (.append (.optEnt (by simp)) (.optEnt (by simp)))

theorem keys_postText (m : Map) : Keys postKeys (postText m) := by
  have hp : ∀ k ∈ projKeys, k ∈ postKeys := by
    intro k hk
    simp only [postKeys, List.mem_append]
    exact .inr (.inr (.inr hk))
  exact .cons (by simp [postKeys]) (.append ((keys_radii _).mono (by simp [postKeys, radiiKeys]))
    (.cons (by simp [postKeys]) (.append (.optEnt (by simp [postKeys])) (.append (.optEnt (by simp [postKeys]))
    (.append (.optEnt (by simp [postKeys])) (.append (.optEnt (by simp [postKeys]))
    (.append ((keys_grid _).mono (by simp [postKeys, gridKeys, intervalKeys]))
    (.append ((keys_proj _).mono hp) (.append (.optEnt (by simp [postKeys]))
    (.cons (by simp [postKeys]) (.cons (by simp [postKeys]) (.nil _))))))))))))

theorem comments_of (m : Map) : strings "COMMENT" (mapHead m) = m.comments.map String.ofList ∧
    strings "XCOMMENT" (mapHead m) = m.xcomments.map String.ofList := by
  rw [mapHead_text]
  simp only [strings_append, strings_texts]
  rw [(keys_preText m).strings (by decide), (keys_preText m).strings (by decide),
    (keys_postText m).strings (by decide), (keys_postText m).strings (by decide),
    (keys_texts _ _).strings (by decide), (keys_texts _ _).strings (by decide)]
  simp

theorem has_texts (m : Map) : has "COMMENT" (mapHead m) = !m.comments.isEmpty ∧
    has "XCOMMENT" (mapHead m) = !m.xcomments.isEmpty := by
  have ht : ∀ k (l : List (List Char)),
      (get k (l.map fun s => (k, [Token.str s]))).isSome = !l.isEmpty := by
    intro k l
    cases l <;> simp [get_cons]
  rw [has, has, mapHead_text]
  simp only [get_append]
  rw [(keys_preText m).get (by decide), (keys_preText m).get (by decide),
    (keys_postText m).get (by decide), (keys_postText m).get (by decide),
    get_texts (k := "COMMENT") (k' := "XCOMMENT") (by decide),
    get_texts (k := "XCOMMENT") (k' := "COMMENT") (by decide)]
  simp [ht]

theorem bitpix_of (m : Map) : bitpix (mapHead m) = (m.type.map DataType.bitpix).getD 0 := by
  have h : get "DATA_TYPE" (mapHead m) = m.type.map fun t => [t.token] := by head_get
  rw [bitpix, choice, h]
  rcases m.type with _ | _ | _ | _ | _ | _ | _ <;>
    simp [DataType.token, DataType.bitpix]

theorem params_ext {p q : Params} (h1 : ∀ j, p.locked j = q.locked j) (h2 : p.plane = q.plane)
    (h3 : p.bitpix = q.bitpix) (h4 : ∀ j, p.str j = q.str j) (h5 : ∀ j, p.real j = q.real j)
    (h6 : p.blank = q.blank) (h7 : p.comments = q.comments) (h8 : p.xcomments = q.xcomments)
    (h9 : p.histories = q.histories) : p = q := by
  cases p; cases q
  simp only [MapParams.Params.mk.injEq]
  exact ⟨funext h1, h2, h3, funext h4, funext h5, h6, h7, h8, h9⟩

theorem step_type {x q : Params} {t : Option DataType}
    (h : t.elim (Act.done x) (fun t => Act.ofOutcome (MapParams.setBitpix x t.bitpix)) = .done q) :
    q = { x with bitpix := (t.map DataType.bitpix).getD x.bitpix } := by
  cases t with
  | none => exact (done_inj h).symm
  | some t =>
    have h' := act_outcome h
    simp only [MapParams.setBitpix] at h'
    split at h'
    · simp at h'
    · exact (Outcome.ok.inj h').symm

theorem blank_some {n : ℤ} {s : List Char} {k : ℤ} (h : Parser.dataBlank n s = .ok (some k)) :
    Parser.integer s = some k := by
  simp only [Parser.dataBlank] at h
  split at h
  · simp at h
  · rename_i j hj
    split at h
    · simp at h
    · split at h
      · simp at h
      · simp only [Outcome.ok.injEq] at h
        split at h
        · rw [hj]; exact h
        · simp at h

theorem optional_isSome {α β : Type} {f : α → Option β} {o : Option α} {x : Option β}
    (h : Grammar.optional f o = some x) : o.isSome = x.isSome := by
  cases o with
  | none => simp only [Grammar.optional, Option.some.injEq] at h; subst h; rfl
  | some a =>
    simp only [Grammar.optional, Option.map_eq_some_iff] at h
    obtain ⟨y, h1, rfl⟩ := h
    rfl

theorem params_of {m : Map} {p : Params} (h : m.params E = .done p) : p = params E (mapHead m) := by
  simp only [Map.params] at h
  rw [step_str (MapParams.fresh 0) .author m.author rfl, step_str _ .origin m.origin rfl,
    step_comment _ _ rfl, step_xcomment _ _ rfl] at h
  obtain ⟨off, h1, h⟩ := act_bind h
  rw [step_real _ .bzero off (by simp [MapParams.setStr, MapParams.lock, MapParams.userSupplied,
    MapParams.fresh])] at h
  obtain ⟨sc, h2, h⟩ := act_bind h
  rw [step_real _ .bscale sc (by simp [MapParams.setStr, MapParams.lock, MapParams.userSupplied,
    MapParams.fresh])] at h
  obtain ⟨q, h3, h⟩ := act_bind h
  have i1 := optional_isSome (act_option h1)
  have i2 := optional_isSome (act_option h2)
  replace h1 := optional_bind (act_option h1)
  replace h2 := optional_bind (act_option h2)
  replace h3 := step_type h3
  simp only [MapParams.setStr, MapParams.lock, MapParams.userSupplied, MapParams.fresh,
    beq_self_eq_true, if_true] at h3
  have e1 : string "AUTHOR" (mapHead m) = m.author.map String.ofList := string_opt _ (by head_get)
  have e2 : string "ORIGIN" (mapHead m) = m.origin.map String.ofList := string_opt _ (by head_get)
  have e3 : string "BODY" (mapHead m) = some (String.ofList m.body) :=
    string_opt (some m.body) (by head_get)
  have e4 : real E "DATA_OFFSET" (mapHead m) = off := by
    rw [real_opt m.offset (by head_get), h1]
  have e5 : real E "DATA_SCALE" (mapHead m) = sc := by
    rw [real_opt m.scale (by head_get), h2]
  have g1 : has "AUTHOR" (mapHead m) = m.author.isSome := by
    have : get "AUTHOR" (mapHead m) = m.author.map fun s => [.str s] := by head_get
    simp [has, this]
  have g2 : has "ORIGIN" (mapHead m) = m.origin.isSome := by
    have : get "ORIGIN" (mapHead m) = m.origin.map fun s => [.str s] := by head_get
    simp [has, this]
  have g3 : has "DATA_OFFSET" (mapHead m) = off.isSome := by
    have : get "DATA_OFFSET" (mapHead m) = m.offset.map Operand.yield := by head_get
    simp [has, this, i1]
  have g4 : has "DATA_SCALE" (mapHead m) = sc.isSome := by
    have : get "DATA_SCALE" (mapHead m) = m.scale.map Operand.yield := by head_get
    simp [has, this, i2]
  have g5 : has "DATA_BLANK" (mapHead m) = m.blank.isSome := by
    have : get "DATA_BLANK" (mapHead m) = m.blank.map fun s => [.ex (.num s)] := by head_get
    simp [has, this]
  have hp : p = { q with
      locked := fun j => (decide (j = .blank) && m.blank.isSome) || q.locked j
      blank := int "DATA_BLANK" (mapHead m) } := by
    have k1 : get "DATA_BLANK" (mapHead m) = m.blank.map fun s => [.ex (.num s)] := by head_get
    cases hb : m.blank with
    | none =>
      rw [hb] at h k1
      have := act_pure h
      subst this
      have k2 : int "DATA_BLANK" (mapHead m) = none := by simp [int, k1]
      have k3 : q.blank = none := by rw [h3]
      rw [k2, ← k3]
      simp
    | some s =>
      rw [hb] at h k1
      obtain ⟨n, h4, h⟩ := act_bind h
      have k2 : int "DATA_BLANK" (mapHead m) = some n := by
        rw [int_of (by simpa using k1) rfl]
        exact blank_some h4
      have := act_pure h
      subst this
      have k3 : q.plane = 0 := by rw [h3]
      rw [k2]
      simp only [MapParams.setBlank, MapParams.lock, MapParams.userSupplied, k3]
      simp
  subst hp
  subst h3
  simp only [params, bitpix_of, comments_of m, g1, g2, g3, g4, g5, e1, e2, e3, e4, e5, has_texts m]
  refine params_ext ?_ rfl rfl ?_ ?_ rfl ?_ ?_ rfl
  · intro j
    rcases j with k | k | _ | _ | _ | _
    · cases k <;> simp
    · cases k <;> simp
    all_goals simp
  · intro j
    cases j <;> simp
  · intro j
    cases j <;> simp
  · simp
  · simp

end MaRC.InputMeaning
