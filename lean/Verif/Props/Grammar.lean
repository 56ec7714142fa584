import Verif.Lemmas.GrammarDoc
import Verif.Lemmas.ScannerItems

/-!
# C87: an input file has one meaning

`Verif.Spec.InputDoc` says which entries an input file has and in which order.
The text of such a file has exactly one parse tree, and only such texts have
one.
-/

namespace MaRC.Props

open MaRC.Scan MaRC.InputFile MaRC.Grammar MaRC.InputDoc
open MaRC.Calc (Tok symrec)

/-- However it is written, a file with its entries in order is read in exactly
one way. -/
theorem C87_one_reading {items : List Item} {text : List Char} (hi : accepted items)
    (hw : Written items text) : ∃! f, Parses (scan symrec text) f := by
  have e : scan symrec text = items.flatMap Item.tokens := scanFrom_written hw
  rw [e]
  obtain ⟨f, hf⟩ := (is_file _).mp ⟨items, hi, rfl⟩
  exact ⟨f, hf, fun g hg => File.inj (hg.trans hf.symm)⟩

/-- No text is read in two ways. -/
theorem C87_unique {text : List Char} {f g : File} (hf : Parses (scan symrec text) f)
    (hg : Parses (scan symrec text) g) : f = g :=
  File.inj (hf.trans hg.symm)

/-- Every text that is read has the tokens of entries in their order. -/
theorem C87_refused {text : List Char} {f : File} (h : Parses (scan symrec text) f) :
    ∃ items, accepted items ∧ scan symrec text = items.flatMap Item.tokens := by
  obtain ⟨items, hi, e⟩ := (is_file _).mpr ⟨f, h⟩
  exact ⟨items, hi, e.symm⟩

/-- The entries of a small input file. -/
def small : List Item :=
  [.name "MAP" "a.fits".toList,
   .name "BODY" "Jupiter".toList,
   .expr "EQ_RAD" [.num "71492".toList],
   .expr "POL_RAD" [.num "66854".toList],
   .mark "ROTATION",
   .word "PROGRADE",
   .mark "TYPE",
   .word "MERCATOR",
   .expr "SAMPLES" [.num "360".toList],
   .expr "LINES" [.num "180".toList],
   .expr "PLANE" [],
   .word "LONGITUDE"]

/-- A way to write it. -/
def smallText : List Char :=
  (['\n'] ++ ("MAP".toList ++ [] ++ ':' :: ' ' :: ([] ++ "a.fits".toList)) ++
  (['\n'] ++ ("BODY".toList ++ [] ++ ':' :: ' ' :: ([] ++ "Jupiter".toList)) ++
  (['\n'] ++ ("EQ_RAD".toList ++ [] ++ ':' :: ([' '] ++ "71492".toList ++ ([] ++ []))) ++
  (['\n'] ++ ("POL_RAD".toList ++ [] ++ ':' :: ([' '] ++ "66854".toList ++ ([] ++ []))) ++
  (['\n'] ++ ("ROTATION".toList ++ [] ++ [':']) ++
  ([' '] ++ "PROGRADE".toList ++
  (['\n'] ++ ("TYPE".toList ++ [] ++ [':']) ++
  ([' '] ++ "MERCATOR".toList ++
  (['\n'] ++ ("SAMPLES".toList ++ [] ++ ':' :: ([' '] ++ "360".toList ++ ([] ++ []))) ++
  (['\n'] ++ ("LINES".toList ++ [] ++ ':' :: ([' '] ++ "180".toList ++ ([] ++ []))) ++
  (['\n'] ++ ("PLANE".toList ++ [] ++ ':' :: ([] ++ [])) ++
  (['\n'] ++ "LONGITUDE".toList ++
  ([] ++ [])))))))))))))

theorem small_written : Written small smallText := by
  refine .cons (.blank (by decide) .nil) (.name (by decide) (by decide) .nil (by decide) .nil
    (by decide) (by decide) (by decide) (by decide)) (by simp [Follows]) ?_
  refine .cons (.blank (by decide) .nil) (.name (by decide) (by decide) .nil (by decide) .nil
    (by decide) (by decide) (by decide) (by decide)) (by simp [Follows]) ?_
  refine .cons (.blank (by decide) .nil) (.expr (by decide) (by decide) .nil (.cons (by decide)
    ⟨rfl, [], "71492".toList, [], [], by decide, by decide, by decide, .inl rfl, by decide, .inl rfl⟩
    (.nil (by decide) (.inl rfl)) (.inl rfl))) (by simp [Follows]) ?_
  refine .cons (.blank (by decide) .nil) (.expr (by decide) (by decide) .nil (.cons (by decide)
    ⟨rfl, [], "66854".toList, [], [], by decide, by decide, by decide, .inl rfl, by decide, .inl rfl⟩
    (.nil (by decide) (.inl rfl)) (.inl rfl))) (by simp [Follows]) ?_
  refine .cons (.blank (by decide) .nil) (.mark (by decide) (by decide) .nil) trivial ?_
  refine .cons (.blank (by decide) .nil) (.word (by decide) (by decide)) (by simp [Follows]) ?_
  refine .cons (.blank (by decide) .nil) (.mark (by decide) (by decide) .nil) trivial ?_
  refine .cons (.blank (by decide) .nil) (.word (by decide) (by decide)) (by simp [Follows]) ?_
  refine .cons (.blank (by decide) .nil) (.expr (by decide) (by decide) .nil (.cons (by decide)
    ⟨rfl, [], "360".toList, [], [], by decide, by decide, by decide, .inl rfl, by decide, .inl rfl⟩
    (.nil (by decide) (.inl rfl)) (.inl rfl))) (by simp [Follows]) ?_
  refine .cons (.blank (by decide) .nil) (.expr (by decide) (by decide) .nil (.cons (by decide)
    ⟨rfl, [], "180".toList, [], [], by decide, by decide, by decide, .inl rfl, by decide, .inl rfl⟩
    (.nil (by decide) (.inl rfl)) (.inl rfl))) (by simp [Follows]) ?_
  refine .cons (.blank (by decide) .nil) (.expr (by decide) (by decide) .nil
    (.nil (by decide) (.inl rfl))) (by simp [Follows]) ?_
  refine .cons (.blank (by decide) .nil) (.word (by decide) (by decide)) (by simp [Follows]) ?_
  exact .nil .nil (.inl rfl)

/-- Single numbers are expressions. -/
private theorem isExpr_num (s : List Char) : IsExpr [.num s] :=
  ⟨_, .sumTerm (.termFactor (.factorPower (.powerAtom .num)))⟩

private theorem one_seq {p : Item → Prop} {F : Form} {i : Item} {l : List Item} (h : p i)
    (hl : F l) : (one p ⋆ F) (i :: l) := ⟨[i], l, rfl, ⟨i, rfl, h⟩, hl⟩

private theorem opt_seq {a F : Form} {l : List Item} (hl : F l) : (InputDoc.opt a ⋆ F) l :=
  ⟨[], l, rfl, .inl rfl, hl⟩

private theorem many_seq {a F : Form} {l : List Item} (hl : F l) : (many a ⋆ F) l :=
  ⟨[], l, rfl, ⟨[], rfl, by simp⟩, hl⟩

private theorem small_header : header (small.take 6) := by
  refine one_seq ⟨_, rfl⟩ (opt_seq (opt_seq (many_seq (many_seq (one_seq ⟨_, rfl⟩
    ⟨_, [.mark "ROTATION", .word "PROGRADE"], rfl, .inl (.inl ⟨_, _, rfl, ⟨_, rfl, _, isExpr_num _, rfl⟩,
      ⟨_, rfl, _, isExpr_num _, rfl⟩⟩), ?_⟩)))))
  refine ⟨_, [], rfl, ⟨_, _, rfl, ⟨_, rfl, rfl⟩, ⟨_, rfl, "PROGRADE", by decide, rfl⟩⟩, ?_⟩
  exact opt_seq (opt_seq (opt_seq (opt_seq (.inl rfl))))

example : accepted small := by
  refine .inl ⟨small, [], rfl, ⟨small.take 6, small.drop 6, rfl, small_header, ?_⟩, [], rfl, by simp⟩
  refine ⟨small.drop 6 |>.take 2, small.drop 8, rfl, .inl ⟨_, _, rfl, .inl ⟨_, rfl, rfl⟩, _, [], rfl,
    ⟨_, rfl, "MERCATOR", by decide, rfl⟩, .inl rfl⟩, ?_⟩
  refine opt_seq (one_seq ⟨_, rfl⟩ (one_seq ⟨_, rfl⟩ ⟨small.drop 10, [], rfl, ?_, [], rfl, by simp⟩))
  refine one_seq (.inl rfl) (opt_seq ?_)
  exact .inr (.inr (.inr (.inr (.inr (.inr (.inr ⟨_, rfl, "LONGITUDE", by decide, rfl⟩))))))

/-- An expression of one number. -/
def number (s : String) : Operand := ⟨[.num s.toList], rfl⟩

/-- The tree of an input file. -/
example : Parses (scan symrec ("MAP: a\nBODY: b\nEQ_RAD: 2\nFLATTENING: 1/2\n" ++
      "ROTATION: PROGRADE\nTYPE: ORTHO\nOPTIONS: POSITION_ANGLE: 5 CW\nSAMPLES: 3\nLINES: 4\n" ++
      "PLANE: 1\nMU0: SUB_SOLAR_LON: 3 E\nSUB_SOLAR_LAT: 2 S G").toList)
    (.maps
      { file := ['a'], author := none, origin := none, comments := [], xcomments := [],
        body := ['b'],
        radii := .eqFlat (number "2") ⟨[.num ['1'], .divide, .num ['2']], by decide⟩,
        prograde := true, offset := none, scale := none, type := none, blank := none,
        grid := .absent, proj := .ortho (some (none, .turn ⟨number "5", some true⟩)),
        planes := none, samples := ['3'], lines := ['4'],
        plane := ⟨some ['1'], .empty, .mu0 (.lonLat ⟨number "3", .east⟩
          ⟨number "2", .south, some true⟩)⟩,
        more := [] } []) := by
  unfold Parses
  decide +kernel

/-! ## Where the manual promises more -/

/-- The manual says that all entries of the user configuration file are
optional.  Without a grid interval the file is refused, whatever else it has. -/
theorem C87_user_violated {items : List Item} {text : List Char} (hi : (range ⋆ nibble) items)
    (hw : Written items text) : userManual items ∧ ¬ ∃ f, Parses (scan symrec text) f := by
  refine ⟨⟨[], items, rfl, .inl rfl, hi⟩, ?_⟩
  have e : scan symrec text = items.flatMap Item.tokens := scanFrom_written hw
  rintro ⟨f, hf⟩
  rw [Parses, e] at hf
  obtain ⟨⟨r, n⟩, hr⟩ := ((is_range.seq is_nibble) _).mp (Lang.of hi)
  rw [← hr] at hf
  have key : Fol ["MAP", "GRID_INTERVAL", "LAT_GRID_INTERVAL", "LON_GRID_INTERVAL"]
      (r.yield ++ n.yield) := by
    refine Fol.range (by decide) ?_
    rw [← List.append_nil n.yield]
    exact Fol.nibble (by decide) (Fol.nil _)
  cases f with
  | maps m ms => exact key.ne (k := "MAP") (by simp) _ hf.symm
  | user i r' n' => cases i <;> exact key.ne (by simp) _ hf.symm

/-- The user's data range alone. -/
example : (range ⋆ nibble) [.expr "DATA_MIN" [.num "1".toList], .expr "NIBBLE" [.num "2".toList]] :=
  ⟨_, _, rfl, .inr (.inl ⟨_, rfl, _, isExpr_num _, rfl⟩), .inr (.inl ⟨_, rfl, _, rfl⟩)⟩

/-- The manual lets the body's center be given and computes the resolution if
it is not given.  After a point below the observer and a position angle, a
center without a resolution is refused, whatever the rest of the file. -/
theorem C87_ortho_violated {pre mid opts rest : List Item} {text : List Char} (hp : header pre)
    (hm : (typeKey ⋆ word ["ORTHO"]) mid) (ho : (options ⋆ InputDoc.subObserv ⋆ turn ⋆ centers) opts)
    (hw : Written (pre ++ (mid ++ (opts ++ rest))) text) :
    orthoManual opts ∧ ¬ ∃ f, Parses (scan symrec text) f := by
  constructor
  · obtain ⟨a, b, rfl, ha, c, d, rfl, hc, g, h, rfl, hg, hh⟩ := ho
    exact ⟨a, _, rfl, ha, c, _, rfl, .inr hc, g, _, rfl, .inr hg, [], _, rfl, .inl rfl, .inr hh⟩
  have e : scan symrec text = _ := scanFrom_written hw
  rintro ⟨f, hf⟩
  rw [Parses, e, List.flatMap_append, List.flatMap_append, List.flatMap_append] at hf
  obtain ⟨h, hh⟩ := (is_header _).mp (Lang.of hp)
  obtain ⟨_, hm'⟩ := ((is_typeKey.seq (is_oneWord (w := "ORTHO") (by decide))) _).mp (Lang.of hm)
  obtain ⟨⟨a, s, t, c⟩, ho'⟩ :=
    ((is_options.seq (is_subObserv.seq (is_turn.seq is_centers))) _).mp (Lang.of ho)
  rw [← hh, ← hm', ← ho'] at hf
  obtain ⟨p, n, l, hl⟩ := after_head hf
  refine ortho_no_center (a := a) (s := s) (t := t) (c := c) (p := p) (n := n) (l := l)
    (rest := rest.flatMap Item.tokens) ?_
  rw [← hl]
  simp [key, Grammar.options]

/-- Options with a center and no resolution. -/
example : (InputDoc.options ⋆ InputDoc.subObserv ⋆ turn ⋆ centers)
    [.mark "OPTIONS", .expr "SUB_OBSERV_LAT" [.num "3".toList, .kw "S", .kw "G"],
     .expr "SUB_OBSERV_LON" [.num "303".toList, .kw "W"],
     .expr "POSITION_ANGLE" [.num "20".toList, .kw "CW"],
     .expr "SAMPLE_CENTER" [.num "250".toList], .expr "LINE_CENTER" [.num "250".toList]] := by
  refine ⟨[_], _, rfl, ⟨[_], [], rfl, ⟨_, rfl, rfl⟩, .inl rfl⟩, [_, _], _, rfl, .inl ⟨[_], [_], rfl,
    ⟨_, rfl, [.num _], [.kw "S"], [.kw "G"], isExpr_num _, .inr (.inr rfl), .inr (.inr rfl), rfl⟩,
    ⟨_, rfl, [.num _], [.kw "W"], isExpr_num _, .inr ⟨"W", by decide, rfl⟩, rfl⟩⟩, [_], _, rfl,
    ⟨_, rfl, [.num _], [.kw "CW"], isExpr_num _, .inr ⟨"CW", by decide, rfl⟩, rfl⟩, ?_⟩
  exact .inl (.inl ⟨[_], [_], rfl, ⟨_, rfl, _, isExpr_num _, rfl⟩, ⟨_, rfl, _, isExpr_num _, rfl⟩⟩)

/-- The manual calls the pole of a polar stereographic projection an option.
Options without it are refused. -/
theorem C87_polar_violated {pre mid opts size rest : List Item} {text : List Char}
    (hp : header pre) (hm : (typeKey ⋆ word ["P_STEREO"]) mid)
    (ho : (options ⋆ InputDoc.opt (lat "MAX_LAT")) opts)
    (hs : (InputDoc.opt (num "PLANES") ⋆ num "SAMPLES") size)
    (hw : Written (pre ++ (mid ++ (opts ++ (size ++ rest)))) text) :
    polarManual opts ∧ ¬ ∃ f, Parses (scan symrec text) f := by
  constructor
  · obtain ⟨a, b, rfl, ha, hb⟩ := ho
    exact ⟨a, _, rfl, ha, [], _, rfl, .inl rfl, hb⟩
  have e : scan symrec text = _ := scanFrom_written hw
  rintro ⟨f, hf⟩
  rw [Parses, e, List.flatMap_append, List.flatMap_append, List.flatMap_append,
    List.flatMap_append] at hf
  obtain ⟨h, hh⟩ := (is_header _).mp (Lang.of hp)
  obtain ⟨_, hm'⟩ := ((is_typeKey.seq (is_oneWord (w := "P_STEREO") (by decide))) _).mp (Lang.of hm)
  obtain ⟨⟨a, m⟩, ho'⟩ := ((is_options.seq is_maxLat) _).mp (Lang.of ho)
  obtain ⟨⟨k, s⟩, hs'⟩ := (((is_optNum (k := "PLANES") (by decide)).seq
    (is_num (k := "SAMPLES") (by decide))) _).mp (Lang.of hs)
  rw [← hh, ← hm', ← ho', ← hs'] at hf
  obtain ⟨p, n, l, hl⟩ := after_head hf
  refine polar_no_pole (a := a) (p := p) (n := n) (l := l) (rest := maxLatitude m ++ (optNum "PLANES" k ++
    (keyNum "SAMPLES" s ++ rest.flatMap Item.tokens))) ?_ ?_
  · exact Fol.maxLatitude (by decide) (Fol.optNum (by decide) (Fol.kw (by decide)))
  rw [← hl]
  simp [key, Grammar.options]

/-- Options with only an averaging. -/
example : (InputDoc.options ⋆ InputDoc.opt (lat "MAX_LAT"))
    [.mark "OPTIONS", .mark "AVERAGING", .word "WEIGHTED"] :=
  ⟨_, [], rfl, ⟨[_], [_, _], rfl, ⟨_, rfl, rfl⟩, .inr ⟨[_], [_], rfl, ⟨_, rfl, rfl⟩,
    ⟨_, rfl, "WEIGHTED", by decide, rfl⟩⟩⟩, .inl rfl⟩

/-- The manual says that expressions are valid for any keyword that expects a
numerical value.  The number of samples has to be a single number. -/
theorem C87_integer_violated {pre mid rest : List Item} {ts : List Tok} {text : List Char}
    (hp : header pre) (hm : (projection ⋆ InputDoc.opt (num "PLANES")) mid) (ht : IsExpr ts)
    (hn : ∀ s, ts ≠ [.num s]) (hw : Written (pre ++ (mid ++ (.expr "SAMPLES" ts :: rest))) text) :
    val "SAMPLES" [.expr "SAMPLES" ts] ∧ ¬ ∃ f, Parses (scan symrec text) f := by
  refine ⟨⟨_, rfl, ts, ht, rfl⟩, ?_⟩
  have e : scan symrec text = _ := scanFrom_written hw
  rintro ⟨f, hf⟩
  rw [Parses, e, List.flatMap_append, List.flatMap_append, List.flatMap_cons] at hf
  obtain ⟨h, hh⟩ := (is_header _).mp (Lang.of hp)
  obtain ⟨⟨p, n⟩, hm'⟩ :=
    ((is_projection.seq (is_optNum (k := "PLANES") (by decide))) _).mp (Lang.of hm)
  obtain ⟨x, rfl⟩ := operand_of ht
  rw [← hh, ← hm'] at hf
  exact no_samples hn (Fol.items rest) hf

/-- Operands with an operator. -/
example : IsExpr [.num "2".toList, .times, .num "180".toList] ∧
    ∀ s, [Tok.num "2".toList, .times, .num "180".toList] ≠ [.num s] :=
  ⟨⟨_, .sumTerm (.mul (t1 := [.num _]) (.termFactor (.factorPower (.powerAtom .num)))
    (.factorPower (.powerAtom .num)))⟩, by simp⟩

end MaRC.Props
