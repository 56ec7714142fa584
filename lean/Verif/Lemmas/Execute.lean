import Verif.Lemmas.Header
import Verif.Props.MapCommand
import Verif.Props.MapParameters

/-! Lemmas on map commands. -/

namespace MaRC.Execute

open Fits MapFactory MapCommand MapParams

variable {C : Type}

/-- A factory as the plane loop of `MapCommand` uses it. -/
def planeOf (T : MapType) (f : Factory C) : ImageFactory C :=
  Outcome.bind (f.make T) fun r => .ok (r.map Prod.fst)

/-- The images the factories give, in order, when every factory ends normally. -/
def MadeImages (T : MapType) :
    List (Factory C) → List (Plane C × Option VirtualImage) → Prop
  | [], ims => ims = []
  | f :: fs, ims =>
    f.make T = .ok none ∧ MadeImages T fs ims ∨
      ∃ im rest, f.make T = .ok (some im) ∧ ims = im :: rest ∧ MadeImages T fs rest

theorem MadeImages.made {T : MapType} : ∀ {fs : List (Factory C)}
    {ims : List (Plane C × Option VirtualImage)}, MadeImages T fs ims →
      Made (fs.map (planeOf T)) (ims.map Prod.fst)
  | [], ims, h => by cases h; rfl
  | f :: fs, ims, h => by
    rw [List.map_cons]
    rcases h with ⟨h1, h2⟩ | ⟨im, rest, h1, rfl, h2⟩
    · rw [show planeOf T f = .ok none by simp [planeOf, h1, Outcome.bind]]
      exact h2.made
    · rw [show planeOf T f = .ok (some im.1) by simp [planeOf, h1, Outcome.bind]]
      exact ⟨_, rfl, h2.made⟩

theorem MadeImages.unique {T : MapType} : ∀ {fs : List (Factory C)}
    {a b : List (Plane C × Option VirtualImage)}, MadeImages T fs a → MadeImages T fs b → a = b
  | [], a, b, h, h' => by cases h; cases h'; rfl
  | f :: fs, a, b, h, h' => by
    rcases h with ⟨h1, h2⟩ | ⟨im, rest, h1, rfl, h2⟩ <;>
      rcases h' with ⟨h1', h2'⟩ | ⟨im', rest', h1', rfl, h2'⟩ <;> rw [h1] at h1'
    · exact h2.unique h2'
    · simp at h1'
    · simp at h1'
    · simp only [Outcome.ok.injEq, Option.some.injEq] at h1'
      rw [h1', h2.unique h2']

theorem Made.unique : ∀ {fs : List (ImageFactory C)} {a b : List (Plane C)},
    Made fs a → Made fs b → a = b
  | [], a, b, h, h' => by cases h; cases h'; rfl
  | .ok none :: fs, a, b, h, h' => Made.unique (fs := fs) h h'
  | .ok (some p) :: fs, a, b, h, h' => by
    obtain ⟨qs, rfl, h1⟩ := h
    obtain ⟨qs', rfl, h2⟩ := h'
    rw [Made.unique (fs := fs) h1 h2]
  | .throw _ :: _, _, _, h, _ => h.elim
  | .ub :: _, _, _, h, _ => h.elim

/-- The facts of the images, written one after the other. -/
def allFacts (F : Fp) (p : Params) (planes : ℕ) :
    List (Plane C × Option VirtualImage) → ℕ → List Card → List Card
  | [], _, h => h
  | im :: ims, k, h => allFacts F p planes ims (k + 1) (imageFacts F p p.bitpix k planes im.2 h)

theorem planeStep_ok {F : Fp} {T : MapType} {c : Command C} {env : Env} {p : Params}
    {im : Plane C × Option VirtualImage} {s s' : PlaneState}
    (h : planeStep F T c env p im s = .ok (s', none)) :
    ∃ map info written image,
      makePlane T c.plots im.1 s.loop.info = .ok (map, info) ∧
      s.loop.image.write (env.plane s.loop.planeCount) map = .ok (written, image) ∧
      s'.loop = ⟨s.loop.planeCount + 1, info, image, s.loop.tried + 1,
        if info.dataMapped then s.loop.noData else s.loop.noData ++ [s.loop.planeCount],
        if written then s.loop.notWritten else s.loop.notWritten ++ [s.loop.planeCount]⟩ ∧
      s'.header = imageFacts F p p.bitpix s.loop.planeCount c.factories.length im.2 s.header := by
  unfold planeStep at h
  simp only at h
  cases hm : makePlane T c.plots im.1 s.loop.info with
  | throw e => simp [hm] at h
  | ub => simp [hm] at h
  | ok r =>
    obtain ⟨map, info⟩ := r
    simp only [hm] at h
    cases hw : s.loop.image.write (env.plane s.loop.planeCount) map with
    | throw e => simp [hw] at h
    | ub => simp [hw] at h
    | ok r =>
      obtain ⟨written, image⟩ := r
      simp only [hw, Outcome.ok.injEq, Prod.mk.injEq, and_true] at h
      subst h
      exact ⟨map, info, written, image, rfl, hw, rfl, rfl⟩

theorem planes_ok {F : Fp} {T : MapType} {c : Command C} {env : Env} {p : Params} :
    ∀ (fs : List (Factory C)) (s s' : PlaneState), planes F T c env p fs s = .ok (s', none) →
      ∃ ims, MadeImages T fs ims ∧
        planeLoop T c.plots env.plane (fs.map (planeOf T)) s.loop = .ok s'.loop ∧
        s'.header = allFacts F p c.factories.length ims s.loop.planeCount s.header := by
  intro fs
  induction fs with
  | nil =>
    intro s s' h
    simp only [planes, Outcome.ok.injEq, Prod.mk.injEq, and_true] at h
    subst h
    exact ⟨[], rfl, rfl, rfl⟩
  | cons f fs ih =>
    intro s s' h
    rw [planes] at h
    cases hf : f.make T with
    | throw e => simp [hf] at h
    | ub => simp [hf] at h
    | ok o =>
      rw [hf] at h
      cases o with
      | none =>
        simp only at h
        obtain ⟨ims, h1, h2, h3⟩ := ih _ _ h
        refine ⟨ims, .inl ⟨hf, h1⟩, ?_, h3⟩
        rw [List.map_cons, show planeOf T f = .ok none by simp [planeOf, hf, Outcome.bind], planeLoop]
        simpa using h2
      | some im =>
        simp only at h
        cases hst : planeStep F T c env p im s with
        | throw e => simp [hst] at h
        | ub => simp [hst] at h
        | ok r =>
          obtain ⟨s1, e⟩ := r
          cases e with
          | some e => simp [hst] at h
          | none =>
            simp only [hst] at h
            obtain ⟨map, info, written, image, g1, g2, g3, g4⟩ := planeStep_ok hst
            obtain ⟨ims, h1, h2, h3⟩ := ih _ _ h
            refine ⟨im :: ims, .inr ⟨im, ims, hf, rfl, h1⟩, ?_, ?_⟩
            · rw [List.map_cons, show planeOf T f = .ok (some im.1) by simp [planeOf, hf, Outcome.bind],
                planeLoop]
              simp only [Outcome.bind_ok, g1, g2]
              rw [g3] at h2
              exact h2
            · rw [h3, g3, g4]
              rfl

theorem valueOf_allFacts (F : Fp) (p : Params) (n : ℕ) (k : String) (h1 : k ≠ "BUNIT")
    (h2 : k ≠ "BSCALE") (h3 : k ≠ "BZERO") :
    ∀ (ims : List (Plane C × Option VirtualImage)) (i : ℕ) (h : List Card),
      valueOf k (allFacts F p n ims i h) = valueOf k h
  | [], _, _ => rfl
  | im :: ims, i, h => by
    rw [allFacts, valueOf_allFacts F p n k h1 h2 h3 ims, valueOf_imageFacts _ _ _ _ _ _ _ _ h1 h2 h3]

theorem commentsOf_allFacts (F : Fp) (p : Params) (n : ℕ) :
    ∀ (ims : List (Plane C × Option VirtualImage)) (i : ℕ) (h : List Card),
      commentsOf (allFacts F p n ims i h) = commentsOf h
  | [], _, _ => rfl
  | im :: ims, i, h => by
    rw [allFacts, commentsOf_allFacts F p n ims, commentsOf_imageFacts]

theorem makeMapHdu_ok {F : Fp} {T : MapType} {c : Command C} {env : Env} {p : Params}
    {hdu : Hdu} (h : makeMapHdu F T c env p = .ok (hdu, none)) :
    ∃ ims loop k, MadeImages T c.factories ims ∧
      makeMapPlanes T c.plots env.plane c.samples c.lines p.blank
        (c.factories.map (planeOf T)) = .ok (loop, k) ∧
      hdu.image = loop.image ∧ hdu.bitpix = p.bitpix ∧
      hdu.axes = (if c.factories.length > 1 then [c.samples, c.lines, c.factories.length]
        else [c.samples, c.lines]) ∧
      hdu.header = updateExtremum T "DATAMAX" k.2 (updateExtremum T "DATAMIN" k.1
        (allFacts F p c.factories.length ims 1 (mapHeader T c p
          (Hdu.new p.bitpix c.samples c.lines c.factories.length none).header))) := by
  unfold makeMapHdu at h
  change (planes F T c env p c.factories ⟨⟨1, startInfo c.samples c.lines p.blank,
    Image.new c.samples c.lines c.factories.length, 0, [], []⟩, mapHeader T c p
      (Hdu.new p.bitpix c.samples c.lines c.factories.length none).header⟩ >>= _) = _ at h
  cases hp : planes F T c env p c.factories ⟨⟨1, startInfo c.samples c.lines p.blank,
    Image.new c.samples c.lines c.factories.length, 0, [], []⟩, mapHeader T c p
      (Hdu.new p.bitpix c.samples c.lines c.factories.length none).header⟩ with
  | throw e => simp [hp] at h
  | ub => simp [hp] at h
  | ok r =>
    obtain ⟨s, e⟩ := r
    simp only [hp, Outcome.bind_ok] at h
    cases e with
    | some e => simp at h
    | none =>
      simp only at h
      cases hk : dataKeywords s.loop.info with
      | throw e => simp [hk] at h
      | ub => simp [hk] at h
      | ok k =>
        simp only [hk, Outcome.bind_ok, Outcome.ok.injEq, Prod.mk.injEq, and_true] at h
        obtain ⟨ims, h1, h2, h3⟩ := planes_ok _ _ _ hp
        subst h
        refine ⟨ims, s.loop, k, h1, ?_, rfl, rfl, rfl, ?_⟩
        · unfold makeMapPlanes
          change (planeLoop T c.plots env.plane (c.factories.map (planeOf T))
            ⟨1, startInfo c.samples c.lines p.blank, Image.new c.samples c.lines
              (c.factories.map (planeOf T)).length, 0, [], []⟩ >>= _) = _
          rw [List.length_map, h2, Outcome.bind_ok]
          simp only [hk, Outcome.bind_ok]
        · rw [h3]

/-- What each factory supplies for its plane. -/
def Supplies : List (Factory C) → ℕ → List Params → Prop
  | [], _, qs => qs = []
  | f :: fs, k, qs => ∃ q rest, f.populate (fresh k) = .ok (some q) ∧ qs = q :: rest ∧
      Supplies fs (k + 1) rest

theorem populateLoop_ok {F : Fp} : ∀ (fs : List (Factory C)) (k : ℕ) (m m' : Params),
    populateLoop F fs k m = .ok (some m') →
      ∃ qs, Supplies fs k qs ∧ mergeAll F m qs = .ok m'
  | [], _, m, m', h => by
    simp only [populateLoop, Outcome.ok.injEq, Option.some.injEq] at h
    subst h
    exact ⟨[], rfl, rfl⟩
  | f :: fs, k, m, m', h => by
    rw [populateLoop] at h
    cases hf : f.populate (fresh k) with
    | throw e => simp [hf] at h
    | ub => simp [hf] at h
    | ok o =>
      cases o with
      | none => simp [hf] at h
      | some q =>
        simp only [hf, Outcome.bind_ok] at h
        cases hm : merge F m q with
        | throw e => simp [hm] at h
        | ub => simp [hm] at h
        | ok m1 =>
          simp only [hm, Outcome.bind_ok] at h
          obtain ⟨qs, h1, h2⟩ := populateLoop_ok fs (k + 1) m1 m' h
          refine ⟨q :: qs, ⟨q, qs, hf, rfl, h1⟩, ?_⟩
          rw [mergeAll, hm, Outcome.bind_ok, h2]

theorem populateParameters_ok {F : Fp} {c : Command C} {p : Params}
    (h : populateParameters F c = .ok (some p)) :
    ∃ qs, Supplies c.factories 1 qs ∧ populate F c.params qs = .ok p := by
  unfold populateParameters at h
  cases hl : populateLoop F c.factories 1 (fresh 0) with
  | throw e => simp [hl] at h
  | ub => simp [hl] at h
  | ok o =>
    cases o with
    | none => simp [hl] at h
    | some m =>
      simp only [hl, Outcome.bind_ok] at h
      cases hm : merge F c.params m with
      | throw e => simp [hm] at h
      | ub => simp [hm] at h
      | ok p1 =>
        simp only [hm, Outcome.bind_ok, Outcome.ok.injEq, Option.some.injEq] at h
        subst h
        obtain ⟨qs, h1, h2⟩ := populateLoop_ok _ _ _ _ hl
        exact ⟨qs, h1, by simp [populate, h2, hm]⟩

theorem bitpixType_iff (n : ℤ) (T : MapType) : bitpixType n = some T ↔ FitsType n T := by
  unfold bitpixType
  constructor
  · intro h
    split_ifs at h <;> simp only [Option.some.injEq] at h <;> subst h <;> subst_vars <;>
      first | exact .byte | exact .short | exact .long | exact .longlong | exact .float |
        exact .double
  · rintro (_ | _) <;> rfl

theorem getBitpix_ok {p : Params} {n : ℤ} (h : getBitpix p = .ok n) :
    n = p.bitpix ∧ ∃ T, bitpixType n = some T := by
  unfold getBitpix at h
  split at h
  · simp at h
  · rename_i hv
    simp only [Outcome.ok.injEq] at h
    subst h
    refine ⟨rfl, ?_⟩
    simp only [validBitpix, Bool.not_eq_true', Bool.not_eq_false, Bool.or_eq_true,
      beq_iff_eq] at hv
    rcases hv with ((((h | h) | h) | h) | h) | h <;> rw [h] <;> exact ⟨_, rfl⟩

theorem set_same (w : World) (n : String) (f : Option (List Hdu)) : w.set n f n = f := by
  simp [World.set]

theorem set_other (w : World) (n m : String) (f : Option (List Hdu)) (h : m ≠ n) :
    w.set n f m = w m := by
  simp [World.set, h]

/-- What `makeGridHdu` gives when it does not fail. -/
theorem makeGridHdu_ok {c : Command C} {env : Env} {p : Params} {g : Outcome (List Dbl)}
    {hdu : Hdu} (h : makeGridHdu c env p g = .ok (hdu, none)) :
    ∃ data written, g = .ok data ∧
      (Image.new c.samples c.lines 1).write env.gridData data = .ok (written, hdu.image) ∧
      hdu.bitpix = 8 ∧ hdu.axes = [c.samples, c.lines] ∧
      hdu.header = updateKey "BLANK" (.int 0) (updateReal "DATAMAX" (.fin 255)
        (updateReal "DATAMIN" (.fin 255) (addHistory (.text (c.projection ++
          " projection grid created using " ++ packageString ++ ".")) (p.xcomments.foldl
            (fun h s => addComment s h)
              (Hdu.new 8 c.samples c.lines 1 (some "GRID")).header)))) := by
  unfold makeGridHdu at h
  simp only at h
  cases g with
  | throw e => simp at h
  | ub => simp at h
  | ok data =>
    simp only at h
    cases hw : (Hdu.new 8 c.samples c.lines 1 (some "GRID")).image.write env.gridData data with
    | throw e => simp [hw] at h
    | ub => simp [hw] at h
    | ok r =>
      simp only [hw, Outcome.ok.injEq, Prod.mk.injEq, and_true] at h
      subst h
      exact ⟨data, r.1, rfl, hw, rfl, rfl, rfl⟩

/-- How `execute` can end with `0`. -/
theorem execute_zero {F : Fp} {c : Command C} {env : Env} {w w' : World}
    (h : execute F c env w = .ok (w', .returned 0)) :
    ∃ p T map rest, populateParameters F c = .ok (some p) ∧ bitpixType p.bitpix = some T ∧
      makeMapHdu F T c env p = .ok (map, none) ∧
      w' = ((w.set c.filename none).set c.filename (some [])).set c.filename
        (some (map :: rest)) ∧
      (c.grid = none ∧ rest = [] ∨
        ∃ g hdu, c.grid = some g ∧ makeGridHdu c env p g = .ok (hdu, none) ∧ rest = [hdu]) := by
  unfold execute at h
  cases hp : populateParameters F c with
  | throw e => simp [hp] at h
  | ub => simp [hp] at h
  | ok o =>
    cases o with
    | none => simp [hp] at h
    | some p =>
      simp only [hp] at h
      unfold create at h
      simp only at h
      cases hc : env.create with
      | false => simp [hc] at h
      | true =>
        simp only [hc, Bool.not_true, Bool.false_eq_true, if_false] at h
        cases hb : getBitpix p with
        | throw e => simp [hb] at h
        | ub => simp [hb] at h
        | ok n =>
          simp only [hb] at h
          obtain ⟨rfl, T, hT⟩ := getBitpix_ok hb
          simp only [hT] at h
          cases hm : env.map with
          | false => simp [hm] at h
          | true =>
            simp only [hm, Bool.not_true, Bool.false_eq_true, if_false] at h
            cases hh : makeMapHdu F T c env p with
            | throw e => simp [hh] at h
            | ub => simp [hh] at h
            | ok r =>
              obtain ⟨map, e⟩ := r
              simp only [hh, Outcome.bind_ok] at h
              cases e with
              | some e => simp at h
              | none =>
                simp only at h
                unfold finish at h
                cases hg : c.grid with
                | none =>
                  simp only [hg, Outcome.ok.injEq, Prod.mk.injEq, and_true] at h
                  exact ⟨p, T, map, [], rfl, hT, hh, h.symm, .inl ⟨rfl, rfl⟩⟩
                | some g =>
                  simp only [hg] at h
                  cases he : env.grid with
                  | false => simp [he] at h
                  | true =>
                    simp only [he, Bool.not_true, Bool.false_eq_true, if_false] at h
                    cases hr : makeGridHdu c env p g with
                    | throw e => simp [hr] at h
                    | ub => simp [hr] at h
                    | ok r =>
                      obtain ⟨hdu, e⟩ := r
                      simp only [hr, Outcome.bind_ok, Outcome.ok.injEq, Prod.mk.injEq] at h
                      cases e with
                      | some e => simp at h
                      | none =>
                        exact ⟨p, T, map, [hdu], rfl, hT, hh, h.1.symm,
                          .inr ⟨g, hdu, rfl, hr, rfl⟩⟩

end MaRC.Execute
