import Verif.Model.Factories
import Verif.Props.Utility
import Verif.Props.Fits
import Verif.Lemmas.DblOrder

/-!
# C55, C57: mosaic extrema; preparation of photo images
-/

namespace MaRC.Factory

open Fits Utility

/-! ## C57 -/

/-- Specification: the corrected value at line `k`, sample `i`: the photo's pixel,
minus the flat field's pixel when there is one. -/
def corrected (F : Fp) (raw : List Dbl) (flat : Option (List Dbl)) (samples k i : ℕ) : Option Dbl :=
  match flat with
  | none => pixel raw samples k i
  | some f => Option.map₂ F.sub (pixel raw samples k i) (pixel f samples k i)

theorem flatField_ok {F : Fp} {flat : Option Input} {img r : List Dbl} {samples lines : ℕ}
    (hf : ∀ f, flat = some f → f.naxis1 * f.naxis2 < 2 ^ 63)
    (h : flatFieldCorrect F flat img samples lines = .ok r) :
    r.length = img.length ∧ ∃ fl : Option (List Dbl),
      (flat = none ∧ fl = none ∨
        ∃ f d, flat = some f ∧ fl = some d ∧ f.read = .ok (d, samples, lines)) ∧
      ∀ k i, pixel r samples k i = corrected F img fl samples k i := by
  unfold flatFieldCorrect at h
  cases flat with
  | none =>
    simp only [Outcome.ok.injEq] at h
    subst h
    exact ⟨rfl, none, Or.inl ⟨rfl, rfl⟩, fun k i => rfl⟩
  | some f =>
    simp only at h
    cases hr : f.read with
    | throw e => simp [hr] at h
    | ub => simp [hr] at h
    | ok x =>
      obtain ⟨d, s, l⟩ := x
      simp only [hr, Outcome.bind_ok] at h
      split_ifs at h with h1
      have hs : s = samples := by by_contra hh; exact h1 (Or.inl hh)
      have hl : l = lines := by by_contra hh; exact h1 (Or.inr hh)
      subst hs hl
      unfold subtract at h
      split_ifs at h with h2
      simp only [Outcome.ok.injEq] at h
      subst h
      simp only [ne_eq, not_not] at h2
      refine ⟨by rw [List.length_zipWith, h2]; simp, some d, Or.inr ⟨f, d, rfl, rfl, hr⟩, ?_⟩
      intro k i
      simp only [corrected, pixel, List.getElem?_zipWith]
      cases img[k * s + i]? <;> cases d[k * s + i]? <;> rfl

/-- C57: the pixels used.  The pixel at line `k`, sample `i` of a made photo image is
the corrected (photo minus flat field) pixel at the mirrored sample and line as
requested; the flat field has the photo's dimensions; user-specified extrema stay,
others come from the file. -/
theorem C57_pixels (F : Fp) (p p' : Photo) (img : List Dbl) (samples lines : ℕ)
    (hsmall : p.file.naxis1 * p.file.naxis2 < 2 ^ 63)
    (hflat : ∀ f, p.flatField = some f → f.naxis1 * f.naxis2 < 2 ^ 63)
    (h : p.make F = .ok (some (img, samples, lines), p')) :
    ∃ (raw : List Dbl) (flat : Option (List Dbl)), p.file.read = .ok (raw, samples, lines) ∧
      (p.flatField = none ∧ flat = none ∨
        ∃ f d, p.flatField = some f ∧ flat = some d ∧ f.read = .ok (d, samples, lines)) ∧
      img.length = samples * lines ∧
      (∀ k i, k < lines → i < samples →
        pixel img samples k i = corrected F raw flat samples
          (if p.invertV then lines - 1 - k else k) (if p.invertH then samples - 1 - i else i)) ∧
      p'.extrema.min = p.extrema.min.or p.datamin ∧
      p'.extrema.max = p.extrema.max.or p.datamax := by
  unfold Photo.make at h
  split_ifs at h with h0
  · simp at h
  cases hr : p.file.read with
  | throw e => simp [hr] at h
  | ub => simp [hr] at h
  | ok x =>
    obtain ⟨raw, s, l⟩ := x
    have hlen : raw.length = s * l := ((C48_read p.file hsmall raw s l).mp hr).2.2.2.2.2.1
    have hs1 : p.file.naxis1 = s := ((C48_read p.file hsmall raw s l).mp hr).2.1
    have hl1 : p.file.naxis2 = l := ((C48_read p.file hsmall raw s l).mp hr).2.2.1
    have hfit : s * l < 2 ^ 64 := by
      rw [hs1, hl1] at hsmall
      have : s * l < 2 ^ 63 := by exact_mod_cast hsmall
      omega
    simp only [hr, Outcome.bind_ok] at h
    cases hff : flatFieldCorrect F p.flatField raw s l with
    | throw e => simp [hff] at h
    | ub => simp [hff] at h
    | ok img0 =>
      obtain ⟨hlen0, fl, hfl, hpix⟩ := flatField_ok hflat hff
      simp only [hff, Outcome.bind_ok] at h
      have hH : ∃ img1, applyH p img0 s l = .ok img1 ∧
          img1.length = s * l ∧ ∀ k i, k < l → i < s →
          pixel img1 s k i = pixel img0 s k (if p.invertH then s - 1 - i else i) := by
        by_cases hh : p.invertH = true
        · obtain ⟨r, hr1, hr2, hr3⟩ := C01_invert_samples_mirrors img0 s l (by omega) hfit
          exact ⟨r, by simp [applyH, applyV, hh, hr1], by omega, fun k i hk hi => by simp [hh, hr3 k i hk hi]⟩
        · exact ⟨img0, by simp [applyH, hh], by omega, fun k i _ _ => by simp [hh]⟩
      obtain ⟨img1, e1, len1, pix1⟩ := hH
      rw [e1] at h
      simp only [Outcome.bind_ok] at h
      have hV : ∃ img2, applyV p img1 s l = .ok img2 ∧
          img2.length = s * l ∧ ∀ k i, k < l → i < s →
          pixel img2 s k i = pixel img1 s (if p.invertV then l - 1 - k else k) i := by
        by_cases hh : p.invertV = true
        · obtain ⟨r, hr1, hr2, hr3⟩ := C01_invert_lines_mirrors img1 s l (by omega) hfit
          exact ⟨r, by simp [applyH, applyV, hh, hr1], by omega, fun k i hk hi => by simp [hh, hr3 k i hk hi]⟩
        · exact ⟨img1, by simp [applyV, hh], by omega, fun k i _ _ => by simp [hh]⟩
      obtain ⟨img2, e2, len2, pix2⟩ := hV
      rw [e2] at h
      simp only [Outcome.bind_ok] at h
      cases hfin : p.finalize s l with
      | throw e => simp [hfin] at h
      | ub => simp [hfin] at h
      | ok u =>
        simp only [hfin, Outcome.bind_ok] at h
        have hmin : ∀ e1, optMinimum p.extrema p.datamin = .ok e1 →
            e1.min = p.extrema.min.or p.datamin ∧ e1.max = p.extrema.max := by
          intro e1 he
          cases hd : p.datamin with
          | none => rw [hd] at he; cases he; simp
          | some m =>
            rw [hd] at he
            simp only [optMinimum, setMinimum] at he
            cases hm : p.extrema.min with
            | some x => simp [hm] at he; subst he; simp [hm]
            | none =>
              simp only [hm, Option.isNone_none, if_true, Extrema.setMinimum,
                Extrema.validateMinimum] at he
              split_ifs at he with hn
              · cases he
              · simp only [MapType.minimum, Outcome.bind_ok, Outcome.ok.injEq] at he
                subst he; simp
        have hmax : ∀ e1 e2 : Extrema, optMaximum e1 p.datamax = .ok e2 →
            e2.max = e1.max.or p.datamax ∧ e2.min = e1.min := by
          intro e1 e2 he
          cases hd : p.datamax with
          | none => rw [hd] at he; cases he; simp
          | some m =>
            rw [hd] at he
            simp only [optMaximum, setMaximum] at he
            cases hm : e1.max with
            | some x => simp [hm] at he; subst he; simp [hm]
            | none =>
              simp only [hm, Option.isNone_none, if_true, Extrema.setMaximum,
                Extrema.validateMaximum] at he
              split_ifs at he with hn
              · cases he
              · simp only [MapType.maximum, Outcome.bind_ok, Outcome.ok.injEq] at he
                subst he; simp
        rcases hE1 : optMinimum p.extrema p.datamin with e1' | _ | _
        · rw [hE1] at h
          simp only [Outcome.bind_ok] at h
          rcases hE2 : optMaximum e1' p.datamax with e2' | _ | _
          · rw [hE2] at h
            simp only [Outcome.bind_ok, Outcome.ok.injEq, Prod.mk.injEq, Option.some.injEq] at h
            obtain ⟨⟨rfl, rfl, rfl⟩, rfl⟩ := h
            obtain ⟨m1, m2⟩ := hmin e1' hE1
            obtain ⟨m3, m4⟩ := hmax e1' e2' hE2
            refine ⟨raw, fl, rfl, hfl, len2, ?_, ?_, ?_⟩
            · intro k i hk hi
              rw [pix2 k i hk hi, pix1 _ i (by split_ifs <;> omega) hi, hpix]
            · simp only [m4, m1]
            · simp only [m3, m2]
          · rw [hE2] at h; simp at h
          · rw [hE2] at h; simp at h
        · rw [hE1] at h; simp at h
        · rw [hE1] at h; simp at h

/-- C57: a factory makes its image once: the next call gives none and changes
nothing. -/
theorem C57_once (F : Fp) (p p' : Photo) (x : List Dbl × ℕ × ℕ)
    (h : p.make F = .ok (some x, p')) : p'.make F = .ok (none, p') := by
  have hc : p'.configSet = false := by
    unfold Photo.make at h
    split_ifs at h with h0
    · simp at h
    cases hr : p.file.read with
    | throw e => simp [hr] at h
    | ub => simp [hr] at h
    | ok y =>
      obtain ⟨raw, s, l⟩ := y
      simp only [hr, Outcome.bind_ok] at h
      cases hff : flatFieldCorrect F p.flatField raw s l with
      | throw e => simp [hff] at h
      | ub => simp [hff] at h
      | ok img0 =>
        simp only [hff, Outcome.bind_ok] at h
        rcases e1 : applyH p img0 s l with img1 | _ | _
        · rw [e1] at h
          simp only [Outcome.bind_ok] at h
          rcases e2 : applyV p img1 s l with img2 | _ | _
          · rw [e2] at h
            simp only [Outcome.bind_ok] at h
            cases hfin : p.finalize s l with
            | throw e => simp [hfin] at h
            | ub => simp [hfin] at h
            | ok u =>
              simp only [hfin, Outcome.bind_ok] at h
              rcases hE1 : optMinimum p.extrema p.datamin with e1' | _ | _
              · rw [hE1] at h
                simp only [Outcome.bind_ok] at h
                rcases hE2 : optMaximum e1' p.datamax with e2' | _ | _
                · rw [hE2] at h
                  simp only [Outcome.bind_ok, Outcome.ok.injEq, Prod.mk.injEq] at h
                  rw [← h.2]
                · rw [hE2] at h; simp at h
                · rw [hE2] at h; simp at h
              · rw [hE1] at h; simp at h
              · rw [hE1] at h; simp at h
          · rw [e2] at h; simp at h
          · rw [e2] at h; simp at h
        · rw [e1] at h; simp at h
        · rw [e1] at h; simp at h
  unfold Photo.make
  simp [hc]

/-- C57: a flat field of other dimensions is refused. -/
theorem C57_mismatch (F : Fp) (p : Photo) (f : Input) (raw d : List Dbl) (s l fs fl : ℕ)
    (hset : p.configSet = true ∧ p.geometrySet = true) (hr : p.file.read = .ok (raw, s, l))
    (hf : p.flatField = some f) (hfr : f.read = .ok (d, fs, fl)) (hne : fs ≠ s ∨ fl ≠ l) :
    p.make F = .throw .runtimeError := by
  unfold Photo.make
  simp [hset.1, hset.2, hr, hf, flatFieldCorrect, hfr, hne]

/-- C57: preparation succeeds for a readable photo, a flat field of its size, and file
extrema that are numbers. -/
theorem C57_success (F : Fp) (p : Photo) (raw : List Dbl) (s l : ℕ)
    (hset : p.configSet = true ∧ p.geometrySet = true)
    (hsmall : p.file.naxis1 * p.file.naxis2 < 2 ^ 63)
    (hr : p.file.read = .ok (raw, s, l))
    (hf : ∀ f, p.flatField = some f →
      f.naxis1 * f.naxis2 < 2 ^ 63 ∧ ∃ d, f.read = .ok (d, s, l))
    (hfin : p.finalize s l = .ok ()) (hmin : ∀ m, p.datamin = some m → m.isNaN = false)
    (hmax : ∀ m, p.datamax = some m → m.isNaN = false) :
    ∃ img p', p.make F = .ok (some (img, s, l), p') := by
  have hlen : raw.length = s * l := ((C48_read p.file hsmall raw s l).mp hr).2.2.2.2.2.1
  have hs1 : p.file.naxis1 = s := ((C48_read p.file hsmall raw s l).mp hr).2.1
  have hl1 : p.file.naxis2 = l := ((C48_read p.file hsmall raw s l).mp hr).2.2.1
  have hfit : s * l < 2 ^ 64 := by
    rw [hs1, hl1] at hsmall
    have : s * l < 2 ^ 63 := by exact_mod_cast hsmall
    omega
  have h0 : ∃ img0, flatFieldCorrect F p.flatField raw s l = .ok img0 ∧ img0.length = s * l := by
    unfold flatFieldCorrect
    cases hff : p.flatField with
    | none => exact ⟨raw, rfl, hlen⟩
    | some f =>
      obtain ⟨hsm, d, hd⟩ := hf f hff
      have hdl : d.length = s * l := ((C48_read f hsm d s l).mp hd).2.2.2.2.2.1
      refine ⟨raw.zipWith F.sub d, by simp [hd, subtract, hlen, hdl], ?_⟩
      rw [List.length_zipWith, hlen, hdl, Nat.min_self]
  obtain ⟨img0, e0, len0⟩ := h0
  have h1 : ∃ img1, applyH p img0 s l = .ok img1 ∧
      img1.length = s * l := by
    by_cases hh : p.invertH = true
    · obtain ⟨r, hr1, hr2, -⟩ := C01_invert_samples_mirrors img0 s l (by omega) hfit
      exact ⟨r, by simp [applyH, applyV, hh, hr1], by omega⟩
    · exact ⟨img0, by simp [applyH, hh], by omega⟩
  obtain ⟨img1, e1, len1⟩ := h1
  have h2 : ∃ img2, applyV p img1 s l = .ok img2 := by
    by_cases hh : p.invertV = true
    · obtain ⟨r, hr1, hr2, -⟩ := C01_invert_lines_mirrors img1 s l (by omega) hfit
      exact ⟨r, by simp [applyH, applyV, hh, hr1]⟩
    · exact ⟨img1, by simp [applyV, hh]⟩
  obtain ⟨img2, e2⟩ := h2
  have h3 : ∃ a, optMinimum p.extrema p.datamin = .ok a := by
    cases hd : p.datamin with
    | none => exact ⟨_, rfl⟩
    | some m =>
      simp only [optMinimum, setMinimum]
      split_ifs
      · exact ⟨⟨some m, p.extrema.max⟩, by simp [Extrema.setMinimum, Extrema.validateMinimum, hmin m hd, MapType.minimum]⟩
      · exact ⟨_, rfl⟩
  obtain ⟨a, ea⟩ := h3
  have h4 : ∃ b, optMaximum a p.datamax = .ok b := by
    cases hd : p.datamax with
    | none => exact ⟨_, rfl⟩
    | some m =>
      simp only [optMaximum, setMaximum]
      split_ifs
      · exact ⟨⟨a.min, some m⟩, by simp [Extrema.setMaximum, Extrema.validateMaximum, hmax m hd, MapType.maximum]⟩
      · exact ⟨_, rfl⟩
  obtain ⟨b, eb⟩ := h4
  refine ⟨img2, { p with extrema := b, configSet := false, geometrySet := false }, ?_⟩
  unfold Photo.make
  rw [if_neg (by simp [hset.1, hset.2]), hr]
  simp only [Outcome.bind_ok, e0, e1, e2, hfin, ea, eb]

/-- The hypotheses are met by a 2 x 2 photo with a flat field. -/
example : ((⟨⟨2, 2, 2, [.fin 1, .fin 2, .fin 3, .fin 4]⟩, some (.fin 0), none,
    some ⟨2, 2, 2, [.fin 1, .fin 1, .fin 0, .fin 0]⟩, false, true, true, true,
    fun _ _ => .ok (), ⟨none, some (.fin 3)⟩⟩ : Photo).make .exact).bind
      (fun r => .ok (r.1, r.2.extrema)) =
    .ok (some ([.fin 1, .fin 0, .fin 4, .fin 3], 2, 2), ⟨some (.fin 0), some (.fin 3)⟩) := by
  decide +kernel

/-! ## C55 -/

variable {I : Type}

theorem mosaicLoop_ok : ∀ (fs : List (MosaicPhoto I)) (ex : Extrema) (a b : Bool)
    (ph : List (Option I)), (∀ f ∈ fs, ∃ r, f.make = .ok r) →
    ∃ photos, mosaicLoop fs (ex, a, b, ph) =
      .ok (fs.foldl (fun e f => e.merge f.before) ex,
        a && fs.all (fun f => f.before.min.isSome), b && fs.all (fun f => f.before.max.isSome),
        ph ++ photos) ∧ photos.length = fs.length ∧
      ∀ (i : ℕ) (f : MosaicPhoto I), fs[i]? = some f → ∃ im e, f.make = .ok (im, e) ∧ photos[i]? = some im := by
  intro fs
  induction fs with
  | nil => intro ex a b ph _; exact ⟨[], by simp [mosaicLoop], rfl, by simp⟩
  | cons f fs ih =>
    intro ex a b ph h
    obtain ⟨⟨im, e⟩, hm⟩ := h f List.mem_cons_self
    obtain ⟨photos, h1, h2, h3⟩ := ih (ex.merge f.before) (a && f.before.min.isSome)
      (b && f.before.max.isSome) (ph ++ [im]) fun g hg => h g (.tail _ hg)
    refine ⟨im :: photos, ?_, by simp [h2], ?_⟩
    · rw [mosaicLoop, hm]
      simp only [Outcome.bind_ok, h1, List.foldl_cons, List.all_cons, Bool.and_assoc]
      simp
    · intro i g hg
      cases i with
      | zero =>
        simp only [List.getElem?_cons_zero, Option.some.injEq] at hg
        subst hg
        exact ⟨im, e, hm, by simp⟩
      | succ i =>
        simp only [List.getElem?_cons_succ] at hg ⊢
        exact h3 i g hg

theorem merge_min_none (fs : List (MosaicPhoto I)) (ex : Extrema) (h : ex.min = none) :
    (fs.foldl (fun e f => e.merge f.before) ex).min = none := by
  induction fs generalizing ex with
  | nil => exact h
  | cons f fs ih =>
    rw [List.foldl_cons]
    apply ih
    unfold Extrema.merge
    cases f.before.min with
    | none => cases f.before.max <;> simp [h] <;> split_ifs <;> simp [h]
    | some m => cases f.before.max <;> simp [h, Extrema.ltOpt] <;> split_ifs <;> simp [h]

/-- C55 is false of the code: whenever every photo of a mosaic has a minimum before
its image is made (e.g. given by the user), making the mosaic dereferences an empty
optional. -/
theorem C55_violated (this : Extrema) (fs : List (MosaicPhoto I))
    (hmake : ∀ f ∈ fs, ∃ r, f.make = .ok r) (hmin : ∀ f ∈ fs, f.before.min.isSome = true) :
    mosaicMake this fs = .ub := by
  obtain ⟨photos, h1, -, -⟩ := mosaicLoop_ok fs .empty true true [] hmake
  have hall : fs.all (fun f => f.before.min.isSome) = true := by
    rw [List.all_eq_true]; exact hmin
  unfold mosaicMake
  rw [h1]
  simp only [Outcome.bind_ok, hall, Bool.and_self, if_true]
  rw [merge_min_none fs _ rfl]
  rfl

example : mosaicMake .empty [⟨⟨some (.fin 0), none⟩, .ok (some 1, .empty)⟩,
    ⟨⟨some (.fin 2), none⟩, .ok (some 2, .empty)⟩] = .ub := by rfl

theorem merge_max {fs : List (MosaicPhoto I)} : ∀ (ex : Extrema),
    (∀ f ∈ fs, ∀ m, f.before.max = some m → m.isNaN = false) →
    (∀ m, ex.max = some m → m.isNaN = false) →
    (fs.foldl (fun e f => e.merge f.before) ex).max =
      (fs.filterMap (fun f => f.before.max)).foldl
        (fun o m => match o with
          | none => some m
          | some x => if m.gt x then some m else some x) ex.max := by
  induction fs with
  | nil => intro ex _ _; rfl
  | cons f fs ih =>
    intro ex h1 h2
    rw [List.foldl_cons]
    have hstep : (ex.merge f.before).max = match f.before.max with
        | none => ex.max
        | some m => match ex.max with
          | none => some m
          | some x => if m.gt x then some m else some x := by
      unfold Extrema.merge
      cases f.before.min with
      | none =>
        cases f.before.max with
        | none => rfl
        | some m =>
          cases hx : ex.max with
          | none => simp [Extrema.gtOpt, hx]
          | some x => simp only [Extrema.gtOpt, hx]; split_ifs <;> simp [hx]
      | some n =>
        cases f.before.max with
        | none => simp only; split_ifs <;> rfl
        | some m =>
          simp only
          cases hx : ex.max with
          | none => split_ifs <;> simp_all [Extrema.gtOpt]
          | some x =>
            simp only [Extrema.gtOpt]
            split_ifs <;> simp_all
    have hn : ∀ m, (ex.merge f.before).max = some m → m.isNaN = false := by
      intro m hm
      rw [hstep] at hm
      cases hf : f.before.max with
      | none => rw [hf] at hm; exact h2 m hm
      | some y =>
        rw [hf] at hm
        have hy := h1 f List.mem_cons_self y hf
        cases hx : ex.max with
        | none => rw [hx] at hm; cases hm; exact hy
        | some x =>
          rw [hx] at hm
          simp only at hm
          split_ifs at hm <;> cases hm
          · exact hy
          · exact h2 _ hx
    rw [ih _ (fun g hg => h1 g (.tail _ hg)) hn, hstep]
    cases hf : f.before.max with
    | none => rw [List.filterMap_cons_none (f := fun f : MosaicPhoto I => f.before.max) hf]
    | some y => rw [List.filterMap_cons_some (f := fun f : MosaicPhoto I => f.before.max) hf]; rfl

theorem foldl_max (l : List Dbl) : ∀ (o : Option Dbl), (∀ m ∈ l, m.isNaN = false) →
    (∀ m, o = some m → m.isNaN = false) → (l ≠ [] ∨ o ≠ none) →
    ∃ M, l.foldl (fun o m => match o with
          | none => some m
          | some x => if m.gt x then some m else some x) o = some M ∧
      (M ∈ l ∨ o = some M) ∧ (∀ m ∈ l, m.le M = true) ∧ ∀ x, o = some x → x.le M = true := by
  induction l with
  | nil =>
    intro o _ h2 h3
    cases o with
    | none => simp at h3
    | some x =>
      refine ⟨x, rfl, Or.inr rfl, by simp, ?_⟩
      intro y hy; cases hy
      exact Dbl.le_refl (h2 x rfl)
  | cons a l ih =>
    intro o h1 h2 _
    have ha := h1 a List.mem_cons_self
    rw [List.foldl_cons]
    cases o with
    | none =>
      obtain ⟨M, e1, e2, e3, e4⟩ := ih (some a) (fun m hm => h1 m (.tail _ hm))
        (by intro m hm; cases hm; exact ha) (Or.inr (by simp))
      refine ⟨M, e1, ?_, ?_, by simp⟩
      · rcases e2 with e2 | e2
        · left; exact .tail _ e2
        · left; cases e2; exact List.mem_cons_self
      · intro m hm
        rcases List.mem_cons.mp hm with rfl | hm
        · exact e4 _ rfl
        · exact e3 m hm
    | some x =>
      have hx := h2 x rfl
      by_cases hg : a.gt x = true
      · obtain ⟨M, e1, e2, e3, e4⟩ := ih (some a) (fun m hm => h1 m (.tail _ hm))
          (by intro m hm; cases hm; exact ha) (Or.inr (by simp))
        simp only [hg, if_true]
        refine ⟨M, e1, ?_, ?_, ?_⟩
        · rcases e2 with e2 | e2
          · left; exact .tail _ e2
          · left; cases e2; exact List.mem_cons_self
        · intro m hm
          rcases List.mem_cons.mp hm with rfl | hm
          · exact e4 _ rfl
          · exact e3 m hm
        · intro y hy; cases hy
          exact Dbl.le_trans (Dbl.le_of_lt hg) (e4 _ rfl)
      · obtain ⟨M, e1, e2, e3, e4⟩ := ih (some x) (fun m hm => h1 m (.tail _ hm))
          (by intro m hm; cases hm; exact hx) (Or.inr (by simp))
        simp only [hg, Bool.false_eq_true, if_false]
        refine ⟨M, e1, ?_, ?_, ?_⟩
        · rcases e2 with e2 | e2
          · left; exact .tail _ e2
          · right; exact e2
        · intro m hm
          rcases List.mem_cons.mp hm with rfl | hm
          · have : m.le x = true := (Dbl.not_lt hx ha).mp (by simpa [Dbl.gt] using hg)
            exact Dbl.le_trans this (e4 _ rfl)
          · exact e3 m hm
        · intro y hy; cases hy
          exact e4 _ rfl

/-- C55, the part that holds: when every photo has a maximum before its image is made
but some photo has no minimum, the mosaic is made, its maximum is the greatest of the
photos' (unless the user gave one), and its minimum is left alone.  The photos are
those of the factories, in order. -/
theorem C55_maximum_partial (this : Extrema) (fs : List (MosaicPhoto I)) (hne : fs ≠ [])
    (hmake : ∀ f ∈ fs, ∃ r, f.make = .ok r)
    (hmax : ∀ f ∈ fs, ∃ m, f.before.max = some m ∧ m.isNaN = false)
    (hmin : ∃ f ∈ fs, f.before.min = none) :
    ∃ photos M, mosaicMake this fs = .ok (photos, ⟨this.min, this.max.or (some M)⟩) ∧
      (∃ f ∈ fs, f.before.max = some M) ∧
      (∀ f ∈ fs, ∀ m, f.before.max = some m → m.le M = true) ∧
      photos.length = fs.length ∧
      ∀ (i : ℕ) (f : MosaicPhoto I), fs[i]? = some f →
        ∃ im e, f.make = .ok (im, e) ∧ photos[i]? = some im := by
  obtain ⟨photos, h1, h2, h3⟩ := mosaicLoop_ok fs .empty true true [] hmake
  have hallmin : fs.all (fun f => f.before.min.isSome) = false := by
    obtain ⟨f, hf, hn⟩ := hmin
    rw [List.all_eq_false]
    exact ⟨f, hf, by simp [hn]⟩
  have hallmax : fs.all (fun f => f.before.max.isSome) = true := by
    rw [List.all_eq_true]
    intro f hf
    obtain ⟨m, hm, -⟩ := hmax f hf
    simp [hm]
  have hnan : ∀ f ∈ fs, ∀ m, f.before.max = some m → m.isNaN = false := by
    intro f hf m hm
    obtain ⟨m', hm', hn⟩ := hmax f hf
    rw [hm] at hm'; cases hm'; exact hn
  have hfold := merge_max (fs := fs) .empty hnan (by simp [Extrema.empty])
  obtain ⟨M, e1, e2, e3, -⟩ := foldl_max (fs.filterMap (fun f => f.before.max)) none
    (by intro m hm
        obtain ⟨f, hf, hm⟩ := List.mem_filterMap.mp hm
        exact hnan f hf m hm) (by simp)
    (by left
        obtain ⟨f, hf⟩ := List.exists_mem_of_ne_nil fs hne
        obtain ⟨m, hm, -⟩ := hmax f hf
        exact List.ne_nil_of_mem (List.mem_filterMap.mpr ⟨f, hf, hm⟩))
  have hM : (fs.foldl (fun e f => e.merge f.before) Extrema.empty).max = some M := by
    rw [hfold]; exact e1
  have hMn : M.isNaN = false := by
    rcases e2 with e2 | e2
    · obtain ⟨f, hf, hm⟩ := List.mem_filterMap.mp e2
      exact hnan f hf M hm
    · cases e2
  refine ⟨photos, M, ?_, ?_, ?_, h2, h3⟩
  · unfold mosaicMake
    rw [h1]
    simp only [Outcome.bind_ok, hallmin, hallmax, Bool.and_false, Bool.and_self, if_true,
      Bool.false_eq_true, if_false, hM, deref, setMaximum, List.nil_append]
    cases hx : this.max with
    | some x => cases this; simp_all
    | none =>
      simp [Extrema.setMaximum, Extrema.validateMaximum, hMn, MapType.maximum]
  · rcases e2 with e2 | e2
    · obtain ⟨f, hf, hm⟩ := List.mem_filterMap.mp e2
      exact ⟨f, hf, hm⟩
    · cases e2
  · intro f hf m hm
    exact e3 m (List.mem_filterMap.mpr ⟨f, hf, hm⟩)

example : mosaicMake .empty [⟨⟨none, some (.fin 3)⟩, .ok (some 1, .empty)⟩,
    ⟨⟨some (.fin 2), some (.fin 7)⟩, .ok (some 2, .empty)⟩] =
    .ok ([some 1, some 2], ⟨none, some (.fin 7)⟩) := by decide +kernel

/-- C55 is false of the code in another way: extrema the photos' files give (known
only once the photo images are made) are not taken into account.  Both photos have
the maximum 5 or 9 afterwards, the mosaic has none. -/
theorem C55_file_extrema_violated :
    mosaicMake .empty [⟨.empty, .ok (some 1, ⟨none, some (.fin 5)⟩)⟩,
      ⟨.empty, .ok (some 2, ⟨none, some (.fin 9)⟩)⟩] = .ok ([some 1, some 2], .empty) := by
  decide +kernel

/-- C55: a mosaic is made of two or more photos, all of them and in the order given;
fewer are rejected. -/
theorem C55_photos (fs : List (MosaicPhoto I)) :
    (2 ≤ fs.length → mosaicNew fs = .ok fs) ∧
    (mosaicNew fs = .throw .invalidArgument ↔ fs.length = 0 ∨ fs.length = 1) := by
  unfold mosaicNew
  constructor
  · intro h; rw [if_neg (by omega)]
  · split_ifs with h
    · exact ⟨fun _ => by omega, fun _ => rfl⟩
    · exact ⟨fun h' => by simp at h', fun h' => absurd h' (by omega)⟩

example : mosaicNew [⟨.empty, .ok (some 1, .empty)⟩, ⟨.empty, .ok (some 2, .empty)⟩] =
    .ok [⟨.empty, .ok (some 1, .empty)⟩, ⟨.empty, .ok (some 2, .empty)⟩] :=
  (C55_photos (I := ℕ) _).1 (by decide)

end MaRC.Factory
