import Verif.Model.MapParameters

namespace MaRC.MapParams

variable (F : Fp) (p : Params)

section mergeStr
variable (k : StrKey) (s : String)

@[simp] theorem mergeStr_plane : (mergeStr p k s).plane = p.plane := by
  unfold mergeStr; split_ifs <;> rfl
@[simp] theorem mergeStr_locked : (mergeStr p k s).locked = p.locked := by
  unfold mergeStr; split_ifs <;> rfl
@[simp] theorem mergeStr_bitpix : (mergeStr p k s).bitpix = p.bitpix := by
  unfold mergeStr; split_ifs <;> rfl
@[simp] theorem mergeStr_real : (mergeStr p k s).real = p.real := by
  unfold mergeStr; split_ifs <;> rfl
@[simp] theorem mergeStr_blank : (mergeStr p k s).blank = p.blank := by
  unfold mergeStr; split_ifs <;> rfl
@[simp] theorem mergeStr_comments : (mergeStr p k s).comments = p.comments := by
  unfold mergeStr; split_ifs <;> rfl
@[simp] theorem mergeStr_xcomments : (mergeStr p k s).xcomments = p.xcomments := by
  unfold mergeStr; split_ifs <;> rfl
@[simp] theorem mergeStr_histories : (mergeStr p k s).histories = p.histories := by
  unfold mergeStr; split_ifs <;> rfl
@[simp] theorem mergeStr_str (j : StrKey) : (mergeStr p k s).str j =
    if j = k ∧ isMergeable p (.str k) = true ∧ p.str k = "" then s else p.str j := by
  unfold mergeStr
  cases h : isMergeable p (.str k) <;> simp
  by_cases h2 : p.str k = "" <;> simp [h2]
end mergeStr

section mergeReal
variable (k : RealKey) (s : Option Dbl)

@[simp] theorem mergeReal_plane : (mergeReal F p k s).plane = p.plane := by
  unfold mergeReal; repeat' split <;> try rfl
@[simp] theorem mergeReal_locked : (mergeReal F p k s).locked = p.locked := by
  unfold mergeReal; repeat' split <;> try rfl
@[simp] theorem mergeReal_bitpix : (mergeReal F p k s).bitpix = p.bitpix := by
  unfold mergeReal; repeat' split <;> try rfl
@[simp] theorem mergeReal_str : (mergeReal F p k s).str = p.str := by
  unfold mergeReal; repeat' split <;> try rfl
@[simp] theorem mergeReal_blank : (mergeReal F p k s).blank = p.blank := by
  unfold mergeReal; repeat' split <;> try rfl
@[simp] theorem mergeReal_comments : (mergeReal F p k s).comments = p.comments := by
  unfold mergeReal; repeat' split <;> try rfl
@[simp] theorem mergeReal_xcomments : (mergeReal F p k s).xcomments = p.xcomments := by
  unfold mergeReal; repeat' split <;> try rfl

/-- A supplied floating point value, NaN counting as not supplied. -/
def supplied : Option Dbl → Option Dbl
  | some .nan => none
  | o => o

@[simp] theorem mergeReal_real (j : RealKey) : (mergeReal F p k s).real j =
    if j = k ∧ isMergeable p (.real k) = true ∧ p.real k = none then supplied s else p.real j := by
  unfold mergeReal
  cases s with
  | none =>
    simp only [supplied]
    split_ifs with h
    · rw [h.1, h.2.2]
    · rfl
  | some f =>
    cases hm : isMergeable p (.real k) with
    | false => simp
    | true =>
      cases hr : p.real k with
      | none =>
        by_cases hj : j = k
        · subst hj
          cases f <;> simp [Dbl.isNaN, supplied, hr]
        · cases f <;> simp [Dbl.isNaN, hj]
      | some t =>
        simp only [reduceCtorEq, and_false, if_false]
        repeat' split <;> try rfl
end mergeReal

section mergeBlank
variable (s : Option ℤ)

@[simp] theorem mergeBlank_plane : (mergeBlank p s).plane = p.plane := by
  unfold mergeBlank; repeat' split <;> try rfl
@[simp] theorem mergeBlank_locked : (mergeBlank p s).locked = p.locked := by
  unfold mergeBlank; repeat' split <;> try rfl
@[simp] theorem mergeBlank_bitpix : (mergeBlank p s).bitpix = p.bitpix := by
  unfold mergeBlank; repeat' split <;> try rfl
@[simp] theorem mergeBlank_str : (mergeBlank p s).str = p.str := by
  unfold mergeBlank; repeat' split <;> try rfl
@[simp] theorem mergeBlank_real : (mergeBlank p s).real = p.real := by
  unfold mergeBlank; repeat' split <;> try rfl
@[simp] theorem mergeBlank_comments : (mergeBlank p s).comments = p.comments := by
  unfold mergeBlank; repeat' split <;> try rfl
@[simp] theorem mergeBlank_xcomments : (mergeBlank p s).xcomments = p.xcomments := by
  unfold mergeBlank; repeat' split <;> try rfl
@[simp] theorem mergeBlank_blank : (mergeBlank p s).blank =
    if isMergeable p .blank = true ∧ p.blank = none then s else p.blank := by
  unfold mergeBlank
  cases s with
  | none => by_cases h : p.blank = none <;> simp [h]
  | some f =>
    cases hm : isMergeable p .blank with
    | false => simp
    | true =>
      cases hb : p.blank with
      | none => simp
      | some t =>
        simp only [reduceCtorEq, and_false, if_false]
        repeat' split <;> try first | rfl | exact hb | simp_all
end mergeBlank

section mergeComments
variable (s : List String)

@[simp] theorem mergeComments_plane : (mergeComments p s).plane = p.plane := by
  unfold mergeComments; split_ifs <;> rfl
@[simp] theorem mergeComments_locked : (mergeComments p s).locked = p.locked := by
  unfold mergeComments; split_ifs <;> rfl
@[simp] theorem mergeComments_bitpix : (mergeComments p s).bitpix = p.bitpix := by
  unfold mergeComments; split_ifs <;> rfl
@[simp] theorem mergeComments_str : (mergeComments p s).str = p.str := by
  unfold mergeComments; split_ifs <;> rfl
@[simp] theorem mergeComments_real : (mergeComments p s).real = p.real := by
  unfold mergeComments; split_ifs <;> rfl
@[simp] theorem mergeComments_blank : (mergeComments p s).blank = p.blank := by
  unfold mergeComments; split_ifs <;> rfl
@[simp] theorem mergeComments_xcomments : (mergeComments p s).xcomments = p.xcomments := by
  unfold mergeComments; split_ifs <;> rfl
@[simp] theorem mergeComments_histories : (mergeComments p s).histories = p.histories := by
  unfold mergeComments; split_ifs <;> rfl
@[simp] theorem mergeComments_comments : (mergeComments p s).comments =
    if isMergeable p .comment = true then p.comments ++ s else p.comments := by
  unfold mergeComments; split_ifs <;> rfl

@[simp] theorem mergeXcomments_plane : (mergeXcomments p s).plane = p.plane := by
  unfold mergeXcomments; split_ifs <;> rfl
@[simp] theorem mergeXcomments_locked : (mergeXcomments p s).locked = p.locked := by
  unfold mergeXcomments; split_ifs <;> rfl
@[simp] theorem mergeXcomments_bitpix : (mergeXcomments p s).bitpix = p.bitpix := by
  unfold mergeXcomments; split_ifs <;> rfl
@[simp] theorem mergeXcomments_str : (mergeXcomments p s).str = p.str := by
  unfold mergeXcomments; split_ifs <;> rfl
@[simp] theorem mergeXcomments_real : (mergeXcomments p s).real = p.real := by
  unfold mergeXcomments; split_ifs <;> rfl
@[simp] theorem mergeXcomments_blank : (mergeXcomments p s).blank = p.blank := by
  unfold mergeXcomments; split_ifs <;> rfl
@[simp] theorem mergeXcomments_comments : (mergeXcomments p s).comments = p.comments := by
  unfold mergeXcomments; split_ifs <;> rfl
@[simp] theorem mergeXcomments_histories : (mergeXcomments p s).histories = p.histories := by
  unfold mergeXcomments; split_ifs <;> rfl
@[simp] theorem mergeXcomments_xcomments : (mergeXcomments p s).xcomments =
    if isMergeable p .xcomment = true then p.xcomments ++ s else p.xcomments := by
  unfold mergeXcomments; split_ifs <;> rfl
end mergeComments

/-- `mergeBitpix` changes only the BITPIX value, and only to a valid one. -/
theorem mergeBitpix_ok {p p' : Params} {n : ℤ} (h : mergeBitpix p n = .ok p') :
    p' = p ∨ (p' = { p with bitpix := n } ∧ validBitpix n = true ∧
      (p.bitpix = 0 ∨ userSupplied p = false)) := by
  unfold mergeBitpix setBitpix at h
  split at h
  · rename_i h1
    split at h
    · split at h
      · cases h
      · cases h; right; simp_all
    · cases h; left; rfl
  · cases h; left; rfl

/-- The BITPIX a merge results in. -/
def bitpixAfter (p : Params) (n : ℤ) : ℤ :=
  if n ≠ 0 ∧ (p.bitpix = 0 ∨ (userSupplied p = false ∧
    ((n > 0 ∧ n > p.bitpix) ∨ (n < 0 ∧ n < p.bitpix)))) then n else p.bitpix

theorem mergeBitpix_bitpix {p p' : Params} {n : ℤ} (h : mergeBitpix p n = .ok p') :
    p'.bitpix = bitpixAfter p n := by
  unfold mergeBitpix setBitpix at h
  unfold bitpixAfter
  by_cases h1 : n = 0
  · simp [h1] at h; simp [h1, h]
  · by_cases h2 : p.bitpix = 0
    · simp [h1, h2] at h ⊢
      split at h <;> cases h
      rfl
    · cases h3 : userSupplied p
      · simp [h1, h2, h3] at h ⊢
        split at h
        · rename_i h4
          split at h <;> cases h
          simp [h4]
        · rename_i h4
          cases h
          simp [h4]
      · simp [h1, h2, h3] at h ⊢
        simp [h]

/-- Effect of a merge on every parameter. -/
theorem merge_ok {F : Fp} {p q p' : Params} (h : merge F p q = .ok p') :
    p'.plane = p.plane ∧ p'.locked = p.locked ∧
    p'.bitpix = bitpixAfter p q.bitpix ∧
    (validBitpix q.bitpix = true ∨ p'.bitpix = p.bitpix) ∧
    (∀ k, p'.str k = if isMergeable p (.str k) = true ∧ p.str k = "" then q.str k else p.str k) ∧
    (∀ k, p'.real k = if k ≠ .datamax ∧ k ≠ .datamin ∧ isMergeable p (.real k) = true ∧
      p.real k = none then supplied (q.real k) else p.real k) ∧
    p'.blank = (if isMergeable p .blank = true ∧ p.blank = none then q.blank else p.blank) ∧
    p'.comments = (if isMergeable p .comment = true then p.comments ++ q.comments else p.comments) ∧
    p'.xcomments = (if isMergeable p .xcomment = true then p.xcomments ++ q.xcomments
      else p.xcomments) := by
  unfold merge at h
  cases hb : mergeBitpix p q.bitpix with
  | throw e => rw [hb] at h; cases h
  | ub => rw [hb] at h; cases h
  | ok p1 =>
    rw [hb] at h
    simp only [Outcome.bind_ok, Outcome.ok.injEq] at h
    have hbp := mergeBitpix_bitpix hb
    have hm : ∀ key, isMergeable p1 key = isMergeable p key := by
      intro key
      rcases mergeBitpix_ok hb with rfl | ⟨rfl, -, -⟩ <;> rfl
    have hf : p1.plane = p.plane ∧ p1.locked = p.locked ∧ p1.str = p.str ∧ p1.real = p.real ∧
        p1.blank = p.blank ∧ p1.comments = p.comments ∧ p1.xcomments = p.xcomments ∧
        (validBitpix q.bitpix = true ∨ p1.bitpix = p.bitpix) := by
      rcases mergeBitpix_ok hb with rfl | ⟨rfl, h1, -⟩
      · exact ⟨rfl, rfl, rfl, rfl, rfl, rfl, rfl, .inr rfl⟩
      · exact ⟨rfl, rfl, rfl, rfl, rfl, rfl, rfl, .inl h1⟩
    obtain ⟨f1, f2, f3, f4, f5, f6, f7, f8⟩ := hf
    have hmerge : ∀ (a b : Params) key, a.plane = b.plane → a.locked = b.locked →
        isMergeable a key = isMergeable b key := by
      intro a b key h1 h2; unfold isMergeable userSupplied; rw [h1, h2]
    have hM : ∀ (a : Params) key, a.plane = p1.plane → a.locked = p1.locked →
        isMergeable a key = isMergeable p key := by
      intro a key h1 h2; rw [hmerge a p1 key h1 h2, hm]
    subst h
    refine ⟨by simp [f1], by simp [f2], by simp [hbp], by simpa using f8, ?_, ?_, ?_, ?_, ?_⟩
    · intro k
      cases k <;> simp [hM, f3]
    · intro k
      cases k <;> simp [hM, f4]
    · simp [hM, f5]
    · simp [hM, f6]
    · simp [hM, f7]

end MaRC.MapParams
