import Verif.Spec.ProgramData
import Verif.Lemmas.Planes
import Verif.Lemmas.PhotoRead
import Verif.Lemmas.Program

/-! # The data of the maps of the program -/

namespace MaRC.Program

open Source Execute Grammar MapParams
open MaRC.Parser (PhotoCmd Averaging Proj)
open MaRC.ProgramSpec

variable {M : Machine}

/-! ## Photos -/

/-- The element of the array of a file, read. -/
theorem read_get {f : Fits} {raw : List Dbl} {samples lines : ℕ}
    (hsmall : f.photo.naxis1 * f.photo.naxis2 < 2 ^ 63)
    (h : (f.photo.input .ieee).read = .ok (raw, samples, lines)) :
    f.photo.naxis1.toNat = samples ∧ f.photo.naxis2.toNat = lines ∧ 2 ≤ samples ∧ 2 ≤ lines ∧
      ∀ line sample, line < lines → sample < samples →
        Utility.pixel raw samples line sample = physicalAt f line sample := by
  obtain ⟨-, hs, hl, hs2, hl2, hraw, rest, hpx⟩ :=
    (Fits.C48_read _ hsmall raw samples lines).mp h
  have hs : f.photo.naxis1 = samples := hs
  have hl : f.photo.naxis2 = lines := hl
  have e1 : f.photo.naxis1.toNat = samples := by omega
  refine ⟨e1, by omega, hs2, hl2, ?_⟩
  intro y x hy hx
  have hlt : y * samples + x < raw.length := by
    rw [hraw]
    calc y * samples + x < y * samples + samples := by omega
      _ = (y + 1) * samples := by ring
      _ ≤ lines * samples := Nat.mul_le_mul_right _ hy
      _ = samples * lines := Nat.mul_comm _ _
  have hpx : f.photo.raw.map (f.photo.physical .ieee) = raw ++ rest := hpx
  unfold physicalAt Utility.pixel
  rw [e1, ← List.getElem?_map, hpx, List.getElem?_append_left hlt]

theorem photo_pixels (hF : M.E.F = .ieee) {b : Body} {f : Fits} {c : PhotoCmd} {e : Extrema}
    {img : List Dbl} {samples lines : ℕ} {p' : MaRC.Factory.Photo} (hp : PlainPhoto M c)
    (hf : M.fits c.file = some f)
    (h : (photoSettings M b f c e).make M.E.F = .ok (some (img, samples, lines), p')) :
    f.photo.naxis1.toNat = samples ∧ f.photo.naxis2.toNat = lines ∧
      samples * lines < 2 ^ 63 ∧ c.nibble.right ≤ samples ∧ c.nibble.bottom ≤ lines ∧
      p'.extrema.min = e.min.or f.datamin ∧ p'.extrema.max = e.max.or f.datamax ∧
      ∀ k i, k < lines → i < samples → img[k * samples + i]? = pixelValue M f c k i := by
  obtain ⟨hsmall, hnr, hnb⟩ := hp.size f hf
  rw [hF] at h
  have hfl : ∀ g, (photoSettings M b f c e).flatField = some g → g.naxis1 * g.naxis2 < 2 ^ 63 := by
    intro g hg
    simp only [photoSettings, flatField] at hg
    split_ifs at hg with h0
    cases hff : M.fits c.flatField with
    | none =>
      simp only [hff, Option.some.injEq] at hg
      subst hg; decide
    | some ff =>
      simp only [hff, Option.some.injEq] at hg
      subst hg
      exact hp.flat ff hff
  obtain ⟨raw, flat, hread, hflat, -, hpix, hmin, hmax⟩ := MaRC.Factory.C57_pixels .ieee _ p' img
    samples lines (by exact hsmall) hfl h
  have hread : (f.photo.input M.E.F).read = .ok (raw, samples, lines) := hread
  rw [hF] at hread
  obtain ⟨e1, e2, hs2, hl2, hget⟩ := read_get hsmall hread
  have h63 : samples * lines < 2 ^ 63 := by
    have : (samples : ℤ) * lines < 2 ^ 63 := by
      have a1 : f.photo.naxis1 = samples := by omega
      have a2 : f.photo.naxis2 = lines := by omega
      rw [a1, a2] at hsmall
      exact hsmall
    exact_mod_cast this
  refine ⟨e1, e2, h63, by omega, by omega, hmin, hmax, ?_⟩
  intro k i hk hi
  have h1 := hpix k i hk hi
  have a1 : (if c.invertV then lines - 1 - k else k) < lines := by split_ifs <;> omega
  have a2 : (if c.invertH then samples - 1 - i else i) < samples := by split_ifs <;> omega
  change Utility.pixel img samples k i = _ at h1
  change Utility.pixel img samples k i = _
  rw [h1]
  unfold pixelValue
  simp only [e1, e2]
  change MaRC.Factory.corrected .ieee raw flat samples (if c.invertV then lines - 1 - k else k)
    (if c.invertH then samples - 1 - i else i) = _
  generalize (if c.invertV then lines - 1 - k else k) = y at *
  generalize (if c.invertH then samples - 1 - i else i) = x at *
  rcases hflat with ⟨hff, rfl⟩ | ⟨g, d, hff, rfl, hgr⟩
  · simp only [photoSettings, flatField] at hff
    split_ifs at hff with h0
    rw [if_pos h0]
    exact hget y x a1 a2
  · simp only [photoSettings, flatField] at hff
    split_ifs at hff with h0
    rw [if_neg h0]
    cases hfo : M.fits c.flatField with
    | none =>
      simp only [hfo, Option.some.injEq] at hff
      subst hff
      have := (Fits.C48_read ⟨0, 0, 0, []⟩ (by decide) d samples lines).mp hgr
      exact absurd this.1 (by decide)
    | some ff =>
      simp only [hfo, Option.some.injEq] at hff
      subst hff
      rw [hF] at hgr
      obtain ⟨-, -, -, -, hget2⟩ := read_get (hp.flat ff hfo) hgr
      simp only [MaRC.Factory.corrected, Option.bind_some]
      rw [hget y x a1 a2, hget2 y x a1 a2]

/-- The contributions to an interpolated value. -/
theorem contributions_edges (bl br tl tr u v : Dbl) :
    Bilinear.contributions .ieee bl br tl tr u v =
      ((edges bl br tl tr u v).foldl Fp.ieee.add (.fin 0), (edges bl br tl tr u v).length) := by
  have key : ∀ d : Dbl, d.isNaN = false ↔ d ≠ .nan := by
    intro d; cases d <;> simp [Dbl.isNaN]
  unfold Bilinear.contributions edges
  simp only [Bool.and_eq_true, Bool.not_eq_true', key]
  by_cases h1 : bl = .nan <;> by_cases h2 : br = .nan <;> by_cases h3 : tl = .nan <;>
    by_cases h4 : tr = .nan <;> simp [h1, h2, h3, h4, along, Bilinear.edge]

/-- What the interpolation of a photo gives. -/
theorem interpolated (hF : M.E.F = .ieee) {f : Fits} {c : PhotoCmd} {img : List Dbl}
    {samples lines : ℕ} (e1 : f.photo.naxis1.toNat = samples) (e2 : f.photo.naxis2.toNat = lines)
    (hlen : img.length = samples * lines)
    (h63 : samples * lines < 2 ^ 63) (hnr : c.nibble.right ≤ samples)
    (hnb : c.nibble.bottom ≤ lines) (hs2 : 2 ≤ samples) (hl2 : 2 ≤ lines)
    (hpix : ∀ k i, k < lines → i < samples → img[k * samples + i]? = pixelValue M f c k i)
    {x z : ℚ} {k i : ℕ} (hx : (i : ℚ) ≤ x) (hx' : x < i + 1) (hz : (k : ℚ) ≤ z)
    (hz' : z < k + 1) (hi : i < samples) (hk : k < lines) (hl : c.nibble.left ≤ i)
    (ht : c.nibble.top ≤ k) {v : Dbl}
    (hv : img[k * samples + i]? = some v) :
    ∃ ok d, (photoConfig M.E.F c f.size.1 f.size.2).interpolate img (.fin x) (.fin z) v =
      .ok (ok, d) ∧ ∀ y, (ok = true ∧ d = y) ↔ ValueAt M f c x z k i y := by
  unfold ValueAt photoConfig
  cases hint : c.interpolate with
  | false =>
    refine ⟨true, v, rfl, ?_⟩
    intro y
    rw [← hpix k i hk hi, hv]
    simp
  | true =>
    simp only [if_true, Fits.size, e1, e2]
    rw [hF]
    have hsl : samples < 2 ^ 64 := by nlinarith
    have hll : lines < 2 ^ 64 := by nlinarith
    have hset : Bilinear.Setup img samples lines c.nibble.left c.nibble.right c.nibble.top
        c.nibble.bottom := ⟨hlen, by omega, hsl, hll, hnr, hnb⟩
    obtain ⟨hin, hout⟩ := Bilinear.interpolate_eq .ieee hset hx hx' hz hz' (by omega) (by omega) v
    by_cases hI : Bilinear.Inside samples lines c.nibble.left c.nibble.right c.nibble.top
        c.nibble.bottom i k
    · have h1 : i + 1 + c.nibble.right < samples := hI.2.1
      have h2 : k + 1 + c.nibble.bottom < lines := hI.2.2.2
      have hget : ∀ k' i', k' < lines → i' < samples →
          pixelValue M f c k' i' = some (Bilinear.px img samples i' k') := by
        intro k' i' hk' hi'
        have hlt : k' * samples + i' < img.length := by
          rw [hlen]
          calc k' * samples + i' < k' * samples + samples := by omega
            _ = (k' + 1) * samples := by ring
            _ ≤ lines * samples := Nat.mul_le_mul_right _ hk'
            _ = samples * lines := Nat.mul_comm _ _
        rw [← hpix k' i' hk' hi']
        unfold Bilinear.px
        rw [List.getElem?_eq_getElem hlt]
        rfl
      rw [hin hI]
      simp only [contributions_edges]
      rw [hget k i hk hi, hget k (i + 1) hk (by omega), hget (k + 1) i (by omega) hi,
        hget (k + 1) (i + 1) (by omega) (by omega)]
      simp only [Option.some.injEq]
      by_cases he : edges (Bilinear.px img samples i k) (Bilinear.px img samples (i + 1) k)
          (Bilinear.px img samples i (k + 1)) (Bilinear.px img samples (i + 1) (k + 1))
          (Fp.ieee.sub (.fin x) (Fp.ieee.rnd i)) (Fp.ieee.sub (.fin z) (Fp.ieee.rnd k)) = []
      · refine ⟨false, v, by simp [he], ?_⟩
        intro y
        constructor
        · rintro ⟨h, -⟩; cases h
        · rintro ⟨-, -, _, _, _, _, rfl, rfl, rfl, rfl, g5, -⟩
          exact absurd he g5
      · refine ⟨true, _, if_pos (List.length_pos_iff.mpr he), ?_⟩
        intro y
        constructor
        · rintro ⟨-, rfl⟩
          exact ⟨h1, h2, _, _, _, _, rfl, rfl, rfl, rfl, he, rfl⟩
        · rintro ⟨-, -, _, _, _, _, rfl, rfl, rfl, rfl, -, rfl⟩
          exact ⟨rfl, rfl⟩
    · rw [hout hI]
      refine ⟨false, v, rfl, ?_⟩
      intro y
      constructor
      · rintro ⟨h, -⟩; cases h
      · rintro ⟨g1, g2, -⟩
        exact absurd ⟨hl, g1, ht, g2⟩ hI

theorem valueAt_unique {f : Fits} {c : PhotoCmd} {x z : ℚ} {k i : ℕ} {y y' : Dbl}
    (h : ValueAt M f c x z k i y) (h' : ValueAt M f c x z k i y') : y = y' := by
  unfold ValueAt at h h'
  split at h
  · rename_i hc
    rw [if_pos hc] at h'
    obtain ⟨-, -, _, _, _, _, a1, a2, a3, a4, -, rfl⟩ := h
    obtain ⟨-, -, _, _, _, _, b1, b2, b3, b4, -, rfl⟩ := h'
    rw [a1] at b1; rw [a2] at b2; rw [a3] at b3; rw [a4] at b4
    cases b1; cases b2; cases b3; cases b4
    rfl
  · rename_i hc
    rw [if_neg hc] at h'
    rw [h] at h'
    exact Option.some.inj h'

/-- An image of a photo as the program makes it. -/
structure MadePhoto (M : Machine) (b : Body) (f : Fits) (c : PhotoCmd) (im : Photo.Img Loc) :
    Prop where
  fits : M.fits c.file = some f
  made : ∃ e img samples lines p',
    (photoSettings M b f c e).make M.E.F = .ok (some (img, samples, lines), p') ∧
    Photo.new img samples lines (some (photoConfig M.E.F c f.size.1 f.size.2))
      (some (M.geometry b c f.size.1 f.size.2)) = .ok im

theorem seenAt_iff {b : Body} {f : Fits} {c : PhotoCmd} {pt : Loc} {x z : ℚ} {k i : ℕ} :
    Photo.SeenAt (M.geometry b c f.size.1 f.size.2) (photoConfig M.E.F c f.size.1 f.size.2)
      f.photo.naxis1.toNat f.photo.naxis2.toNat pt x z i k ↔ SeenAt M b f c pt x z k i :=
  Iff.rfl

theorem photoShare_unique {b : Body} {c : PhotoCmd} {pt : Loc} {y y' : Dbl} {w w' : ℕ}
    (h : PhotoShare M b c pt y w) (h' : PhotoShare M b c pt y' w') : y = y' ∧ w = w' := by
  obtain ⟨f, hf, -, x, z, k, i, hs, hv, rfl⟩ := h
  obtain ⟨f', hf', -, x', z', k', i', hs', hv', rfl⟩ := h'
  rw [hf] at hf'
  cases hf'
  obtain ⟨rfl, rfl, rfl, rfl⟩ := Photo.seen_unique (seenAt_iff.2 hs) (seenAt_iff.2 hs')
  exact ⟨valueAt_unique hv hv', rfl⟩

/-- What reading a photo gives, whichever way it ends. -/
theorem MadePhoto.cases (hF : M.E.F = .ieee) {b : Body} {f : Fits} {c : PhotoCmd}
    {im : Photo.Img Loc} (hm : MadePhoto M b f c im) (hp : PlainPhoto M c) {pt : Loc}
    {d w₀ : Dbl} (hd : d ≠ .nan) {scan found : Bool} {y w : Dbl}
    (hr : Photo.readWeighted im pt d w₀ scan = .ok (found, y, w)) :
    (found = true ∧ ∃ n, PhotoShare M b c pt y n ∧ (scan = true → w = .fin (n : ℚ))) ∨
    (found = false ∧ (∀ y n, ¬ PhotoShare M b c pt y n) ∧
      ((∃ x z k i, SeenAt M b f c pt x z k i) ∨ y = d)) := by
  obtain ⟨hf, e, img, samples, lines, p', h, hn⟩ := hm
  obtain ⟨e1, e2, h63, hnr, hnb, -, -, hpix⟩ := photo_pixels hF hp hf h
  have hb : Photo.Built img samples lines (photoConfig M.E.F c f.size.1 f.size.2)
      (M.geometry b c f.size.1 f.size.2) im := ⟨hn, by omega, hnr, hnb⟩
  obtain ⟨-, hs2, hl2, hlen, -, -⟩ := hb.facts
  by_cases hs : ∃ x z k i, SeenAt M b f c pt x z k i
  · obtain ⟨x, z, k, i, hs⟩ := hs
    have hs' := seenAt_iff.2 hs
    rw [e1, e2] at hs'
    obtain ⟨⟨-, g1, g2, g3, g4⟩, g5, g6, g7, g8, -⟩ := id hs'
    have hi : i < samples := by omega
    have hk : k < lines := by omega
    have hlt : k * samples + i < img.length := by
      rw [hlen]
      calc k * samples + i < k * samples + samples := by omega
        _ = (k + 1) * samples := by ring
        _ ≤ lines * samples := Nat.mul_le_mul_right _ hk
        _ = samples * lines := Nat.mul_comm _ _
    obtain ⟨ok, d1, hint, hval⟩ := interpolated hF e1 e2 hlen h63 hnr hnb hs2 hl2 hpix g1 g2 g3 g4
      hi hk g5 g7 (List.getElem?_eq_getElem hlt)
    have hr' := hr
    rw [Photo.read_seen hb rfl hd hs' (List.getElem?_eq_getElem hlt), hint] at hr
    have hbind : ∀ g : Bool × Dbl → Outcome (Bool × Dbl × Dbl),
        (Outcome.ok (ok, d1)).bind g = g (ok, d1) := fun _ => rfl
    rw [hbind] at hr
    have hno : (ok = false ∨ d1 = .nan) → ∀ y n, ¬ PhotoShare M b c pt y n := by
      rintro ho y n ⟨f', hf', hy, x', z', k', i', hs2, hv, -⟩
      rw [hf] at hf'
      cases hf'
      obtain ⟨rfl, rfl, rfl, rfl⟩ := Photo.seen_unique (seenAt_iff.2 hs) (seenAt_iff.2 hs2)
      obtain ⟨a1, a2⟩ := (hval y).2 hv
      rcases ho with ho | ho
      · rw [a1] at ho; cases ho
      · exact hy (a2 ▸ ho)
    have hnan : ∀ d : Dbl, d.isNaN = true ↔ d = .nan := by intro d; cases d <;> simp [Dbl.isNaN]
    split at hr
    · rename_i hc
      simp only [Bool.or_eq_true, Bool.not_eq_true', hnan] at hc
      simp only [Outcome.ok.injEq, Prod.mk.injEq] at hr
      exact .inr ⟨hr.1.symm, hno hc, .inl ⟨x, z, k, i, hs⟩⟩
    · rename_i hc
      simp only [Bool.or_eq_true, Bool.not_eq_true', hnan, not_or, Bool.not_eq_false] at hc
      have hfy : found = true ∧ y = d1 := by
        split at hr
        · obtain ⟨n, -, h2⟩ := bind_ok_iff hr
          simp only [Outcome.ok.injEq, Prod.mk.injEq] at h2
          exact ⟨h2.1.symm, h2.2.1.symm⟩
        · simp only [Outcome.ok.injEq, Prod.mk.injEq] at hr
          exact ⟨hr.1.symm, hr.2.1.symm⟩
      obtain ⟨rfl, rfl⟩ := hfy
      refine .inl ⟨rfl, pixelWeight f c k i,
        ⟨f, hf, hc.2, x, z, k, i, hs, (hval y).1 ⟨hc.1, rfl⟩, rfl⟩, ?_⟩
      rintro rfl
      rw [Photo.read_weight hb hs' hr']
      unfold Photo.weightOf pixelWeight
      rw [e1, e2]
      rfl
  · have hns : ∀ x z i k, ¬ Photo.SeenAt (M.geometry b c f.size.1 f.size.2)
        (photoConfig M.E.F c f.size.1 f.size.2) samples lines pt x z i k := by
      intro x z i k h
      rw [← e1, ← e2] at h
      exact hs ⟨x, z, k, i, seenAt_iff.1 h⟩
    have := Photo.read_unseen hb hd hns hr
    simp only [Prod.mk.injEq] at this
    refine .inr ⟨this.1, ?_, .inr this.2.1⟩
    rintro y n ⟨f', hf', -, x', z', k', i', hs2, -, -⟩
    rw [hf] at hf'
    cases hf'
    exact hs ⟨_, _, _, _, hs2⟩

theorem read_of {im : Photo.Img Loc} {pt : Loc} {d y : Dbl} {found : Bool}
    (h : Photo.read im pt d = .ok (found, y)) :
    ∃ w, Photo.readWeighted im pt d (.fin 1) false = .ok (found, y, w) := by
  unfold Photo.read at h
  obtain ⟨⟨a, b, w⟩, h1, h2⟩ := bind_ok_iff h
  simp only [Outcome.ok.injEq, Prod.mk.injEq] at h2
  obtain ⟨rfl, rfl⟩ := h2
  exact ⟨w, h1⟩

/-- What the image made of a photo reads. -/
theorem photo_reads (hF : M.E.F = .ieee) {b : Body} {f : Fits} {c : PhotoCmd}
    {im : Photo.Img Loc} (hm : MadePhoto M b f c im) (hp : PlainPhoto M c) {pt : Loc}
    {found : Bool} {y : Dbl} (hr : Photo.read im pt (.fin 0) = .ok (found, y)) (x : Dbl) :
    (found = true ∧ y = x) ↔ PhotoDatum M b c pt x := by
  obtain ⟨w, hw⟩ := read_of hr
  rcases hm.cases hF hp (by simp) hw with ⟨rfl, n, hs, -⟩ | ⟨rfl, hn, -⟩
  · constructor
    · rintro ⟨-, rfl⟩; exact ⟨n, hs⟩
    · rintro ⟨n', hs'⟩; exact ⟨rfl, (photoShare_unique hs hs').1⟩
  · constructor
    · rintro ⟨h, -⟩; cases h
    · rintro ⟨n, hs⟩; exact absurd hs (hn _ _)

/-! ## Mosaics -/

theorem shares_exists (b : Body) (pt : Loc) : ∀ cs, ∃ ys, Shares M b pt cs ys
  | [] => ⟨[], .nil⟩
  | c :: cs => by
    obtain ⟨ys, h⟩ := shares_exists b pt cs
    by_cases hc : ∃ y w, PhotoShare M b c pt y w
    · obtain ⟨y, w, hc⟩ := hc
      exact ⟨_, .has hc h⟩
    · exact ⟨_, .hasNot (fun y w hy => hc ⟨y, w, hy⟩) h⟩

theorem shares_unique {b : Body} {pt : Loc} : ∀ {cs ys ys'}, Shares M b pt cs ys →
    Shares M b pt cs ys' → ys = ys'
  | [], _, _, .nil, .nil => rfl
  | _ :: _, _, _, .has h1 h2, .has h3 h4 => by
    obtain ⟨rfl, rfl⟩ := photoShare_unique h1 h3
    rw [shares_unique h2 h4]
  | _ :: _, _, _, .has h1 _, .hasNot h3 _ => absurd h1 (h3 _ _)
  | _ :: _, _, _, .hasNot h1 _, .has h3 _ => absurd h3 (h1 _ _)
  | _ :: _, _, _, .hasNot _ h2, .hasNot _ h4 => shares_unique h2 h4

/-- The images of the photos of a mosaic. -/
def Photos (M : Machine) (b : Body) (cs : List PhotoCmd) (ims : List (Option (Photo.Img Loc))) :
    Prop :=
  List.Forall₂ (fun c o => ∃ f im, o = some im ∧ MadePhoto M b f c im) cs ims

theorem clear_tail {b : Body} {c : PhotoCmd} {cs : List PhotoCmd} {pt : Loc}
    (h : Clear M b (c :: cs) pt) : Clear M b cs pt :=
  fun c' hc' => h c' (List.mem_cons_of_mem _ hc')

theorem clear_keeps {b : Body} {c : PhotoCmd} {cs : List PhotoCmd} {pt : Loc} {f : Fits} {y d : Dbl}
    (h : Clear M b (c :: cs) pt) (hf : M.fits c.file = some f)
    (hn : ∀ y n, ¬ PhotoShare M b c pt y n)
    (hs : (∃ x z k i, SeenAt M b f c pt x z k i) ∨ y = d) : y = d := by
  rcases hs with ⟨x, z, k, i, hs⟩ | hs
  · obtain ⟨y, w, hy⟩ := h c (by simp) f x z k i hf hs
    exact absurd hy (hn y w)
  · exact hs

theorem share_ne {b : Body} {c : PhotoCmd} {pt : Loc} {y : Dbl} {n : ℕ}
    (h : PhotoShare M b c pt y n) : y ≠ .nan := h.choose_spec.2.1

theorem firstRead_shares (hF : M.E.F = .ieee) {b : Body} {pt : Loc} :
    ∀ {cs : List PhotoCmd} {ims : List (Option (Photo.Img Loc))} {d y : Dbl} {n : ℕ},
    Photos M b cs ims → (∀ c ∈ cs, PlainPhoto M c) → Clear M b cs pt → d ≠ .nan →
    Compositing.firstRead (ims.map (readOne pt)) d = .ok (n, y) →
    ∃ ys, Shares M b pt cs ys ∧ ((n = 0 ∧ ys = []) ∨ (n = 1 ∧ ys.head?.map Prod.fst = some y))
  | [], _, d, y, n, .nil, _, _, _, h => by
    cases h; exact ⟨[], .nil, .inl ⟨rfl, rfl⟩⟩
  | c :: cs, _, d, y, n, .cons ⟨f, im, ho, hm⟩ hrest, hp, hcl, hd, h => by
    subst ho
    simp only [List.map_cons, Compositing.firstRead] at h
    obtain ⟨⟨found, y1⟩, h1, h2⟩ := bind_ok_iff h
    obtain ⟨w, hw⟩ := read_of h1
    rcases hm.cases hF (hp c (by simp)) hd hw with ⟨rfl, k, hs, -⟩ | ⟨rfl, hn, hk⟩
    · cases h2
      obtain ⟨ys, hys⟩ := shares_exists (M := M) b pt cs
      exact ⟨_, .has hs hys, .inr ⟨rfl, rfl⟩⟩
    · have := clear_keeps hcl hm.fits hn hk
      subst this
      obtain ⟨ys, hys, h3⟩ := firstRead_shares hF hrest (fun c hc => hp c (by simp [hc])) (clear_tail hcl)
        hd h2
      exact ⟨ys, .hasNot hn hys, h3⟩

theorem sumLoop_shares (hF : M.E.F = .ieee) {b : Body} {pt : Loc} {L : Fp} :
    ∀ {cs : List PhotoCmd} {ims : List (Option (Photo.Img Loc))} {s s' d d' : Dbl} {n n' : ℕ},
    Photos M b cs ims → (∀ c ∈ cs, PlainPhoto M c) → Clear M b cs pt → d ≠ .nan →
    Compositing.sumLoop L (ims.map (readOne pt)) (s, n, d) = .ok (s', n', d') →
    ∃ ys, Shares M b pt cs ys ∧ s' = (ys.map Prod.fst).foldl L.add s ∧ n' = n + ys.length ∧
      d' = (ys.getLast?.map Prod.fst).getD d
  | [], _, s, s', d, d', n, n', .nil, _, _, _, h => by
    cases h; exact ⟨[], .nil, rfl, rfl, rfl⟩
  | c :: cs, _, s, s', d, d', n, n', .cons ⟨f, im, ho, hm⟩ hrest, hp, hcl, hd, h => by
    subst ho
    simp only [List.map_cons, Compositing.sumLoop] at h
    obtain ⟨⟨found, y1⟩, h1, h2⟩ := bind_ok_iff h
    obtain ⟨w, hw⟩ := read_of h1
    rcases hm.cases hF (hp c (by simp)) hd hw with ⟨rfl, k, hs, -⟩ | ⟨rfl, hn, hk⟩
    · simp only [if_true] at h2
      obtain ⟨ys, hys, rfl, rfl, rfl⟩ := sumLoop_shares hF hrest
        (fun c hc => hp c (by simp [hc])) (clear_tail hcl) (share_ne hs) h2
      refine ⟨_, .has hs hys, rfl, by simp; omega, ?_⟩
      cases ys with
      | nil => rfl
      | cons q qs => simp [List.getLast?_eq_some_getLast]
    · have := clear_keeps hcl hm.fits hn hk
      subst this
      simp only [Bool.false_eq_true, if_false] at h2
      obtain ⟨ys, hys, h3⟩ := sumLoop_shares hF hrest (fun c hc => hp c (by simp [hc])) (clear_tail hcl)
        hd h2
      exact ⟨ys, .hasNot hn hys, h3⟩

theorem wsumLoop_shares (hF : M.E.F = .ieee) {b : Body} {pt : Loc} {L : Fp} :
    ∀ {cs : List PhotoCmd} {ims : List (Option (Photo.Img Loc))} {s s' v v' d d' : Dbl} {n n' : ℕ},
    Photos M b cs ims → (∀ c ∈ cs, PlainPhoto M c) → Clear M b cs pt → d ≠ .nan →
    Compositing.wsumLoop L .ieee (ims.map (readOneWeighted pt)) (s, v, n, d) =
      .ok (s', v', n', d') →
    ∃ ys, Shares M b pt cs ys ∧
      s' = (ys.map fun q => Fp.ieee.mul (.fin (q.2 : ℚ)) q.1).foldl L.add s ∧
      v' = (ys.map fun q => Dbl.fin (q.2 : ℚ)).foldl L.add v ∧ n' = n + ys.length ∧
      d' = (ys.getLast?.map Prod.fst).getD d
  | [], _, s, s', v, v', d, d', n, n', .nil, _, _, _, h => by
    cases h; exact ⟨[], .nil, rfl, rfl, rfl, rfl⟩
  | c :: cs, _, s, s', v, v', d, d', n, n', .cons ⟨f, im, ho, hm⟩ hrest, hp, hcl, hd, h => by
    subst ho
    simp only [List.map_cons, Compositing.wsumLoop] at h
    obtain ⟨⟨found, y1, w⟩, hw, h2⟩ := bind_ok_iff h
    rcases hm.cases hF (hp c (by simp)) hd hw with ⟨rfl, k, hs, hwt⟩ | ⟨rfl, hn, hk⟩
    · simp only [if_true] at h2
      obtain ⟨ys, hys, rfl, rfl, rfl, rfl⟩ := wsumLoop_shares hF hrest
        (fun c hc => hp c (by simp [hc])) (clear_tail hcl) (share_ne hs) h2
      rw [hwt rfl]
      refine ⟨_, .has hs hys, rfl, rfl, by simp; omega, ?_⟩
      cases ys with
      | nil => rfl
      | cons q qs => simp [List.getLast?_eq_some_getLast]
    · have := clear_keeps hcl hm.fits hn hk
      subst this
      simp only [Bool.false_eq_true, if_false] at h2
      obtain ⟨ys, hys, h3⟩ := wsumLoop_shares hF hrest (fun c hc => hp c (by simp [hc])) (clear_tail hcl)
        hd h2
      exact ⟨ys, .hasNot hn hys, h3⟩

theorem narrow_ieee (d : Dbl) : Compositing.narrow .ieee d = toDouble d := by
  cases d <;> rfl

theorem average_unique {L : Fp} {a : Averaging} {ys : List (Dbl × ℕ)} {y y' : Dbl}
    (h : average L a ys y) (h' : average L a ys y') : y = y' := by
  cases a with
  | none =>
    have h : ys.head?.map Prod.fst = some y := h
    have h' : ys.head?.map Prod.fst = some y' := h'
    exact Option.some.inj (h.symm.trans h')
  | unweighted =>
    simp only [average] at h h'
    split at h
    · rename_i hc
      rw [if_pos hc] at h'
      exact Option.some.inj (h.symm.trans h')
    · rename_i hc
      rw [if_neg hc] at h'
      rw [h.2, h'.2]
  | weighted =>
    simp only [average] at h h'
    split at h
    · rename_i hc
      rw [if_pos hc] at h'
      rw [h, h']
    · rename_i hc
      rw [if_neg hc] at h'
      exact Option.some.inj (h.symm.trans h')

/-- What a mosaic reads at a point. -/
theorem mosaic_reads (hF : M.E.F = .ieee) {b : Body} {cs : List PhotoCmd} {a : Averaging}
    {ims : List (Option (Photo.Img Loc))} (hm : Photos M b cs ims) (hp : ∀ c ∈ cs, PlainPhoto M c)
    {pt : Loc} (hcl : Clear M b cs pt) {found : Bool} {y : Dbl}
    (hr : Compositing.mosaicRead (composite M.E.F M.L a ims pt) (.fin 0) = .ok (found, y))
    (x : Dbl) : (found = true ∧ y = x) ↔ MosaicDatum M b cs a pt x := by
  have key : ∃ ys, Shares M b pt cs ys ∧ ((found = true ∧ average M.L a ys y) ∨
      (found = false ∧ ys = [])) := by
    rw [hF] at hr
    unfold Compositing.mosaicRead at hr
    obtain ⟨⟨n, y1⟩, h1, h2⟩ := bind_ok_iff hr
    simp only [Outcome.ok.injEq, Prod.mk.injEq] at h2
    obtain ⟨rfl, rfl⟩ := h2
    cases a with
    | none =>
      obtain ⟨ys, hys, h3⟩ := firstRead_shares hF hm hp hcl (by simp) h1
      refine ⟨ys, hys, ?_⟩
      rcases h3 with ⟨rfl, rfl⟩ | ⟨rfl, h3⟩
      · exact .inr ⟨by simp, rfl⟩
      · exact .inl ⟨by simp, h3⟩
    | unweighted =>
      simp only [composite, Compositing.unweighted] at h1
      obtain ⟨⟨s, n', d'⟩, h3, h4⟩ := bind_ok_iff h1
      obtain ⟨ys, hys, rfl, rfl, rfl⟩ := sumLoop_shares hF hm hp hcl (by simp) h3
      refine ⟨ys, hys, ?_⟩
      simp only [Nat.zero_add] at h4
      rcases ys with _ | ⟨q, _ | ⟨q', qs⟩⟩
      · simp at h4
        exact .inr ⟨by simp [← h4.1], rfl⟩
      · simp at h4
        refine .inl ⟨by simp [← h4.1], ?_⟩
        simp [average, h4.2]
      · rw [if_pos (by simp)] at h4
        simp only [Outcome.ok.injEq, Prod.mk.injEq] at h4
        obtain ⟨rfl, rfl⟩ := h4
        refine .inl ⟨by simp, ?_⟩
        simp [average, narrow_ieee]
    | weighted =>
      simp only [composite, Compositing.weighted] at h1
      obtain ⟨⟨s, v, n', d'⟩, h3, h4⟩ := bind_ok_iff h1
      obtain ⟨ys, hys, rfl, rfl, rfl, rfl⟩ := wsumLoop_shares hF hm hp hcl (by simp) h3
      refine ⟨ys, hys, ?_⟩
      simp only [Nat.zero_add] at h4
      by_cases hc : 1 < ys.length ∧
          Dbl.lt (.fin 0) ((ys.map fun q => Dbl.fin (q.2 : ℚ)).foldl M.L.add (.fin 0)) = true
      · rw [if_pos (by simpa [Dbl.gt] using hc)] at h4
        simp only [Outcome.ok.injEq, Prod.mk.injEq] at h4
        obtain ⟨rfl, rfl⟩ := h4
        refine .inl ⟨by simp; omega, ?_⟩
        simp only [average]
        rw [if_pos hc, narrow_ieee]
      · rw [if_neg (by simpa [Dbl.gt] using hc)] at h4
        simp only [Outcome.ok.injEq, Prod.mk.injEq] at h4
        obtain ⟨rfl, rfl⟩ := h4
        cases ys with
        | nil => exact .inr ⟨by simp, rfl⟩
        | cons q qs =>
          refine .inl ⟨by simp, ?_⟩
          simp only [average]
          rw [if_neg hc]
          simp [List.getLast?_eq_some_getLast]
  have hnil : ∀ x, ¬ average M.L a [] x := by
    intro x h
    cases a <;> simp [average] at h
  obtain ⟨ys, hys, ⟨rfl, h⟩ | ⟨rfl, rfl⟩⟩ := key
  · constructor
    · rintro ⟨-, rfl⟩; exact ⟨ys, hys, h⟩
    · rintro ⟨ys', hys', h'⟩
      rw [shares_unique hys hys'] at h
      exact ⟨rfl, average_unique h h'⟩
  · constructor
    · rintro ⟨h, -⟩; cases h
    · rintro ⟨ys', hys', h'⟩
      rw [← shares_unique hys hys'] at h'
      exact absurd h' (hnil x)

theorem openPhotos_ok : ∀ {cs : List PhotoCmd} {xs : List (Fits × PhotoCmd)},
    openPhotos M cs = .ok xs →
    List.Forall₂ (fun c x => M.fits c.file = some x.1 ∧ x.2 = c) cs xs
  | [], _, h => by cases h; exact .nil
  | c :: cs, _, h => by
    obtain ⟨x, h1, h2⟩ := bind_ok_iff h
    obtain ⟨xs, h3, h4⟩ := bind_ok_iff h2
    cases h4
    refine .cons ?_ (openPhotos_ok h3)
    unfold openPhoto at h1
    cases hff : M.fits c.file with
    | none => simp [hff] at h1
    | some f0 =>
      simp only [hff, Outcome.ok.injEq] at h1
      subst h1
      exact ⟨rfl, rfl⟩

theorem mosaicPhoto_made {b : Body} {f : Fits} {c : PhotoCmd} {o : Option (Photo.Img Loc)}
    {e : Extrema} (hf : M.fits c.file = some f) (h1 : (mosaicPhoto M b (f, c)).make = .ok (o, e)) :
    ∃ f im, o = some im ∧ MadePhoto M b f c im := by
  unfold mosaicPhoto at h1
  simp only at h1
  obtain ⟨⟨o', p'⟩, h6, h7⟩ := bind_ok_iff h1
  cases o' with
  | none => exact absurd h6 (make_some rfl rfl)
  | some img =>
    obtain ⟨img, samples, lines⟩ := img
    simp only at h7
    obtain ⟨im, h8, h9⟩ := bind_ok_iff h7
    cases h9
    exact ⟨f, im, rfl, hf, _, _, _, _, _, h6, h8⟩

theorem mosaicLoop_photos {b : Body} {cs : List PhotoCmd} {xs : List (Fits × PhotoCmd)}
    (hx : List.Forall₂ (fun c x => M.fits c.file = some x.1 ∧ x.2 = c) cs xs) :
    ∀ {ex ex' : Extrema} {v v' u u' : Bool} {ph ph' : List (Option (Photo.Img Loc))},
    MaRC.Factory.mosaicLoop (xs.map (mosaicPhoto M b)) (ex, v, u, ph) = .ok (ex', v', u', ph') →
    (∃ ims, ph' = ph ++ ims ∧ Photos M b cs ims) ∧
      (xs ≠ [] ∨ (v = false ∧ u = false) → v' = false ∧ u' = false) := by
  induction hx with
  | nil =>
    intro ex ex' v v' u u' ph ph' h
    cases h
    exact ⟨⟨[], by simp, .nil⟩, fun h => h.resolve_left (by simp)⟩
  | @cons c x cs xs hcx hrest ih =>
    intro ex ex' v v' u u' ph ph' h
    obtain ⟨f, c'⟩ := x
    obtain ⟨hf, hx⟩ := hcx
    simp only at hx hf
    subst hx
    rw [List.map_cons, MaRC.Factory.mosaicLoop] at h
    obtain ⟨⟨o, e⟩, h1, h2⟩ := bind_ok_iff h
    obtain ⟨⟨ims, h3, h4⟩, h5⟩ := ih h2
    refine ⟨⟨o :: ims, by simp [h3], .cons (mosaicPhoto_made hf h1) h4⟩, fun _ => h5 (.inr ?_)⟩
    have e1 : (mosaicPhoto M b (f, c')).before = ⟨none, none⟩ := rfl
    rw [e1]
    simp

theorem mosaicMake_photos {b : Body} {cs : List PhotoCmd} {xs : List (Fits × PhotoCmd)}
    {e e' : Extrema} {ims : List (Option (Photo.Img Loc))} (hne : xs ≠ [])
    (hx : List.Forall₂ (fun c x => M.fits c.file = some x.1 ∧ x.2 = c) cs xs)
    (h : MaRC.Factory.mosaicMake e (xs.map (mosaicPhoto M b)) = .ok (ims, e')) :
    e' = e ∧ Photos M b cs ims := by
  unfold MaRC.Factory.mosaicMake at h
  obtain ⟨⟨ex, v, u, ph⟩, h1, h2⟩ := bind_ok_iff h
  obtain ⟨⟨ims', h3, h4⟩, h5⟩ := mosaicLoop_photos hx h1
  obtain ⟨rfl, rfl⟩ := h5 (.inl hne)
  simp only [Bool.false_eq_true, if_false, Outcome.bind_ok, Outcome.ok.injEq,
    Prod.mk.injEq] at h2
  obtain ⟨rfl, rfl⟩ := h2
  simp only [List.nil_append] at h3
  subst h3
  exact ⟨rfl, h4⟩

/-! ## Planes -/

theorem setMinimum_ok {e e' : Extrema} {m : Dbl} (h : MaRC.Factory.setMinimum e m = .ok e') :
    e'.min = e.min.or (some m) ∧ e'.max = e.max := by
  unfold MaRC.Factory.setMinimum at h
  cases hm : e.min with
  | some x => simp [hm] at h; subst h; simp [hm]
  | none =>
    simp only [hm, Option.isNone_none, if_true, Extrema.setMinimum, Extrema.validateMinimum] at h
    split_ifs at h with hn
    · cases h
    · simp only [MapType.minimum, Outcome.bind_ok, Outcome.ok.injEq] at h
      subst h; simp

theorem setMaximum_ok {e e' : Extrema} {m : Dbl} (h : MaRC.Factory.setMaximum e m = .ok e') :
    e'.max = e.max.or (some m) ∧ e'.min = e.min := by
  unfold MaRC.Factory.setMaximum at h
  cases hm : e.max with
  | some x => simp [hm] at h; subst h; simp [hm]
  | none =>
    simp only [hm, Option.isNone_none, if_true, Extrema.setMaximum, Extrema.validateMaximum] at h
    split_ifs at h with hn
    · cases h
    · simp only [MapType.maximum, Outcome.bind_ok, Outcome.ok.injEq] at h
      subst h; simp

theorem userLimits {p : PlaneImage} {e₀ e : Extrema}
    (h1 : MaRC.Factory.optMinimum .empty p.minimum = .ok e₀)
    (h2 : MaRC.Factory.optMaximum e₀ p.maximum = .ok e) : e.min = p.minimum ∧ e.max = p.maximum := by
  have a : e₀.min = p.minimum ∧ e₀.max = none := by
    cases hm : p.minimum with
    | none => rw [hm] at h1; cases h1; exact ⟨rfl, rfl⟩
    | some m =>
      rw [hm] at h1
      obtain ⟨a1, a2⟩ := setMinimum_ok h1
      exact ⟨by rw [a1]; rfl, a2⟩
  cases hm : p.maximum with
  | none => rw [hm] at h2; cases h2; exact a
  | some m =>
    rw [hm] at h2
    obtain ⟨b1, b2⟩ := setMaximum_ok h2
    exact ⟨b2.trans a.1, by rw [b1, a.2]; rfl⟩

/-- A computed image, with the scale and offset found. -/
theorem virtual_made {kind : Kind} {low high : ℚ} {e : Extrema} {physical : Loc → Option Dbl}
    {T : MapType} {scale : Option (ℚ × ℚ)}
    (hs : ∀ v lo hi, makeVirtual .ieee T (.fin low) (.fin high) = .ok (v, lo, hi) →
      ∃ s : ℚ × ℚ, scale = some s ∧ v = ⟨.fin s.1, .fin s.2⟩)
    {r : Option (MapFactory.Plane Loc × Option VirtualImage)}
    (h : (virtualFactory .ieee kind (.fin low) (.fin high) e physical).make T = .ok r) :
    ∃ im, r = some im ∧
      im.1.minmax = ⟨e.min.or (scale.map (scaled (.fin low))),
        e.max.or (scale.map (scaled (.fin high)))⟩ ∧
      ∀ pt x, im.1.read pt (.fin 0) = .ok (true, x) ↔
        ∃ y s, physical pt = some y ∧ scale = some s ∧ x = scaled y s := by
  unfold virtualFactory at h
  simp only at h
  obtain ⟨⟨v, lo, hi⟩, h1, h2⟩ := bind_ok_iff h
  obtain ⟨s, rfl, rfl⟩ := hs _ _ _ h1
  obtain ⟨e1, h3, h4⟩ := bind_ok_iff h2
  obtain ⟨e2, h5, h6⟩ := bind_ok_iff h4
  cases h6
  obtain ⟨a1, a2⟩ := setMinimum_ok h3
  obtain ⟨b1, b2⟩ := setMaximum_ok h5
  have hlim : lo = scaled (.fin low) s ∧ hi = scaled (.fin high) s := by
    unfold makeVirtual at h1
    obtain ⟨o, -, h7⟩ := bind_ok_iff h1
    cases o with
    | none => cases h7
    | some o =>
      simp only [Outcome.ok.injEq, Prod.mk.injEq, VirtualImage.mk.injEq] at h7
      obtain ⟨⟨g1, g2⟩, rfl, rfl⟩ := h7
      unfold scaled
      rw [← g1, ← g2]
      exact ⟨rfl, rfl⟩
  obtain ⟨rfl, rfl⟩ := hlim
  refine ⟨_, rfl, ?_, ?_⟩
  · simp only [Option.map_some]
    obtain ⟨⟩ := e2
    simp only at b1 b2 ⊢
    rw [b1, b2, a1, a2]
  · intro pt x
    simp only [VirtualImage.asRead, VirtualImage.readData]
    cases hp : physical pt with
    | none => simp
    | some y =>
      simp only [Option.map_some, Outcome.ok.injEq, Prod.mk.injEq, true_and, Option.some.injEq]
      constructor
      · rintro rfl
        exact ⟨y, s, rfl, rfl, rfl⟩
      · rintro ⟨y', s', rfl, rfl, rfl⟩
        rfl

theorem latitude_scale (T : MapType) (v : VirtualImage) (lo hi : Dbl)
    (h : makeVirtual .ieee T (.fin (-90)) (.fin 90) = .ok (v, lo, hi)) :
    ∃ s : ℚ × ℚ, latitudeScale T = some s ∧ v = ⟨.fin s.1, .fin s.2⟩ := by
  have key : ∀ (s o : ℚ) {a b : Dbl}, makeVirtual .ieee T (.fin (-90)) (.fin 90) =
      .ok (⟨.fin s, .fin o⟩, a, b) → v = ⟨.fin s, .fin o⟩ := by
    intro s o a b h'
    rw [h] at h'
    simp only [Outcome.ok.injEq, Prod.mk.injEq] at h'
    exact h'.1
  cases T
  · exact ⟨_, rfl, key 1 90 (a := .fin 0) (b := .fin 180) (by decide +kernel)⟩
  · exact ⟨_, rfl, key 100 0 (a := .fin (-9000)) (b := .fin 9000) (by decide +kernel)⟩
  · exact ⟨_, rfl, key _ 0 (a := .fin (-90 * 10 ^ 7)) (b := .fin (90 * 10 ^ 7)) (by decide +kernel)⟩
  · exact ⟨_, rfl, key _ 0 (a := .fin (-90 * 10 ^ 16)) (b := .fin (90 * 10 ^ 16))
      (by decide +kernel)⟩
  · exact ⟨_, rfl, key 1 0 (a := .fin (-90)) (b := .fin 90) (by decide +kernel)⟩
  · exact ⟨_, rfl, key 1 0 (a := .fin (-90)) (b := .fin 90) (by decide +kernel)⟩

theorem longitude_scale (T : MapType) (v : VirtualImage) (lo hi : Dbl)
    (h : makeVirtual .ieee T (.fin 0) (.fin 360) = .ok (v, lo, hi)) :
    ∃ s : ℚ × ℚ, longitudeScale T = some s ∧ v = ⟨.fin s.1, .fin s.2⟩ := by
  have key : ∀ (s o : ℚ) {a b : Dbl}, makeVirtual .ieee T (.fin 0) (.fin 360) =
      .ok (⟨.fin s, .fin o⟩, a, b) → v = ⟨.fin s, .fin o⟩ := by
    intro s o a b h'
    rw [h] at h'
    simp only [Outcome.ok.injEq, Prod.mk.injEq] at h'
    exact h'.1
  cases T
  · have : makeVirtual .ieee .u8 (.fin 0) (.fin 360) = .throw .rangeError := by decide +kernel
    rw [this] at h
    cases h
  · exact ⟨_, rfl, key 100 (-18000) (a := .fin (-18000)) (b := .fin 18000) (by decide +kernel)⟩
  · exact ⟨_, rfl, key _ _ (a := .fin (-180 * 10 ^ 7)) (b := .fin (180 * 10 ^ 7))
      (by decide +kernel)⟩
  · exact ⟨_, rfl, key _ 0 (a := .fin 0) (b := .fin (360 * 10 ^ 16)) (by decide +kernel)⟩
  · exact ⟨_, rfl, key 1 0 (a := .fin 0) (b := .fin 360) (by decide +kernel)⟩
  · exact ⟨_, rfl, key 1 0 (a := .fin 0) (b := .fin 360) (by decide +kernel)⟩

theorem cosine_scale (T : MapType) (v : VirtualImage) (lo hi : Dbl)
    (h : makeVirtual .ieee T (.fin (-1)) (.fin 1) = .ok (v, lo, hi)) :
    ∃ s : ℚ × ℚ, cosineScale T = some s ∧ v = ⟨.fin s.1, .fin s.2⟩ := by
  have key : ∀ (s o : ℚ) {a b : Dbl}, makeVirtual .ieee T (.fin (-1)) (.fin 1) =
      .ok (⟨.fin s, .fin o⟩, a, b) → v = ⟨.fin s, .fin o⟩ := by
    intro s o a b h'
    rw [h] at h'
    simp only [Outcome.ok.injEq, Prod.mk.injEq] at h'
    exact h'.1
  cases T
  · exact ⟨_, rfl, key 100 100 (a := .fin 0) (b := .fin 200) (by decide +kernel)⟩
  · exact ⟨_, rfl, key _ 0 (a := .fin (-10000)) (b := .fin 10000) (by decide +kernel)⟩
  · exact ⟨_, rfl, key _ 0 (a := .fin (-10 ^ 9)) (b := .fin (10 ^ 9)) (by decide +kernel)⟩
  · exact ⟨_, rfl, key _ 0 (a := .fin (-10 ^ 18)) (b := .fin (10 ^ 18)) (by decide +kernel)⟩
  · exact ⟨_, rfl, key 1 0 (a := .fin (-1)) (b := .fin 1) (by decide +kernel)⟩
  · exact ⟨_, rfl, key 1 0 (a := .fin (-1)) (b := .fin 1) (by decide +kernel)⟩

theorem mkExtrema {e : Extrema} {a b : Option Dbl} (h1 : e.min = a) (h2 : e.max = b) :
    e = ⟨a, b⟩ := by
  cases e; simp only at h1 h2; rw [h1, h2]

/-- An image reads at a point as a plane's entries ask for. -/
def Reads (M : Machine) (T : MapType) (b : Body) (s : Grammar.Source)
    (im : MapFactory.Plane Loc) : Prop :=
  ∀ pt found y, CoveredAt M b pt s → im.read pt (.fin 0) = .ok (found, y) →
    ∀ x, im.read pt (.fin 0) = .ok (true, x) ↔ HasDatum M T b s pt x

/-- The image of a plane is made, and reads as its entries ask for. -/
theorem planeFactory_made (hF : M.E.F = .ieee) {b : Body} {p : PlaneImage}
    {f : Execute.Factory Loc} (h : planeFactory M b p = .ok f) {T : MapType}
    {r : Option (MapFactory.Plane Loc × Option VirtualImage)} (hm : f.make T = .ok r) :
    ∃ im, r = some im ∧ (Covered M p.source →
      im.1.minmax = limits M T p ∧ Reads M T b p.source im.1) := by
  obtain ⟨e₀, e, h1, h2, h3⟩ := planeFactory_ok h
  obtain ⟨l1, l2⟩ := userLimits h1 h2
  unfold limits
  rw [← l1, ← l2]
  cases hs : p.source with
  | photos ps =>
    rw [hs] at h3
    cases ps with
    | single c =>
      obtain ⟨⟨ff, c'⟩, h4, h5⟩ := bind_ok_iff h3
      cases h5
      unfold openPhoto at h4
      cases hff : M.fits c.file with
      | none => simp [hff] at h4
      | some f0 =>
        simp only [hff, Outcome.ok.injEq, Prod.mk.injEq] at h4
        obtain ⟨rfl, rfl⟩ := h4
        unfold oneFactory photoFactory at hm
        simp only at hm
        obtain ⟨⟨o, p'⟩, h6, h7⟩ := bind_ok_iff hm
        have h6 : (photoSettings M b f0 c e).make M.E.F = .ok (o, p') := h6
        cases o with
        | none => exact absurd h6 (make_some rfl rfl)
        | some img =>
          obtain ⟨img, samples, lines⟩ := img
          simp only at h7
          obtain ⟨im, h8, h9⟩ := bind_ok_iff h7
          cases h9
          refine ⟨_, rfl, fun hc => ?_⟩
          have hc : PlainPhoto M c := hc
          obtain ⟨-, -, -, -, -, g1, g2, -⟩ := photo_pixels hF hc hff h6
          refine ⟨?_, fun pt found y _ hr x => ?_⟩
          · simp only [ownLimits, hff, Option.bind_some]
            exact mkExtrema g1 g2
          · have : (found = true ∧ y = x) ↔ HasDatum M T b (.photos (.single c)) pt x :=
              photo_reads hF ⟨hff, _, _, _, _, _, h6, h8⟩ hc hr x
            rw [hr, ← this]
            simp
    | mosaic cs a =>
      obtain ⟨xs, h4, h5⟩ := bind_ok_iff h3
      split at h5
      · cases h5
      · rename_i hlen
        cases h5
        obtain ⟨⟨ims, e'⟩, h6, h7⟩ := bind_ok_iff hm
        cases h7
        obtain ⟨rfl, hph⟩ := mosaicMake_photos (by rintro rfl; simp at hlen) (openPhotos_ok h4) h6
        refine ⟨_, rfl, fun hc => ⟨?_, fun pt found y hcl hr x => ?_⟩⟩
        · simp only [ownLimits, Extrema.empty, Option.or_none]
        · have : (found = true ∧ y = x) ↔ HasDatum M T b (.photos (.mosaic cs a)) pt x :=
            mosaic_reads hF hph hc hcl hr x
          rw [hr, ← this]
          simp
  | latitude g =>
    rw [hs] at h3
    unfold sourceFactory at h3
    cases h3
    rw [hF] at hm
    obtain ⟨im, h4, h5, h6⟩ := virtual_made (latitude_scale T) hm
    exact ⟨im, h4, fun _ => ⟨h5, fun pt _ _ _ _ x => h6 pt x⟩⟩
  | longitude =>
    rw [hs] at h3
    unfold sourceFactory at h3
    cases h3
    rw [hF] at hm
    obtain ⟨im, h4, h5, h6⟩ := virtual_made (longitude_scale T) hm
    exact ⟨im, h4, fun _ => ⟨h5, fun pt _ _ _ _ x => h6 pt x⟩⟩
  | _ =>
    rw [hs] at h3
    unfold sourceFactory at h3
    cases h3
    rw [hF] at hm
    obtain ⟨im, h4, h5, h6⟩ := virtual_made (cosine_scale T) hm
    exact ⟨im, h4, fun _ => ⟨h5, fun pt _ _ _ _ x => h6 pt x⟩⟩

/-- The images of the planes, in order. -/
theorem planes_made (hF : M.E.F = .ieee) {b : Body} {T : MapType} :
    ∀ {ps : List PlaneImage} {fs : List (Execute.Factory Loc)}
      {ims : List (MapFactory.Plane Loc × Option VirtualImage)},
    List.Forall₂ (fun p f => planeFactory M b p = .ok f) ps fs → MadeImages T fs ims →
    List.Forall₂ (fun p im => Covered M p.source → im.1.minmax = limits M T p ∧ Reads M T b p.source im.1)
      ps ims
  | [], _, ims, .nil, h => by cases h; exact .nil
  | p :: ps, f :: fs, ims, .cons h1 h2, h => by
    rcases h with ⟨hm, -⟩ | ⟨im, rest, hm, rfl, h⟩
    · obtain ⟨_, hx, -⟩ := planeFactory_made hF h1 hm
      cases hx
    · obtain ⟨_, hx, hy⟩ := planeFactory_made hF h1 hm
      cases hx
      exact .cons hy (planes_made hF h2 h)

theorem cellShows_congr {C : Type} {T : MapType} {plots : List (C × ℕ)} {p q : C → Dbl → Prop}
    {lo hi empty : Dbl} {o : ℕ} {cell : Option Dbl} (h : CellShows T plots p lo hi empty o cell)
    (hpq : ∀ pt x, (pt, o) ∈ plots → (p pt x ↔ q pt x)) : CellShows T plots q lo hi empty o cell := by
  rcases h with ⟨h1, h2⟩ | ⟨before, pt, after, x, v, h1, h2, h3, h4, h5, h6, h7⟩
  · exact .inl ⟨h1, fun pt x hm hq => h2 pt x hm ((hpq pt x hm).2 hq)⟩
  · have hmem : ∀ pt', (pt', o) ∈ after → (pt', o) ∈ plots := by
      intro pt' hm; rw [h1]; simp [hm]
    exact .inr ⟨before, pt, after, x, v, h1, (hpq pt x (by rw [h1]; simp)).1 h2, h3, h4, h5, h6,
      fun pt' x' hm hq => h7 pt' x' hm ((hpq pt' x' (hmem pt' hm)).2 hq)⟩

/-- The data of a map command that succeeds are the ones its entries ask for. -/
theorem mapData (hF : M.E.F = .ieee) {d : InputMeaning.Defaults} {g : Bool}
    {es : InputMeaning.Part} {c : Grammar.Command}
    {x : Execute.Command Loc} {env : Execute.Env} {w w' : World}
    (hc : InputMeaning.IsCommand M.E d g es c) (hx : command M c = .ok x)
    (hok : ∀ k, env.plane k = true)
    (h : execute M.E.F x env w = .ok (w', .returned 0)) :
    ∃ map rest, w' x.filename = some (map :: rest) ∧ IsData M d g es map := by
  obtain ⟨fs, hfs, rfl⟩ := command_ok hx
  have hlen : fs.length = (InputMeaning.parts "PLANE" es).length := by
    rw [← hfs.length_eq, planes_length hc.planes]
  obtain ⟨p, T, map, rest, hp, hT, hw, -, hb, -, -, -⟩ := Execute.C74_file _ _ _ _ _ h
  refine ⟨map, rest, hw, ?_⟩
  intro samples lines T' hs hl hT' h2 h63
  have : T' = T := by
    rw [hb] at hT'
    exact Option.some.inj
      (((bitpixType_iff _ _).mpr hT').symm.trans ((bitpixType_iff _ _).mpr hT))
  subst this
  have es : c.samples.toNat = samples := by
    have := hc.samples.1
    rw [hs] at this
    have := Option.some.inj this
    omega
  have el : c.lines.toNat = lines := by
    have := hc.lines.1
    rw [hl] at this
    have := Option.some.inj this
    omega
  obtain ⟨map', rest', ims, hw', hi, hcells⟩ := Execute.execute_planes hp hT
    (by simp only [es, el]; exact h2)
    (by
      simp only [es, el, hlen]
      rw [Nat.mul_add, Nat.mul_one] at h63
      exact h63) hok h
  rw [hw] at hw'
  cases hw'
  simp only [es, el] at hcells
  obtain ⟨map2, rest2, hw2, hbl⟩ := Execute.blank_keyword hp hT h
  rw [hw] at hw2
  cases hw2
  have hmade := planes_made hF hfs hi
  refine ⟨c.body, c.proj, c.planes,
    if T'.isIntegral then p.blank.map (wrapTo T') else p.blank, hc.body, hc.proj, hc.planes, ?_, ?_⟩
  · rw [hbl]
    cases T'.isIntegral with
    | false => rfl
    | true => cases p.blank <;> rfl
  · intro j plane hj hcov
    obtain ⟨hl2, hm2⟩ := List.forall₂_iff_get.1 hmade
    obtain ⟨hj1, hj2⟩ := List.getElem?_eq_some_iff.1 hj
    have hj3 : j < ims.length := by omega
    have := hm2 j hj1 hj3
    simp only [List.get_eq_getElem, hj2] at this
    obtain ⟨e1, e2⟩ := this hcov
    obtain ⟨hrange, hread, lo, hi', hlim, hcell⟩ := hcells j (ims[j]).1 (ims[j]).2
      (List.getElem?_eq_getElem hj3)
    refine ⟨lo, hi', by rw [← e1]; exact hlim, fun o ho hcl => ?_⟩
    have := cellShows_congr (hcell o ho) fun pt x hpt => by
      obtain ⟨found, y, hr⟩ := hread pt o hpt
      exact e2 pt found y (hcl pt hpt) hr x
    have he : Source.emptyCell T' (if T'.isIntegral then p.blank.map (wrapTo T') else p.blank) =
        Source.emptyCell T' p.blank := by
      cases hint : T'.isIntegral with
      | false => rfl
      | true =>
        cases hpb : p.blank with
        | none => rfl
        | some b =>
          obtain ⟨r1, r2⟩ := hrange b hint hpb
          simp [wrapTo_id r1 r2]
    rw [he]
    exact this

/-! ## Input files -/

open MaRC.InputMeaning (Part Defaults AreDefaults AreCommands IsCommand entries parts defaultsOf
  afterMap)
open MaRC.InputFile (Item Written)
open MaRC.Props (Reached)

/-- A map with what is in force for it, and its command. -/
def MadeIn (M : Machine) (m : Defaults × Bool × Part) (x : Execute.Command Loc) : Prop :=
  ∃ c, IsCommand M.E m.1 m.2.1 m.2.2 c ∧ command M c = .ok x

theorem madeIn_of {d : Defaults} : ∀ {g : Bool} {ess : List Part}
    {cs : List Grammar.Command} {xs : List (Execute.Command Loc)}, AreCommands M.E d g ess cs →
    List.Forall₂ (fun c x => command M c = .ok x) cs xs →
    List.Forall₂ (MadeIn M) (fileMaps d g ess) xs
  | _, _, _, _, .nil, .nil => .nil
  | _, _, _, _, .cons h1 h2, .cons h3 h4 => .cons ⟨_, h1, h3⟩ (madeIn_of h2 h4)

theorem parseFile_in {n : String} {s s' : State} {cs : List (Execute.Command Loc)}
    {l : List Item} {t : List Char} (ht : M.text n = some t) (hw : Written l t)
    (hs : Reached M.E s) (h : parseFile M n s = .ok (some (s', cs))) :
    Reached M.E s' ∧
      List.Forall₂ (MadeIn M) (fileMaps (defaultsOf s) s.g.graphicLat (parts "MAP" (entries l))) cs ∧
      (parts "MAP" (entries l) = [] → AreDefaults M.E (entries l) (defaultsOf s) (defaultsOf s')) ∧
      (parts "MAP" (entries l) ≠ [] → defaultsOf s' = defaultsOf s) ∧
      s'.g.graphicLat = (parts "MAP" (entries l)).foldl afterMap s.g.graphicLat := by
  unfold parseFile at h
  rw [ht] at h
  simp only at h
  cases hf : tree t with
  | none => simp [hf] at h
  | some f =>
    simp only [hf] at h
    have hp := tree_some hf
    generalize hr : f.run M.E s = r at h
    rcases r with (_ | ⟨s1, gs⟩) | _ | _
    · simp at h
    · simp only at h
      obtain ⟨xs, h1, h2⟩ := bind_ok_iff h
      cases h2
      obtain ⟨d1, d2, d3⟩ := Props.C88_defaults hw hp hs hr
      exact ⟨.file hs hp hr,
        madeIn_of (Props.C88_commands_partial hw hp hs hr) (commands_ok h1),
        fun h => (d2 h).2, d1, d3⟩
    · simp at h
    · simp at h

theorem parseFiles_in {items : String → List Item} : ∀ {ns : List String} {s s' : State}
    {cs : List (Execute.Command Loc)},
    (∀ n ∈ ns, ∃ t, M.text n = some t ∧ Written (items n) t) → Reached M.E s →
    parseFiles M ns s = .ok (some (s', cs)) →
    ∃ ms, InForce M.E (defaultsOf s) s.g.graphicLat (ns.map fun n => entries (items n)) ms ∧
      List.Forall₂ (MadeIn M) ms cs
  | [], s, s', cs, _, _, h => by
    cases h
    exact ⟨[], .nil, .nil⟩
  | n :: ns, s, s', cs, ht, hs, h => by
    unfold parseFiles at h
    obtain ⟨r, h1, h2⟩ := bind_ok_iff h
    rcases r with _ | ⟨s1, xs⟩
    · cases h2
    · simp only at h2
      obtain ⟨r, h3, h4⟩ := bind_ok_iff h2
      rcases r with _ | ⟨s2, ys⟩
      · cases h4
      · cases h4
        obtain ⟨t, ht1, ht2⟩ := ht n (by simp)
        obtain ⟨g1, g2, g3, g4, g5⟩ := parseFile_in ht1 ht2 hs h1
        obtain ⟨ms, k1, k2⟩ := parseFiles_in (fun m hm => ht m (by simp [hm])) g1 h3
        rw [g5] at k1
        exact ⟨_, .cons g3 g4 k1, List.rel_append g2 k2⟩

/-- What `main` does with the commands of all input files. -/
theorem main_in {config : String} {names : List String} {items : String → List Item}
    {w w' : World} {k : ℤ}
    (ht : ∀ n ∈ inputs M config names, ∃ t, M.text n = some t ∧ Written (items n) t)
    (h : main M config (some names) w = .ok (w', k)) :
    w' = w ∧ k = -1 ∨ ∃ ms cs,
      InForce M.E firstDefaults false ((inputs M config names).map fun n => entries (items n)) ms ∧
      List.Forall₂ (MadeIn M) ms cs ∧ runCommands M.E.F M.cfitsio 0 cs w 0 = .ok (w', k) := by
  have files : ∀ {s : State} {cs : List (Execute.Command Loc)}, Reached M.E s →
      (∀ n ∈ names, ∃ t, M.text n = some t ∧ Written (items n) t) →
      mainFiles M (some names) s cs w = .ok (w', k) →
      w' = w ∧ k = -1 ∨ ∃ ms ds,
        InForce M.E (defaultsOf s) s.g.graphicLat (names.map fun n => entries (items n)) ms ∧
        List.Forall₂ (MadeIn M) ms ds ∧
        runCommands M.E.F M.cfitsio 0 (cs ++ ds) w 0 = .ok (w', k) := by
    intro s cs hs ht h
    unfold mainFiles at h
    simp only at h
    split at h
    · cases h
    · cases h; exact .inl ⟨rfl, rfl⟩
    · cases h; exact .inl ⟨rfl, rfl⟩
    · rename_i s' ds hp
      obtain ⟨ms, k1, k2⟩ := parseFiles_in ht hs hp
      exact .inr ⟨ms, ds, k1, k2, h⟩
  unfold main at h
  split at h
  · cases h
  · cases h; exact .inl ⟨rfl, rfl⟩
  · split at h
    · rename_i hn
      rw [inputs, if_pos hn.1, List.nil_append] at ht ⊢
      exact files .start ht h
    · cases h; exact .inl ⟨rfl, rfl⟩
  · rename_i s cs hp
    have hc : M.text config ≠ none := by
      intro hn
      unfold parseFile at hp
      rw [hn] at hp
      cases hp
    rw [inputs, if_neg hc, List.singleton_append] at ht ⊢
    obtain ⟨t, h1, h2⟩ := ht config (by simp)
    obtain ⟨g1, g2, g3, g4, g5⟩ := parseFile_in h1 h2 .start hp
    rcases files g1 (fun n hn => ht n (by simp [hn])) h with h | ⟨ms, ds, h3, h4, h5⟩
    · exact .inl h
    · rw [g5] at h3
      exact .inr ⟨_, cs ++ ds, .cons g3 g4 h3, List.rel_append g2 h4, h5⟩

theorem MadeIn.file {m : Defaults × Bool × Part} {x : Execute.Command Loc} (h : MadeIn M m x) :
    fileOf m.2.2 = some x.filename := by
  obtain ⟨c, hc, hx⟩ := h
  obtain ⟨fs, -, rfl⟩ := command_ok hx
  exact hc.file

end MaRC.Program
