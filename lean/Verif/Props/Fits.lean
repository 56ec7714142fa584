import Verif.Model.Fits
import Mathlib.Tactic.Linarith
import Mathlib.Tactic.Ring
import Mathlib.Data.List.Basic

/-!
# C48: writing the planes of a map cube; reading photos
-/

namespace MaRC.Fits

/-- The data of the writes that were accepted, in order. -/
def accepted : List Bool → List (Bool × List Dbl) → List (List Dbl)
  | true :: fs, (_, d) :: ws => d :: accepted fs ws
  | false :: fs, _ :: ws => accepted fs ws
  | _, _ => []

/-- The file's array holds exactly the elements of `l`, from the first element on. -/
def Image.Holds (im : Image) (l : List Dbl) : Prop :=
  ∀ p : ℤ, im.cells p = if 1 ≤ p then l[(p - 1).toNat]? else none

theorem toLL_of_lt {n : ℕ} (h : n < 2 ^ 63) : toLL n = n := if_pos h

/-- Reachable image states: `k` planes of `n` elements written. -/
structure Image.Inv (im : Image) (n planes : ℕ) (done : List (List Dbl)) : Prop where
  nel : im.nelements = n
  max : im.maxElements = n * planes
  fpixel : im.fpixel = 1 + done.length * n
  sizes : ∀ d ∈ done, d.length = n
  few : done.length ≤ planes
  holds : im.Holds done.flatten

theorem flatten_length {n : ℕ} {l : List (List Dbl)} (h : ∀ d ∈ l, d.length = n) :
    l.flatten.length = l.length * n := by
  induction l with
  | nil => simp
  | cons a l ih =>
    rw [List.flatten_cons, List.length_append, ih fun d hd => h d (.tail _ hd),
      h a List.mem_cons_self, List.length_cons]
    ring

theorem write_inv {im : Image} {n planes : ℕ} {done : List (List Dbl)} (hn : 0 < n)
    (hfit : n * planes + n < 2 ^ 63) (h : im.Inv n planes done) (c : Bool) (d : List Dbl) :
    if c = true ∧ d.length = n ∧ done.length * n + 1 < planes * n then
      ∃ im', im.write c d = .ok (true, im') ∧ im'.Inv n planes (done ++ [d])
    else im.write c d = .ok (false, im) := by
  have hlen := flatten_length h.sizes
  unfold Image.write
  rw [h.nel, h.max, h.fpixel]
  by_cases h1 : c = true ∧ d.length = n ∧ done.length * n + 1 < planes * n
  swap
  · rw [if_neg h1]
    split_ifs with h2 h3 h4 h5
    · rfl
    · rfl
    · rfl
    · exfalso
      apply h1
      refine ⟨by simpa using h4, by exact_mod_cast not_not.mp h3, ?_⟩
      have h2' := not_le.mp h2
      have : (done.length : ℤ) * n + 1 < planes * n := by linarith
      exact_mod_cast this
    · exfalso
      apply h1
      refine ⟨by simpa using h4, by exact_mod_cast not_not.mp h3, ?_⟩
      have h2' := not_le.mp h2
      have : (done.length : ℤ) * n + 1 < planes * n := by linarith
      exact_mod_cast this
  · rw [if_pos h1]
    obtain ⟨a, b, e⟩ := h1
    have e1 : (done.length : ℤ) * n + 1 < planes * n := by exact_mod_cast e
    have e2 : (n : ℤ) * planes + n < 2 ^ 63 := by exact_mod_cast hfit
    rw [if_neg (by linarith), if_neg (by simp [b]), if_neg (by simp [a]), if_neg (by linarith)]
    refine ⟨_, rfl, ?_, ?_, ?_, ?_, ?_, ?_⟩
    · rfl
    · rfl
    · simp only [List.length_append, List.length_singleton]; push_cast; ring
    · intro x hx
      rcases List.mem_append.mp hx with hx | hx
      · exact h.sizes x hx
      · rw [List.mem_singleton.mp hx]; exact b
    · simp only [List.length_append, List.length_singleton]
      by_contra hc
      have : planes ≤ done.length := by omega
      have := Nat.mul_le_mul_right n this
      omega
    · intro p
      simp only [List.flatten_append, List.flatten_singleton]
      rw [h.holds p]
      by_cases hp : 1 ≤ p
      · rw [if_pos hp, if_pos hp]
        by_cases hq : 1 + (done.length : ℤ) * n ≤ p
        · rw [List.getElem?_append_right (by rw [hlen]; zify; rw [Int.toNat_of_nonneg (by omega)]; linarith)]
          have e1 : (p - 1).toNat - done.flatten.length = (p - (1 + (done.length : ℤ) * n)).toNat := by
            rw [hlen]; zify
            rw [Nat.cast_sub (by zify; rw [Int.toNat_of_nonneg (by omega)]; linarith),
              Int.toNat_of_nonneg (by omega), Int.toNat_of_nonneg (by omega)]
            push_cast; ring
          rw [e1]
          by_cases hr : p < 1 + (done.length : ℤ) * n + n
          · rw [if_pos ⟨hq, hr⟩]
          · rw [if_neg fun hh => hr hh.2]
            rw [List.getElem?_eq_none (by rw [hlen]; zify; rw [Int.toNat_of_nonneg (by omega)]; linarith),
              List.getElem?_eq_none (by rw [b]; zify; rw [Int.toNat_of_nonneg (by omega)]; linarith)]
        · rw [if_neg fun hh => hq hh.1,
            List.getElem?_append_left (by rw [hlen]; zify; rw [Int.toNat_of_nonneg (by omega)]; linarith)]
      · rw [if_neg hp, if_neg hp, if_neg]
        rintro ⟨ha, -⟩
        have : (0 : ℤ) ≤ (done.length : ℤ) * n := by positivity
        omega

theorem new_inv (samples lines planes : ℕ)
    (hfit : samples * lines * planes + samples * lines < 2 ^ 63) :
    (Image.new samples lines planes).Inv (samples * lines) planes [] := by
  have h1 : samples * lines < 2 ^ 63 := by omega
  have h2 : samples * lines * planes < 2 ^ 63 := by omega
  have m1 : szMul samples lines = samples * lines := Nat.mod_eq_of_lt (by unfold szMod; omega)
  have m2 : szMul (samples * lines) planes = samples * lines * planes :=
    Nat.mod_eq_of_lt (by unfold szMod; omega)
  refine ⟨?_, ?_, ?_, by simp, by simp, ?_⟩
  · simp only [Image.new, m1, toLL_of_lt h1]
  · simp only [Image.new, m1, m2, toLL_of_lt h2]; push_cast; ring
  · simp [Image.new]
  · intro p; simp [Image.new]

theorem writeAll_inv {n planes : ℕ} (hn : 0 < n) (hfit : n * planes + n < 2 ^ 63) :
    ∀ (ws : List (Bool × List Dbl)) (im : Image) (done : List (List Dbl)),
      im.Inv n planes done →
      ∃ flags im', im.writeAll ws = .ok (flags, im') ∧ flags.length = ws.length ∧
        im'.Inv n planes (done ++ accepted flags ws) ∧
        ∀ k, flags[k]? = some true ↔ ∃ d, ws[k]? = some (true, d) ∧ d.length = n ∧
          (done.length + (flags.take k).count true) * n + 1 < planes * n := by
  intro ws
  induction ws with
  | nil =>
    intro im done h
    exact ⟨[], im, rfl, rfl, by simpa [accepted] using h, by simp⟩
  | cons w ws ih =>
    intro im done h
    obtain ⟨c, d⟩ := w
    have hw := write_inv hn hfit h c d
    by_cases hc : c = true ∧ d.length = n ∧ done.length * n + 1 < planes * n
    · rw [if_pos hc] at hw
      obtain ⟨im1, hw1, hi1⟩ := hw
      obtain ⟨flags, im2, h1, h2, h3, h4⟩ := ih im1 _ hi1
      refine ⟨true :: flags, im2, ?_, by simp [h2], ?_, ?_⟩
      · simp only [Image.writeAll, hw1, Outcome.bind_ok, h1]
      · simpa [accepted] using h3
      · intro k
        cases k with
        | zero => simp [hc]
        | succ k =>
          simp only [List.getElem?_cons_succ, List.take_succ_cons, List.count_cons_self]
          rw [h4 k]
          simp only [List.length_append, List.length_singleton]
          rw [show done.length + 1 + List.count true (List.take k flags) =
            done.length + (List.count true (List.take k flags) + 1) by omega]
    · rw [if_neg hc] at hw
      obtain ⟨flags, im2, h1, h2, h3, h4⟩ := ih im done h
      refine ⟨false :: flags, im2, ?_, by simp [h2], ?_, ?_⟩
      · simp only [Image.writeAll, hw, Outcome.bind_ok, h1]
      · simpa [accepted] using h3
      · intro k
        cases k with
        | zero =>
          simp only [List.getElem?_cons_zero, Option.some.injEq, Bool.false_eq_true, false_iff]
          rintro ⟨d', hd, hl, hlt⟩
          simp only [Prod.mk.injEq] at hd
          obtain ⟨rfl, rfl⟩ := hd
          exact hc ⟨rfl, hl, by simpa using hlt⟩
        | succ k =>
          simp only [List.getElem?_cons_succ, List.take_succ_cons]
          rw [h4 k, List.count_cons_of_ne (by simp)]

/-- C48: whatever sequence of writes is made to a new cube, the file holds exactly the
accepted planes one after the other from its first element on, each of the cube's
plane size, and never more planes than the cube has; a write is accepted exactly when
CFITSIO succeeds, the size is right, and (with `k` planes accepted before it) the
next free element `k * samples * lines + 1` is strictly below the cube's size. -/
theorem C48_history (samples lines planes : ℕ) (h0 : 0 < samples * lines)
    (hfit : samples * lines * planes + samples * lines < 2 ^ 63)
    (ws : List (Bool × List Dbl)) :
    ∃ flags im, (Image.new samples lines planes).writeAll ws = .ok (flags, im) ∧
      flags.length = ws.length ∧
      im.Holds (accepted flags ws).flatten ∧
      (∀ d ∈ accepted flags ws, d.length = samples * lines) ∧
      (accepted flags ws).length ≤ planes ∧
      ∀ k, flags[k]? = some true ↔ ∃ d, ws[k]? = some (true, d) ∧ d.length = samples * lines ∧
        ((flags.take k).count true) * (samples * lines) + 1 < planes * (samples * lines) := by
  obtain ⟨flags, im, h1, h2, h3, h4⟩ := writeAll_inv h0 hfit ws _ [] (new_inv _ _ planes hfit)
  rw [List.nil_append] at h3
  refine ⟨flags, im, h1, h2, h3.holds, h3.sizes, h3.few, ?_⟩
  simpa using h4

/-- C48: element `i` of plane `j` is at place `j * samples * lines + i` (counting from
zero) of the file. -/
theorem C48_positions (n : ℕ) (im : Image) (maps : List (List Dbl)) (h : im.Holds maps.flatten)
    (hs : ∀ d ∈ maps, d.length = n) (j i : ℕ) (d : List Dbl) (hj : maps[j]? = some d)
    (hi : i < n) : im.cells (1 + ((j * n + i : ℕ) : ℤ)) = d[i]? := by
  rw [h, if_pos (by omega), show (1 + ((j * n + i : ℕ) : ℤ) - 1).toNat = j * n + i by omega]
  have aux : ∀ (maps : List (List Dbl)) (j : ℕ), (∀ d ∈ maps, d.length = n) →
      maps[j]? = some d → maps.flatten[j * n + i]? = d[i]? := by
    intro maps
    induction maps with
    | nil => intro j _ hj; simp at hj
    | cons a maps ih =>
      intro j hs hj
      have ha := hs a List.mem_cons_self
      cases j with
      | zero =>
        simp only [List.getElem?_cons_zero, Option.some.injEq] at hj
        subst hj
        rw [List.flatten_cons, List.getElem?_append_left (by omega)]
        simp
      | succ j =>
        rw [List.flatten_cons, List.getElem?_append_right (by rw [ha, Nat.succ_mul]; omega),
          ha, show (j + 1) * n + i - n = j * n + i by rw [Nat.succ_mul]; omega]
        exact ih j (fun d hd => hs d (.tail _ hd)) (by simpa using hj)
  exact aux maps j hs hj

theorem replicate_true {l : List Bool} (h : ∀ k < l.length, l[k]? = some true) :
    l = List.replicate l.length true := by
  apply List.ext_getElem? fun k => ?_
  by_cases hk : k < l.length
  · rw [h k hk, List.getElem?_replicate, if_pos hk]
  · rw [List.getElem?_eq_none (by omega), List.getElem?_replicate, if_neg hk]

theorem accepted_all (maps : List (List Dbl)) :
    accepted (List.replicate maps.length true) (maps.map fun d => (true, d)) = maps := by
  induction maps with
  | nil => rfl
  | cons a maps ih => simp [List.replicate_succ, accepted, ih]

/-- C48: in cubes with planes of at least two elements every plane can be written (as
long as CFITSIO succeeds), and no further one. -/
theorem C48_all_planes (samples lines planes : ℕ) (h2 : 2 ≤ samples * lines)
    (hfit : samples * lines * planes + samples * lines < 2 ^ 63)
    (maps : List (List Dbl)) (hm : maps.length ≤ planes)
    (hs : ∀ d ∈ maps, d.length = samples * lines) :
    ∃ im, (Image.new samples lines planes).writeAll (maps.map fun d => (true, d)) =
        .ok (List.replicate maps.length true, im) ∧ im.Holds maps.flatten ∧
      (maps.length = planes → ∀ c d, im.write c d = .ok (false, im)) := by
  have hn : 0 < samples * lines := by omega
  obtain ⟨flags, im, h1, hl, h3, h4⟩ := writeAll_inv hn hfit (maps.map fun d => (true, d)) _ []
    (new_inv _ _ planes hfit)
  rw [List.nil_append] at h3
  rw [List.length_map] at hl
  simp only [List.length_nil, zero_add] at h4
  have hall : ∀ k < flags.length, flags[k]? = some true := by
    intro k
    induction k using Nat.strong_induction_on with
    | _ k ih =>
      intro hk
      rw [h4 k]
      have hkm : k < maps.length := by omega
      refine ⟨maps[k], by simp [hkm], hs _ (List.getElem_mem hkm), ?_⟩
      have hc : List.count true (List.take k flags) ≤ k :=
        List.count_le_length.trans (by simp)
      have hkp : k + 1 ≤ planes := by omega
      have := Nat.mul_le_mul_right (samples * lines) hkp
      have h5 := Nat.mul_le_mul_right (samples * lines) hc
      rw [Nat.succ_mul] at this
      omega
  have hrep := replicate_true hall
  rw [hl] at hrep
  rw [hrep] at h3 h1
  rw [accepted_all] at h3
  refine ⟨im, h1, h3.holds, ?_⟩
  intro hp c d
  have := write_inv hn hfit h3 c d
  rw [if_neg] at this
  · exact this
  · rintro ⟨-, -, hlt⟩
    rw [hp] at hlt
    omega

/-- C48 is false of the code for maps of one sample and one line: the last plane is
always refused, so the file of a single plane 1x1 map stays empty. -/
theorem C48_one_by_one_violated (d : Dbl) :
    ∃ im, (Image.new 1 1 1).writeAll [(true, [d])] = .ok ([false], im) ∧ im.cells 1 = none := by
  refine ⟨Image.new 1 1 1, ?_, rfl⟩
  rfl

/-- The hypotheses of the theorems are met by a cube of two planes. -/
example : ∃ im, (Image.new 2 1 2).writeAll
    [(true, [.fin 1, .fin 2]), (true, [.fin 9]), (false, [.fin 5, .fin 6]),
      (true, [.fin 3, .fin 4]), (true, [.fin 7, .fin 8])] =
    .ok ([true, false, false, true, false], im) ∧
    (List.range 6).map (fun i => im.cells i) =
      [none, some (.fin 1), some (.fin 2), some (.fin 3), some (.fin 4), none] :=
  ⟨_, rfl, rfl⟩

/-- Reading a photo accepts exactly images of two dimensions and at least 2 x 2
pixels with enough data, and gives its `samples * lines` pixels. -/
theorem C48_read (f : Input) (hsmall : f.naxis1 * f.naxis2 < 2 ^ 63) (img : List Dbl)
    (samples lines : ℕ) :
    f.read = .ok (img, samples, lines) ↔
      f.naxis = 2 ∧ f.naxis1 = samples ∧ f.naxis2 = lines ∧ 2 ≤ samples ∧ 2 ≤ lines ∧
      img.length = samples * lines ∧ ∃ rest, f.pixels = img ++ rest := by
  unfold Input.read
  constructor
  · intro h
    split_ifs at h with h1 h2 h3 h5 h4
    simp only [Outcome.ok.injEq, Prod.mk.injEq] at h
    obtain ⟨hi, hs, hl⟩ := h
    have es : f.naxis1 = samples := by omega
    have el : f.naxis2 = lines := by omega
    rw [es, el] at hi h4
    have e : ((samples : ℤ) * lines).toNat = samples * lines := by
      rw [← Nat.cast_mul, Int.toNat_natCast]
    rw [e] at hi
    have h4' : samples * lines ≤ f.pixels.length := by
      have := not_lt.mp h4; exact_mod_cast this
    refine ⟨by omega, es, el, by omega, by omega, ?_, f.pixels.drop (samples * lines), ?_⟩
    · rw [← hi, List.length_take]; omega
    · rw [← hi, List.take_append_drop]
  · rintro ⟨h1, es, el, h2, h3, hlen, rest, hp⟩
    have e : ((samples : ℤ) * lines).toNat = samples * lines := by
      rw [← Nat.cast_mul, Int.toNat_natCast]
    rw [es, el] at hsmall ⊢
    have hlen' : ((samples : ℤ) * lines) = img.length := by rw [hlen]; push_cast; ring
    rw [if_neg (by omega), if_neg (by omega), if_neg (by omega), if_neg (by omega),
      if_neg (by rw [hp, hlen', List.length_append]; push_cast; omega), e, hp, ← hlen]
    simp

example : (⟨2, 2, 2, [.fin 1, .fin 2, .nan, .fin 4]⟩ : Input).read =
    .ok ([.fin 1, .fin 2, .nan, .fin 4], 2, 2) := by rfl

/-- An image of more than two dimensions, such as a map of several planes, is not
refused: CFITSIO is made to read beyond the end of an array. -/
theorem C48_cube_violated (f : Input) (hn : 2 < f.naxis) (h1 : 2 ≤ f.naxis1)
    (h2 : 2 ≤ f.naxis2) : f.read = .ub := by
  unfold Input.read
  rw [if_neg (by omega), if_neg (by omega)]
  split_ifs <;> rfl

example : (⟨3, 2, 2, [.fin 1, .fin 2, .nan, .fin 4, .fin 5, .fin 6, .fin 7, .fin 8]⟩ :
    Input).read = .ub := C48_cube_violated _ (by decide) (by decide) (by decide)

end MaRC.Fits
