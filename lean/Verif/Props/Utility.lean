import Verif.Lemmas.Utility

/-!
# C01: image inversion

The specification is `pixel img samples k i`: the value at line `k`, sample `i`
of a row-major image.
-/

namespace MaRC.Utility

open MaRC

variable {α : Type}

/-- The pixel at line `k`, sample `i` of a row-major image. -/
def pixel (img : List α) (samples k i : ℕ) : Option α := img[k * samples + i]?

/-- C01: inverting samples of a correctly sized image succeeds and puts at
`(k, i)` the pixel that was at `(k, samples - 1 - i)`. -/
theorem C01_invert_samples_mirrors (img : List α) (samples lines : ℕ)
    (hsize : img.length = samples * lines) (hfit : samples * lines < 2 ^ 64) :
    ∃ r, invertSamples img samples lines = .ok r ∧ r.length = img.length ∧
      ∀ k i, k < lines → i < samples →
        pixel r samples k i = pixel img samples k (samples - 1 - i) := by
  obtain ⟨r, hr, hl, -, hin⟩ := invertSamplesLoop_ok samples lines 0 img
    (by rw [hsize, Nat.mul_comm]; omega)
  refine ⟨r, ?_, hl, ?_⟩
  · rw [invertSamples, if_neg]
    · exact hr
    · rw [szMul_eq hfit]; simp [hsize]
  · intro k i hk hi
    have := hin k i hk hi
    simpa [pixel] using this

/-- C01: inverting lines of a correctly sized image succeeds and puts at
`(k, i)` the pixel that was at `(lines - 1 - k, i)`. -/
theorem C01_invert_lines_mirrors (img : List α) (samples lines : ℕ)
    (hsize : img.length = samples * lines) (hfit : samples * lines < 2 ^ 64) :
    ∃ r, invertLines img samples lines = .ok r ∧ r.length = img.length ∧
      ∀ k i, k < lines → i < samples →
        pixel r samples k i = pixel img samples (lines - 1 - k) i := by
  obtain ⟨r, hr, hl, hin⟩ := invertLinesLoop_ok samples lines (lines / 2) 0 img
    (by omega) hsize
  refine ⟨r, ?_, hl, ?_⟩
  · rw [invertLines, if_neg]
    · exact hr
    · rw [szMul_eq hfit]; simp [hsize]
  · intro k i hk hi
    have := hin k i hk hi
    rw [pixel, pixel, this]
    by_cases c : (0 ≤ k ∧ k < 0 + lines / 2) ∨
        (0 ≤ lines - 1 - k ∧ lines - 1 - k < 0 + lines / 2)
    · rw [if_pos c]
    · rw [if_neg c]
      have : lines - 1 - k = k := by omega
      rw [this]

/-- C01: both inversions applied twice give back the image. -/
theorem C01_inversions_are_involutions (img : List α) (samples lines : ℕ)
    (hsize : img.length = samples * lines) (hfit : samples * lines < 2 ^ 64) :
    (invertSamples img samples lines >>= fun r => invertSamples r samples lines) = .ok img ∧
    (invertLines img samples lines >>= fun r => invertLines r samples lines) = .ok img := by
  constructor
  · obtain ⟨r, hr, hl, hp⟩ := C01_invert_samples_mirrors img samples lines hsize hfit
    obtain ⟨r2, hr2, hl2, hp2⟩ := C01_invert_samples_mirrors r samples lines
      (by omega) hfit
    rw [hr, Outcome.bind_ok, hr2]
    congr 1
    refine ext_grid samples lines _ _ (by omega) hsize fun k i hk hi => ?_
    have h1 := hp2 k i hk hi
    have h2 := hp k (samples - 1 - i) hk (by omega)
    have e : samples - 1 - (samples - 1 - i) = i := by omega
    rw [e] at h2
    exact h1.trans h2
  · obtain ⟨r, hr, hl, hp⟩ := C01_invert_lines_mirrors img samples lines hsize hfit
    obtain ⟨r2, hr2, hl2, hp2⟩ := C01_invert_lines_mirrors r samples lines
      (by omega) hfit
    rw [hr, Outcome.bind_ok, hr2]
    congr 1
    refine ext_grid samples lines _ _ (by omega) hsize fun k i hk hi => ?_
    have h1 := hp2 k i hk hi
    have h2 := hp (lines - 1 - k) i (by omega) hi
    have e : lines - 1 - (lines - 1 - k) = k := by omega
    rw [e] at h2
    exact h1.trans h2

/-- C01: the two inversions commute. -/
theorem C01_inversions_commute (img : List α) (samples lines : ℕ)
    (hsize : img.length = samples * lines) (hfit : samples * lines < 2 ^ 64) :
    ∃ r, (invertSamples img samples lines >>= fun r => invertLines r samples lines) = .ok r ∧
      (invertLines img samples lines >>= fun r => invertSamples r samples lines) = .ok r := by
  obtain ⟨a, ha, hla, hpa⟩ := C01_invert_samples_mirrors img samples lines hsize hfit
  obtain ⟨b, hb, hlb, hpb⟩ := C01_invert_lines_mirrors a samples lines (by omega) hfit
  obtain ⟨c, hc, hlc, hpc⟩ := C01_invert_lines_mirrors img samples lines hsize hfit
  obtain ⟨d, hd, hld, hpd⟩ := C01_invert_samples_mirrors c samples lines (by omega) hfit
  refine ⟨b, by rw [ha, Outcome.bind_ok, hb], ?_⟩
  rw [hc, Outcome.bind_ok, hd]
  congr 1
  refine ext_grid samples lines _ _ (by omega) (by omega) fun k i hk hi => ?_
  have h1 := hpd k i hk hi
  have h2 := hpc k (samples - 1 - i) hk (by omega)
  have h3 := hpb k i hk hi
  have h4 := hpa (lines - 1 - k) i (by omega) hi
  exact (h1.trans h2).trans (h3.trans h4).symm

/-- C01: an image of the wrong size is rejected with `invalid_argument` by
both functions (the exception is raised before any write, so the argument is
untouched). -/
theorem C01_wrong_size_rejected (img : List α) (samples lines : ℕ)
    (hsize : img.length ≠ samples * lines) (hfit : samples * lines < 2 ^ 64) :
    invertSamples img samples lines = .throw .invalidArgument ∧
    invertLines img samples lines = .throw .invalidArgument := by
  have : img.length ≠ szMul samples lines := by
    rw [szMul_eq hfit]; exact hsize
  simp [invertSamples, invertLines, this]

/-- The size check is done in wrapping `std::size_t` arithmetic: with
`samples * lines = 2^64` an empty image is *not* rejected, and the loop then
leaves the image.  This is why `C01_wrong_size_rejected` needs `hfit`. -/
theorem C01_size_check_wraps :
    ([] : List ℕ).length ≠ 2 ^ 32 * 2 ^ 32 ∧
    invertSamples ([] : List ℕ) (2 ^ 32) (2 ^ 32) = .ub := by
  refine ⟨by norm_num, ?_⟩
  have h : szMul (2 ^ 32) (2 ^ 32) = 0 := by norm_num [szMul, szMod]
  have h2 : (2 : ℕ) ^ 32 = 4294967295 + 1 := by norm_num
  rw [invertSamples, if_neg (by rw [h]; simp), h2, invertSamplesLoop]
  simp [reverseRange]

/-- The hypotheses are met by a 3 × 2 image, whose inversions are computed. -/
example : ([1, 2, 3, 4, 5, 6] : List ℕ).length = 3 * 2 ∧ 3 * 2 < 2 ^ 64 ∧
    invertSamples [1, 2, 3, 4, 5, 6] 3 2 = .ok [3, 2, 1, 6, 5, 4] ∧
    invertLines [1, 2, 3, 4, 5, 6] 3 2 = .ok [4, 5, 6, 1, 2, 3] := by
  refine ⟨rfl, by norm_num, by decide, by decide⟩

/-- Wrong sizes exist. -/
example : ([1, 2, 3, 4, 5] : List ℕ).length ≠ 3 * 2 ∧
    invertLines [1, 2, 3, 4, 5] 3 2 = .throw .invalidArgument := by
  refine ⟨by decide, by decide⟩

end MaRC.Utility
