import Verif.Model.PhotoImage
import Verif.Lemmas.MapType
import Verif.Lemmas.Num

namespace MaRC

theorem szAdd_eq {a b : ℕ} (h : a + b < 2 ^ 64) : szAdd a b = a + b := Nat.mod_eq_of_lt h

/-- `static_cast<size_t>` of a nonnegative number below `2^64`. -/
theorem castSize_fin {q : ℚ} (h0 : 0 ≤ q) (h1 : q < 2 ^ 64) :
    castSize (.fin q) = .ok ⌊q⌋.toNat := by
  have ht : truncQ q = ⌊q⌋ := by simp [truncQ, h0]
  have hf0 : 0 ≤ ⌊q⌋ := Int.floor_nonneg.mpr h0
  have hf1 : ⌊q⌋ < 2 ^ 64 := by rw [Int.floor_lt]; exact_mod_cast h1
  have : castInt 0 (2 ^ 64 - 1) (.fin q) = .ok ⌊q⌋ := by
    show (if 0 ≤ truncQ q ∧ truncQ q ≤ _ then _ else _) = _
    rw [ht, if_pos ⟨hf0, by omega⟩]
  unfold castSize
  rw [this]; rfl

theorem castSize_floor {q : ℚ} (h0 : 0 ≤ q) (h1 : q < 2 ^ 64) :
    castSize (Dbl.floor (.fin q)) = .ok ⌊q⌋.toNat := by
  have hf0 : (0 : ℚ) ≤ (⌊q⌋ : ℚ) := by exact_mod_cast Int.floor_nonneg.mpr h0
  have hf1 : (⌊q⌋ : ℚ) < 2 ^ 64 := lt_of_le_of_lt (Int.floor_le q) h1
  show castSize (.fin ⌊q⌋) = _
  rw [castSize_fin hf0 hf1, Int.floor_intCast]

theorem castSize_ok {d : Dbl} {n : ℕ} (h : castSize d = .ok n) :
    ∃ q, d = .fin q ∧ -1 < q ∧ (n : ℤ) = truncQ q ∧ n < 2 ^ 64 := by
  cases d with
  | fin q =>
    by_cases hc : 0 ≤ truncQ q ∧ truncQ q ≤ 2 ^ 64 - 1
    · have : castInt 0 (2 ^ 64 - 1) (.fin q) = .ok (truncQ q) := if_pos hc
      unfold castSize at h
      rw [this] at h
      simp only [Outcome.bind_ok, Outcome.ok.injEq] at h
      refine ⟨q, rfl, ?_, by omega, by omega⟩
      have := (truncQ_ge (q := q) (n := 0) le_rfl).mp hc.1
      simpa using this
    · have : castInt 0 (2 ^ 64 - 1) (.fin q) = .ub := if_neg hc
      unfold castSize at h
      rw [this] at h
      cases h
  | _ => cases h

theorem arrayAt_ok {α : Type} {l : List α} {i : ℕ} (h : i < l.length) :
    arrayAt l i = .ok l[i] := by
  unfold arrayAt; rw [List.getElem?_eq_getElem h]

theorem arrayAt_eq_ok {α : Type} {l : List α} {i : ℕ} {a : α} (h : arrayAt l i = .ok a) :
    l[i]? = some a := by
  unfold arrayAt at h
  split at h
  · cases h; assumption
  · cases h

theorem arrayAt_ub {α : Type} {l : List α} {i : ℕ} (h : l.length ≤ i) :
    arrayAt l i = .ub := by
  unfold arrayAt; rw [List.getElem?_eq_none h]

/-- Row-major index bound. -/
theorem index_lt {i k samples lines : ℕ} (hi : i < samples) (hk : k < lines) :
    k * samples + i < samples * lines := by
  have : (k + 1) * samples ≤ lines * samples := Nat.mul_le_mul_right _ hk
  rw [Nat.mul_comm samples lines]
  have h2 : (k + 1) * samples = k * samples + samples := by ring
  omega

namespace Photo

variable {C : Type}

theorem bodyMask_length (g : Geometry C) (samples lines : ℕ) :
    (g.bodyMask samples lines).length = samples * lines := by
  unfold Geometry.bodyMask
  induction lines with
  | zero => simp
  | succ n ih =>
    rw [List.range_succ, List.flatMap_append, List.length_append, ih]
    simp
    ring

theorem bodyMask_get (g : Geometry C) {samples lines i k : ℕ} (hi : i < samples) (hk : k < lines) :
    (g.bodyMask samples lines)[k * samples + i]? = some (g.onBody i k) := by
  induction lines with
  | zero => omega
  | succ n ih =>
    have hlen := bodyMask_length g samples n
    have hsplit : g.bodyMask samples (n + 1) =
        g.bodyMask samples n ++ (List.range samples).map fun i => g.onBody i n := by
      unfold Geometry.bodyMask
      rw [List.range_succ, List.flatMap_append]; simp
    rw [hsplit]
    by_cases hkn : k < n
    · rw [List.getElem?_append_left (by rw [hlen]; exact index_lt hi hkn)]
      exact ih hkn
    · have : k = n := by omega
      subst this
      rw [List.getElem?_append_right (by rw [hlen]; nlinarith [Nat.mul_comm k samples]), hlen]
      rw [show k * samples + i - samples * k = i by rw [Nat.mul_comm]; omega]
      simp [hi]

/-- What a successful construction establishes. -/
theorem new_ok {image : List Dbl} {samples lines : ℕ} {config : Option Params}
    {geometry : Option (Geometry C)} {p : Img C}
    (h : new image samples lines config geometry = .ok p) :
    ∃ c g, config = some c ∧ geometry = some g ∧
      p = ⟨image, samples, lines, c.nibbleLeft, szSub samples c.nibbleRight, c.nibbleTop,
        szSub lines c.nibbleBottom, c, g, if c.removeSky then g.bodyMask samples lines else []⟩ ∧
      2 ≤ samples ∧ 2 ≤ lines ∧ image.length = szMul samples lines ∧
      c.nibbleLeft < szSub samples c.nibbleRight ∧ c.nibbleBottom < szSub lines c.nibbleTop := by
  unfold new at h
  cases config with
  | none => cases h
  | some c =>
    cases geometry with
    | none => cases h
    | some g =>
      simp only at h
      split at h
      · cases h
      split at h
      · cases h
      rename_i h1 h2
      unfold Params.validate at h
      split at h
      · cases h
      split at h
      · cases h
      rename_i h3 h4
      simp only [Outcome.bind_ok, Outcome.ok.injEq] at h
      exact ⟨c, g, rfl, rfl, h.symm, by omega, by omega, by simpa using h2, by omega, by omega⟩

end Photo

end MaRC
