import Verif.Model.Extrema
import Verif.Spec.Extremum
import Verif.Lemmas.DblOrder
import Verif.Lemmas.Num

namespace MaRC.Extrema

open Dbl

theorem update_none (d : Dbl) : update empty d = ⟨some d, some d⟩ := by
  simp [update, empty, ltOpt, gtOpt]

theorem update_some (a b d : Dbl) :
    update ⟨some a, some b⟩ d =
      ⟨some (if d.lt a then d else a), some (if d.gt b then d else b)⟩ := by
  unfold update ltOpt gtOpt
  by_cases h1 : d.lt a = true <;> by_cases h2 : d.gt b = true <;> simp [h1, h2]

/-- Invariant of a run of `update` calls: the object holds the least and the
greatest value seen. -/
def Tracks (e : Extrema) (l : List Dbl) : Prop :=
  (l = [] ∧ e = empty) ∨
  (∃ m M, e = ⟨some m, some M⟩ ∧ IsMinOf m l ∧ IsMaxOf M l)

theorem tracks_update {e : Extrema} {l : List Dbl} {d : Dbl}
    (hd : d.isNaN = false) (hl : ∀ x ∈ l, x.isNaN = false) (h : Tracks e l) :
    Tracks (e.update d) (l ++ [d]) := by
  right
  rcases h with ⟨rfl, rfl⟩ | ⟨m, M, rfl, ⟨hm, hm'⟩, ⟨hM, hM'⟩⟩
  · refine ⟨d, d, update_none d, ⟨by simp, ?_⟩, ⟨by simp, ?_⟩⟩ <;>
    · intro x hx
      simp at hx
      subst hx
      exact le_refl hd
  · refine ⟨_, _, update_some m M d, ?_, ?_⟩
    · by_cases h : d.lt m = true
      · rw [if_pos h]
        refine ⟨by simp, fun x hx => ?_⟩
        rcases List.mem_append.mp hx with hx | hx
        · exact le_trans (le_of_lt h) (hm' x hx)
        · simp at hx; subst hx; exact le_refl hd
      · rw [if_neg h]
        refine ⟨by simp [hm], fun x hx => ?_⟩
        rcases List.mem_append.mp hx with hx | hx
        · exact hm' x hx
        · simp at hx; subst hx
          exact (not_lt hd (hl m hm)).mp (by simpa using h)
    · by_cases h : d.gt M = true
      · rw [if_pos h]
        refine ⟨by simp, fun x hx => ?_⟩
        rcases List.mem_append.mp hx with hx | hx
        · exact le_trans (hM' x hx) (le_of_lt h)
        · simp at hx; subst hx; exact le_refl hd
      · rw [if_neg h]
        refine ⟨by simp [hM], fun x hx => ?_⟩
        rcases List.mem_append.mp hx with hx | hx
        · exact hM' x hx
        · simp at hx; subst hx
          exact (not_lt (hl M hM) hd).mp (by simpa [gt] using h)

theorem tracks_foldl : ∀ (l pre : List Dbl) (e : Extrema),
    (∀ x ∈ pre, x.isNaN = false) → (∀ x ∈ l, x.isNaN = false) → Tracks e pre →
    Tracks (l.foldl update e) (pre ++ l) := by
  intro l
  induction l with
  | nil => intro pre e _ _ h; simpa using h
  | cons d t ih =>
    intro pre e hpre hl h
    have := ih (pre ++ [d]) (e.update d)
      (by intro x hx; rcases List.mem_append.mp hx with hx | hx
          · exact hpre x hx
          · simp at hx; subst hx; exact hl x (by simp))
      (fun x hx => hl x (by simp [hx]))
      (tracks_update (hl d (by simp)) hpre h)
    simpa [List.append_assoc] using this

theorem tracks_unique {e e' : Extrema} {l : List Dbl} (h : Tracks e l) (h' : Tracks e' l) :
    e = e' := by
  rcases h with ⟨rfl, rfl⟩ | ⟨m, M, rfl, ⟨hm, hm'⟩, ⟨hM, hM'⟩⟩
  · rcases h' with ⟨-, rfl⟩ | ⟨_, _, _, ⟨hm, _⟩, _⟩
    · rfl
    · simp at hm
  · rcases h' with ⟨rfl, rfl⟩ | ⟨n, N, rfl, ⟨hn, hn'⟩, ⟨hN, hN'⟩⟩
    · simp at hm
    · rw [le_antisymm (hm' n hn) (hn' m hm), le_antisymm (hN' M hM) (hM' N hN)]

end MaRC.Extrema
