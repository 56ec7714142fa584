import Verif.Model.MapFactory
import Verif.Lemmas.Extrema
import Verif.Lemmas.MapType

namespace MaRC.MapFactory

open Progress

variable {C : Type}

/-- The value a single `plot` call stores, if any. -/
def value (T : MapType) (read : ReadData C) (e : Extrema) (c : C) : Option Dbl :=
  match read c (.fin 0) with
  | .ok (true, d) =>
    if e.inRange T d then
      match T.cast d with
      | .ok v => some v
      | _ => none
    else none
  | _ => none

/-- Offsets and values stored by a sequence of `plot` calls. -/
def stored (T : MapType) (read : ReadData C) (e : Extrema) (plots : List (C × ℕ)) :
    List (ℕ × Dbl) :=
  plots.filterMap fun p => (value T read e p.1).map fun v => (p.2, v)

/-- `notify` events for counts `k+1 .. k+m`. -/
def events (size k m : ℕ) : List Event :=
  (List.range m).map fun i => .notify size (k + i + 1)

theorem events_succ (size k m : ℕ) :
    events size k (m + 1) = .notify size (k + 1) :: events size (k + 1) m := by
  unfold events
  rw [List.range_succ_eq_map]
  simp only [List.map_cons, List.map_map, Nat.add_zero]
  congr 1
  apply List.map_congr_left
  intro i _
  simp only [Function.comp, Nat.succ_eq_add_one, Event.notify.injEq, true_and]
  omega

theorem notifyPlotted_ok {n n' : Notifier} {size : ℕ} (h : n.notifyPlotted size = .ok n') :
    0 < size ∧ n.count < size ∧
      n' = ⟨n.count + 1, n.observers.map (· ++ [.notify size (n.count + 1)])⟩ := by
  unfold Notifier.notifyPlotted at h
  split at h
  · cases h
  split at h
  · cases h
  rename_i h1 h2
  cases h
  exact ⟨Nat.pos_of_ne_zero h1, by simpa using h2, rfl⟩

/-- Effect of one `plot` call. -/
theorem plot_ok {T : MapType} {read : ReadData C} {e : Extrema} {s s' : State} {c : C} {o : ℕ}
    (h : plot T read e s c o = .ok s') :
    (match value T read e c with
      | some v => o < s.map.length ∧ s'.map = s.map.set o v ∧
          s'.info.extrema = s.info.extrema.update v
      | none => s'.map = s.map ∧ s'.info.extrema = s.info.extrema) ∧
    s.info.notifier.notifyPlotted s.map.length = .ok s'.info.notifier ∧
    s'.info.samples = s.info.samples ∧ s'.info.lines = s.info.lines ∧
    s'.info.blank = s.info.blank ∧
    (∃ r, read c (.fin 0) = .ok r) := by
  unfold plot at h
  cases hr : read c (.fin 0) with
  | throw e => simp [hr] at h
  | ub => simp [hr] at h
  | ok r =>
    obtain ⟨found, d⟩ := r
    rw [hr] at h
    simp only [Outcome.bind_ok] at h
    by_cases hf : (found && e.inRange T d) = true
    · obtain ⟨rfl, hin⟩ : found = true ∧ e.inRange T d = true := by simpa using hf
      simp only [hin, Bool.and_self, if_true] at h
      cases hc : T.cast d with
      | throw e => simp [hc] at h
      | ub => simp [hc] at h
      | ok v =>
        have hv : value T read e c = some v := by simp [value, hr, hin, hc]
        simp only [hc, Outcome.bind_ok] at h
        by_cases ho : o < s.map.length
        · simp only [ho, if_true, Outcome.bind_ok, List.length_set] at h
          cases hn : s.info.notifier.notifyPlotted s.map.length with
          | throw e => simp [PlotInfo.updateExtrema, hn] at h
          | ub => simp [PlotInfo.updateExtrema, hn] at h
          | ok n =>
            simp only [PlotInfo.updateExtrema, hn, Outcome.bind_ok, Outcome.ok.injEq] at h
            subst h
            rw [hv]
            exact ⟨⟨ho, rfl, rfl⟩, rfl, rfl, rfl, rfl, _, rfl⟩
        · simp [ho] at h
    · have hv : value T read e c = none := by
        unfold value
        rw [hr]
        cases found with
        | false => rfl
        | true => simp only [Bool.true_and, Bool.not_eq_true] at hf; simp [hf]
      have hf' : (found && e.inRange T d) = false := by simpa using hf
      rw [hf'] at h
      simp only [Bool.false_eq_true, if_false, Outcome.bind_ok] at h
      cases hn : s.info.notifier.notifyPlotted s.map.length with
      | throw e => simp [hn] at h
      | ub => simp [hn] at h
      | ok n =>
        simp only [hn, Outcome.bind_ok, Outcome.ok.injEq] at h
        subst h
        rw [hv]
        exact ⟨⟨rfl, rfl⟩, rfl, rfl, rfl, rfl, _, rfl⟩

/-- Effect of a sequence of `plot` calls. -/
theorem plotAll_ok {T : MapType} {read : ReadData C} {e : Extrema} :
    ∀ (plots : List (C × ℕ)) {s s' : State}, plotAll T read e s plots = .ok s' →
    s'.map = (stored T read e plots).foldl (fun m p => m.set p.1 p.2) s.map ∧
    s'.info.extrema = ((stored T read e plots).map Prod.snd).foldl Extrema.update s.info.extrema ∧
    (∀ p ∈ stored T read e plots, p.1 < s.map.length) ∧
    s'.info.notifier = ⟨s.info.notifier.count + plots.length,
      s.info.notifier.observers.map (· ++ events s.map.length s.info.notifier.count plots.length)⟩ ∧
    (plots ≠ [] → s.info.notifier.count + plots.length ≤ s.map.length) ∧
    s'.info.samples = s.info.samples ∧ s'.info.lines = s.info.lines ∧
    s'.info.blank = s.info.blank := by
  intro plots
  induction plots with
  | nil =>
    intro s s' h
    simp only [plotAll, Outcome.ok.injEq] at h
    subst h
    refine ⟨rfl, rfl, by simp [stored], ?_, by simp, rfl, rfl, rfl⟩
    simp [events]
  | cons p rest ih =>
    obtain ⟨c, o⟩ := p
    intro s s' h
    simp only [plotAll] at h
    cases hp : plot T read e s c o with
    | throw e => simp [hp] at h
    | ub => simp [hp] at h
    | ok s1 =>
      simp only [hp, Outcome.bind_ok] at h
      obtain ⟨hval, hnot, hsam, hlin, hbl, -⟩ := plot_ok hp
      obtain ⟨hmap, hext, hoff, hn, hcnt, hsam', hlin', hbl'⟩ := ih h
      obtain ⟨hpos, hlt, hn1⟩ := notifyPlotted_ok hnot
      have hlen : s1.map.length = s.map.length := by
        cases hv : value T read e c with
        | none => rw [hv] at hval; rw [hval.1]
        | some v => rw [hv] at hval; rw [hval.2.1, List.length_set]
      have hN : s'.info.notifier = ⟨s.info.notifier.count + (rest.length + 1),
          s.info.notifier.observers.map
            (· ++ events s.map.length s.info.notifier.count (rest.length + 1))⟩ := by
        rw [hn, hn1, hlen, List.map_map, events_succ]
        simp only [Notifier.mk.injEq]
        refine ⟨by omega, ?_⟩
        apply List.map_congr_left
        intro l _
        simp [List.append_assoc]
      have hC : s.info.notifier.count + (rest.length + 1) ≤ s.map.length := by
        by_cases hr : rest = []
        · subst hr; simp; omega
        · have := hcnt hr
          rw [hn1, hlen] at this
          simp only at this
          omega
      cases hv : value T read e c with
      | none =>
        rw [hv] at hval
        have hst : stored T read e ((c, o) :: rest) = stored T read e rest := by
          simp [stored, hv]
        refine ⟨?_, ?_, ?_, by simpa using hN, fun _ => by simpa using hC,
          hsam'.trans hsam, hlin'.trans hlin, hbl'.trans hbl⟩
        · rw [hst, hmap, hval.1]
        · rw [hst, hext, hval.2]
        · rw [hst]; rw [hlen] at hoff; exact hoff
      | some v =>
        rw [hv] at hval
        have hst : stored T read e ((c, o) :: rest) = (o, v) :: stored T read e rest := by
          simp [stored, hv]
        refine ⟨?_, ?_, ?_, by simpa using hN, fun _ => by simpa using hC,
          hsam'.trans hsam, hlin'.trans hlin, hbl'.trans hbl⟩
        · rw [hst, hmap, hval.2.1]; rfl
        · rw [hst, hext, hval.2.2]; rfl
        · rw [hst]
          intro q hq
          rcases List.mem_cons.mp hq with rfl | hq
          · exact hval.1
          · rw [hlen] at hoff; exact hoff q hq

/-- Every read of a successful run of `plot` calls succeeded or reported
failure; none threw. -/
theorem foldl_set_length (l : List (ℕ × Dbl)) : ∀ m : List Dbl,
    (l.foldl (fun m p => m.set p.1 p.2) m).length = m.length := by
  induction l with
  | nil => intro m; rfl
  | cons a t ih => intro m; rw [List.foldl_cons, ih, List.length_set]

/-- A cell no stored offset names keeps its value. -/
theorem foldl_set_other (o : ℕ) : ∀ (l : List (ℕ × Dbl)) (m : List Dbl), (∀ p ∈ l, p.1 ≠ o) →
    (l.foldl (fun m p => m.set p.1 p.2) m)[o]? = m[o]? := by
  intro l
  induction l with
  | nil => intro m _; rfl
  | cons a t ih =>
    intro m h
    rw [List.foldl_cons, ih _ (fun p hp => h p (by simp [hp]))]
    rw [List.getElem?_set_ne (h a (by simp))]

/-- The last stored value of an offset is what the cell holds. -/
theorem foldl_set_last (o : ℕ) (v : Dbl) (pre post : List (ℕ × Dbl)) (m : List Dbl)
    (ho : o < m.length) (h : ∀ p ∈ post, p.1 ≠ o) :
    ((pre ++ (o, v) :: post).foldl (fun m p => m.set p.1 p.2) m)[o]? = some v := by
  rw [List.foldl_append, List.foldl_cons, foldl_set_other o post _ h]
  rw [List.getElem?_set_self]
  rw [foldl_set_length]; exact ho

end MaRC.MapFactory
