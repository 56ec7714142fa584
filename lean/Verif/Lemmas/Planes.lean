import Verif.Spec.Planes
import Verif.Props.PhysicalValues
import Verif.Props.ExecuteValues

/-! # The planes of a map -/

namespace MaRC.Execute

open MapParams MapFactory MapCommand Utility

variable {C : Type}

theorem makePlanes_each {T : MapType} {plots : ℕ → ℕ → List (C × ℕ)} :
    ∀ {planes : List (Plane C)} {info info' : PlotInfo} {maps : List (List Dbl)},
    makePlanes T plots info planes = .ok (maps, info') →
    maps.length = planes.length ∧
    ∀ (j : ℕ) pl, planes[j]? = some pl → ∃ m i1 i2, maps[j]? = some m ∧
      makePlane T plots pl i1 = .ok (m, i2) ∧ i1.samples = info.samples ∧
      i1.lines = info.lines ∧ i1.blank = info.blank
  | [], info, info', maps, h => by
    simp only [makePlanes, Outcome.ok.injEq, Prod.mk.injEq] at h
    obtain ⟨rfl, -⟩ := h
    simp
  | p :: ps, info, info', maps, h => by
    simp only [makePlanes] at h
    cases hmk : makePlane T plots p info with
    | throw e => simp [hmk] at h
    | ub => simp [hmk] at h
    | ok r =>
      obtain ⟨m, info1⟩ := r
      simp only [hmk, Outcome.bind_ok] at h
      cases hrest : makePlanes T plots info1 ps with
      | throw e => simp [hrest] at h
      | ub => simp [hrest] at h
      | ok r2 =>
        obtain ⟨ms, info2⟩ := r2
        simp only [hrest, Outcome.bind_ok, Outcome.ok.injEq, Prod.mk.injEq] at h
        obtain ⟨rfl, -⟩ := h
        obtain ⟨hlen, ih⟩ := makePlanes_each hrest
        have hinfo : info1.samples = info.samples ∧ info1.lines = info.lines ∧
            info1.blank = info.blank := by
          have hmk' := hmk
          unfold makePlane at hmk'
          cases hcv : p.minmax.convert T with
          | throw e => simp [hcv] at hmk'
          | ub => simp [hcv] at hmk'
          | ok mm =>
            simp only [hcv, Outcome.bind_ok] at hmk'
            obtain ⟨blank, a, b, hb, he, s, hp, -, -, h1, h2, h3, -⟩ := makeMap_ok hmk'
            obtain ⟨-, -, -, -, -, k1, k2, k3⟩ := plotAll_ok _ hp
            exact ⟨h1.trans k1, h2.trans k2, h3.trans k3⟩
        refine ⟨by simp [hlen], ?_⟩
        intro j pl hj
        cases j with
        | zero =>
          simp only [List.getElem?_cons_zero, Option.some.injEq] at hj
          subst hj
          exact ⟨m, info, info1, rfl, hmk, rfl, rfl, rfl⟩
        | succ j =>
          simp only [List.getElem?_cons_succ] at hj
          obtain ⟨m', i1, i2, h1, h2, h3, h4, h5⟩ := ih j pl hj
          exact ⟨m', i1, i2, by simpa using h1, h2, h3.trans hinfo.1, h4.trans hinfo.2.1,
            h5.trans hinfo.2.2⟩

/-- Points plotted are read. -/
theorem plotAll_read {T : MapType} {read : ReadData C} {e : Extrema} :
    ∀ (plots : List (C × ℕ)) {s s' : State}, plotAll T read e s plots = .ok s' →
    ∀ pt o, (pt, o) ∈ plots → ∃ found y, read pt (.fin 0) = .ok (found, y)
  | [], _, _, _, _, _, hm => by simp at hm
  | (c, o) :: rest, s, s', h, pt, o', hm => by
    simp only [plotAll] at h
    cases hp : plot T read e s c o with
    | throw e => simp [hp] at h
    | ub => simp [hp] at h
    | ok s1 =>
      rw [hp, Outcome.bind_ok] at h
      rcases List.mem_cons.mp hm with heq | hm
      · cases heq
        unfold plot at hp
        cases hr : read c (.fin 0) with
        | throw e => simp [hr] at hp
        | ub => simp [hr] at hp
        | ok r => exact ⟨r.1, r.2, rfl⟩
      · exact plotAll_read rest h pt o' hm

/-- The cells of a plane. -/
theorem makePlane_shows {T : MapType} {plots : ℕ → ℕ → List (C × ℕ)} {pl : Plane C}
    {info info' : PlotInfo} {m : List Dbl} (h : makePlane T plots pl info = .ok (m, info')) :
    (∀ b, T.isIntegral = true → info.blank = some b → T.intRange.1 ≤ b ∧ b ≤ T.intRange.2) ∧
    (∀ pt o, (pt, o) ∈ plots info.samples info.lines →
      ∃ found y, pl.read pt (.fin 0) = .ok (found, y)) ∧
    ∃ lo hi, PlaneLimits T pl.minmax lo hi ∧ ∀ o < m.length,
      CellShows T (plots info.samples info.lines)
        (fun pt x => pl.read pt (.fin 0) = .ok (true, x)) lo hi
        (Source.emptyCell T info.blank) o m[o]? := by
  unfold makePlane at h
  cases hcv : pl.minmax.convert T with
  | throw e => simp [hcv] at h
  | ub => simp [hcv] at h
  | ok mm =>
  simp only [hcv, Outcome.bind_ok] at h
  obtain ⟨bl, lo2, hi2, hbl, hab2, st, hpa, -⟩ := makeMap_ok h
  obtain ⟨lo', hi', hab, -, hst, hno⟩ := C06_cells T plots pl.read mm _ _ _ h
  rw [hab] at hab2
  simp only [Outcome.ok.injEq, Extrema.mk.injEq, Option.some.injEq] at hab2
  obtain ⟨rfl, rfl⟩ := hab2
  refine ⟨?_, plotAll_read _ hpa, _, _, ⟨mm, lo', hi', hcv, hab, rfl, rfl⟩, ?_⟩
  · intro b hint hb
    by_contra hc
    simp only [blankValue, hint, hb] at hbl
    rw [if_pos (by omega)] at hbl
    simp at hbl
  intro o ho
  have hcast : ∀ pt x, (pt, o) ∈ plots info.samples info.lines →
      pl.read pt (.fin 0) = .ok (true, x) →
      (T.toDouble lo').le x = true ∧ x.le (T.toDouble hi') = true → ∃ v, T.cast x = .ok v := by
    intro pt x hpt hr hin
    exact Source.plotAll_cast _ hpa pt o _ hpt hr (by
      simp [Extrema.inRange, Extrema.geOpt, Extrema.leOpt, Dbl.ge, hin.1, hin.2])
  rcases Execute.last_or_none (fun x : C × ℕ => x.2 = o ∧
      ∃ v, Stores T (T.toDouble lo') (T.toDouble hi') pl.read x.1 v)
      (plots info.samples info.lines) with hnone | ⟨pre, x, post, hsp, ⟨hxo, v, hv⟩, hpost⟩
  · left
    refine ⟨hno o ho ?_, ?_⟩
    · intro c hc v hv
      exact hnone _ hc ⟨rfl, v, hv⟩
    · intro pt x hpt hr hin
      obtain ⟨v, hc⟩ := hcast pt x hpt hr hin
      exact hnone _ hpt ⟨rfl, v, x, hr, hin.1, hin.2, hc⟩
  · right
    obtain ⟨pt, o'⟩ := x
    simp only at hxo hv
    subst hxo
    obtain ⟨d, hr, l1, l2, hc⟩ := hv
    refine ⟨pre, pt, post, d, v, hsp, hr, l1, l2, hc, ?_, ?_⟩
    · exact hst pre pt o' post v hsp ⟨d, hr, l1, l2, hc⟩ fun c' hc' v' hv' =>
        hpost _ hc' ⟨rfl, v', hv'⟩
    · intro pt' x' hpt' hr' hin'
      obtain ⟨v', hc'⟩ := hcast pt' x' (by rw [hsp]; simp [hpt']) hr' hin'
      exact hpost _ hpt' ⟨rfl, v', x', hr', hin'.1, hin'.2, hc'⟩

theorem flatten_get {α : Type} {n : ℕ} : ∀ {ls : List (List α)}, (∀ l ∈ ls, l.length = n) →
    ∀ j m, ls[j]? = some m → ∀ o < n, ls.flatten[j * n + o]? = m[o]?
  | [], _, j, m, h, _, _ => by simp at h
  | l :: ls, hl, 0, m, h, o, ho => by
    simp only [List.getElem?_cons_zero, Option.some.injEq] at h
    subst h
    rw [List.flatten_cons, Nat.zero_mul, Nat.zero_add, List.getElem?_append_left]
    rw [hl l (by simp)]; exact ho
  | l :: ls, hl, j + 1, m, h, o, ho => by
    simp only [List.getElem?_cons_succ] at h
    have e : l.length = n := hl l (by simp)
    rw [List.flatten_cons, List.getElem?_append_right (by rw [e, Nat.succ_mul]; omega), e]
    rw [show (j + 1) * n + o - n = j * n + o by rw [Nat.succ_mul]; omega]
    exact flatten_get (fun l' h' => hl l' (by simp [h'])) j m h o ho

/-- The cells of the planes of a map that the program made. -/
theorem execute_planes {F : Fp} {c : Command C} {env : Env} {w w' : World} {p : Params}
    {T : MapType} (hp : populateParameters F c = .ok (some p)) (hT : FitsType p.bitpix T)
    (h2 : 2 ≤ c.samples * c.lines)
    (hfit : c.samples * c.lines * c.factories.length + c.samples * c.lines < 2 ^ 63)
    (hok : ∀ k, env.plane k = true)
    (h : execute F c env w = .ok (w', .returned 0)) :
    ∃ map rest ims, w' c.filename = some (map :: rest) ∧ MadeImages T c.factories ims ∧
      ∀ (j : ℕ) pl v, ims[j]? = some (pl, v) →
        (∀ b, T.isIntegral = true → p.blank = some b → T.intRange.1 ≤ b ∧ b ≤ T.intRange.2) ∧
        (∀ pt o, (pt, o) ∈ c.plots c.samples c.lines →
          ∃ found y, pl.read pt (.fin 0) = .ok (found, y)) ∧
        ∃ lo hi, PlaneLimits T pl.minmax lo hi ∧
        ∀ o < c.samples * c.lines,
          CellShows T (c.plots c.samples c.lines)
            (fun pt x => pl.read pt (.fin 0) = .ok (true, x)) lo hi
            (Source.emptyCell T p.blank) o
            (map.image.cells (1 + (j * (c.samples * c.lines) + o : ℕ))) := by
  obtain ⟨map, rest, ims, maps, info, hw, hi, hmk, hsz, hholds, -, -⟩ :=
    C74_data_partial F c env w w' p T hp hT h2 hfit hok h
  refine ⟨map, rest, ims, hw, hi, ?_⟩
  intro j pl v hj
  obtain ⟨-, heach⟩ := makePlanes_each hmk
  obtain ⟨m, i1, i2, hm, hpl, e1, e2, e3⟩ := heach j pl (by rw [List.getElem?_map, hj]; rfl)
  obtain ⟨hb, hrd, lo, hi', hlim, hcells⟩ := makePlane_shows hpl
  rw [e3] at hb
  rw [e1, e2] at hrd
  have hlen : m.length = c.samples * c.lines := hsz m (List.mem_of_getElem? hm)
  refine ⟨hb, hrd, lo, hi', hlim, ?_⟩
  intro o ho
  have := hcells o (by omega)
  rw [e1, e2, e3] at this
  rw [hholds, if_pos (by omega),
    show (1 + ((j * (c.samples * c.lines) + o : ℕ) : ℤ) - 1).toNat = j * (c.samples * c.lines) + o
      by omega, flatten_get hsz j m hm o ho]
  exact this

end MaRC.Execute
