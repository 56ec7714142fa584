import Verif.Lemmas.InputRefused

/-! # The photos, planes and maps of accepted input files -/

namespace MaRC.InputMeaning

open MaRC.Calc (Tok)
open MaRC.Scan (Token kw)
open MaRC.Grammar
open MaRC.Parser (Averaging Hemisphere Side NibbleClause CenterClause ScaleClause PhotoSrc PhotoCmd
  Nibbles PhotoVars Inert RangeClause RadiiClause PlaneSrc PlaneKind PlaneCmd Globals ProjSrc Proj
  OrthoCenter IntervalClause GridClause clean)

variable {E : Env} {b : Body} {es : Part}

/-! ## Photos -/

theorem given_int {k : String} {P : ℤ → Prop} {s : List Char} {n : ℤ}
    (hk : get k es = some [.ex (.num s)]) (hn : Parser.integer s = some n) (hp : P n) :
    Given k es (int k es) P :=
  given_some ((int_of (ws := []) hk rfl).trans hn) hp

theorem sides_sound {kA kB : String} (hk : kA ≠ kB) {s : Sides} {v : Option ℤ × Option ℤ}
    (hv : s.value = some v) (h1 : ∀ n, v.1 = some n → 0 ≤ n) (h2 : ∀ n, v.2 = some n → 0 ≤ n)
    (hA : get kA es = get kA (sidesEnts kA kB s)) (hB : get kB es = get kB (sidesEnts kA kB s)) :
    Given kA es (int kA es) (0 ≤ ·) ∧ Given kB es (int kB es) (0 ≤ ·) := by
  cases s <;> simp [sidesEnts, get_cons, hk, hk.symm] at hA hB <;>
    simp [Sides.value, Option.bind_eq_some_iff] at hv
  · obtain ⟨x, hx, rfl⟩ := hv
    exact ⟨given_int hA hx (h1 _ rfl), given_absent hB⟩
  · obtain ⟨x, hx, rfl⟩ := hv
    exact ⟨given_absent hA, given_int hB hx (h2 _ rfl)⟩
  · obtain ⟨x, hx, y, hy, rfl⟩ := hv
    exact ⟨given_int hA hx (h1 _ rfl), given_int hB hy (h2 _ rfl)⟩
  · obtain ⟨x, hx, y, hy, rfl⟩ := hv
    exact ⟨given_int hA hx (h1 _ rfl), given_int hB hy (h2 _ rfl)⟩

theorem nibble_sound {n : Nibble} {c : NibbleClause} (hc : n.clause = some c)
    (h0 : ∀ k ∈ c.numbers, 0 ≤ k) (h : ∀ k ∈ nibbleKeys, get k es = get k (nibbleEnts n)) :
    ∀ k ∈ ["NIBBLE", "NIBBLE_LEFT", "NIBBLE_RIGHT", "NIBBLE_TOP", "NIBBLE_BOTTOM"],
      Given k es (int k es) (0 ≤ ·) := by
  simp only [nibbleKeys, List.forall_mem_cons] at h ⊢
  obtain ⟨k0, k1, k2, k3, k4, -⟩ := h
  have key : ∀ {l r t b : Option ℤ}, c = .sides l r t b → (∀ n, l = some n → 0 ≤ n) ∧
      (∀ n, r = some n → 0 ≤ n) ∧ (∀ n, t = some n → 0 ≤ n) ∧ ∀ n, b = some n → 0 ≤ n := by
    rintro l r t b rfl
    simp only [NibbleClause.numbers, List.mem_filterMap, List.mem_cons, List.not_mem_nil, or_false,
      id] at h0
    exact ⟨fun n e => h0 n ⟨_, .inl rfl, e⟩, fun n e => h0 n ⟨_, .inr (.inl rfl), e⟩,
      fun n e => h0 n ⟨_, .inr (.inr (.inl rfl)), e⟩, fun n e => h0 n ⟨_, .inr (.inr (.inr rfl)), e⟩⟩
  cases n with
  | empty =>
    exact ⟨given_absent k0, given_absent k1, given_absent k2, given_absent k3, given_absent k4,
      by simp⟩
  | all n =>
    simp [nibbleEnts, get_cons] at k0 k1 k2 k3 k4
    simp [Nibble.clause, Option.bind_eq_some_iff] at hc
    obtain ⟨x, hx, rfl⟩ := hc
    exact ⟨given_int k0 hx (h0 x (by simp [NibbleClause.numbers])), given_absent k1, given_absent k2,
      given_absent k3, given_absent k4, by simp⟩
  | samples s =>
    simp [Nibble.clause, Option.bind_eq_some_iff] at hc
    obtain ⟨v1, v2, hv, rfl⟩ := hc
    obtain ⟨p1, p2, -⟩ := key rfl
    obtain ⟨g1, g2⟩ := sides_sound (by decide) hv p1 p2 k1 k2
    exact ⟨given_absent (k0.trans ((keys_samples s).get (by decide))), g1, g2,
      given_absent (k3.trans ((keys_samples s).get (by decide))),
      given_absent (k4.trans ((keys_samples s).get (by decide))), by simp⟩
  | lines s =>
    simp [Nibble.clause, Option.bind_eq_some_iff] at hc
    obtain ⟨v1, v2, hv, rfl⟩ := hc
    obtain ⟨-, -, p1, p2⟩ := key rfl
    obtain ⟨g1, g2⟩ := sides_sound (by decide) hv p1 p2 k3 k4
    exact ⟨given_absent (k0.trans ((keys_lines s).get (by decide))),
      given_absent (k1.trans ((keys_lines s).get (by decide))),
      given_absent (k2.trans ((keys_lines s).get (by decide))), g1, g2, by simp⟩
  | samplesLines s l =>
    simp only [nibbleEnts, get_append] at k0 k1 k2 k3 k4
    rw [(keys_lines l).get (by decide), (keys_samples s).get (by decide)] at k0
    rw [(keys_lines l).get (by decide), Option.or_none] at k1 k2
    rw [(keys_samples s).get (by decide), Option.none_or] at k3 k4
    simp [Nibble.clause, Option.bind_eq_some_iff] at hc
    obtain ⟨v1, v2, hv, w1, w2, hw, rfl⟩ := hc
    obtain ⟨p1, p2, p3, p4⟩ := key rfl
    obtain ⟨g1, g2⟩ := sides_sound (by decide) hv p1 p2 k1 k2
    obtain ⟨g3, g4⟩ := sides_sound (by decide) hw p3 p4 k3 k4
    exact ⟨given_absent k0, g1, g2, g3, g4, by simp⟩
  | linesSamples l s =>
    simp only [nibbleEnts, get_append] at k0 k1 k2 k3 k4
    rw [(keys_lines l).get (by decide), (keys_samples s).get (by decide)] at k0
    rw [(keys_lines l).get (by decide), Option.none_or] at k1 k2
    rw [(keys_samples s).get (by decide), Option.or_none] at k3 k4
    simp [Nibble.clause, Option.bind_eq_some_iff] at hc
    obtain ⟨v1, v2, hv, w1, w2, hw, rfl⟩ := hc
    obtain ⟨p1, p2, p3, p4⟩ := key rfl
    obtain ⟨g1, g2⟩ := sides_sound (by decide) hv p1 p2 k1 k2
    obtain ⟨g3, g4⟩ := sides_sound (by decide) hw p3 p4 k3 k4
    exact ⟨given_absent k0, g1, g2, g3, g4, by simp⟩

theorem scale_sound {s : Scale} {c : ScaleClause} (hc : s.clause E = some c) (hv : c.Valid)
    (h : ∀ k ∈ scaleKeys, get k es = get k (scaleEnts s)) :
    ∀ k ∈ ["KM_PER_PIXEL", "ARCSEC_PER_PIX", "FOCAL_LENGTH", "PIXEL_SCALE"],
      Given k es (real E k es) Positive := by
  simp only [scaleKeys, List.forall_mem_cons] at h ⊢
  obtain ⟨h1, h2, h3, h4, -⟩ := h
  cases s with
  | km x =>
    simp [scaleEnts, get_cons] at h1 h2 h3 h4
    simp [Scale.clause, Option.bind_eq_some_iff] at hc
    obtain ⟨y, hy, rfl⟩ := hc
    exact ⟨given_op h1 hy hv, given_absent h2, given_absent h3, given_absent h4, by simp⟩
  | arcsec x =>
    simp [scaleEnts, get_cons] at h1 h2 h3 h4
    simp [Scale.clause, Option.bind_eq_some_iff] at hc
    obtain ⟨y, hy, rfl⟩ := hc
    exact ⟨given_absent h1, given_op h2 hy hv, given_absent h3, given_absent h4, by simp⟩
  | lens p =>
    simp [Scale.clause, Option.bind_eq_some_iff] at hc
    obtain ⟨x, y, hy, rfl⟩ := hc
    obtain ⟨g1, g2⟩ := given_pair (E := E) (P := Positive) (Q := Positive) (by decide) hy h3 h4 hv.1 hv.2
    exact ⟨given_absent (h1.trans ((keys_pair _ _ p).get (by decide))),
      given_absent (h2.trans ((keys_pair _ _ p).get (by decide))), g1, g2, by simp⟩

theorem center_pixel {x y : Dbl} (h : center E b es = some (.pixel x y)) :
    real E "SAMPLE_CENTER" es = some x ∧ real E "LINE_CENTER" es = some y := by
  rw [center] at h
  cases h1 : both (real E "SAMPLE_CENTER" es) (real E "LINE_CENTER" es) with
  | none =>
    rw [h1] at h
    cases h2 : both (latitude E b "LAT_AT_CENTER" es) (longitude E b "LON_AT_CENTER" es) <;>
      rw [h2] at h <;> simp at h
  | some p =>
    rw [h1] at h
    simp only [Option.map_some, Option.some_or, Option.some.injEq, CenterClause.pixel.injEq] at h
    simp only [both, Option.pure_def, Option.bind_eq_bind, Option.bind_eq_some_iff,
      Option.some.injEq] at h1
    obtain ⟨a, ha, c, hc, rfl⟩ := h1
    rw [ha, hc]
    exact ⟨congrArg some h.1, congrArg some h.2⟩

theorem center_latLon {x y : Dbl} (h : center E b es = some (.latLon x y)) :
    latitude E b "LAT_AT_CENTER" es = some x ∧ longitude E b "LON_AT_CENTER" es = some y := by
  rw [center] at h
  cases h1 : both (real E "SAMPLE_CENTER" es) (real E "LINE_CENTER" es) with
  | some p => rw [h1] at h; simp at h
  | none =>
    rw [h1] at h
    cases h2 : both (latitude E b "LAT_AT_CENTER" es) (longitude E b "LON_AT_CENTER" es) with
    | none => rw [h2] at h; simp at h
    | some p =>
      rw [h2] at h
      simp only [Option.map_none, Option.map_some, Option.none_or, Option.some.injEq,
        CenterClause.latLon.injEq] at h
      simp only [both, Option.pure_def, Option.bind_eq_bind, Option.bind_eq_some_iff,
        Option.some.injEq] at h2
      obtain ⟨a, ha, c, hc, rfl⟩ := h2
      rw [ha, hc]
      exact ⟨congrArg some h.1, congrArg some h.2⟩

theorem scale_lens {x y : Dbl} (h : scale E es = some (.lens x y)) :
    real E "FOCAL_LENGTH" es = some x ∧ real E "PIXEL_SCALE" es = some y := by
  rw [scale] at h
  cases h1 : real E "KM_PER_PIXEL" es with
  | some _ => rw [h1] at h; simp at h
  | none =>
    cases h2 : real E "ARCSEC_PER_PIX" es with
    | some _ => rw [h1, h2] at h; simp at h
    | none =>
      rw [h1, h2] at h
      cases h3 : both (real E "FOCAL_LENGTH" es) (real E "PIXEL_SCALE" es) with
      | none => rw [h3] at h; simp at h
      | some p =>
        rw [h3] at h
        simp only [Option.map_none, Option.map_some, Option.none_or, Option.some.injEq,
          ScaleClause.lens.injEq] at h
        simp only [both, Option.pure_def, Option.bind_eq_bind, Option.bind_eq_some_iff,
          Option.some.injEq] at h3
        obtain ⟨a, ha, c, hc, rfl⟩ := h3
        rw [ha, hc]
        exact ⟨congrArg some h.1, congrArg some h.2⟩

/-- What the parser does not check. -/
structure Sane (s : PhotoSrc) : Prop where
  lens : ∀ x y, s.scale = .lens x y → Positive x ∧ Positive y
  pixel : ∀ x y, s.center = .pixel x y → x ≠ .nan ∧ y ≠ .nan
  latLon : ∀ x y, s.center = .latLon x y → x ≠ .nan ∧ y ≠ .nan
  range : s.kilometers ≠ .nan
  emission : s.emiAngLimit ≠ some .nan

theorem photo_sane {p : Photo} {s : PhotoSrc} (h : p.src E b = some s)
    (hc : CheckedPhoto E b (photoEnts p)) : Sane s := by
  simp only [Photo.src, Option.pure_def, Option.bind_eq_bind, Option.bind_eq_some_iff,
    Option.some.injEq] at h
  obtain ⟨nib, hnib, cen, hcen, ax, hax, mi, hmi, emi, hemi, sub, hsub, pa, hpa, sun, hsun, r, hr,
    sc, hsc, rfl⟩ := h
  have e5 : center E b (photoEnts p) = some cen := by
    rw [center_of (c := p.centers) ?_, hcen]
    simp only [centerKeys, List.forall_mem_cons]
    refine ⟨?_, ?_, ?_, ?_, by simp⟩ <;> photo_get
  have e9 : real E "EMI_ANG_LIMIT" (photoEnts p) = emi := by
    rw [real_opt p.emiAngLimit (by photo_get), optional_bind hemi]
  have e16 : scale E (photoEnts p) = some sc := by
    rw [scale_of (s := p.scale) ?_, hsc]
    simp only [scaleKeys, List.forall_mem_cons]
    refine ⟨?_, ?_, ?_, ?_, by simp⟩ <;> photo_get
  have ed : distance E (photoEnts p) = p.distance.value E := distance_of (by photo_get)
  simp only [Distance.value, hr] at ed
  constructor
  · rintro x y rfl
    obtain ⟨h1, h2⟩ := scale_lens e16
    exact ⟨hc.lens _ (by decide) _ h1, hc.lens _ (by decide) _ h2⟩
  · rintro x y rfl
    obtain ⟨h1, h2⟩ := center_pixel e5
    constructor <;> rintro rfl
    · exact hc.numbers _ (by decide) h1
    · exact hc.numbers _ (by decide) h2
  · rintro x y rfl
    obtain ⟨h1, h2⟩ := center_latLon e5
    constructor <;> rintro rfl
    · exact hc.latitude h1
    · exact hc.longitude h2
  · intro hk
    refine hc.distance (ed.trans ?_)
    rw [← hk]
    rfl
  · rw [← e9]
    exact hc.numbers _ (by decide)

theorem photo_sound {p : Photo} {s : PhotoSrc} (h : p.src E b = some s)
    (hv : s.Valid b.eqRad b.polRad) : ValidPhoto E b (photoEnts p) := by
  simp only [Photo.src, Option.pure_def, Option.bind_eq_bind, Option.bind_eq_some_iff,
    Option.some.injEq] at h
  obtain ⟨nib, hnib, cen, hcen, ax, hax, mi, hmi, emi, hemi, sub, hsub, pa, hpa, sun, hsun, r, hr,
    sc, hsc, rfl⟩ := h
  have h1 := nibble_sound (es := photoEnts p) hnib hv.nibble (by
    simp only [nibbleKeys, List.forall_mem_cons]
    refine ⟨?_, ?_, ?_, ?_, ?_, by simp⟩ <;> photo_get)
  obtain ⟨c1, c2, c3, c4⟩ := center_sound (es := photoEnts p) (P := NumberWithin 90)
    (Q := NumberWithin 360) (R := (· ≠ .nan)) (S := (· ≠ .nan)) (c := p.centers) (by
      simp only [centerKeys, List.forall_mem_cons]
      refine ⟨?_, ?_, ?_, ?_, by simp⟩ <;> photo_get) hcen (by
      have := hv.center
      cases cen <;> exact this)
  have h3 : Given "SAMPLE_OA" (photoEnts p) (real E "SAMPLE_OA" (photoEnts p)) (· ≠ .nan) ∧
      Given "LINE_OA" (photoEnts p) (real E "LINE_OA" (photoEnts p)) (· ≠ .nan) := by
    have g1 : get "SAMPLE_OA" (photoEnts p) =
        get "SAMPLE_OA" (p.axis.elim [] (pairEnts "SAMPLE_OA" "LINE_OA")) := by photo_get
    have g2 : get "LINE_OA" (photoEnts p) =
        get "LINE_OA" (p.axis.elim [] (pairEnts "SAMPLE_OA" "LINE_OA")) := by photo_get
    cases hx : p.axis with
    | none => rw [hx] at g1 g2; exact ⟨given_absent g1, given_absent g2⟩
    | some x =>
      rw [hx] at g1 g2 hax
      simp only [Grammar.optional, Option.map_eq_some_iff] at hax
      obtain ⟨w, hw, rfl⟩ := hax
      obtain ⟨a1, a2⟩ := hv.axis w.1 w.2 rfl
      exact given_pair (by decide) hw g1 g2 a1 a2
  have h4 : choice "MINNAERT" (photoEnts p) = none →
      Given "MINNAERT" (photoEnts p) (real E "MINNAERT" (photoEnts p)) Any := by
    have g : get "MINNAERT" (photoEnts p) = minnaertVal p.minnaert := by photo_get
    intro hch
    cases hm : p.minnaert <;> rw [hm] at g hmi
    · exact given_absent g
    case exponent x =>
      simp only [Minnaert.clause, Option.pure_def, Option.bind_eq_bind, Option.bind_eq_some_iff] at hmi
      obtain ⟨y, hy, -⟩ := hmi
      exact given_op (x := x) g hy trivial
    all_goals simp [choice, g, minnaertVal] at hch
  have h6 := given_pt (E := E) (b := b) (es := photoEnts p) (kA := "SUB_OBSERV_LAT")
    (kB := "SUB_OBSERV_LON") (p := p.subObserv) (P := NumberWithin 90)
    (Q := NumberWithin 360) (by decide) hsub (by change _ = get _ (subEnts _); photo_get)
    (by change _ = get _ (subEnts _); photo_get) hv.subObserv.1 hv.subObserv.2
  have h8 := given_pt (E := E) (b := b) (es := photoEnts p) (kA := "SUB_SOLAR_LAT")
    (kB := "SUB_SOLAR_LON") (p := p.subSolar) (P := NumberWithin 90)
    (Q := NumberWithin 360) (by decide) hsun (by change _ = get _ (sunEnts _); photo_get)
    (by change _ = get _ (sunEnts _); photo_get) hv.subSolar.1 hv.subSolar.2
  have ed : distance E (photoEnts p) = p.distance.value E := distance_of (by photo_get)
  simp only [Distance.value, hr] at ed
  constructor
  · exact h1
  · simp only [List.forall_mem_cons]
    exact ⟨h3.1, h3.2, c1, c2, by simp⟩
  · exact h4
  · exact given_opt (x := p.emiAngLimit) (by photo_get) hemi hv.emission
  · simp only [List.forall_mem_cons]
    exact ⟨h6.1, h8.1, c3, by simp⟩
  · simp only [List.forall_mem_cons]
    exact ⟨h6.2, h8.2, c4, by simp⟩
  · exact given_some ((turn_of (t := p.turn) (by photo_get)).trans hpa) hv.positionAngle
  · exact given_some ed hv.range
  · refine scale_sound hsc hv.scale ?_
    simp only [scaleKeys, List.forall_mem_cons]
    refine ⟨?_, ?_, ?_, ?_, by simp⟩ <;> photo_get

theorem images_sound {cos : Dbl → Dbl} {d : Nibbles} {e q : Dbl} (he : e ≠ .nan) (hq : q ≠ .nan) :
    ∀ {ss : List PhotoSrc} {v v' : PhotoVars} {cs : List PhotoCmd}, Inert d v →
      (∀ s ∈ ss, s.Scanned ∧ Sane s) → Parser.images cos e q ss v = .ok (some (v', cs)) →
      ∀ s ∈ ss, s.Valid e q
  | [], _, _, _, _, _, _ => by simp
  | s :: ss, v, v', cs, hv, hs, h => by
    simp only [Parser.images, Parser.bind_eq_ok] at h
    obtain ⟨r, hr, h⟩ := h
    rcases r with _ | ⟨g1, c⟩
    · simp at h
    · simp only [Parser.bind_eq_ok] at h
      obtain ⟨r, hrs, h⟩ := h
      rcases r with _ | ⟨g2, cs'⟩
      · simp at h
      · obtain ⟨hg1, hw⟩ := Parser.setup_sound hv hr
        obtain ⟨h1, h2⟩ := hs s (by simp)
        have hval := (hw h1 h2.lens h2.pixel h2.latLon).2 he hq h2.range h2.emission
        have ih := images_sound (ss := ss) he hq hg1 (fun x hx => hs x (by simp [hx])) hrs
        intro x hx
        rcases List.mem_cons.mp hx with rfl | hx
        · exact hval
        · exact ih x hx

/-! ## Planes -/

theorem parts_none {k : String} : ∀ {es : Part}, get k es = none → parts k es = [] := by
  intro es h
  induction es with
  | nil => rfl
  | cons e es ih =>
    obtain ⟨k', v⟩ := e
    rw [get_cons] at h
    by_cases hk : k' = k
    · simp [hk] at h
    · rw [if_neg hk] at h
      simp [parts, hk, ih h]

/-- The values of a plane that shows cosines. -/
structure ViewValues (E : Env) (b : Body) (es : Part) : Prop where
  latitudes : ∀ k ∈ ["SUB_OBSERV_LAT", "SUB_SOLAR_LAT"], Given k es (latitude E b k es) Any
  longitudes : ∀ k ∈ ["SUB_OBSERV_LON", "SUB_SOLAR_LON"], Given k es (longitude E b k es) Any
  distance : Given "RANGE" es (distance E es) Any

theorem view_values {s u : Option (Point × (Dbl × Dbl))} {d : Option (Distance × Dbl)}
    (hs : ∀ p v, s = some (p, v) → p.value E b = some v)
    (hu : ∀ p v, u = some (p, v) → p.value E b = some v)
    (hd : ∀ p v, d = some (p, v) → p.value E = some v)
    (h1 : ∀ k ∈ subKeys, get k es = (s.bind fun x => get k (subEnts x.1)))
    (h2 : ∀ k ∈ sunKeys, get k es = (u.bind fun x => get k (sunEnts x.1)))
    (h3 : get "RANGE" es = d.map fun x => distVal x.1) : ViewValues E b es := by
  simp only [subKeys, sunKeys, List.forall_mem_cons] at h1 h2
  obtain ⟨s1, s2, -⟩ := h1
  obtain ⟨u1, u2, -⟩ := h2
  have g1 : Given "SUB_OBSERV_LAT" es (latitude E b "SUB_OBSERV_LAT" es) Any ∧
      Given "SUB_OBSERV_LON" es (longitude E b "SUB_OBSERV_LON" es) Any := by
    rcases s with _ | ⟨p, v⟩
    · exact ⟨given_absent s1, given_absent s2⟩
    · exact given_pt (by decide) (hs p v rfl) s1 s2 trivial trivial
  have g2 : Given "SUB_SOLAR_LAT" es (latitude E b "SUB_SOLAR_LAT" es) Any ∧
      Given "SUB_SOLAR_LON" es (longitude E b "SUB_SOLAR_LON" es) Any := by
    rcases u with _ | ⟨p, v⟩
    · exact ⟨given_absent u1, given_absent u2⟩
    · exact given_pt (by decide) (hu p v rfl) u1 u2 trivial trivial
  constructor
  · simp only [List.forall_mem_cons]
    exact ⟨g1.1, g2.1, by simp⟩
  · simp only [List.forall_mem_cons]
    exact ⟨g1.2, g2.2, by simp⟩
  · rcases d with _ | ⟨p, v⟩
    · exact given_absent h3
    · exact given_some ((distance_of h3).trans (hd p v rfl)) trivial

theorem view_sound {n : Option (List Char)} {r : Range} {t : PlaneType} {a : Averaging}
    {g : Option Bool} {v v' : PhotoVars} {s : Source} (ht : ∀ p ps, t ≠ .photos p ps)
    (h : t.source E b a g v = .done (v', s)) :
    v' = v ∧ ViewValues E b (planeEnts ⟨n, r, t⟩) ∧ get "IMAGE" (planeEnts ⟨n, r, t⟩) = none := by
  cases t with
  | photos p ps => exact absurd rfl (ht p ps)
  | mu q e =>
    simp only [PlaneType.source] at h
    obtain ⟨x, h1, h⟩ := act_bind h
    obtain ⟨y, h2, h⟩ := act_bind h
    have h3 := act_pure h
    simp only [Prod.mk.injEq] at h3
    refine ⟨h3.1.symm, view_values (s := some (q, x)) (u := none) (d := some (e, y)) ?_ ?_ ?_ ?_ ?_ ?_,
      by plane_get⟩
    · rintro _ _ ⟨⟩; exact act_option h1
    · rintro _ _ ⟨⟩
    · rintro _ _ ⟨⟩; exact act_option h2
    · simp only [subKeys, List.forall_mem_cons]
      exact ⟨by plane_get, by plane_get, by simp⟩
    · simp only [sunKeys, List.forall_mem_cons]
      exact ⟨by plane_get, by plane_get, by simp⟩
    · plane_get
  | muFull q e u | mu0Full q e u | phase q e u =>
    simp only [PlaneType.source] at h
    obtain ⟨x, h1, h⟩ := act_bind h
    obtain ⟨y, h2, h⟩ := act_bind h
    obtain ⟨z, h4, h⟩ := act_bind h
    have h3 := act_pure h
    simp only [Prod.mk.injEq] at h3
    refine ⟨h3.1.symm, view_values (s := some (q, x)) (u := some (u, z)) (d := some (e, y))
      ?_ ?_ ?_ ?_ ?_ ?_, by plane_get⟩
    · rintro _ _ ⟨⟩; exact act_option h1
    · rintro _ _ ⟨⟩; exact act_option h4
    · rintro _ _ ⟨⟩; exact act_option h2
    · simp only [subKeys, List.forall_mem_cons]
      exact ⟨by plane_get, by plane_get, by simp⟩
    · simp only [sunKeys, List.forall_mem_cons]
      exact ⟨by plane_get, by plane_get, by simp⟩
    · plane_get
  | mu0 u =>
    simp only [PlaneType.source] at h
    obtain ⟨z, h4, h⟩ := act_bind h
    have h3 := act_pure h
    simp only [Prod.mk.injEq] at h3
    refine ⟨h3.1.symm, view_values (s := none) (u := some (u, z)) (d := none)
      ?_ ?_ ?_ ?_ ?_ ?_, by plane_get⟩
    · rintro _ _ ⟨⟩
    · rintro _ _ ⟨⟩; exact act_option h4
    · rintro _ _ ⟨⟩
    · simp only [subKeys, List.forall_mem_cons]
      exact ⟨by plane_get, by plane_get, by simp⟩
    · simp only [sunKeys, List.forall_mem_cons]
      exact ⟨by plane_get, by plane_get, by simp⟩
    · plane_get
  | latitude t =>
    have h3 := act_pure h
    simp only [Prod.mk.injEq] at h3
    have key : ∀ k, k ≠ "PLANE" → k ∉ rangeKeys → "LATITUDE" ≠ k → "LATITUDE_TYPE" ≠ k →
        get k (planeEnts ⟨n, r, .latitude t⟩) = none := by
      intro k k1 k2 k3 k4
      rw [get_plane _ k1 k2]
      cases t <;> simp [typeEnts, latTypeEnts, get_cons, k3, k4]
    refine ⟨h3.1.symm, view_values (s := none) (u := none) (d := none) ?_ ?_ ?_ ?_ ?_ ?_, ?_⟩
    · rintro _ _ ⟨⟩
    · rintro _ _ ⟨⟩
    · rintro _ _ ⟨⟩
    · intro k hk
      exact key k (by revert k; decide) (by revert k; decide) (by revert k; decide)
        (by revert k; decide)
    · intro k hk
      exact key k (by revert k; decide) (by revert k; decide) (by revert k; decide)
        (by revert k; decide)
    · exact key _ (by decide) (by decide) (by decide) (by decide)
    · exact key _ (by decide) (by decide) (by decide) (by decide)
  | longitude =>
    have h3 := act_pure h
    simp only [Prod.mk.injEq] at h3
    have key : ∀ k, k ≠ "PLANE" → k ∉ rangeKeys →
        get k (planeEnts ⟨n, r, .longitude⟩) = none := by
      intro k k1 k2
      rw [get_plane _ k1 k2]
      rfl
    refine ⟨h3.1.symm, view_values (s := none) (u := none) (d := none) ?_ ?_ ?_ ?_ ?_ ?_, ?_⟩
    · rintro _ _ ⟨⟩
    · rintro _ _ ⟨⟩
    · rintro _ _ ⟨⟩
    · exact fun k hk => key k (by revert k; decide) (by revert k; decide)
    · exact fun k hk => key k (by revert k; decide) (by revert k; decide)
    · exact key _ (by decide) (by decide)
    · exact key _ (by decide) (by decide)

theorem photos_sane : ∀ {ps : List Photo} {ss : List PhotoSrc},
    List.Forall₂ (fun p s => Photo.src E b p = some s) ps ss →
    (∀ x ∈ ps.map photoEnts, CheckedPhoto E b x) → ∀ s ∈ ss, Sane s
  | _, _, .nil, _ => by simp
  | p :: ps, s :: ss, .cons h hs, hc => by
    have ih := photos_sane hs fun y hy => hc y (by simp only [List.map_cons, List.mem_cons, hy, or_true])
    intro x hx
    rcases List.mem_cons.mp hx with rfl | hx
    · exact photo_sane h (hc _ (by simp))
    · exact ih x hx

theorem photos_sound : ∀ {ps : List Photo} {ss : List PhotoSrc},
    List.Forall₂ (fun p s => Photo.src E b p = some s) ps ss →
    (∀ s ∈ ss, s.Valid b.eqRad b.polRad) → ∀ x ∈ ps.map photoEnts, ValidPhoto E b x
  | _, _, .nil, _ => by simp
  | p :: ps, s :: ss, .cons h hs, hv => by
    have ih := photos_sound hs fun y hy => hv y (by simp [hy])
    intro x hx
    simp only [List.map_cons, List.mem_cons] at hx
    rcases hx with rfl | hx
    · exact photo_sound h (hv _ (by simp))
    · exact ih x hx

theorem plane_sound {p : Plane} {s : PlaneSrc} {a : Averaging} {g : Option Bool} {v v' : PhotoVars}
    {d : Nibbles} {q : Source} (hr : b.eqRad ≠ .nan ∧ b.polRad ≠ .nan) (hv : Inert d v)
    (hs : p.src E = some s) (ho : s.range.Ordered) (h : p.type.source E b a g v = .done (v', q))
    (hc : ∀ x ∈ parts "IMAGE" (planeEnts p), CheckedPhoto E b x) :
    ValidPlane E b (planeEnts p) ∧ Inert d v' ∧ int "PLANE" (planeEnts p) = s.number := by
  simp only [Plane.src, Option.pure_def, Option.bind_eq_bind, Option.bind_eq_some_iff,
    Option.some.injEq] at hs
  obtain ⟨num, hn, rc, hrc, rfl⟩ := hs
  have hpg : get "PLANE" (planeEnts p) = some (planeVal p) := by simp [planeEnts, get_cons]
  have hb := expr_bareType p.type
  have hnum : ((get "PLANE" (planeEnts p)).map expr ≠ some [] →
      ∃ n, int "PLANE" (planeEnts p) = some n) ∧ int "PLANE" (planeEnts p) = num := by
    cases hp : p.number with
    | none =>
      have : expr (planeVal p) = [] := by
        rw [planeVal, hp]
        cases p.range <;> simp [numVal, hb]
      rw [hp] at hn
      simp only [Grammar.optional, Option.some.injEq] at hn
      exact ⟨fun h => absurd (by simp [hpg, this]) h, by simp [int, hpg, this, ← hn]⟩
    | some t =>
      have he : ∃ ws, planeVal p = .ex (.num t) :: ws ∧ expr ws = [] := by
        rw [planeVal, hp]
        cases p.range <;> simp [numVal, hb]
      obtain ⟨ws, e, hw⟩ := he
      rw [e] at hpg
      rw [hp] at hn
      simp only [Grammar.optional, Option.map_eq_some_iff] at hn
      obtain ⟨k, hk, rfl⟩ := hn
      have := (int_of hpg hw).trans hk
      exact ⟨fun _ => ⟨k, this⟩, this⟩
  obtain ⟨l1, l2⟩ := range_sound (es := planeEnts p) hb hrc ho (by
    simp only [rangeKeys, List.forall_mem_cons]
    refine ⟨?_, ?_, by simp⟩ <;>
      simp [planeEnts, planeRest, get_cons, get_append, get_type (k := "DATA_MIN") (by decide),
        get_type (k := "DATA_MAX") (by decide)])
  by_cases ht : ∃ x xs, p.type = .photos x xs
  · obtain ⟨x, xs, ht⟩ := ht
    obtain ⟨n, r, t⟩ := p
    simp only at ht
    subst ht
    simp only [PlaneType.source] at h
    obtain ⟨ss, h1, h⟩ := act_bind h
    obtain ⟨⟨v1, cs⟩, h2, h⟩ := act_bind h
    have h3 := act_pure h
    simp only [Prod.mk.injEq] at h3
    obtain ⟨rfl, rfl⟩ := h3
    have hss := mapM_forall (act_option h1)
    obtain ⟨hi, -⟩ := images_of hv (scanned_of hss) (act_eq h2)
    have hsc := scanned_of hss
    rw [parts_photos] at hc
    have hsane := photos_sane hss hc
    have hval := images_sound hr.1 hr.2 hv (fun s hs => ⟨hsc s hs, hsane s hs⟩) (act_eq h2)
    have hup : upTo "IMAGE" (planeEnts ⟨n, r, .photos x xs⟩) =
        ("PLANE", planeVal ⟨n, r, .photos x xs⟩) :: rangeEnts [] r := by
      have e : planeEnts ⟨n, r, .photos x xs⟩ = ("PLANE", planeVal ⟨n, r, .photos x xs⟩) ::
          rangeEnts [] r ++ (x :: xs).flatMap photoEnts := rfl
      rw [e, upTo_append (ks := "PLANE" :: rangeKeys) (.cons (by simp)
        ((keys_range _ r).mono fun _ h => by simp [h])) (by decide),
        upTo_blocks fun x _ => block_photo x, List.append_nil]
    have hno : ∀ k, "PLANE" ≠ k → k ∉ rangeKeys →
        get k (upTo "IMAGE" (planeEnts ⟨n, r, .photos x xs⟩)) = none := by
      intro k k1 k2
      rw [hup, get_cons, if_neg k1]
      exact (keys_range _ r).get k2
    refine ⟨⟨hnum.1, l1, l2, ?_, ?_, ?_, ?_⟩, hi, hnum.2⟩
    · rw [parts_photos]
      exact photos_sound hss hval
    · exact fun k hk => given_absent (hno k (by revert k; decide) (by revert k; decide))
    · exact fun k hk => given_absent (hno k (by revert k; decide) (by revert k; decide))
    · exact given_absent (hno _ (by decide) (by decide))
  · push Not at ht
    obtain ⟨rfl, hw, hi⟩ := view_sound (n := p.number) (r := p.range) ht h
    refine ⟨⟨hnum.1, l1, l2, ?_, ?_, ?_, ?_⟩, hv, hnum.2⟩
    · rw [parts_none hi]; simp
    · rw [upTo_self hi]; exact hw.latitudes
    · rw [upTo_self hi]; exact hw.longitudes
    · rw [upTo_self hi]; exact hw.distance

theorem planeImages_sound {a : Averaging} {d : Nibbles} (hr : b.eqRad ≠ .nan ∧ b.polRad ≠ .nan) :
    ∀ {ps : List Plane} {ss : List PlaneSrc} {cs : List PlaneCmd} {v : PhotoVars}
      {r : PhotoVars × List PlaneImage}, List.Forall₂ (fun p s => Plane.src E p = some s) ps ss →
      cs.length = ps.length → Inert d v → (∀ s ∈ ss, s.range.Ordered) →
      planeImages E b a (ps.zip cs) v = .done r →
      (∀ p ∈ ps, ∀ x ∈ parts "IMAGE" (planeEnts p), CheckedPhoto E b x) →
      (∀ p ∈ ps.map planeEnts, ValidPlane E b p) ∧
      (ps.map planeEnts).filterMap (int "PLANE") = ss.filterMap PlaneSrc.number
  | _, _, _, _, _, .nil, _, _, _, _, _ => by simp
  | p :: ps, s :: ss, [], v, r, .cons h hs, hl, hv, ho, hi, hc => by simp at hl
  | p :: ps, s :: ss, c :: cs, v, r, .cons h hs, hl, hv, ho, hi, hc => by
    simp only [List.zip_cons_cons, planeImages] at hi
    obtain ⟨⟨v1, src⟩, hi1, hi⟩ := act_bind hi
    obtain ⟨⟨v2, is'⟩, hi2, hi⟩ := act_bind hi
    obtain ⟨k1, k2, k3⟩ := plane_sound hr hv h (ho s (by simp)) hi1 (hc p (by simp))
    obtain ⟨m1, m2⟩ := planeImages_sound (ps := ps) (ss := ss) (cs := cs) hr hs (by simpa using hl) k2
      (fun x hx => ho x (by simp [hx])) hi2 fun x hx => hc x (by simp [hx])
    constructor
    · intro x hx
      simp only [List.map_cons, List.mem_cons] at hx
      rcases hx with rfl | hx
      · exact k1
      · exact m1 x hx
    · simp only [List.map_cons, List.filterMap_cons, k3, m2]

/-! ## Maps -/

theorem srcs_fit : ∀ {ps : List Plane} {ss : List PlaneSrc},
    List.Forall₂ (fun p s => Plane.src E p = some s) ps ss →
    ∀ s ∈ ss, ∀ n, s.number = some n → -(2 ^ 63) ≤ n ∧ n < 2 ^ 63
  | _, _, .nil => by simp
  | p :: ps, s :: ss, .cons h hs => by
    intro x hx n hn
    rcases List.mem_cons.mp hx with rfl | hx
    · simp only [Plane.src, Option.pure_def, Option.bind_eq_bind, Option.bind_eq_some_iff,
        Option.some.injEq] at h
      obtain ⟨num, h1, rc, -, rfl⟩ := h
      simp only at hn
      subst hn
      cases hp : p.number with
      | none => rw [hp] at h1; simp [Grammar.optional] at h1
      | some t =>
        rw [hp] at h1
        simp only [Grammar.optional, Option.map_eq_some_iff] at h1
        obtain ⟨k, hk, e⟩ := h1
        rw [← Option.some.inj e]
        exact integer_bounds hk
    · exact srcs_fit hs x hx n hn

theorem extent_pos {s : List Char} {n : ℤ} (h : Parser.extent s = some n) :
    Parser.integer s = some n ∧ 0 < n := by
  simp only [Parser.extent] at h
  split at h
  · split at h
    · simp only [Option.some.injEq] at h
      subst h
      exact ⟨by assumption, by assumption⟩
    · simp at h
  · simp at h

theorem map_sound {m : Map} {s s' : State} {c : Command} {d : Nibbles} (hc : clean s.g)
    (hv : Inert d s.v) (hck : CheckedMap E (mapEnts m)) (h : m.run E s = .done (s', c)) :
    ValidMap E s.g.graphicLat (mapEnts m) := by
  obtain ⟨hgrid, hph⟩ := hck
  rw [upTo_map] at hgrid hph
  rw [parts_map] at hph
  simp only [Map.run] at h
  obtain ⟨b, hb, h⟩ := act_bind h
  obtain ⟨p, hp, h⟩ := act_bind h
  obtain ⟨gc, hg, h⟩ := act_bind h
  obtain ⟨⟨v1, pr⟩, hpr, h⟩ := act_bind h
  obtain ⟨n, hn, h⟩ := act_bind h
  obtain ⟨sa, hsa, h⟩ := act_bind h
  obtain ⟨li, hli, h⟩ := act_bind h
  obtain ⟨pl, hpl, h⟩ := act_bind h
  obtain ⟨⟨g', mc⟩, hm, h⟩ := act_bind h
  obtain ⟨_, hproj, h⟩ := act_bind h
  obtain ⟨⟨v2, is⟩, his, -⟩ := act_bind h
  clear h
  replace hg := act_option hg
  replace hpr := act_option hpr
  replace hn := act_option hn
  obtain ⟨hsa, hsa0⟩ := extent_pos (act_option hsa)
  obtain ⟨hli, hli0⟩ := extent_pos (act_option hli)
  replace hpl := mapM_forall (act_option hpl)
  replace hm := act_eq hm
  have hcnt : ∀ k, n = some k → ∃ t, m.planes = some t ∧ Parser.integer t = some k := by
    rintro k rfl
    cases hq : m.planes with
    | none => rw [hq] at hn; simp [Grammar.optional] at hn
    | some t =>
      rw [hq] at hn
      simp only [Grammar.optional, Option.map_eq_some_iff] at hn
      obtain ⟨k', hk, e⟩ := hn
      exact ⟨t, rfl, hk.trans e⟩
  have hval := Parser.map_valid hc (m := ⟨gc, m.proj.averaging, pr, n, pl⟩)
    ⟨fun k hk => by obtain ⟨t, -, ht⟩ := hcnt k hk; exact (integer_bounds ht).2, srcs_fit hpl⟩ hm
  obtain ⟨hrad, hflat⟩ := radii_sound hb
  obtain ⟨o1, o2, o3⟩ := params_sound hp
  have hpv := proj_sound (es := mapHead m) hpr hval.proj (get_head_proj m)
  obtain ⟨w1, w2, w3⟩ := projection_of (es := mapHead m) (graphic := s.g.graphicLat) hv
    (get_head_proj m) (latType_head m) hpr
  have hbody := body_of hb
  have hnan : b.eqRad ≠ .nan ∧ b.polRad ≠ .nan := by
    have he : Positive b.eqRad := Dbl.lt_of_lt_of_le hrad.1 hrad.2
    have hq := hrad.1
    constructor
    · intro e; rw [e] at he; simp [Positive, Dbl.lt] at he
    · intro e; rw [e] at hq; simp [Positive, Dbl.lt] at hq
  obtain ⟨g1, x, g2, proj, g3, cs, h1, h2, h3, h4, h5, rfl⟩ := Parser.map_ok hm
  have hlen : cs.length = (m.plane :: m.more).length := by
    rw [planes_length h4, hpl.length_eq]
  obtain ⟨z1, z2⟩ := planeImages_sound hnan hpl hlen w1 hval.ranges his fun p hp x hx =>
    hph b hbody _ (List.mem_map_of_mem hp) x hx
  refine ⟨b, ?_, ?_, ?_⟩
  · rw [upTo_map, parts_map]
    exact
      { body := hbody
        radii := hrad
        flattening := hflat
        numbers := by
          simp only [List.forall_mem_cons]
          exact ⟨o1, o2, hpv.numbers _ (by decide), hpv.numbers _ (by decide), by simp⟩
        blank := o3
        grid := grid_sound hg hval.grid hgrid
        latitudes := hpv.latitudes
        longitudes := hpv.longitudes
        angle := hpv.angle
        scale := hpv.scale
        order := hpv.order
        projection := by
          intro q hq
          have hc1 := Parser.clean_entry hc h1
          obtain ⟨q1, q2⟩ := projection_wanted hc1 h2
          obtain ⟨i1, -⟩ := entry_grid h1
          have : (Parser.averaging m.proj.averaging g1).graphicLat = s.g.graphicLat := by
            cases m.proj.averaging <;> simp [Parser.averaging, i1]
          rw [w2, ← this, ← q1] at hq
          have e := Option.some.inj hq
          rw [← e]
          exact act_outcome hproj
        planes := by
          have hk : get "PLANES" (mapHead m) = m.planes.map fun s => [.ex (.num s)] := by head_get
          cases hq : m.planes with
          | none => rw [hq] at hk; exact given_absent hk
          | some t =>
            rw [hq] at hk hn
            simp only [Grammar.optional, Option.map_eq_some_iff] at hn
            obtain ⟨k, hk1, rfl⟩ := hn
            refine given_int (by simpa using hk) hk1 ?_
            obtain ⟨j, -, j2⟩ := hval.numbered
            simp only at j2
            rw [List.length_map, hpl.length_eq, j2.2]
        samples := ⟨sa, (int_of (s := m.samples) (ws := []) (by head_get) rfl).trans hsa, hsa0⟩
        lines := ⟨li, (int_of (s := m.lines) (ws := []) (by head_get) rfl).trans hli, hli0⟩ }
  · rw [upTo_map, parts_map]
    obtain ⟨j, j1, j2⟩ := hval.numbered
    refine ⟨j, z2.trans j1, fun hh => ?_⟩
    cases n with
    | none => exact j2
    | some k =>
      obtain ⟨t, ht, -⟩ := hcnt k rfl
      have hk : get "PLANES" (mapHead m) = m.planes.map fun s => [.ex (.num s)] := by head_get
      rw [has, hk, ht] at hh
      simp at hh
  · rw [parts_map]
    exact z1

theorem maps_sound : ∀ {ms : List Map} {s : State} {r : State × List Command}, Ready s →
    (∀ m ∈ ms.map mapEnts, CheckedMap E m) → runMaps E ms s = .done r →
    ValidMaps E s.g.graphicLat (ms.map mapEnts)
  | [], s, r, _, _, _ => .nil
  | m :: ms, s, r, hr, hck, h => by
    simp only [runMaps] at h
    obtain ⟨⟨s1, c⟩, h1, h⟩ := act_bind h
    obtain ⟨⟨s2, cs'⟩, h2, h⟩ := act_bind h
    obtain ⟨k1, k2, k3, k4, k5⟩ := map_of hr.clean hr.minimum hr.maximum hr.inert h1
    simp only [Parser.defaults, Prod.mk.injEq] at k3
    have hr1 : Ready s1 :=
      ⟨k2, k3.2.1.trans hr.minimum, k3.2.2.trans hr.maximum, k4.nibble ▸ k4⟩
    have h3 := maps_sound (ms := ms) hr1
      (fun x hx => hck x (by simp only [List.map_cons, List.mem_cons, hx, or_true])) h2
    rw [k5] at h3
    exact .cons (map_sound hr.clean hr.inert (hck _ (by simp)) h1) h3

theorem userNibbling_sound {c : NibbleClause} {v v' : PhotoVars}
    (h : Parser.userNibbling c v = some v') : ∀ k ∈ c.numbers, 0 ≤ k := by
  have hq : ∃ n, Parser.nibbling Parser.toUnsigned c v.ppNibble = some n := by
    simp only [Parser.userNibbling] at h
    split at h
    · simp at h
    · exact ⟨_, by assumption⟩
  obtain ⟨n, hq⟩ := hq
  cases c with
  | none => simp [Parser.NibbleClause.numbers]
  | all k =>
    simp only [Parser.nibbling] at hq
    split at hq
    · simpa [Parser.NibbleClause.numbers]
    · simp at hq
  | sides l r t b =>
    simp only [Parser.nibbling, Option.bind_eq_bind, Option.bind_eq_some_iff] at hq
    obtain ⟨_, q1, _, q2, _, q3, _, q4, -⟩ := hq
    have hs : ∀ {o x} {y : Option ℤ}, Parser.nibbleSide Parser.toUnsigned o y = some x →
        ∀ k, y = some k → 0 ≤ k := by
      rintro o x y hy k rfl
      simp only [Parser.nibbleSide] at hy
      split at hy
      · assumption
      · simp at hy
    intro k hk
    simp only [Parser.NibbleClause.numbers, List.mem_filterMap, List.mem_cons,
      List.not_mem_nil, or_false, id, exists_eq_or_imp, exists_eq_left] at hk
    rcases hk with hk | hk | hk | hk
    · exact hs q1 _ hk
    · exact hs q2 _ hk
    · exact hs q3 _ hk
    · exact hs q4 _ hk

theorem user_sound {i : Intervals} {r : Range} {n : Nibble} {s : State} {q : State × List Command}
    (hck : CheckedGrid E (fileEnts (.user i r n))) (h : File.run E (.user i r n) s = .done q) :
    ValidUser E (fileEnts (.user i r n)) := by
  simp only [File.run] at h
  obtain ⟨ic, h1, h⟩ := act_bind h
  obtain ⟨rc, h2, h⟩ := act_bind h
  obtain ⟨nc, h3, h⟩ := act_bind h
  obtain ⟨g, h4, h⟩ := act_bind h
  obtain ⟨v, h5, h⟩ := act_bind h
  replace h1 := act_option h1
  replace h2 := act_option h2
  replace h3 := act_option h3
  replace h5 := act_option h5
  replace h4 := act_eq h4
  obtain ⟨hb, ho⟩ : ¬ ic.Bad ∧ rc.Ordered := by
    simp only [Parser.userFile] at h4
    rcases Parser.intervals_iff ic s.g with ⟨-, he⟩ | ⟨hb, g1, hg1⟩
    · rw [he] at h4; simp at h4
    · refine ⟨hb, ?_⟩
      rw [hg1] at h4
      simp only [Outcome.bind_ok] at h4
      cases hr : Parser.dataRange rc g1 with
      | none => rw [hr] at h4; simp at h4
      | some g2 =>
        cases rc <;> simp only [RangeClause.Ordered] <;> simp only [Parser.dataRange] at hr
        all_goals
          by_contra hn
          simp [hn] at hr
  obtain ⟨l1, l2⟩ := range_sound (es := fileEnts (.user i r n)) (ws := []) rfl h2 ho (by
    intro k hk
    rw [fileEnts, get_append, get_append, (keys_intervals i).get (k := k), (keys_nibble n).get (k := k)]
    · simp
    · revert k; decide
    · revert k; decide)
  refine ⟨intervals_sound h1 hb ?_ hck, l1, l2, nibble_sound h3 (userNibbling_sound h5) ?_⟩
  · intro k hk
    rw [fileEnts, get_append, get_append, (keys_range _ r).get (k := k), (keys_nibble n).get (k := k)]
    · simp
    · revert k; decide
    · revert k; decide
  · intro k hk
    rw [fileEnts, get_append, get_append, (keys_range _ r).get (k := k),
      (keys_intervals i).get (k := k)]
    · simp
    · revert k; decide
    · revert k; decide

end MaRC.InputMeaning
