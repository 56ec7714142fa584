import Verif.Model.PhotoClauses
import Verif.Props.ViewSettings

/-! # Photo clauses of an input file (C80) -/

namespace MaRC.Parser

open Dbl ViewSettings

/-! ## Specification -/

/-- The numbers of a nibble clause, as written. -/
def NibbleClause.numbers : NibbleClause → List ℤ
  | .none => []
  | .all n => [n]
  | .sides l r t b => [l, r, t, b].filterMap id

/-- The pixels to leave out: those given, and the user's defaults for sides that are
not mentioned. -/
def NibbleClause.wanted (d : Nibbles) : NibbleClause → Nibbles
  | .none => d
  | .all n => ⟨n.toNat, n.toNat, n.toNat, n.toNat⟩
  | .sides l r t b =>
    ⟨(l.map Int.toNat).getD d.left, (r.map Int.toNat).getD d.right,
      (t.map Int.toNat).getD d.top, (b.map Int.toNat).getD d.bottom⟩

/-- The distance in kilometers. -/
def PhotoSrc.kilometers (p : PhotoSrc) : Dbl :=
  if p.rangeAu then Fp.ieee.div (Fp.ieee.mul p.range (Fp.ieee.rnd 149597870700)) (.fin 1000) else p.range

/-- The viewing geometry the clauses of a photo describe: angles in radians, what is
not given NaN, all of the visible disk unless an emission angle limit is given. -/
def PhotoSrc.view (cos : Dbl → Dbl) (eqRad polRad : Dbl) (p : PhotoSrc) : ViewSettings where
  eqRad := eqRad
  polRad := polRad
  subObservLat := Fp.ieee.mul p.subObserv.1 cDegree
  subObservLon := storedLon p.subObserv.2
  subSolarLat := Fp.ieee.mul p.subSolar.1 cDegree
  subSolarLon := storedLon p.subSolar.2
  range := p.kilometers
  positionAngle := Fp.ieee.mul p.positionAngle cDegree
  kmPerPixel := match p.scale with
    | .km x => x
    | .arcsec x => storedKm x p.kilometers
    | .lens _ _ => .nan
  focalLength := match p.scale with | .lens f _ => f | _ => .nan
  scale := match p.scale with | .lens _ s => s | _ => .nan
  oaSample := (p.opticalAxis.getD (.nan, .nan)).1
  oaLine := (p.opticalAxis.getD (.nan, .nan)).2
  sampleCenter := match p.center with | .pixel s _ => s | _ => .nan
  lineCenter := match p.center with | .pixel _ l => l | _ => .nan
  latAtCenter := match p.center with | .latLon a _ => Fp.ieee.mul a cDegree | _ => .nan
  lonAtCenter := match p.center with | .latLon _ b => storedLon b | _ => .nan
  muLimit := p.emiAngLimit.elim (.fin 0) fun x => cos (Fp.ieee.mul x cDegree)
  useTerminator := p.terminator.getD false

/-- The photo the clauses describe, with the user's nibble defaults `d`. -/
def PhotoSrc.wanted (cos : Dbl → Dbl) (eqRad polRad : Dbl) (d : Nibbles) (p : PhotoSrc) :
    PhotoCmd where
  file := p.file
  flatField := p.flatField.getD ""
  geomCorrect := p.geomCorrect.getD false
  interpolate := p.interpolate.getD false
  invertV := (p.invert.getD (false, false)).1
  invertH := (p.invert.getD (false, false)).2
  nibble := p.nibble.wanted d
  removeSky := p.removeSky.getD false
  view := p.view cos eqRad polRad

/-- A positive scale. -/
def ScaleClause.Valid : ScaleClause → Prop
  | .km x | .arcsec x => Above (.fin 0) x
  | .lens f s => Above (.fin 0) f ∧ Above (.fin 0) s

/-- A position in the photo, or on the body. -/
def CenterClause.Valid : CenterClause → Prop
  | .pixel s l => s ≠ .nan ∧ l ≠ .nan
  | .latLon a b => NumberWithin 90 a ∧ NumberWithin 360 b

/-- Clauses with values as documented: nothing negative to leave out, angles within
their limits, an observer farther from the center than the smaller radius, a positive
scale and numbers everywhere else. -/
structure PhotoSrc.Valid (eqRad polRad : Dbl) (p : PhotoSrc) : Prop where
  nibble : ∀ n ∈ p.nibble.numbers, 0 ≤ n
  axis : ∀ s l, p.opticalAxis = some (s, l) → s ≠ .nan ∧ l ≠ .nan
  emission : ∀ x, p.emiAngLimit = some x → NumberWithin 90 x
  subObserv : NumberWithin 90 p.subObserv.1 ∧ NumberWithin 360 p.subObserv.2
  positionAngle : NumberWithin 360 p.positionAngle
  subSolar : NumberWithin 90 p.subSolar.1 ∧ NumberWithin 360 p.subSolar.2
  range : (Above eqRad p.kilometers ∨ Above polRad p.kilometers) ∧
    p.kilometers.lt maxRange = true
  scale : p.scale.Valid
  center : p.center.Valid

/-- The nibble numbers are read into a `long long`. -/
def PhotoSrc.Scanned (p : PhotoSrc) : Prop := ∀ n ∈ p.nibble.numbers, n < 2 ^ 63

/-- Variables after any number of photos and orthographic maps, with the user's
nibble defaults `d`. -/
inductive PhotoReachable (cos : Dbl → Dbl) (d : Nibbles) : PhotoVars → Prop where
  | start : PhotoReachable cos d { PhotoVars.start with ppNibble := d }
  | image {g g' a b p c} : PhotoReachable cos d g →
      imageSetup cos a b p g = .ok (some (g', c)) → PhotoReachable cos d g'
  | orthoCenters {g} (c : CenterClause) : PhotoReachable cos d g →
      PhotoReachable cos d (orthoCenters c g).1
  | orthoScale {g g' km k} : PhotoReachable cos d g →
      orthoScale km g = some (g', k) → PhotoReachable cos d g'

/-! ## Setters -/

theorem bind_eq_ok {α β : Type} (x : Outcome α) (f : α → Outcome β) (y : β) :
    (x >>= f) = .ok y ↔ ∃ a, x = .ok a ∧ f a = .ok y := by
  cases x <;> simp [Bind.bind, Outcome.bind]

theorem set_lat (v w : ViewSettings) (a : Dbl) (f : Dbl → ViewSettings) :
    set (v.assign (validateLatitude a) f) = .ok w ↔
      NumberWithin 90 a ∧ w = f (Fp.ieee.mul a cDegree) := by
  by_cases h : NumberWithin 90 a
  · simp [(C02_latitude a).1 h, assign, set, h, eq_comm]
  · simp [(C02_latitude a).2 h, assign, set, h]

theorem set_lon (v w : ViewSettings) (a : Dbl) (f : Dbl → ViewSettings) :
    set (v.assign (validateLongitude a) f) = .ok w ↔
      NumberWithin 360 a ∧ w = f (Fp.ieee.mul a cDegree) := by
  by_cases h : NumberWithin 360 a
  · simp [(C02_longitude a).1 h, assign, set, h, eq_comm]
  · simp [(C02_longitude a).2 h, assign, set, h]

theorem set_andThen (r : Result) (f : ViewSettings → Result) (w : ViewSettings) :
    set (andThen r f) = .ok w ↔ ∃ v, set r = .ok v ∧ set (f v) = .ok w := by
  rcases r with ⟨v, _ | e⟩ <;> simp [andThen, set]

theorem set_subObserv (v w : ViewSettings) (a b : Dbl) :
    set (v.setSubObserv a b) = .ok w ↔ (NumberWithin 90 a ∧ NumberWithin 360 b) ∧
      w = { v with subObservLat := Fp.ieee.mul a cDegree, subObservLon := storedLon b } := by
  simp only [setSubObserv, set_andThen, setSubObservLat, setSubObservLon, set_lat, set_lon]
  constructor
  · rintro ⟨u, ⟨h1, rfl⟩, h2, rfl⟩
    exact ⟨⟨h1, h2⟩, rfl⟩
  · rintro ⟨⟨h1, h2⟩, rfl⟩
    exact ⟨_, ⟨h1, rfl⟩, h2, rfl⟩

theorem set_subSolar (v w : ViewSettings) (a b : Dbl) :
    set (v.setSubSolar a b) = .ok w ↔ (NumberWithin 90 a ∧ NumberWithin 360 b) ∧
      w = { v with subSolarLat := Fp.ieee.mul a cDegree, subSolarLon := storedLon b } := by
  simp only [setSubSolar, set_andThen, setSubSolarLat, setSubSolarLon, set_lat, set_lon]
  constructor
  · rintro ⟨u, ⟨h1, rfl⟩, h2, rfl⟩
    exact ⟨⟨h1, h2⟩, rfl⟩
  · rintro ⟨⟨h1, h2⟩, rfl⟩
    exact ⟨_, ⟨h1, rfl⟩, h2, rfl⟩

theorem set_latLon (v w : ViewSettings) (a b : Dbl) :
    set (v.setLatLonCenter a b) = .ok w ↔ (NumberWithin 90 a ∧ NumberWithin 360 b) ∧
      w = { v with latAtCenter := Fp.ieee.mul a cDegree, lonAtCenter := storedLon b } := by
  simp only [setLatLonCenter, set_andThen, setLatAtCenter, setLonAtCenter, set_lat, set_lon]
  constructor
  · rintro ⟨u, ⟨h1, rfl⟩, h2, rfl⟩
    exact ⟨⟨h1, h2⟩, rfl⟩
  · rintro ⟨⟨h1, h2⟩, rfl⟩
    exact ⟨_, ⟨h1, rfl⟩, h2, rfl⟩

theorem set_positionAngle (v w : ViewSettings) (a : Dbl) :
    set (v.setPositionAngle a) = .ok w ↔ NumberWithin 360 a ∧
      w = { v with positionAngle := Fp.ieee.mul a cDegree } := by
  rw [setPositionAngle]
  by_cases h : NumberWithin 360 a
  · simp [(C02_position_angle a).1 h, assign, set, h, eq_comm]
  · simp [(C02_position_angle a).2 h, assign, set, h]

theorem set_if (c : Prop) [Decidable c] (v u w : ViewSettings) (e : Exc) :
    set (if c then (v, some e) else (u, none)) = .ok w ↔ ¬ c ∧ w = u := by
  by_cases h : c <;> simp [h, set, eq_comm]

theorem set_bodyCenter (v w : ViewSettings) (a b : Dbl) :
    set (v.setBodyCenter a b) = .ok w ↔ (a ≠ .nan ∧ b ≠ .nan) ∧
      w = { v with sampleCenter := a, lineCenter := b } := by
  simp only [setBodyCenter, set_andThen, setBodyCenterSample, setBodyCenterLine, set_if, isNaN_iff]
  constructor
  · rintro ⟨u, ⟨h1, rfl⟩, h2, rfl⟩
    exact ⟨⟨h1, h2⟩, rfl⟩
  · rintro ⟨⟨h1, h2⟩, rfl⟩
    exact ⟨_, ⟨h1, rfl⟩, h2, rfl⟩

theorem set_opticalAxis (v w : ViewSettings) (a b : Dbl) :
    set (v.setOpticalAxis a b) = .ok w ↔ (a ≠ .nan ∧ b ≠ .nan) ∧
      w = { v with oaSample := a, oaLine := b } := by
  simp only [setOpticalAxis, set_andThen, setOpticalAxisSample, setOpticalAxisLine, set_if,
    isNaN_iff]
  constructor
  · rintro ⟨u, ⟨h1, rfl⟩, h2, rfl⟩
    exact ⟨⟨h1, h2⟩, rfl⟩
  · rintro ⟨⟨h1, h2⟩, rfl⟩
    exact ⟨_, ⟨h1, rfl⟩, h2, rfl⟩

theorem isNaN_false (x : Dbl) : x.isNaN = false ↔ x ≠ .nan := by cases x <;> simp [Dbl.isNaN]

theorem gt_zero (x : Dbl) : Dbl.gt x (.fin 0) = true ↔ Above (.fin 0) x := Iff.rfl

theorem above_not_le {x : Dbl} (h : Above (.fin 0) x) : ¬ x.le (.fin 0) = true := by
  cases x <;> simp_all [Above, Dbl.lt, Dbl.le]

/-! ## Variables between photos -/

/-- Variables that have no effect on the next photo. -/
structure Inert (d : Nibbles) (g : PhotoVars) : Prop where
  pixel : g.sampleCenter = .nan ∨ g.lineCenter = .nan
  latLon : g.latAtCenter = .nan ∨ g.lonAtCenter = .nan
  km : ¬ Above (.fin 0) g.kmPerPixel
  arcsec : ¬ Above (.fin 0) g.arcsecPerPix
  focal : ¬ Above (.fin 0) g.focalLength
  scale : ¬ Above (.fin 0) g.pixelScale
  nibble : g.ppNibble = d

theorem usePositive_ok {x : Dbl} {f : ViewSettings → Dbl → Result} {v w : ViewSettings} {y : Dbl}
    (h : usePositive x f v = .ok (y, w)) :
    ¬ Above (.fin 0) y ∧
      ((Above (.fin 0) x ∧ set (f v x) = .ok w) ∨ (¬ Above (.fin 0) x ∧ w = v)) := by
  rw [usePositive] at h
  split at h
  case isTrue hx =>
    simp only [bind_eq_ok, Outcome.ok.injEq, Prod.mk.injEq] at h
    obtain ⟨u, hu, rfl, rfl⟩ := h
    exact ⟨by simp [Above, Dbl.lt], .inl ⟨hx, hu⟩⟩
  case isFalse hx =>
    simp only [Outcome.ok.injEq, Prod.mk.injEq] at h
    obtain ⟨rfl, rfl⟩ := h
    exact ⟨hx, .inr ⟨hx, rfl⟩⟩

theorem useNumbers_ok {x y : Dbl} {f : ViewSettings → Dbl → Dbl → Result} {v w : ViewSettings}
    {z : Dbl × Dbl} (h : useNumbers x y f v = .ok (z, w)) :
    (z.1 = .nan ∨ z.2 = .nan) ∧
      (((x ≠ .nan ∧ y ≠ .nan) ∧ set (f v x y) = .ok w) ∨ ((x = .nan ∨ y = .nan) ∧ w = v)) := by
  rw [useNumbers] at h
  split at h
  case isTrue hx =>
    simp only [bind_eq_ok, Outcome.ok.injEq, Prod.mk.injEq] at h
    obtain ⟨u, hu, rfl, rfl⟩ := h
    simp only [Bool.and_eq_true, Bool.not_eq_true', isNaN_false] at hx
    exact ⟨.inl rfl, .inl ⟨hx, hu⟩⟩
  case isFalse hx =>
    simp only [Outcome.ok.injEq, Prod.mk.injEq] at h
    obtain ⟨rfl, rfl⟩ := h
    have hx' : x = .nan ∨ y = .nan := by
      cases x <;> cases y <;> simp_all [Dbl.isNaN]
    exact ⟨hx', .inr ⟨hx', rfl⟩⟩

theorem nibbleSide_eq {x : Option ℤ} {old n : ℕ} (h : nibbleSide toSize old x = some n) :
    (∀ k, x = some k → 0 ≤ k) ∧
      ((∀ k, x = some k → k < 2 ^ 63) → n = (x.map Int.toNat).getD old) := by
  rcases x with _ | k
  · simp [nibbleSide] at h; simp [h]
  · simp only [nibbleSide] at h
    split at h
    case isTrue hk =>
      simp only [Option.some.injEq] at h
      refine ⟨fun k' h' => by simpa using (Option.some.inj h' ▸ hk), fun hb => ?_⟩
      have := hb k rfl
      simp only [← h, toSize, Option.map_some, Option.getD_some]
      rw [Int.emod_eq_of_lt hk (by linarith)]
    case isFalse => simp at h

theorem nibbling_eq {c : NibbleClause} {d n : Nibbles} (h : nibbling toSize c d = some n) :
    (∀ k ∈ c.numbers, 0 ≤ k) ∧ ((∀ k ∈ c.numbers, k < 2 ^ 63) → n = c.wanted d) := by
  cases c with
  | none => simp [nibbling] at h; simp [NibbleClause.numbers, NibbleClause.wanted, h]
  | all k =>
    simp only [nibbling] at h
    split at h
    case isTrue hk =>
      simp only [Option.some.injEq] at h
      refine ⟨by simpa [NibbleClause.numbers] using hk, fun hb => ?_⟩
      have := hb k (by simp [NibbleClause.numbers])
      rw [← h, NibbleClause.wanted, toSize, Int.emod_eq_of_lt hk (by linarith)]
    case isFalse => simp at h
  | sides l r t b =>
    simp only [nibbling, Option.bind_eq_bind, Option.bind_eq_some_iff, Option.some.injEq] at h
    obtain ⟨l', hl, r', hr, t', ht, b', hb, rfl⟩ := h
    have hl := nibbleSide_eq hl
    have hr := nibbleSide_eq hr
    have ht := nibbleSide_eq ht
    have hb := nibbleSide_eq hb
    have hm : ∀ k, k ∈ (NibbleClause.sides l r t b).numbers ↔
        l = some k ∨ r = some k ∨ t = some k ∨ b = some k := by
      intro k
      simp only [NibbleClause.numbers, List.mem_filterMap, List.mem_cons, List.not_mem_nil,
        or_false, id, exists_eq_or_imp, exists_eq_left]
    constructor
    · intro k hk
      rcases (hm k).1 hk with h | h | h | h
      exacts [hl.1 k h, hr.1 k h, ht.1 k h, hb.1 k h]
    · intro hk
      rw [NibbleClause.wanted, hl.2 fun k h => hk k ((hm k).2 (by simp [h])),
        hr.2 fun k h => hk k ((hm k).2 (by simp [h])),
        ht.2 fun k h => hk k ((hm k).2 (by simp [h])),
        hb.2 fun k h => hk k ((hm k).2 (by simp [h]))]

theorem opticalAxis_ok {c : Option (Dbl × Dbl)} {v w : ViewSettings}
    (hv : v.oaSample = .nan ∧ v.oaLine = .nan) (h : opticalAxis c v = .ok w) :
    (∀ s l, c = some (s, l) → s ≠ .nan ∧ l ≠ .nan) ∧
      w = { v with oaSample := (c.getD (.nan, .nan)).1, oaLine := (c.getD (.nan, .nan)).2 } := by
  rcases c with _ | ⟨s, l⟩
  · simp only [opticalAxis, Outcome.ok.injEq] at h
    subst h
    refine ⟨by simp, ?_⟩
    obtain ⟨h1, h2⟩ := hv
    cases v; simp_all
  · simp only [opticalAxis, set_opticalAxis] at h
    exact ⟨by rintro _ _ ⟨⟩; exact h.1, h.2⟩

theorem emiAngLimit_ok {cos : Dbl → Dbl} {c : Option Dbl} {v w : ViewSettings}
    (hv : v.muLimit = .fin 0) (h : emiAngLimit cos c v = .ok w) :
    (∀ x, c = some x → x = .nan ∨ NumberWithin 90 x) ∧
      w = { v with muLimit := c.elim (.fin 0) fun x => cos (Fp.ieee.mul x cDegree) } := by
  rcases c with _ | x
  · simp only [emiAngLimit, Outcome.ok.injEq] at h
    subst h
    refine ⟨by simp, ?_⟩
    cases v; simp_all
  · simp only [emiAngLimit, setEmiAngLimit, set_if] at h
    refine ⟨?_, h.2⟩
    rintro _ ⟨⟩
    by_cases hx : x = .nan
    · exact .inl hx
    · exact .inr (by rw [abs_gt_iff x hx] at h; exact not_not.mp h.1)

theorem terminator_ok {c : Option Bool} {v w : ViewSettings}
    (hv : v.useTerminator = false) (h : terminator c v = .ok w) :
    w = { v with useTerminator := c.getD false } := by
  rcases c with _ | b
  · simp only [terminator, Outcome.ok.injEq] at h
    subst h
    cases v; simp_all
  · simp only [terminator, setUseTerminator, set, Outcome.ok.injEq] at h
    exact h.symm

theorem range_iff {v : ViewSettings} {r : Dbl} (hr : r ≠ .nan)
    (hv : v.eqRad ≠ .nan ∧ v.polRad ≠ .nan) :
    ¬ (r.le (stdMin v.eqRad v.polRad) || r.ge maxRange) = true ↔
      (Above v.eqRad r ∨ Above v.polRad r) ∧ r.lt maxRange = true := by
  have h := throws_iff (fun x => x) v (.range r) hv (by simpa [GivenNaN] using hr)
  simp only [call, setRange, Documented] at h
  rw [← h]
  split_ifs with hc <;> simp [hc]

/-! ## One photo -/

/-- The variables hold the values of the clause and nothing else. -/
def ScaleClause.Pending (g : PhotoVars) : ScaleClause → Prop
  | .km x => g.kmPerPixel = x ∧ ¬ Above (.fin 0) g.arcsecPerPix ∧
      ¬ Above (.fin 0) g.focalLength ∧ ¬ Above (.fin 0) g.pixelScale
  | .arcsec x => ¬ Above (.fin 0) g.kmPerPixel ∧ g.arcsecPerPix = x ∧
      ¬ Above (.fin 0) g.focalLength ∧ ¬ Above (.fin 0) g.pixelScale
  | .lens f s => ¬ Above (.fin 0) g.kmPerPixel ∧ ¬ Above (.fin 0) g.arcsecPerPix ∧
      g.focalLength = f ∧ g.pixelScale = s

theorem geometry_ok {c : ScaleClause} {g g2 : PhotoVars} {d : Nibbles} (h : imageGeometry c g = some g2)
    (hk : ¬ Above (.fin 0) g.kmPerPixel) (ha : ¬ Above (.fin 0) g.arcsecPerPix)
    (hf : ¬ Above (.fin 0) g.focalLength) (hs : ¬ Above (.fin 0) g.pixelScale)
    (hd : g.ppNibble = d) :
    (∀ x, c = .km x ∨ c = .arcsec x → Above (.fin 0) x) ∧
    (g2.sampleCenter = g.sampleCenter ∧ g2.lineCenter = g.lineCenter ∧
      g2.latAtCenter = g.latAtCenter ∧ g2.lonAtCenter = g.lonAtCenter ∧ g2.ppNibble = d) ∧
    c.Pending g2 := by
  cases c with
  | km x =>
    simp only [imageGeometry] at h
    split at h
    case isTrue hx =>
      simp only [Option.some.injEq] at h
      subst h
      exact ⟨by rintro y (h | h) <;> cases h; exact hx, ⟨rfl, rfl, rfl, rfl, hd⟩, rfl, ha, hf, hs⟩
    case isFalse => simp at h
  | arcsec x =>
    simp only [imageGeometry] at h
    split at h
    case isTrue hx =>
      simp only [Option.some.injEq] at h
      subst h
      exact ⟨by rintro y (h | h) <;> cases h; exact hx, ⟨rfl, rfl, rfl, rfl, hd⟩, hk, rfl, hf, hs⟩
    case isFalse => simp at h
  | lens f s =>
    simp only [imageGeometry, Option.some.injEq] at h
    subst h
    exact ⟨(by rintro y (h | h) <;> cases h), ⟨rfl, rfl, rfl, rfl, hd⟩, hk, ha, rfl, rfl⟩

/-- What `usePositive` did. -/
def Used (x : Dbl) (f : ViewSettings → Dbl → Result) (v w : ViewSettings) : Prop :=
  (Above (.fin 0) x ∧ set (f v x) = .ok w) ∨ (¬ Above (.fin 0) x ∧ w = v)

/-- What `useNumbers` did. -/
def UsedPair (x y : Dbl) (f : ViewSettings → Dbl → Dbl → Result) (v w : ViewSettings) : Prop :=
  ((x ≠ .nan ∧ y ≠ .nan) ∧ set (f v x y) = .ok w) ∨ ((x = .nan ∨ y = .nan) ∧ w = v)

theorem Used.not {x : Dbl} {f : ViewSettings → Dbl → Result} {v w : ViewSettings}
    (h : Used x f v w) (hx : ¬ Above (.fin 0) x) : w = v := by
  rcases h with h | h
  · exact absurd h.1 hx
  · exact h.2

theorem Used.yes {x : Dbl} {f : ViewSettings → Dbl → Result} {v w : ViewSettings}
    (h : Used x f v w) (hx : Above (.fin 0) x) : set (f v x) = .ok w := by
  rcases h with h | h
  · exact h.2
  · exact absurd hx h.1

/-- The geometry after the scale is used. -/
def ScaleClause.apply (c : ScaleClause) (v : ViewSettings) : ViewSettings :=
  match c with
  | .km x => { v with kmPerPixel := x }
  | .arcsec x => { v with kmPerPixel := storedKm x v.range }
  | .lens f s => { v with focalLength := f, scale := s }

/-- The geometry after the center is used. -/
def CenterClause.apply (c : CenterClause) (v : ViewSettings) : ViewSettings :=
  match c with
  | .pixel s l => { v with sampleCenter := s, lineCenter := l }
  | .latLon a b => { v with latAtCenter := Fp.ieee.mul a cDegree, lonAtCenter := storedLon b }

theorem scale_used {c : ScaleClause} {g : PhotoVars} {v w1 w2 w3 w4 : ViewSettings}
    (hp : ∀ x, c = .km x ∨ c = .arcsec x → Above (.fin 0) x)
    (hl : ∀ f s, c = .lens f s → Above (.fin 0) f ∧ Above (.fin 0) s)
    (hg : c.Pending g)
    (h1 : Used g.kmPerPixel setKmPerPixel v w1) (h2 : Used g.arcsecPerPix setArcsecPerPixel w1 w2)
    (h3 : Used g.focalLength setFocalLength w2 w3) (h4 : Used g.pixelScale setScale w3 w4) :
    w4 = c.apply v := by
  cases c with
  | km x =>
    obtain ⟨rfl, ga, gf, gs⟩ := hg
    have := h1.yes (hp _ (.inl rfl))
    simp only [setKmPerPixel, set_if] at this
    rw [h4.not gs, h3.not gf, h2.not ga, this.2]
    rfl
  | arcsec x =>
    obtain ⟨gk, rfl, gf, gs⟩ := hg
    have := h2.yes (hp _ (.inr rfl))
    rw [h1.not gk] at this
    rw [h4.not gs, h3.not gf]
    simp only [setArcsecPerPixel] at this
    split_ifs at this <;> simp [set] at this
    rw [← this]
    simp only [ScaleClause.apply, storedKm, arcsecToKm]
    norm_num
  | lens f s =>
    obtain ⟨gk, ga, rfl, rfl⟩ := hg
    have hl := hl _ _ rfl
    have e3 := h3.yes hl.1
    have e4 := h4.yes hl.2
    simp only [setFocalLength, setScale, set_if] at e3 e4
    rw [e4.2, e3.2, h2.not ga, h1.not gk]
    rfl

theorem center_used {c : CenterClause} {g : PhotoVars} {v w1 w2 : ViewSettings}
    (hpix : ∀ s l, c = .pixel s l → s ≠ .nan ∧ l ≠ .nan)
    (hlat : ∀ s l, c = .latLon s l → s ≠ .nan ∧ l ≠ .nan)
    (g1 : g.sampleCenter = .nan ∨ g.lineCenter = .nan)
    (g2 : g.latAtCenter = .nan ∨ g.lonAtCenter = .nan)
    (h1 : UsedPair (centers c g).sampleCenter (centers c g).lineCenter setBodyCenter v w1)
    (h2 : UsedPair (centers c g).latAtCenter (centers c g).lonAtCenter setLatLonCenter w1 w2) :
    w2 = c.apply v ∧ c.Valid := by
  cases c with
  | pixel s l =>
    have hp := hpix s l rfl
    simp only [centers] at h1 h2
    have e2 : w2 = w1 := by
      rcases h2 with h | h
      · rcases g2 with g2 | g2
        · exact absurd g2 h.1.1
        · exact absurd g2 h.1.2
      · exact h.2
    rcases h1 with h | h
    · rw [set_bodyCenter] at h
      exact ⟨by rw [e2, h.2.2]; rfl, hp⟩
    · rcases h.1 with h | h
      · exact absurd h hp.1
      · exact absurd h hp.2
  | latLon s l =>
    have hp := hlat s l rfl
    simp only [centers] at h1 h2
    have e1 : w1 = v := by
      rcases h1 with h | h
      · rcases g1 with g1 | g1
        · exact absurd g1 h.1.1
        · exact absurd g1 h.1.2
      · exact h.2
    rcases h2 with h | h
    · rw [set_latLon] at h
      exact ⟨by rw [h.2.2, e1]; rfl, h.2.1⟩
    · rcases h.1 with h | h
      · exact absurd h hp.1
      · exact absurd h hp.2


/-- What an accepted photo tells about its clauses, whatever came before. -/
theorem setup_sound {cos : Dbl → Dbl} {a b : Dbl} {p : PhotoSrc} {d : Nibbles} {g g' : PhotoVars}
    {c : PhotoCmd} (hg : Inert d g) (h : imageSetup cos a b p g = .ok (some (g', c))) :
    Inert d g' ∧
    (p.Scanned → (∀ f s, p.scale = .lens f s → Above (.fin 0) f ∧ Above (.fin 0) s) →
      (∀ s l, p.center = .pixel s l → s ≠ .nan ∧ l ≠ .nan) →
      (∀ s l, p.center = .latLon s l → s ≠ .nan ∧ l ≠ .nan) →
      c = p.wanted cos a b d ∧
      (a ≠ .nan → b ≠ .nan → p.kilometers ≠ .nan → p.emiAngLimit ≠ some .nan →
        p.Valid a b)) := by
  rw [imageSetup] at h
  split at h
  · simp at h
  case h_2 nib hn =>
  rw [hg.nibble] at hn
  obtain ⟨hn0, hn1⟩ := nibbling_eq hn
  simp only [bind_eq_ok] at h
  obtain ⟨v1, h1, v2, h2, v3, h3, h⟩ := h
  obtain ⟨hax, rfl⟩ := opticalAxis_ok ⟨rfl, rfl⟩ h1
  obtain ⟨hem, rfl⟩ := emiAngLimit_ok rfl h2
  have e3 := terminator_ok rfl h3
  subst e3
  split at h
  · simp at h
  case h_2 g2 hg2 =>
  simp only [bind_eq_ok, Outcome.ok.injEq, Option.some.injEq, Prod.mk.injEq] at h
  obtain ⟨⟨g3, v⟩, hf, rfl, rfl⟩ := h
  simp only [finishView, bind_eq_ok, set_subObserv, set_positionAngle, set_subSolar] at hf
  obtain ⟨w1, ⟨hso, rfl⟩, w2, ⟨hpa, rfl⟩, w3, ⟨hss, rfl⟩, w4, hra, ⟨km, w5⟩, hkm, ⟨ar, w6⟩, har,
    ⟨fo, w7⟩, hfo, ⟨sc, w8⟩, hsc, ⟨⟨s, l⟩, w9⟩, hsl, ⟨⟨lat, lon⟩, w10⟩, hll, hf⟩ := hf
  simp only [setRange, set_if] at hra
  obtain ⟨hr, rfl⟩ := hra
  obtain ⟨hkm0, hkm⟩ := usePositive_ok hkm
  obtain ⟨har0, har⟩ := usePositive_ok har
  obtain ⟨hfo0, hfo⟩ := usePositive_ok hfo
  obtain ⟨hsc0, hsc⟩ := usePositive_ok hsc
  obtain ⟨hsl0, hsl⟩ := useNumbers_ok hsl
  obtain ⟨hll0, hll⟩ := useNumbers_ok hll
  simp only [Outcome.ok.injEq, Prod.mk.injEq] at hf
  obtain ⟨rfl, rfl⟩ := hf
  have hce : ∀ x : PhotoVars → Dbl, (∀ c g, x (centers c g) = x g) →
      ¬ Above (.fin 0) (x g) → ¬ Above (.fin 0) (x (centers p.center g)) := by
    intro x hx hn
    rwa [hx]
  obtain ⟨hpos, ⟨c1, c2, c3, c4, hnib⟩, hscale⟩ := geometry_ok hg2
    (hce (·.kmPerPixel) (by rintro (_ | _) _ <;> rfl) hg.km)
    (hce (·.arcsecPerPix) (by rintro (_ | _) _ <;> rfl) hg.arcsec)
    (hce (·.focalLength) (by rintro (_ | _) _ <;> rfl) hg.focal)
    (hce (·.pixelScale) (by rintro (_ | _) _ <;> rfl) hg.scale)
    (show _ = d by rw [← hg.nibble]; cases p.center <;> rfl)
  refine ⟨⟨hsl0, hll0, hkm0, har0, hfo0, hsc0, hnib⟩, fun hscan hlens hpix hlat => ?_⟩
  have e1 := scale_used hpos hlens hscale hkm har hfo hsc
  rw [c1, c2] at hsl
  rw [c3, c4] at hll
  obtain ⟨e2, hcen⟩ := center_used hpix hlat hg.pixel hg.latLon hsl hll
  subst e1
  subst e2
  constructor
  · rw [hn1 hscan]
    simp only [PhotoSrc.wanted, PhotoSrc.view, PhotoCmd.mk.injEq, true_and]
    cases hS : p.scale <;> cases hC : p.center <;> rfl
  · intro ha hb hk hemi
    refine ⟨hn0, hax, fun x hx => (hem x hx).resolve_left fun h => hemi (h ▸ hx), hso, hpa, hss,
      (range_iff (v := { eqRad := a, polRad := b }) hk ⟨ha, hb⟩).1 hr, ?_, hcen⟩
    rw [ScaleClause.Valid.eq_def]
    cases hS : p.scale with
    | km x => exact hpos x (.inl hS)
    | arcsec x => exact hpos x (.inr hS)
    | lens f s => exact hlens f s hS

theorem nibbleSide_ok {x : Option ℤ} (old : ℕ) (h : ∀ k, x = some k → 0 ≤ k) :
    ∃ n, nibbleSide toSize old x = some n := by
  rcases x with _ | k
  · exact ⟨_, rfl⟩
  · exact ⟨toSize k, by simp [nibbleSide, h k rfl]⟩

theorem nibbling_ok {c : NibbleClause} (d : Nibbles) (h : ∀ k ∈ c.numbers, 0 ≤ k) :
    ∃ n, nibbling toSize c d = some n := by
  cases c with
  | none => exact ⟨_, rfl⟩
  | all k => exact ⟨_, by rw [nibbling, if_pos (h k (by simp [NibbleClause.numbers]))]⟩
  | sides l r t b =>
    have hm : ∀ k, l = some k ∨ r = some k ∨ t = some k ∨ b = some k → 0 ≤ k := by
      intro k hk
      refine h k ?_
      simpa only [NibbleClause.numbers, List.mem_filterMap, List.mem_cons, List.not_mem_nil,
        or_false, id, exists_eq_or_imp, exists_eq_left] using hk
    obtain ⟨l', hl⟩ := nibbleSide_ok d.left fun k hk => hm k (.inl hk)
    obtain ⟨r', hr⟩ := nibbleSide_ok d.right fun k hk => hm k (.inr (.inl hk))
    obtain ⟨t', ht⟩ := nibbleSide_ok d.top fun k hk => hm k (.inr (.inr (.inl hk)))
    obtain ⟨b', hb⟩ := nibbleSide_ok d.bottom fun k hk => hm k (.inr (.inr (.inr hk)))
    exact ⟨⟨l', r', t', b'⟩, by simp [nibbling, hl, hr, ht, hb]⟩

theorem usePositive_exists (x : Dbl) (f : ViewSettings → Dbl → Result) (v : ViewSettings)
    (h : Above (.fin 0) x → ∃ w, set (f v x) = .ok w ∧ w.range = v.range) :
    ∃ r, usePositive x f v = .ok r ∧ r.2.range = v.range := by
  rw [usePositive]
  split
  case isTrue hx =>
    obtain ⟨w, hw, hr⟩ := h hx
    exact ⟨(.fin (-1), w), by simp [hw], hr⟩
  case isFalse => exact ⟨_, rfl, rfl⟩

theorem useNumbers_exists (x y : Dbl) (f : ViewSettings → Dbl → Dbl → Result) (v : ViewSettings)
    (h : x ≠ .nan → y ≠ .nan → ∃ w, set (f v x y) = .ok w) :
    ∃ r, useNumbers x y f v = .ok r := by
  rw [useNumbers]
  split
  case isTrue hx =>
    simp only [Bool.and_eq_true, Bool.not_eq_true', isNaN_false] at hx
    obtain ⟨w, hw⟩ := h hx.1 hx.2
    exact ⟨((.nan, .nan), w), by simp [hw]⟩
  case isFalse => exact ⟨_, rfl⟩

theorem setKm_ok (v : ViewSettings) {x : Dbl} (h : Above (.fin 0) x) :
    set (v.setKmPerPixel x) = .ok { v with kmPerPixel := x } := by
  rw [setKmPerPixel, set_if]
  exact ⟨above_not_le h, rfl⟩

theorem setFocal_ok (v : ViewSettings) {x : Dbl} (h : Above (.fin 0) x) :
    set (v.setFocalLength x) = .ok { v with focalLength := x } := by
  rw [setFocalLength, set_if]
  exact ⟨above_not_le h, rfl⟩

theorem setScale_ok (v : ViewSettings) {x : Dbl} (h : Above (.fin 0) x) :
    set (v.setScale x) = .ok { v with scale := x } := by
  rw [setScale, set_if]
  exact ⟨above_not_le h, rfl⟩

theorem setup_complete {cos : Dbl → Dbl} {a b : Dbl} {p : PhotoSrc} {d : Nibbles} {g : PhotoVars}
    (ha : a ≠ .nan) (hb : b ≠ .nan) (hg : Inert d g) (hp : p.Valid a b) :
    ∃ g' c, imageSetup cos a b p g = .ok (some (g', c)) := by
  obtain ⟨n, hn⟩ := nibbling_ok g.ppNibble hp.nibble
  have h1 : ∃ v1, opticalAxis p.opticalAxis { eqRad := a, polRad := b } = .ok v1 ∧
      v1.eqRad = a ∧ v1.polRad = b := by
    have := hp.axis
    generalize p.opticalAxis = oa at *
    rcases oa with _ | ⟨s, l⟩
    · exact ⟨_, rfl, rfl, rfl⟩
    · exact ⟨_, (set_opticalAxis _ _ _ _).2 ⟨this s l rfl, rfl⟩, rfl, rfl⟩
  obtain ⟨v1, h1, a1, b1⟩ := h1
  have h2 : ∃ v2, emiAngLimit cos p.emiAngLimit v1 = .ok v2 ∧ v2.eqRad = a ∧ v2.polRad = b := by
    have := hp.emission
    generalize p.emiAngLimit = em at *
    rcases em with _ | x
    · exact ⟨_, rfl, a1, b1⟩
    · have hx := this x rfl
      have hx' : x ≠ .nan := by rintro rfl; obtain ⟨q, hq, -⟩ := hx; cases hq
      refine ⟨{ v1 with muLimit := cos (Fp.ieee.mul x cDegree) }, ?_, a1, b1⟩
      simp only [emiAngLimit, setEmiAngLimit, set_if]
      exact ⟨by rw [abs_gt_iff x hx']; exact not_not.mpr hx, trivial⟩
  obtain ⟨v2, h2, a2, b2⟩ := h2
  have h3 : ∃ v3, terminator p.terminator v2 = .ok v3 ∧ v3.eqRad = a ∧ v3.polRad = b := by
    rcases p.terminator with _ | x
    · exact ⟨_, rfl, a2, b2⟩
    · exact ⟨_, rfl, a2, b2⟩
  obtain ⟨v3, h3, a3, b3⟩ := h3
  have h4 : ∃ g2, imageGeometry p.scale (centers p.center g) = some g2 := by
    have := hp.scale
    generalize p.scale = sc at *
    rcases sc with x | x | ⟨f, s⟩
    · exact ⟨_, by rw [imageGeometry, if_pos ((gt_zero x).2 this)]⟩
    · exact ⟨_, by rw [imageGeometry, if_pos ((gt_zero x).2 this)]⟩
    · exact ⟨_, rfl⟩
  obtain ⟨g2, h4⟩ := h4
  have hk : p.kilometers ≠ .nan := by
    intro h
    have := hp.range.2
    rw [h] at this
    simp [Dbl.lt] at this
  have hcc : g2.latAtCenter ≠ .nan → g2.lonAtCenter ≠ .nan →
      NumberWithin 90 g2.latAtCenter ∧ NumberWithin 360 g2.lonAtCenter := by
    have e : g2.latAtCenter = (centers p.center g).latAtCenter ∧
        g2.lonAtCenter = (centers p.center g).lonAtCenter := by
      generalize p.scale = sc at h4
      rcases sc with x | x | ⟨f, s⟩ <;> simp only [imageGeometry] at h4
      · split at h4 <;> simp at h4; simp [← h4]
      · split at h4 <;> simp at h4; simp [← h4]
      · simp at h4; simp [← h4]
    rw [e.1, e.2]
    intro n1 n2
    have := hp.center
    generalize p.center = ce at *
    rcases ce with ⟨x, y⟩ | ⟨x, y⟩
    · rcases hg.latLon with h | h
      · exact absurd h n1
      · exact absurd h n2
    · exact this
  have h5 : ∃ r, finishView p g2 v3 = .ok r := by
    have e1 := (set_subObserv v3 _ _ _).2 ⟨hp.subObserv, rfl⟩
    generalize hw1 : ({ v3 with
      subObservLat := Fp.ieee.mul p.subObserv.1 cDegree
      subObservLon := storedLon p.subObserv.2 } : ViewSettings) = w1 at e1
    have e2 := (set_positionAngle w1 _ _).2 ⟨hp.positionAngle, rfl⟩
    generalize hw2 : ({ w1 with
      positionAngle := Fp.ieee.mul p.positionAngle cDegree } : ViewSettings) = w2 at e2
    have e3 := (set_subSolar w2 _ _ _).2 ⟨hp.subSolar, rfl⟩
    generalize hw3 : ({ w2 with
      subSolarLat := Fp.ieee.mul p.subSolar.1 cDegree
      subSolarLon := storedLon p.subSolar.2 } : ViewSettings) = w3 at e3
    have hw : w3.eqRad = a ∧ w3.polRad = b := by
      rw [← hw3, ← hw2, ← hw1]
      exact ⟨a3, b3⟩
    have e4 : set (w3.setRange (Parser.range p.rangeAu p.range)) =
        .ok { w3 with range := p.kilometers } := by
      rw [setRange, set_if]
      refine ⟨?_, rfl⟩
      rw [hw.1, hw.2]
      exact (range_iff (v := { eqRad := a, polRad := b }) hk ⟨ha, hb⟩).2 hp.range
    obtain ⟨⟨k, w4⟩, e5, r5⟩ := usePositive_exists g2.kmPerPixel setKmPerPixel
      { w3 with range := p.kilometers } fun h => ⟨_, setKm_ok _ h, rfl⟩
    obtain ⟨⟨ar, w5⟩, e6, -⟩ := usePositive_exists g2.arcsecPerPix setArcsecPerPixel w4 fun h => by
      have hn : w4.range.isNaN = false := by
        rw [show w4.range = p.kilometers from r5, isNaN_false]; exact hk
      exact ⟨{ w4 with kmPerPixel := arcsecToKm g2.arcsecPerPix w4.range },
        by simp [setArcsecPerPixel, hn, above_not_le h, set], rfl⟩
    obtain ⟨⟨fo, w6⟩, e7, -⟩ := usePositive_exists g2.focalLength setFocalLength w5 fun h =>
      ⟨_, setFocal_ok _ h, rfl⟩
    obtain ⟨⟨sc, w7⟩, e8, -⟩ := usePositive_exists g2.pixelScale setScale w6 fun h =>
      ⟨_, setScale_ok _ h, rfl⟩
    obtain ⟨⟨⟨s, l⟩, w8⟩, e9⟩ := useNumbers_exists g2.sampleCenter g2.lineCenter setBodyCenter w7
      fun n1 n2 => ⟨_, (set_bodyCenter _ _ _ _).2 ⟨⟨n1, n2⟩, rfl⟩⟩
    obtain ⟨⟨⟨la, lo⟩, w9⟩, e10⟩ := useNumbers_exists g2.latAtCenter g2.lonAtCenter
      setLatLonCenter w8 fun n1 n2 => ⟨_, (set_latLon _ _ _ _).2 ⟨hcc n1 n2, rfl⟩⟩
    exact ⟨_, by simp only [finishView, e1, e2, e3, e4, e5, e6, e7, e8, e9, e10, Outcome.bind_ok]; rfl⟩
  obtain ⟨⟨g3, v⟩, h5⟩ := h5
  simp only [imageSetup, hn, h1, h2, h3, h4, h5, Outcome.bind_ok]
  exact ⟨_, _, rfl⟩

theorem ortho_inert {d : Nibbles} {g : PhotoVars} (c : CenterClause) (h : Inert d g) :
    Inert d (orthoCenters c g).1 := by
  obtain ⟨h1, h2, h3, h4, h5, h6, h7⟩ := h
  cases c with
  | pixel s l =>
    by_cases hn : (!s.isNaN && !l.isNaN) = true
    · simp only [orthoCenters, centers, hn, ↓reduceIte]
      exact ⟨.inl rfl, h2, h3, h4, h5, h6, h7⟩
    · have hn' : s = .nan ∨ l = .nan := by cases s <;> cases l <;> simp_all [Dbl.isNaN]
      by_cases hm : (!g.latAtCenter.isNaN && !g.lonAtCenter.isNaN) = true
      · simp only [orthoCenters, centers, hn, hm, Bool.false_eq_true, ↓reduceIte]
        exact ⟨hn', .inl rfl, h3, h4, h5, h6, h7⟩
      · simp only [orthoCenters, centers, hn, hm, Bool.false_eq_true, ↓reduceIte]
        exact ⟨hn', h2, h3, h4, h5, h6, h7⟩
  | latLon s l =>
    have hn : (!g.sampleCenter.isNaN && !g.lineCenter.isNaN) = false := by
      rcases h1 with h | h <;> simp [h, Dbl.isNaN]
    by_cases hm : (!s.isNaN && !l.isNaN) = true
    · simp only [orthoCenters, centers, hn, hm, Bool.false_eq_true, ↓reduceIte]
      exact ⟨h1, .inl rfl, h3, h4, h5, h6, h7⟩
    · have hn' : s = .nan ∨ l = .nan := by cases s <;> cases l <;> simp_all [Dbl.isNaN]
      simp only [orthoCenters, centers, hn, hm, Bool.false_eq_true, ↓reduceIte]
      exact ⟨h1, hn', h3, h4, h5, h6, h7⟩

theorem reachable_inert {cos : Dbl → Dbl} {d : Nibbles} {g : PhotoVars}
    (h : PhotoReachable cos d g) : Inert d g := by
  induction h with
  | start => refine ⟨.inl rfl, .inl rfl, ?_, ?_, ?_, ?_, rfl⟩ <;> simp [PhotoVars.start, Above, Dbl.lt]
  | image _ hi ih => exact (setup_sound ih hi).1
  | orthoCenters c _ ih => exact ortho_inert c ih
  | orthoScale _ hs ih =>
    rw [orthoScale] at hs
    split at hs
    case isTrue =>
      simp only [Option.some.injEq, Prod.mk.injEq] at hs
      rw [← hs.1]
      exact ⟨ih.pixel, ih.latLon, by simp [Above, Dbl.lt], ih.arcsec, ih.focal, ih.scale, ih.nibble⟩
    case isFalse => simp at hs

/-! ## C80 -/

/-- **C80** (options).  After any number of photos and orthographic maps, each photo
of an accepted plane is set up with the values its own clauses give, with the user's
nibble defaults for the sides it does not mention, and nothing from other photos.
Missing: lens clauses with values that are not positive and centers that are NaN, which
are accepted and ignored (`C80_lens_violated`, `C80_center_violated`). -/
theorem C80_options_partial {cos : Dbl → Dbl} {d : Nibbles} {g g' : PhotoVars}
    (h : PhotoReachable cos d g) (a b : Dbl) (ps : List PhotoSrc) (cs : List PhotoCmd)
    (hp : ∀ p ∈ ps, p.Scanned)
    (hl : ∀ p ∈ ps, ∀ f s, p.scale = .lens f s → (Dbl.fin 0).lt f = true ∧ (Dbl.fin 0).lt s = true)
    (hc : ∀ p ∈ ps, ∀ x y, p.center = .pixel x y ∨ p.center = .latLon x y → x ≠ .nan ∧ y ≠ .nan)
    (hi : images cos a b ps g = .ok (some (g', cs))) :
    cs = ps.map (·.wanted cos a b d) := by
  have hg := reachable_inert h
  clear h
  induction ps generalizing g cs with
  | nil => simp [images] at hi; simp [← hi.2]
  | cons p ps ih =>
    simp only [images, bind_eq_ok] at hi
    obtain ⟨r, hr, hi⟩ := hi
    rcases r with _ | ⟨g1, c⟩
    · simp at hi
    · simp only [bind_eq_ok] at hi
      obtain ⟨r, hrs, hi⟩ := hi
      rcases r with _ | ⟨g2, cs'⟩
      · simp at hi
      · simp only [Outcome.ok.injEq, Option.some.injEq, Prod.mk.injEq] at hi
        obtain ⟨rfl, rfl⟩ := hi
        obtain ⟨hg1, hw⟩ := setup_sound hg hr
        have hm : p ∈ p :: ps := by simp
        rw [(hw (hp p hm) (hl p hm) (fun x y e => hc p hm x y (.inl e))
          fun x y e => hc p hm x y (.inr e)).1,
          ih cs' (fun q hq => hp q (by simp [hq])) (fun q hq => hl q (by simp [hq]))
            (fun q hq => hc q (by simp [hq])) hrs hg1]
        rfl

/-- **C80** (planes).  A plane of one photo shows that photo as it is, a plane of several
photos their mosaic with the averaging asked for.  Missing: as for the options. -/
theorem C80_plane_partial {cos : Dbl → Dbl} {d : Nibbles} {g g' : PhotoVars}
    (h : PhotoReachable cos d g) (a b : Dbl) (av : Averaging) (ps : List PhotoSrc)
    (cs : List PhotoCmd) (hp : ∀ p ∈ ps, p.Scanned)
    (hl : ∀ p ∈ ps, ∀ f s, p.scale = .lens f s → (Dbl.fin 0).lt f = true ∧ (Dbl.fin 0).lt s = true)
    (hc : ∀ p ∈ ps, ∀ x y, p.center = .pixel x y ∨ p.center = .latLon x y → x ≠ .nan ∧ y ≠ .nan)
    (hi : images cos a b ps g = .ok (some (g', cs))) :
    (∀ p, ps = [p] → planePhotos av cs = .single (p.wanted cos a b d)) ∧
      (1 < ps.length → planePhotos av cs = .mosaic (ps.map (·.wanted cos a b d)) av) := by
  obtain rfl := C80_options_partial h a b ps cs hp hl hc hi
  constructor
  · rintro p rfl; rfl
  · intro hn
    match ps, hn with
    | p :: p' :: ps, _ => rfl

/-- **C80** (valid photos).  After any history a photo with documented values is
accepted. -/
theorem C80_accepts {cos : Dbl → Dbl} {d : Nibbles} {g : PhotoVars}
    (h : PhotoReachable cos d g) {a b : Dbl} (ha : a ≠ .nan) (hb : b ≠ .nan) {p : PhotoSrc}
    (hp : p.Valid a b) : ∃ g' c, imageSetup cos a b p g = .ok (some (g', c)) :=
  setup_complete ha hb (reachable_inert h) hp

/-- **C80** (other photos).  A photo with a value that is not documented is rejected.
Missing: NaN as distance, emission angle limit or center, and lenses that are not
positive. -/
theorem C80_rejects_partial {cos : Dbl → Dbl} {d : Nibbles} {g : PhotoVars}
    (h : PhotoReachable cos d g) {a b : Dbl} (ha : a ≠ .nan) (hb : b ≠ .nan) {p : PhotoSrc}
    (hp : p.Scanned) (hk : p.kilometers ≠ .nan) (he : p.emiAngLimit ≠ some .nan)
    (hc : ∀ x y, p.center = .pixel x y ∨ p.center = .latLon x y → x ≠ .nan ∧ y ≠ .nan)
    (hl : ∀ f s, p.scale = .lens f s → (Dbl.fin 0).lt f = true ∧ (Dbl.fin 0).lt s = true)
    (hv : ¬ p.Valid a b) : ¬ ∃ g' c, imageSetup cos a b p g = .ok (some (g', c)) := by
  rintro ⟨g', c, hi⟩
  exact hv (((setup_sound (reachable_inert h) hi).2 hp hl (fun x y e => hc x y (.inl e))
    fun x y e => hc x y (.inr e)).2 ha hb hk he)

/-- A photo of the whole disk of a body with radii 71492 and 66854 km. -/
def samplePhoto : PhotoSrc where
  file := "photo.fits"
  nibble := .sides (some 3) none none (some 7)
  invert := some (true, false)
  interpolate := some true
  removeSky := none
  center := .latLon (.fin 10) (.fin 200)
  opticalAxis := some (.fin 400, .fin 400)
  flatField := none
  minnaert := .none
  geomCorrect := none
  emiAngLimit := some (.fin 80)
  terminator := some true
  subObserv := (.fin (-3), .fin 120)
  positionAngle := .fin 21
  subSolar := (.fin (-2), .fin 118)
  rangeAu := true
  range := .fin 5
  scale := .arcsec (.fin (1 / 10))

theorem samplePhoto_valid : samplePhoto.Valid (.fin 71492) (.fin 66854) := by
  refine ⟨by simp [samplePhoto, NibbleClause.numbers], ?_, ?_, ⟨⟨_, rfl, ?_⟩, ⟨_, rfl, ?_⟩⟩,
    ⟨_, rfl, ?_⟩, ⟨⟨_, rfl, ?_⟩, ⟨_, rfl, ?_⟩⟩, ?_, ?_, ⟨⟨_, rfl, ?_⟩, ⟨_, rfl, ?_⟩⟩⟩
  · rintro s l h
    simp only [samplePhoto, Option.some.injEq, Prod.mk.injEq] at h
    rw [← h.1, ← h.2]; simp
  · rintro x h
    simp only [samplePhoto, Option.some.injEq] at h
    exact ⟨80, h.symm, by norm_num, by norm_num⟩
  case refine_8 => unfold Above; decide +kernel
  case refine_9 => show (Dbl.fin 0).lt (.fin (1 / 10)) = true; decide +kernel
  all_goals norm_num

/-- Non-vacuity: after a photo, the same photo is accepted again and uses the user's
nibble defaults at the top and right. -/
example : ∃ g' cs, images (fun x => x) (.fin 71492) (.fin 66854) [samplePhoto, samplePhoto]
      { PhotoVars.start with ppNibble := ⟨1, 2, 3, 4⟩ } = .ok (some (g', cs)) ∧
    cs.map (·.nibble) = [⟨3, 2, 3, 7⟩, ⟨3, 2, 3, 7⟩] := by
  obtain ⟨g1, c1, h1⟩ := C80_accepts (cos := fun x => x) (d := ⟨1, 2, 3, 4⟩) .start (by simp)
    (by simp) samplePhoto_valid
  obtain ⟨g2, c2, h2⟩ := C80_accepts (.image .start h1) (by simp) (by simp) samplePhoto_valid
  have hi : images (fun x => x) (.fin 71492) (.fin 66854) [samplePhoto, samplePhoto]
      { PhotoVars.start with ppNibble := ⟨1, 2, 3, 4⟩ } = .ok (some (g2, [c1, c2])) := by
    simp only [images, h1, h2, Outcome.bind_ok]
  refine ⟨_, _, hi, ?_⟩
  rw [C80_options_partial .start _ _ _ _ (by simp [PhotoSrc.Scanned, samplePhoto,
    NibbleClause.numbers]) (by simp [samplePhoto]) (by
      simp only [samplePhoto, List.mem_cons, List.not_mem_nil, or_false, or_self, forall_eq]
      rintro x y (h | h) <;> cases h
      simp) hi]
  rfl

/-- A negative nibble is rejected. -/
example : ¬ ∃ g' c, imageSetup (fun x => x) (.fin 71492) (.fin 66854)
    { samplePhoto with nibble := .all (-1) } .start = .ok (some (g', c)) := by
  rintro ⟨g', c, h⟩
  simp [imageSetup, nibbling] at h

/-- **C80** fails for lenses: a photo whose focal length is not a positive number is
accepted, and its viewing geometry has no focal length. -/
theorem C80_lens_violated : ∃ g' c, imageSetup (fun x => x) (.fin 71492) (.fin 66854)
    { samplePhoto with scale := .lens (.fin (-1500)) (.fin 60) } .start = .ok (some (g', c)) ∧
    c.view.focalLength = .nan ∧ c.view.kmPerPixel = .nan := by
  have h : (match imageSetup (fun x => x) (.fin 71492) (.fin 66854)
      { samplePhoto with scale := .lens (.fin (-1500)) (.fin 60) } .start with
    | .ok (some (_, c)) => decide (c.view.focalLength = .nan ∧ c.view.kmPerPixel = .nan)
    | _ => false) = true := by decide +kernel
  split at h
  · exact ⟨_, _, ‹_›, by simpa using h⟩
  · simp at h

/-- **C80** fails for centers: a photo whose center is not a number is accepted, and its
viewing geometry has no center. -/
theorem C80_center_violated : ∃ g' c, imageSetup (fun x => x) (.fin 71492) (.fin 66854)
    { samplePhoto with center := .pixel .nan (.fin 400) } .start = .ok (some (g', c)) ∧
    c.view.sampleCenter = .nan ∧ c.view.lineCenter = .nan ∧
    c.view.latAtCenter = .nan ∧ c.view.lonAtCenter = .nan := by
  have h : (match imageSetup (fun x => x) (.fin 71492) (.fin 66854)
      { samplePhoto with center := .pixel .nan (.fin 400) } .start with
    | .ok (some (_, c)) => decide (c.view.sampleCenter = .nan ∧ c.view.lineCenter = .nan ∧
        c.view.latAtCenter = .nan ∧ c.view.lonAtCenter = .nan)
    | _ => false) = true := by decide +kernel
  split at h
  · exact ⟨_, _, ‹_›, by simpa using h⟩
  · simp at h

/-- **C80** fails for limb corrections: a photo is set up in the same way whatever
`MINNAERT` asks for. -/
theorem C80_minnaert_violated (cos : Dbl → Dbl) (a b : Dbl) (p : PhotoSrc) (g : PhotoVars)
    (m : Minnaert) : imageSetup cos a b { p with minnaert := m } g = imageSetup cos a b p g :=
  rfl

/-- **C80** (user defaults).  Nibble values of the user's file below 2^32 become the
defaults of later photos.  Missing: larger values (`C80_user_nibble_violated`). -/
theorem C80_user_nibble_partial (c : NibbleClause) (g : PhotoVars)
    (h : ∀ n ∈ c.numbers, 0 ≤ n ∧ n < 2 ^ 32) :
    userNibbling c g = some { g with ppNibble := c.wanted g.ppNibble } := by
  have key : ∀ n : ℤ, 0 ≤ n → n < 2 ^ 32 → toUnsigned n = n.toNat := by
    intro n h1 h2
    rw [toUnsigned, Int.emod_eq_of_lt h1 h2]
  have side : ∀ (x : Option ℤ) (o : ℕ), (∀ n, x = some n → 0 ≤ n ∧ n < 2 ^ 32) →
      nibbleSide toUnsigned o x = some ((x.map Int.toNat).getD o) := by
    rintro (_ | n) o hx
    · rfl
    · have := hx n rfl
      simp [nibbleSide, this.1, key n this.1 this.2]
  cases c with
  | none => rfl
  | all n =>
    have := h n (by simp [NibbleClause.numbers])
    simp [userNibbling, nibbling, this.1, key n this.1 this.2, NibbleClause.wanted]
  | sides l r t b =>
    have hm : ∀ k, l = some k ∨ r = some k ∨ t = some k ∨ b = some k → 0 ≤ k ∧ k < 2 ^ 32 := by
      intro k hk
      refine h k ?_
      simpa only [NibbleClause.numbers, List.mem_filterMap, List.mem_cons, List.not_mem_nil,
        or_false, id, exists_eq_or_imp, exists_eq_left] using hk
    simp [userNibbling, nibbling, side l _ fun k hk => hm k (.inl hk),
      side r _ fun k hk => hm k (.inr (.inl hk)), side t _ fun k hk => hm k (.inr (.inr (.inl hk))),
      side b _ fun k hk => hm k (.inr (.inr (.inr hk))), NibbleClause.wanted]

/-- **C80** fails for user defaults: a huge nibble value is accepted in the user's file
and leaves photos whole. -/
theorem C80_user_nibble_violated : userNibbling (.all (2 ^ 32)) .start = some .start := by
  decide +kernel

example : userNibbling (.all 5) .start = some { PhotoVars.start with ppNibble := ⟨5, 5, 5, 5⟩ } :=
  C80_user_nibble_partial (.all 5) .start (by simp [NibbleClause.numbers])

/-- **C80** (centers of orthographic maps).  After any history the center of an
orthographic map is the one given. -/
theorem C80_ortho_center {cos : Dbl → Dbl} {d : Nibbles} {g : PhotoVars}
    (h : PhotoReachable cos d g) (x y : Dbl) (hx : x ≠ .nan) (hy : y ≠ .nan) :
    (orthoCenters (.pixel x y) g).2 = .center x y ∧
    (orthoCenters (.latLon x y) g).2 = .latLon x y := by
  have hg := reachable_inert h
  rw [← isNaN_false] at hx hy
  constructor
  · simp [orthoCenters, centers, hx, hy]
  · have : (!g.sampleCenter.isNaN && !g.lineCenter.isNaN) = false := by
      rcases hg.pixel with h | h <;> simp [h, Dbl.isNaN]
    have h2 : (!x.isNaN && !y.isNaN) = true := by simp [hx, hy]
    simp only [orthoCenters, centers, this, h2, Bool.false_eq_true, ↓reduceIte]

example : (orthoCenters (.latLon (.fin 3) (.fin 4))
    { PhotoVars.start with ppNibble := ⟨1, 2, 3, 4⟩ }).2 = .latLon (.fin 3) (.fin 4) :=
  (C80_ortho_center (cos := fun x => x) .start (.fin 3) (.fin 4) (by simp) (by simp)).2

end MaRC.Parser
