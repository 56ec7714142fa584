import Verif.Model.ViewSettings
import Verif.Lemmas.Rounding
import Verif.Lemmas.DblOrder
import Verif.Props.Validate
import Verif.Props.Parser
import Mathlib.Analysis.Real.Pi.Bounds

/-!
# C42: setters of the viewing geometry
-/

namespace MaRC

namespace ViewSettings

/-! ## Specification -/

/-- A `double` that is a number greater than `b` (or infinite). -/
def Above (b : Dbl) (d : Dbl) : Prop := b.lt d = true

/-- The values each setter accepts according to its documentation, for a body
with the radii of `s`. -/
def Documented (s : ViewSettings) : Call → Prop
  | .subObservLat x | .subSolarLat x | .latAtCenter x => NumberWithin 90 x
  | .subObservLon x | .subSolarLon x | .lonAtCenter x | .positionAngle x => NumberWithin 360 x
  | .arcsecPerPixel x => Above (.fin 0) x ∧ s.range ≠ .nan
  | .kmPerPixel x | .focalLength x | .scale x => Above (.fin 0) x
  | .range x => (Above s.eqRad x ∨ Above s.polRad x) ∧ x.lt maxRange = true
  | .bodyCenterSample x | .bodyCenterLine x | .opticalAxisSample x | .opticalAxisLine x => x ≠ .nan
  | .emiAngLimit x => NumberWithin 90 x
  | .useTerminator _ => True
  | .correction g => g ≠ none

/-- The value given to the call is NaN. -/
def GivenNaN : Call → Prop
  | .arcsecPerPixel x | .kmPerPixel x | .focalLength x | .scale x | .range x | .emiAngLimit x =>
    x = .nan
  | _ => False

/-- The radians stored for a longitude in degrees: those of the equivalent
longitude that is not negative. -/
def storedLon (x : Dbl) : Dbl :=
  if (Fp.ieee.mul x cDegree).lt (.fin 0) then Fp.ieee.add (Fp.ieee.mul x cDegree) c2Pi
  else Fp.ieee.mul x cDegree

/-- The kilometers per pixel stored for an angle in arcseconds, of which there are
`180 * 60 * 60` in half a turn, seen from the distance `range`. -/
def storedKm (x range : Dbl) : Dbl :=
  Fp.ieee.mul (Fp.ieee.mul (Fp.ieee.div cPi (.fin (180 * 60 * 60))) x) range

/-- Effect of a successful call: one member assigned, nothing else. -/
def effect (cos : Dbl → Dbl) (s : ViewSettings) : Call → ViewSettings
  | .subObservLat x => { s with subObservLat := Fp.ieee.mul x cDegree }
  | .subObservLon x => { s with subObservLon := storedLon x }
  | .subSolarLat x => { s with subSolarLat := Fp.ieee.mul x cDegree }
  | .subSolarLon x => { s with subSolarLon := storedLon x }
  | .positionAngle x => { s with positionAngle := Fp.ieee.mul x cDegree }
  | .arcsecPerPixel x => { s with kmPerPixel := storedKm x s.range }
  | .kmPerPixel x => { s with kmPerPixel := x }
  | .range x => { s with range := x }
  | .focalLength x => { s with focalLength := x }
  | .scale x => { s with scale := x }
  | .bodyCenterSample x => { s with sampleCenter := x }
  | .bodyCenterLine x => { s with lineCenter := x }
  | .latAtCenter x => { s with latAtCenter := Fp.ieee.mul x cDegree }
  | .lonAtCenter x => { s with lonAtCenter := storedLon x }
  | .opticalAxisSample x => { s with oaSample := x }
  | .opticalAxisLine x => { s with oaLine := x }
  | .emiAngLimit x => { s with muLimit := cos (Fp.ieee.mul x cDegree) }
  | .useTerminator u => { s with useTerminator := u }
  | .correction g => { s with correction := g.getD s.correction }

/-- The exception of a rejected call. -/
def rejection : Call → Exc
  | .emiAngLimit _ => .domainError
  | .arcsecPerPixel x => if Dbl.le x (.fin 0) then .invalidArgument else .logicError
  | _ => .invalidArgument

/-! ## C42 -/

theorem lat_cases (x : Dbl) (s : ViewSettings) (f : Dbl → ViewSettings) :
    s.assign (validateLatitude x) f = (s, some .invalidArgument) ∨
    s.assign (validateLatitude x) f = (f (Fp.ieee.mul x cDegree), none) := by
  by_cases h : NumberWithin 90 x
  · simp [(C02_latitude x).1 h, assign]
  · simp [(C02_latitude x).2 h, assign]

theorem pos_cases (x : Dbl) (s : ViewSettings) (f : Dbl → ViewSettings) :
    s.assign (validatePositionAngle x) f = (s, some .invalidArgument) ∨
    s.assign (validatePositionAngle x) f = (f (Fp.ieee.mul x cDegree), none) := by
  by_cases h : NumberWithin 360 x
  · simp [(C02_position_angle x).1 h, assign]
  · simp [(C02_position_angle x).2 h, assign]

theorem lon_cases (x : Dbl) (s : ViewSettings) (f : Dbl → ViewSettings) :
    s.assign (validateLongitude x) (fun v => f (positiveLon v)) = (s, some .invalidArgument) ∨
    s.assign (validateLongitude x) (fun v => f (positiveLon v)) = (f (storedLon x), none) := by
  by_cases h : NumberWithin 360 x
  · simp [(C02_longitude x).1 h, assign, storedLon, positiveLon]
  · simp [(C02_longitude x).2 h, assign]

theorem isNaN_iff (x : Dbl) : x.isNaN = true ↔ x = .nan := by cases x <;> simp [Dbl.isNaN]

theorem le_or_lt {a b : Dbl} (ha : a ≠ .nan) (hb : b ≠ .nan) :
    a.le b = true ↔ ¬ b.lt a = true := by
  cases a <;> cases b <;> simp_all [Dbl.le, Dbl.lt]

theorem stdMin_lt {a b x : Dbl} (ha : a ≠ .nan) (hb : b ≠ .nan) :
    (stdMin a b).lt x = true ↔ a.lt x = true ∨ b.lt x = true := by
  rw [stdMin]
  split_ifs with h <;> cases a <;> cases b <;> cases x <;> simp_all [Dbl.lt] <;> grind

theorem stdMin_nan {a b : Dbl} (ha : a ≠ .nan) (hb : b ≠ .nan) : stdMin a b ≠ .nan := by
  rw [stdMin]; split_ifs <;> assumption

theorem abs_gt_iff (x : Dbl) (hx : x ≠ .nan) :
    x.abs.gt (.fin 90) = true ↔ ¬ NumberWithin 90 x := by
  rw [← reject_iff]
  cases x <;> simp_all [Dbl.abs, Dbl.gt, Dbl.lt, Dbl.isNaN]
  rw [lt_abs]
  constructor
  · rintro (h | h)
    · right; linarith
    · left; linarith
  · rintro (h | h)
    · right; linarith
    · left; linarith

/-- When the call throws: not a documented value, and not NaN where NaN is let
through. -/
theorem throws_iff (cos : Dbl → Dbl) (s : ViewSettings) (c : Call)
    (hr : s.eqRad ≠ .nan ∧ s.polRad ≠ .nan) (hn : ¬ GivenNaN c) :
    (s.call cos c).2 = none ↔ s.Documented c := by
  cases c <;>
    simp only [call, setSubObservLat, setSubObservLon, setSubSolarLat,
      setSubSolarLon, setLatAtCenter, setLonAtCenter, setPositionAngle, setArcsecPerPixel,
      setKmPerPixel, setRange, setFocalLength, setScale, setBodyCenterSample, setBodyCenterLine,
      setOpticalAxisSample, setOpticalAxisLine, setEmiAngLimit, setUseTerminator, setCorrection,
      Documented, GivenNaN] at hn ⊢
  case subObservLat x =>
    by_cases h : NumberWithin 90 x <;> simp [C02_latitude x, h, assign]
  case subSolarLat x =>
    by_cases h : NumberWithin 90 x <;> simp [C02_latitude x, h, assign]
  case latAtCenter x =>
    by_cases h : NumberWithin 90 x <;> simp [C02_latitude x, h, assign]
  case subObservLon x =>
    by_cases h : NumberWithin 360 x <;> simp [C02_longitude x, h, assign]
  case subSolarLon x =>
    by_cases h : NumberWithin 360 x <;> simp [C02_longitude x, h, assign]
  case lonAtCenter x =>
    by_cases h : NumberWithin 360 x <;> simp [C02_longitude x, h, assign]
  case positionAngle x =>
    by_cases h : NumberWithin 360 x <;> simp [C02_position_angle x, h, assign]
  case correction g => cases g <;> simp
  case emiAngLimit x =>
    have := abs_gt_iff x hn
    by_cases h : x.abs.gt (.fin 90) = true
    · simp [h, this.1 h]
    · simp [h, not_not.1 (mt this.2 h)]
  case range x =>
    have h1 := le_or_lt hn (stdMin_nan hr.1 hr.2)
    rw [stdMin_lt hr.1 hr.2] at h1
    have h2 := le_or_lt (a := maxRange) (b := x) (by simp [maxRange]) hn
    simp only [Above, Dbl.ge, Bool.or_eq_true]
    split_ifs with h
    · rw [h1, h2] at h; simp only [false_iff]; tauto
    · rw [h1, h2] at h; simp only [true_iff]; tauto
  case arcsecPerPixel x =>
    have h1 := le_or_lt hn (b := .fin 0) (by simp)
    have h2 := isNaN_iff s.range
    simp only [Above]
    split_ifs with h h' <;> simp_all
  case kmPerPixel x =>
    have h1 := le_or_lt hn (b := .fin 0) (by simp)
    simp only [Above]
    split_ifs with h <;> simp_all
  case focalLength x =>
    have h1 := le_or_lt hn (b := .fin 0) (by simp)
    simp only [Above]
    split_ifs with h <;> simp_all
  case scale x =>
    have h1 := le_or_lt hn (b := .fin 0) (by simp)
    simp only [Above]
    split_ifs with h <;> simp_all
  all_goals
    rename_i x
    have := isNaN_iff x
    split_ifs <;> simp_all

theorem documented_not_nan (s : ViewSettings) (c : Call) (h : GivenNaN c) : ¬ s.Documented c := by
  cases c <;> simp_all [GivenNaN, Documented, Above, Dbl.lt, NumberWithin, maxRange]

/-- A setter that takes one value either throws and leaves the geometry as it
was, or assigns the converted value and changes nothing else. -/
theorem C42_atomic (cos : Dbl → Dbl) (s : ViewSettings) (c : Call) :
    s.call cos c = (s, some (rejection c)) ∨ s.call cos c = (s.effect cos c, none) := by
  cases c <;>
    simp only [call, effect, rejection, setSubObservLat, setSubObservLon, setSubSolarLat,
      setSubSolarLon, setLatAtCenter, setLonAtCenter, setPositionAngle, setArcsecPerPixel,
      setKmPerPixel, setRange, setFocalLength, setScale, setBodyCenterSample, setBodyCenterLine,
      setOpticalAxisSample, setOpticalAxisLine, setEmiAngLimit, setUseTerminator, setCorrection]
  case subObservLat x => exact lat_cases x _ _
  case subSolarLat x => exact lat_cases x _ _
  case latAtCenter x => exact lat_cases x _ _
  case subObservLon x => exact lon_cases x s fun v => { s with subObservLon := v }
  case subSolarLon x => exact lon_cases x s fun v => { s with subSolarLon := v }
  case lonAtCenter x => exact lon_cases x s fun v => { s with lonAtCenter := v }
  case positionAngle x => exact pos_cases x _ _
  case correction g => cases g <;> simp
  case useTerminator => simp
  case arcsecPerPixel x =>
    have h : arcsecToKm x s.range = storedKm x s.range := by norm_num [arcsecToKm, storedKm]
    rw [h]
    split_ifs <;> simp_all
  all_goals split_ifs <;> simp_all

/-- The constants of the conversions are those of degrees, turns and arcseconds to
within rounding. -/
theorem C42_constants : ∃ p d t a : ℚ, cPi = .fin p ∧ cDegree = .fin d ∧ c2Pi = .fin t ∧
    Fp.ieee.div cPi (.fin (180 * 60 * 60)) = .fin a ∧
    |(p : ℝ) - Real.pi| ≤ 1 / 2 ^ 52 ∧ |(d : ℝ) - Real.pi / 180| ≤ 1 / 2 ^ 60 ∧
    |(t : ℝ) - 2 * Real.pi| ≤ 1 / 2 ^ 51 ∧
    |(a : ℝ) - Real.pi / 180 / 60 / 60| ≤ 1 / 2 ^ 72 := by
  refine ⟨884279719003555 / 281474976710656, 5030569068109113 / 288230376151711744,
    884279719003555 / 140737488355328, _, by decide +kernel, by decide +kernel,
    by decide +kernel, (by decide +kernel : _ = Dbl.fin (5723669695270813 / 1180591620717411303424)),
    ?_, ?_, ?_, ?_⟩ <;>
  · rw [abs_le]
    have h1 := Real.pi_gt_d20
    have h2 := Real.pi_lt_d20
    push_cast
    constructor <;> norm_num at h1 h2 ⊢ <;> linarith

/-- Documented values are accepted. -/
theorem C42_accepts (cos : Dbl → Dbl) (s : ViewSettings) (c : Call) (h : s.Documented c)
    (hr : s.eqRad ≠ .nan ∧ s.polRad ≠ .nan) :
    s.call cos c = (s.effect cos c, none) := by
  rcases C42_atomic cos s c with h1 | h1
  · have := (throws_iff cos s c hr fun hn => documented_not_nan s c hn h).2 h
    rw [h1] at this
    simp at this
  · exact h1

/-- Other values are rejected, except NaN given to the setters of distances,
scales and the emission angle limit. -/
theorem C42_rejects (cos : Dbl → Dbl) (s : ViewSettings) (c : Call) (h : ¬ s.Documented c)
    (hn : ¬ GivenNaN c) (hr : s.eqRad ≠ .nan ∧ s.polRad ≠ .nan) :
    s.call cos c = (s, some (rejection c)) := by
  rcases C42_atomic cos s c with h1 | h1
  · exact h1
  · exact absurd ((throws_iff cos s c hr hn).1 (by rw [h1])) h

/-- Both hypotheses are met: a range is accepted, a negative scale is not. -/
example :
    let s : ViewSettings := { eqRad := .fin 71492, polRad := .fin 66854 }
    s.Documented (.range (.fin 1000000)) ∧ ¬ s.Documented (.scale (.fin (-3))) ∧
      ¬ GivenNaN (.scale (.fin (-3))) := by
  refine ⟨?_, ?_, ?_⟩
  · simp only [Documented, Above]; decide +kernel
  · simp only [Documented, Above]; decide +kernel
  · simp [GivenNaN]

/-- NaN is accepted as range, kilometers per pixel, focal length, scale and
emission angle limit, and as arcseconds per pixel once the range is set. -/
theorem C42_nan_violated (cos : Dbl → Dbl) (s : ViewSettings) :
    (∀ c, GivenNaN c → ¬ s.Documented c) ∧
    s.call cos (.range .nan) = ({ s with range := .nan }, none) ∧
    s.call cos (.kmPerPixel .nan) = ({ s with kmPerPixel := .nan }, none) ∧
    s.call cos (.focalLength .nan) = ({ s with focalLength := .nan }, none) ∧
    s.call cos (.scale .nan) = ({ s with scale := .nan }, none) ∧
    s.call cos (.emiAngLimit .nan) = ({ s with muLimit := cos .nan }, none) ∧
    (s.range ≠ .nan → s.call cos (.arcsecPerPixel .nan) = ({ s with kmPerPixel := .nan }, none)) := by
  refine ⟨fun c => documented_not_nan s c, ?_, ?_, ?_, ?_, ?_, fun h => ?_⟩
  · simp [call, setRange, Dbl.le, Dbl.ge, maxRange]
  · simp [call, setKmPerPixel, Dbl.le]
  · simp [call, setFocalLength, Dbl.le]
  · simp [call, setScale, Dbl.le]
  · simp [call, setEmiAngLimit, Dbl.abs, Dbl.gt, Dbl.lt, Fp.mul]
  · have h1 : s.range.isNaN = false := by
      rw [← Bool.not_eq_true, isNaN_iff]; exact h
    have m1 : ∀ a, Fp.ieee.mul a .nan = .nan := by intro a; cases a <;> rfl
    have m2 : ∀ a, Fp.ieee.mul .nan a = .nan := by intro a; cases a <;> rfl
    simp [call, setArcsecPerPixel, Dbl.le, h1, arcsecToKm, m1, m2]

/-- Longitudes accepted are stored as a number of radians from 0 to 2π. -/
theorem C42_longitude (x : Dbl) (h : NumberWithin 360 x) :
    ∃ v t : ℚ, storedLon x = .fin v ∧ c2Pi = .fin t ∧ 0 ≤ v ∧ v ≤ t := by
  obtain ⟨q, rfl, h1, h2⟩ := h
  set d : ℚ := 5030569068109113 / 288230376151711744 with hd
  set t : ℚ := 884279719003555 / 140737488355328 with ht
  have hdeg : cDegree = .fin d := by decide +kernel
  have htwo : c2Pi = .fin t := by decide +kernel
  have hlo : Fp.ieee.rnd (-360 * d) = .fin (-t) := by decide +kernel
  have hhi : Fp.ieee.rnd (360 * d) = .fin t := by decide +kernel
  have htt : Fp.ieee.rnd t = .fin t := by decide +kernel
  have hdp : 0 < d := by norm_num [hd]
  have htp : 0 < t := by norm_num [ht]
  have hm : Fp.ieee.mul (.fin q) cDegree = Fp.ieee.rnd (q * d) := by rw [hdeg]; rfl
  have a := Fp.ieee_rnd_mono (show -360 * d ≤ q * d by nlinarith)
  have b := Fp.ieee_rnd_mono (show q * d ≤ 360 * d by nlinarith)
  rw [hlo] at a
  rw [hhi] at b
  obtain ⟨r, hr, h3, h4⟩ := Parser.between a b
  rw [storedLon, hm, hr, htwo]
  by_cases h0 : r < 0
  · have a := Fp.ieee_rnd_mono (show (0 : ℚ) ≤ r + t by linarith)
    have b := Fp.ieee_rnd_mono (show r + t ≤ t by linarith)
    rw [Fp.ieee_rnd_zero] at a
    rw [htt] at b
    obtain ⟨v, hv, h5, h6⟩ := Parser.between a b
    exact ⟨v, t, by simp [Dbl.lt, h0, Fp.add, hv], rfl, h5, h6⟩
  · exact ⟨r, t, by simp [Dbl.lt, h0], rfl, _root_.not_lt.1 h0, h4⟩

/-- 360 degrees and tiny negative longitudes are stored as 2π, which is not
below a full circle. -/
theorem C42_longitude_violated :
    storedLon (.fin 360) = c2Pi ∧ storedLon (.fin (-1 / 2 ^ 100)) = c2Pi := by
  decide +kernel

/-- Setters that take two values have stored the first one when the second one
is rejected: the call throws and the geometry has changed. -/
theorem C42_pair_violated :
    let s : ViewSettings := { eqRad := .fin 71492, polRad := .fin 66854 }
    (s.setSubObserv (.fin 45) (.fin 400)).2 = some .invalidArgument ∧
    (s.setSubObserv (.fin 45) (.fin 400)).1 ≠ s ∧
    (s.setSubSolar (.fin 45) (.fin 400)).2 = some .invalidArgument ∧
    (s.setSubSolar (.fin 45) (.fin 400)).1 ≠ s ∧
    (s.setLatLonCenter (.fin 45) (.fin 400)).2 = some .invalidArgument ∧
    (s.setLatLonCenter (.fin 45) (.fin 400)).1 ≠ s ∧
    (s.setBodyCenter (.fin 45) .nan).2 = some .invalidArgument ∧
    (s.setBodyCenter (.fin 45) .nan).1 ≠ s ∧
    (s.setOpticalAxis (.fin 45) .nan).2 = some .invalidArgument ∧
    (s.setOpticalAxis (.fin 45) .nan).1 ≠ s := by
  decide +kernel

/-- Setters that take two values: both good means both stored and nothing else
changed, the first one bad means nothing changed. -/
theorem C42_pair (s : ViewSettings) (x y : Dbl) :
    (NumberWithin 90 x → NumberWithin 360 y →
      s.setSubObserv x y =
        ({ s with subObservLat := Fp.ieee.mul x cDegree, subObservLon := storedLon y }, none) ∧
      s.setSubSolar x y =
        ({ s with subSolarLat := Fp.ieee.mul x cDegree, subSolarLon := storedLon y }, none) ∧
      s.setLatLonCenter x y =
        ({ s with latAtCenter := Fp.ieee.mul x cDegree, lonAtCenter := storedLon y }, none)) ∧
    (¬ NumberWithin 90 x →
      s.setSubObserv x y = (s, some .invalidArgument) ∧
      s.setSubSolar x y = (s, some .invalidArgument) ∧
      s.setLatLonCenter x y = (s, some .invalidArgument)) ∧
    (x ≠ .nan → y ≠ .nan →
      s.setBodyCenter x y = ({ s with sampleCenter := x, lineCenter := y }, none) ∧
      s.setOpticalAxis x y = ({ s with oaSample := x, oaLine := y }, none)) ∧
    (x = .nan →
      s.setBodyCenter x y = (s, some .invalidArgument) ∧
      s.setOpticalAxis x y = (s, some .invalidArgument)) := by
  refine ⟨fun h1 h2 => ?_, fun h1 => ?_, fun h1 h2 => ?_, ?_⟩
  · have e1 := (C02_latitude x).1 h1
    have e2 := (C02_longitude y).1 h2
    simp [setSubObserv, setSubSolar, setLatLonCenter, setSubObservLat, setSubObservLon,
      setSubSolarLat, setSubSolarLon, setLatAtCenter, setLonAtCenter, assign, andThen, e1, e2,
      positiveLon, storedLon]
  · have e1 := (C02_latitude x).2 h1
    simp [setSubObserv, setSubSolar, setLatLonCenter, setSubObservLat,
      setSubSolarLat, setLatAtCenter, assign, andThen, e1]
  · have e1 : x.isNaN = false := by cases x <;> simp_all [Dbl.isNaN]
    have e2 : y.isNaN = false := by cases y <;> simp_all [Dbl.isNaN]
    simp [setBodyCenter, setOpticalAxis, setBodyCenterSample, setBodyCenterLine,
      setOpticalAxisSample, setOpticalAxisLine, andThen, e1, e2]
  · rintro rfl
    simp [setBodyCenter, setOpticalAxis, setBodyCenterSample,
      setOpticalAxisSample, andThen, Dbl.isNaN]

end ViewSettings
end MaRC
