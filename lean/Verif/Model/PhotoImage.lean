import Verif.Model.Bilinear

/-!
# `lib/marc/PhotoImage.cpp`, `lib/marc/PhotoImageParameters.cpp`

`C` is the type of a location (latitude, longitude).
-/

namespace MaRC.Photo

/-- What `PhotoImage` uses of `ViewingGeometry`. -/
structure Geometry (C : Type) where
  /-- `latlon2pix` (lib/marc/ViewingGeometry.cpp:845-902): success, sample,
  line. -/
  latlon2pix : C → Bool × Dbl × Dbl
  /-- `pix2latlon` succeeds (lib/marc/ViewingGeometry.cpp:904-951), for a pixel
  given by sample and line. -/
  onBody : ℕ → ℕ → Bool

/-- `ViewingGeometry::body_mask` (lib/marc/ViewingGeometry.cpp:953-982): the
row-major table of `pix2latlon` successes. -/
def Geometry.bodyMask {C : Type} (g : Geometry C) (samples lines : ℕ) : List Bool :=
  (List.range lines).flatMap fun k => (List.range samples).map fun i => g.onBody i k

/-- `MaRC::PhotoImageParameters` (lib/marc/PhotoImageParameters.h:151-176). -/
structure Params where
  nibbleLeft : ℕ
  nibbleRight : ℕ
  nibbleTop : ℕ
  nibbleBottom : ℕ
  removeSky : Bool
  /-- `interpolation_strategy()->interpolate` -/
  interpolate : List Dbl → Dbl → Dbl → Dbl → Outcome (Bool × Dbl)
  /-- `photometric_correction()->correct` -/
  correct : Dbl → Outcome (Bool × Dbl)

/-- `NullPhotometricCorrection::correct`
(lib/marc/NullPhotometricCorrection.cpp:14-19). -/
def nullCorrect (data : Dbl) : Outcome (Bool × Dbl) := .ok (true, data)

/-- `PhotoImageParameters::validate_parameters`
(lib/marc/PhotoImageParameters.cpp:136-154). -/
def Params.validate (c : Params) (samples lines : ℕ) : Outcome Unit :=
  if szSub samples c.nibbleRight ≤ c.nibbleLeft then .throw .invalidArgument
  else if szSub lines c.nibbleTop ≤ c.nibbleBottom then .throw .invalidArgument
  else .ok ()

/-- State of `MaRC::PhotoImage` (lib/marc/PhotoImage.h:182-222). -/
structure Img (C : Type) where
  image : List Dbl
  samples : ℕ
  lines : ℕ
  left : ℕ
  right : ℕ
  top : ℕ
  bottom : ℕ
  config : Params
  geometry : Geometry C
  mask : List Bool

/-- Constructor (lib/marc/PhotoImage.cpp:30-95).  A null configuration is
dereferenced by the member initialisers before `make_body_mask` tests it. -/
def new {C : Type} (image : List Dbl) (samples lines : ℕ) (config : Option Params)
    (geometry : Option (Geometry C)) : Outcome (Img C) :=
  match config with
  | none => .ub
  | some c =>
    let left := c.nibbleLeft
    let right := szSub samples c.nibbleRight
    let top := c.nibbleTop
    let bottom := szSub lines c.nibbleBottom
    match geometry with
    | none => .throw .invalidArgument
    | some g =>
      let mask := if c.removeSky then g.bodyMask samples lines else []
      if samples < 2 ∨ lines < 2 then .throw .invalidArgument
      else if image.length ≠ szMul samples lines then .throw .invalidArgument
      else do
        c.validate samples lines
        .ok ⟨image, samples, lines, left, right, top, bottom, c, g, mask⟩

/-- `PhotoImage::scan_samples` (lib/marc/PhotoImage.cpp:172-199): the iterators
must stay within the mask. -/
def scanSamples {C : Type} (p : Img C) (line left right : ℕ) (weight : ℕ) : Outcome ℕ :=
  let offset := line * p.samples
  if offset + right > p.mask.length ∨ left > right then .ub
  else
    let range := (p.mask.drop (offset + left)).take (right - left)
    match range.findIdx? (· == true) with
    | some d => .ok (min d weight)
    | none => .ok weight

/-- Loop of `PhotoImage::scan_lines` (lib/marc/PhotoImage.cpp:214-216) from
`line` for at most `n` more lines: the line at which it stops.  Moving the
iterator past the last line, without reading through it, is not treated as an
error. -/
def scanLinesLoop {C : Type} (p : Img C) (i : ℕ) : ℕ → ℕ → Outcome ℕ
  | 0, line => .ok line
  | n + 1, line => do
    let m ← arrayAt p.mask (line * p.samples + i)
    if m then scanLinesLoop p i n (line + 1) else .ok line

/-- `PhotoImage::scan_lines` (lib/marc/PhotoImage.cpp:201-225). -/
def scanLines {C : Type} (p : Img C) (i top bottom : ℕ) (weight : ℕ) : Outcome ℕ := do
  let line ← scanLinesLoop p i (bottom - top) top
  if line ≠ bottom then .ok (min (line - top) weight) else .ok weight

/-- `PhotoImage::data_weight` (lib/marc/PhotoImage.cpp:227-281).  Weights are
whole numbers, kept as `ℕ`. -/
def dataWeight {C : Type} (p : Img C) (i k : ℕ) : Outcome ℕ := do
  let weight := min i (min (szSub p.samples i) (min k (szSub p.lines k)))
  if p.mask.isEmpty then .ok weight
  else do
    let weight ← scanSamples p k p.left i weight
    let weight ← scanSamples p k i p.right weight
    let weight ← scanLines p i p.top k weight
    scanLines p i k p.bottom weight

/-- `PhotoImage::read_data(lat, lon, data, weight, scan)`
(lib/marc/PhotoImage.cpp:107-170). -/
def readWeighted {C : Type} (p : Img C) (c : C) (data weight : Dbl) (scan : Bool) :
    Outcome (Bool × Dbl × Dbl) := do
  let (ok, x, z) := p.geometry.latlon2pix c
  if !ok || x.lt (.fin 0) || z.lt (.fin 0) then .ok (false, data, weight)
  else do
    let i ← castSize x.floor
    let k ← castSize z.floor
    let index := szAdd (szMul k p.samples) i
    if i < p.left ∨ i ≥ p.right ∨ k < p.top ∨ k ≥ p.bottom then .ok (false, data, weight)
    else do
      let sky ← (if p.mask.isEmpty then Outcome.ok false else do
        let m ← arrayAt p.mask index
        .ok (!m))
      if sky || data.isNaN then .ok (false, data, weight)
      else do
        let data ← arrayAt p.image index
        let (ok1, data) ← p.config.interpolate p.image x z data
        if !ok1 then .ok (false, data, weight)
        else do
          let (ok2, data) ← p.config.correct data
          if !ok2 || data.isNaN then .ok (false, data, weight)
          else if scan then do
            let w ← dataWeight p i k
            .ok (true, data, .fin w)
          else .ok (true, data, weight)

/-- `PhotoImage::read_data(lat, lon, data)` (lib/marc/PhotoImage.cpp:97-105). -/
def read {C : Type} (p : Img C) (c : C) (data : Dbl) : Outcome (Bool × Dbl) := do
  let (ok, data, _) ← readWeighted p c data (.fin 1) false
  .ok (ok, data)

end MaRC.Photo
