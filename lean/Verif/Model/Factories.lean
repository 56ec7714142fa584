import Verif.Model.Fits
import Verif.Model.Utility

/-!
# `src/SourceImageFactory.cpp`, `src/PhotoImageFactory.cpp`,
`src/MosaicImageFactory.cpp`
-/

namespace MaRC.Factory

open Fits Utility

/-- `SourceImageFactory::minimum` (src/SourceImageFactory.cpp:14-20). -/
def setMinimum (e : Extrema) (datum : Dbl) : Outcome Extrema :=
  if e.min.isNone then e.setMinimum .f64 datum else .ok e

/-- `SourceImageFactory::maximum` (src/SourceImageFactory.cpp:22-28). -/
def setMaximum (e : Extrema) (datum : Dbl) : Outcome Extrema :=
  if e.max.isNone then e.setMaximum .f64 datum else .ok e

/-- `PhotoImageFactory` (src/PhotoImageFactory.h): the photo file, the flat field
file if one is named, the flags and whether configuration and geometry are set.
`finalize` is `ViewingGeometry::finalize_setup`. -/
structure Photo where
  file : Input
  datamin : Option Dbl
  datamax : Option Dbl
  flatField : Option Input
  invertV : Bool
  invertH : Bool
  configSet : Bool
  geometrySet : Bool
  finalize : ℕ → ℕ → Outcome Unit
  extrema : Extrema

/-- The subtraction loop of `flat_field_correct` (src/PhotoImageFactory.cpp:224-229);
the sizes are asserted to be the same. -/
def subtract (F : Fp) (img flat : List Dbl) : Outcome (List Dbl) :=
  if img.length ≠ flat.length then .ub
  else .ok (img.zipWith F.sub flat)

/-- `flat_field_correct` (src/PhotoImageFactory.cpp:191-230). -/
def flatFieldCorrect (F : Fp) (flat : Option Input) (img : List Dbl) (samples lines : ℕ) :
    Outcome (List Dbl) :=
  match flat with
  | none => .ok img
  | some f => do
    let (fImg, fSamples, fLines) ← f.read
    if fSamples ≠ samples ∨ fLines ≠ lines then .throw .runtimeError
    else subtract F img fImg

/-- The inversions of `PhotoImageFactory::make` (src/PhotoImageFactory.cpp:106-111). -/
def applyH (p : Photo) (img : List Dbl) (samples lines : ℕ) : Outcome (List Dbl) :=
  if p.invertH then invertSamples img samples lines else .ok img

/-- See `applyH`. -/
def applyV (p : Photo) (img : List Dbl) (samples lines : ℕ) : Outcome (List Dbl) :=
  if p.invertV then invertLines img samples lines else .ok img

/-- `if (datamin) this->minimum(*datamin)` (src/PhotoImageFactory.cpp:136-140). -/
def optMinimum (e : Extrema) : Option Dbl → Outcome Extrema
  | some m => setMinimum e m
  | none => .ok e

/-- `if (datamax) this->maximum(*datamax)` (src/PhotoImageFactory.cpp:137-142). -/
def optMaximum (e : Extrema) : Option Dbl → Outcome Extrema
  | some m => setMaximum e m
  | none => .ok e

/-- `PhotoImageFactory::make` (src/PhotoImageFactory.cpp:91-150): the image handed to
the `PhotoImage` constructor (pixels, samples, lines), or null, and the factory
afterwards.  Attaching the lens correction and the interpolation is not modelled
here. -/
def Photo.make (F : Fp) (p : Photo) : Outcome (Option (List Dbl × ℕ × ℕ) × Photo) :=
  if !p.configSet || !p.geometrySet then .ok (none, p)
  else do
    let (img, samples, lines) ← p.file.read
    let img ← flatFieldCorrect F p.flatField img samples lines
    let img ← applyH p img samples lines
    let img ← applyV p img samples lines
    p.finalize samples lines
    let e ← optMinimum p.extrema p.datamin
    let e ← optMaximum e p.datamax
    .ok (some (img, samples, lines),
      { p with extrema := e, configSet := false, geometrySet := false })

/-- One photo of a mosaic: its factory's extrema before `make` is called, and what
`make` gives together with the extrema afterwards. -/
structure MosaicPhoto (I : Type) where
  before : Extrema
  make : Outcome (Option I × Extrema)

/-- The loop of `MosaicImageFactory::make` (src/MosaicImageFactory.cpp:82-98). -/
def mosaicLoop {I : Type} : List (MosaicPhoto I) →
    Extrema × Bool × Bool × List (Option I) → Outcome (Extrema × Bool × Bool × List (Option I))
  | [], s => .ok s
  | f :: fs, (ex, vmin, vmax, photos) => do
    let (image, _) ← f.make
    mosaicLoop fs (ex.merge f.before, vmin && f.before.min.isSome, vmax && f.before.max.isSome,
      photos ++ [image])

/-- `*optional` -/
def deref {α : Type} : Option α → Outcome α
  | some a => .ok a
  | none => .ub

/-- `MosaicImageFactory::make` (src/MosaicImageFactory.cpp:74-117): the photos and the
factory's extrema afterwards; `this` are its extrema before. -/
def mosaicMake {I : Type} (this : Extrema) (factories : List (MosaicPhoto I)) :
    Outcome (List (Option I) × Extrema) := do
  let (ex, vmin, vmax, photos) ← mosaicLoop factories (.empty, true, true, [])
  let this ← if vmin then do setMinimum this (← deref ex.min) else .ok this
  let this ← if vmax then do setMaximum this (← deref ex.max) else .ok this
  .ok (photos, this)

/-- `MosaicImageFactory` constructor (src/MosaicImageFactory.cpp:44-56). -/
def mosaicNew {I : Type} (factories : List (MosaicPhoto I)) : Outcome (List (MosaicPhoto I)) :=
  if factories.length < 2 then .throw .invalidArgument else .ok factories

end MaRC.Factory
