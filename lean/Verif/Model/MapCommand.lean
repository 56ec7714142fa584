import Verif.Model.Fits
import Verif.Model.MapParameters

/-!
# `src/MapCommand.cpp`, `src/MapCommand_t.cpp`, `src/marc.cpp`
-/

namespace MaRC.MapCommand

open Fits MapFactory

/-- A source image factory as the plane loop uses it: `make(sof)` gives no image
(null), or the image with the factory's extrema after the call. -/
abbrev ImageFactory (C : Type) := Outcome (Option (Plane C))

/-- State of the plane loop (src/MapCommand_t.cpp:112-124): what it changes and the
messages it gave. -/
structure Loop where
  /-- `plane_count` -/
  planeCount : ℕ
  /-- `info` -/
  info : PlotInfo
  /-- `map_image` -/
  image : Image
  /-- Number of factories asked for an image. -/
  tried : ℕ
  /-- Planes reported by "No data mapped for plane". -/
  noData : List ℕ
  /-- Planes reported by "Unable to write plane". -/
  notWritten : List ℕ

/-- The plane loop (src/MapCommand_t.cpp:126-174).  `cfitsio k` tells whether
CFITSIO succeeds in writing plane `k`.  The facts written to the header for virtual
images are not modelled. -/
def planeLoop {C : Type} (T : MapType) (plots : ℕ → ℕ → List (C × ℕ)) (cfitsio : ℕ → Bool) :
    List (ImageFactory C) → Loop → Outcome Loop
  | [], s => .ok s
  | f :: fs, s => do
    let image ← f
    match image with
    | none => planeLoop T plots cfitsio fs { s with tried := s.tried + 1 }
    | some p => do
      let (map, info) ← makePlane T plots p s.info
      let noData := if info.dataMapped then s.noData else s.noData ++ [s.planeCount]
      let (written, image) ← s.image.write (cfitsio s.planeCount) map
      let notWritten := if written then s.notWritten else s.notWritten ++ [s.planeCount]
      planeLoop T plots cfitsio fs
        ⟨s.planeCount + 1, info, image, s.tried + 1, noData, notWritten⟩

/-- `image::datamin`/`datamax` (src/FITS_image_t.cpp:66-88): the keyword value
written, if any. -/
def extremumKeyword (v : Dbl) : Option Dbl := if v.isNaN then none else some v

/-- The keywords written after the loop (src/MapCommand_t.cpp:176-184): DATAMIN and
DATAMAX; the optionals are dereferenced. -/
def dataKeywords (info : PlotInfo) : Outcome (Option Dbl × Option Dbl) :=
  if info.dataMapped then
    match info.extrema.min, info.extrema.max with
    | some m, some M => .ok (extremumKeyword m, extremumKeyword M)
    | _, _ => .ub
  else .ok (none, none)

/-- `make_map_planes<T>` (src/MapCommand_t.cpp:29-185): the loop's final state and
DATAMIN and DATAMAX.  The other keywords are not modelled. -/
def makeMapPlanes {C : Type} (T : MapType) (plots : ℕ → ℕ → List (C × ℕ)) (cfitsio : ℕ → Bool)
    (samples lines : ℕ) (blank : Option ℤ) (factories : List (ImageFactory C)) :
    Outcome (Loop × Option Dbl × Option Dbl) := do
  let info := PlotInfo.new samples lines blank
  let info := { info with notifier := { info.notifier with observers := [[]] } }
  let s ← planeLoop T plots cfitsio factories
    ⟨1, info, Image.new samples lines factories.length, 0, [], []⟩
  let k ← dataKeywords s.info
  .ok (s, k)

/-- The type chosen for a BITPIX value (src/MapCommand.cpp:150-174). -/
def bitpixType (n : ℤ) : Option MapType :=
  if n = 8 then some .u8 else if n = 16 then some .i16 else if n = 32 then some .i32
  else if n = 64 then some .i64 else if n = -32 then some .f32 else if n = -64 then some .f64
  else none

/-- `number_of_digits` (src/MapCommand.cpp:439-454). -/
def numberOfDigits (num : ℕ) : ℕ := if num = 0 then 0 else numberOfDigits (num / 10) + 1
termination_by num

/-- The map command loop of `main` (src/marc.cpp:221-231): each command's `execute`
ends in a return value or an exception.  Result: number of commands started and
`result`; an exception leaves the loop. -/
def runCommands : List (Outcome ℤ) → ℕ × Outcome ℤ → ℕ × Outcome ℤ
  | [], s => s
  | c :: cs, (n, r) =>
    match c with
    | .ok v => runCommands cs (n + 1, if v ≠ 0 then .ok 1 else r)
    | .throw e => (n + 1, .throw e)
    | .ub => (n + 1, .ub)

/-- How `parse_file` ends (src/marc.cpp:96-138): its return value and whether
`errno` is `ENOENT` afterwards, or an exception. -/
abbrev Parsed := Outcome (ℤ × Bool)

/-- Parsing of the input files named on the command line (src/marc.cpp:216-219):
number of files parsed, and whether all were parsed successfully. -/
def parseFiles : List Parsed → ℕ × Outcome Bool
  | [] => (0, .ok true)
  | f :: fs =>
    match f with
    | .ok (0, _) => let (n, r) := parseFiles fs; (n + 1, r)
    | .ok _ => (1, .ok false)
    | .throw e => (1, .throw e)
    | .ub => (1, .ub)

/-- What happened in a run of `main`: input files parsed, map commands started and
the exit status. -/
structure Run where
  parsed : ℕ
  started : ℕ
  status : Outcome ℤ

/-- The `catch` clause of `main` (src/marc.cpp:232-242). -/
def catchAll : Outcome ℤ → Outcome ℤ
  | .throw _ => .ok (-1)
  | r => r

/-- `main` (src/marc.cpp:191-245).  `config` is how parsing the configuration file
ends, `cmdline` the result of `command_line::parse` (which can also end the process,
see `CommandLine`), `files` how parsing each named file ends, `commands` how each map
command collected by the parser ends when executed. -/
def main (config : Parsed) (cmdline : Bool) (files : List Parsed)
    (commands : List (Outcome ℤ)) : Run :=
  match config with
  | .throw _ => ⟨0, 0, .ok (-1)⟩
  | .ub => ⟨0, 0, .ub⟩
  | .ok (code, enoent) =>
    if code ≠ 0 ∧ !enoent then ⟨0, 0, .ok (-1)⟩
    else if !cmdline then ⟨0, 0, .ok 1⟩
    else match parseFiles files with
      | (n, .throw _) => ⟨n, 0, .ok (-1)⟩
      | (n, .ub) => ⟨n, 0, .ub⟩
      | (n, .ok false) => ⟨n, 0, .ok (-1)⟩
      | (n, .ok true) =>
        let (k, r) := runCommands commands (0, .ok 0)
        ⟨n, k, catchAll r⟩

end MaRC.MapCommand
