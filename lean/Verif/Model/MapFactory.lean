import Verif.Model.Extrema
import Verif.Model.Progress

/-!
# `lib/marc/MapFactory_t.cpp`, `lib/marc/plot_info.h`

`C` is the type of the coordinates handed to `plot` (a latitude/longitude
pair).  A projection is represented by the sequence of `plot(lat, lon, offset)`
calls its `plot_map` makes.
-/

namespace MaRC

open Progress

/-- `SourceImage::read_data(lat, lon, data)` (lib/marc/SourceImage.h:59-61): the
coordinates and the incoming value of the output parameter give the return
value and the outgoing value. -/
abbrev ReadData (C : Type) := C → Dbl → Outcome (Bool × Dbl)

/-- `MaRC::plot_info<T>` (lib/marc/plot_info.h:38-172). -/
structure PlotInfo where
  /-- `samples_` -/
  samples : ℕ
  /-- `lines_` -/
  lines : ℕ
  /-- `extrema_` -/
  extrema : Extrema
  /-- `blank_` -/
  blank : Option ℤ
  /-- `notifier_` -/
  notifier : Notifier
  deriving DecidableEq

namespace PlotInfo

/-- Constructor (lib/marc/plot_info.h:56-64, 79-88). -/
def new (samples lines : ℕ) (blank : Option ℤ) : PlotInfo :=
  ⟨samples, lines, .empty, blank, .new⟩

/-- `update_extrema` (lib/marc/plot_info.h:133). -/
def updateExtrema (i : PlotInfo) (datum : Dbl) : PlotInfo :=
  { i with extrema := i.extrema.update datum }

/-- `data_mapped` (lib/marc/plot_info.h:136). -/
def dataMapped (i : PlotInfo) : Bool := i.extrema.isValid

end PlotInfo

namespace MapFactory

/-- `parameters<T>::get_extrema` (lib/marc/MapFactory_t.cpp:24-35).  The
values of type `T` reach `Map_traits<T>::minimum`/`maximum` as `double`. -/
def getExtrema (T : MapType) (e : Extrema) : Outcome Extrema :=
  Extrema.make T (T.toDouble (e.min.getD (.fin T.lowest)))
    (T.toDouble (e.max.getD (.fin T.highest)))

/-- What `plot` changes: the map array and the plotting information. -/
structure State where
  map : List Dbl
  info : PlotInfo

/-- `MapFactory::plot` (lib/marc/MapFactory_t.cpp:79-107). -/
def plot {C : Type} (T : MapType) (read : ReadData C) (e : Extrema) (s : State)
    (c : C) (offset : ℕ) : Outcome State := do
  let (found, datum) ← read c (.fin 0)
  let s ←
    if found && e.inRange T datum then do
      let v ← T.cast datum
      if offset < s.map.length then
        .ok ⟨s.map.set offset v, s.info.updateExtrema v⟩
      else .ub
    else .ok s
  let n ← s.info.notifier.notifyPlotted s.map.length
  .ok { s with info := { s.info with notifier := n } }

/-- The sequence of `plot` calls made by a projection's `plot_map`. -/
def plotAll {C : Type} (T : MapType) (read : ReadData C) (e : Extrema) (s : State) :
    List (C × ℕ) → Outcome State
  | [] => .ok s
  | (c, o) :: rest => do
    let s ← plot T read e s c o
    plotAll T read e s rest

/-- Blank value of the map (lib/marc/MapFactory_t.cpp:46-57). -/
def blankValue (T : MapType) (blank : Option ℤ) : Outcome Dbl :=
  match T.isIntegral, blank with
  | true, some b =>
    if b < T.intRange.1 ∨ b > T.intRange.2 then .throw .invalidArgument
    else .ok (.fin b)
  | _, _ => .ok T.emptyValue

/-- `MapFactory::make_map` (lib/marc/MapFactory_t.cpp:39-76).  `plots` is the
projection's `plot_map(samples, lines)`.  Memory exhaustion is not modelled. -/
def makeMap {C : Type} (T : MapType) (plots : ℕ → ℕ → List (C × ℕ)) (read : ReadData C)
    (minmax : Extrema) (info : PlotInfo) : Outcome (List Dbl × PlotInfo) := do
  let blank ← blankValue T info.blank
  let map := List.replicate (szMul info.samples info.lines) blank
  let e ← getExtrema T minmax
  let s ← plotAll T read e ⟨map, info⟩ (plots info.samples info.lines)
  let n ← s.info.notifier.notifyDone s.map.length
  .ok (s.map, { s.info with notifier := n })

/-- One map plane: what `make_map` is given by
`MapCommand::make_map_planes` (src/MapCommand_t.cpp:126-164). -/
structure Plane (C : Type) where
  /-- The source image. -/
  read : ReadData C
  /-- `SourceImageFactory::minmax()`, as `double`s. -/
  minmax : Extrema

/-- The `make_map` call of the plane loop (src/MapCommand_t.cpp:160-164): the
`extrema<double>` of the factory is converted to `extrema<T>` first. -/
def makePlane {C : Type} (T : MapType) (plots : ℕ → ℕ → List (C × ℕ)) (p : Plane C)
    (info : PlotInfo) : Outcome (List Dbl × PlotInfo) := do
  let mm ← p.minmax.convert T
  makeMap T plots p.read mm info

/-- The plane loop (src/MapCommand_t.cpp:126-174), without the FITS writes:
the same `plot_info` is used for all planes. -/
def makePlanes {C : Type} (T : MapType) (plots : ℕ → ℕ → List (C × ℕ)) (info : PlotInfo) :
    List (Plane C) → Outcome (List (List Dbl) × PlotInfo)
  | [] => .ok ([], info)
  | p :: ps => do
    let (m, info) ← makePlane T plots p info
    let (ms, info) ← makePlanes T plots info ps
    .ok (m :: ms, info)

end MapFactory

end MaRC
