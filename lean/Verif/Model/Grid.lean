import Verif.Model.Projection

/-!
# Latitude/longitude grids: `MapFactory::make_grid` and `plot_grid` of the four
map factories

Real numbers stand for `double` as in `Verif.Model.Projection`, also in the loop
counters; a product of a line number and `samples` is taken to be exact.  What
rounding does to the loop counters is modelled by `latCounter` at the end.

A loop whose counter never reaches its bound has no effect anyone could rely on;
such a loop, an index outside the grid and the conversion of a number outside the
range of the integer type are the outcome `ub`.
-/

namespace MaRC.Projection

/-- `grid_type` (lib/marc/MapFactory.h:45). -/
abbrev Grid := List UInt8

/-- `std::numeric_limits<grid_type::value_type>::max()`. -/
def white : UInt8 := 255

/-- `grid[offset] = white`. -/
def setCell (offset : ℕ) (g : Grid) : Outcome Grid :=
  if offset < g.length then .ok (g.set offset white) else .ub

/-- `std::fill(first, first + n, white)` with `first` at `offset`: `n` elements
remain. -/
def fillCells : ℕ → ℕ → Grid → Outcome Grid
  | 0, _, g => .ok g
  | n + 1, offset, g => do
    let g ← setCell offset g
    fillCells n (offset + 1) g

/-- The loop over the lines that draws a column
(lib/marc/SimpleCylindrical.cpp:196-197, Mercator.cpp:213-214): line `k` is next,
`n` lines remain. -/
def fillColumn (samples i : ℕ) : ℕ → ℕ → Grid → Outcome Grid
  | 0, _, g => .ok g
  | n + 1, k, g => do
    let g ← setCell (k * samples + i) g
    fillColumn samples i n (k + 1) g

/-- A loop that draws something for each value of its counter. -/
def drawAll {α : Type} (draw : α → Grid → Outcome Grid) : List α → Grid → Outcome Grid
  | [], g => .ok g
  | x :: xs, g => do
    let g ← draw x g
    drawAll draw xs g

noncomputable section

/-- `std::round`: to the nearest integer, halfway cases away from zero. -/
def cround (x : ℝ) : ℤ := if 0 ≤ x then ⌊x + 1 / 2⌋ else -⌊-x + 1 / 2⌋

/-- Conversion of an integral `double` to `std::size_t`. -/
def sizeOf (z : ℤ) : Outcome ℕ := if 0 ≤ z ∧ z < 2 ^ 64 then .ok z.toNat else .ub

/-- Conversion of an integral `double` to `ssize_t`. -/
def ssizeOf (z : ℤ) : Outcome ℤ := if -2 ^ 63 ≤ z ∧ z < 2 ^ 63 then .ok z else .ub

/-- Number of values of a counter that starts at `from`, is increased by `step`
and runs while less than `stop`, for a positive `step`. -/
def stepsBelow (start step stop : ℝ) : ℕ := ⌈(stop - start) / step⌉₊

/-- Number of values of a counter that starts at `from`, is increased by `step`
and runs while at most `stop`, for a positive `step`. -/
def stepsTo (start step stop : ℝ) : ℕ := (⌊(stop - start) / step⌋ + 1).toNat

/-- `for (double n = -90 + interval; n < 90; n += interval)`
(lib/marc/SimpleCylindrical.cpp:154-158, Mercator.cpp:187,
PolarStereographic.cpp:258). -/
def latValues (interval : ℝ) : List ℝ :=
  (List.range (stepsBelow (-90 + interval) interval 90)).map fun j : ℕ =>
    -90 + interval + j * interval

/-- `for (double m = 360; m > 0; m -= interval)`
(lib/marc/SimpleCylindrical.cpp:183, Mercator.cpp:206,
PolarStereographic.cpp:293). -/
def lonValues (interval : ℝ) : List ℝ :=
  (List.range (stepsBelow (-360) interval 0)).map fun j : ℕ => 360 - j * interval

open Classical in
/-- The two loops over latitudes and longitudes, which end only for positive
intervals. -/
def drawGrid (latInterval lonInterval : ℝ) (lats lons : ℝ → List ℝ)
    (drawLat drawLon : ℝ → Grid → Outcome Grid) (g : Grid) : Outcome Grid :=
  if latInterval ≤ 0 then .ub
  else do
    let g ← drawAll drawLat (lats latInterval) g
    if lonInterval ≤ 0 then .ub else drawAll drawLon (lons lonInterval) g

/-- `MapFactory::make_grid` (lib/marc/MapFactory.cpp:14-41). -/
def makeGrid (plotGrid : Grid → Outcome Grid) (samples lines : ℕ) : Outcome Grid :=
  plotGrid (List.replicate (szMul samples lines) 0)

/-- A row of the grid is filled if there is one of that number
(lib/marc/SimpleCylindrical.cpp:161-170, Mercator.cpp:194-202); `none` stands for
NaN or an infinity. -/
def drawRow (samples lines : ℕ) (k : Option ℤ) (g : Grid) : Outcome Grid :=
  match k with
  | none => .ok g
  | some k => if 0 ≤ k ∧ k < lines then fillCells samples (k.toNat * samples) g else .ok g

/-- A column of the grid is filled if there is one of that number
(lib/marc/SimpleCylindrical.cpp:190-198, Mercator.cpp:207-215). -/
def drawColumn (prograde : Bool) (samples lines : ℕ) (i : Option ℤ) (g : Grid) : Outcome Grid :=
  match i with
  | none => .ub
  | some i => do
    let i ← sizeOf i
    let i := if prograde then szSub samples i else i
    if i < samples then fillColumn samples i lines 0 g else .ok g

/-! ## Simple cylindrical -/

namespace Cylindrical

variable (c : Cylindrical)

/-- `k` of a latitude (lib/marc/SimpleCylindrical.cpp:142-148, 159). -/
def gridRow (lines : ℕ) (n : ℝ) : Option ℤ :=
  (divide lines (c.hiLat / degree - c.loLat / degree)).map fun lr =>
    cround ((n - c.loLat / degree) * lr)

open Classical in
/-- `lo_lon_2` (lib/marc/SimpleCylindrical.cpp:184-188). -/
def gridLow (m : ℝ) : ℝ :=
  if m - c.loLon / degree > 360 then c.loLon / degree + 360 else c.loLon / degree

/-- `i` of a longitude before its conversion
(lib/marc/SimpleCylindrical.cpp:174, 183-190). -/
def gridColumn (samples : ℕ) (m : ℝ) : Option ℤ :=
  (divide samples (c.hiLon / degree - c.loLon / degree)).map fun sr =>
    cround ((m - c.gridLow m) * sr)

/-- `plot_grid` (lib/marc/SimpleCylindrical.cpp:134-200). -/
def plotGrid (samples lines : ℕ) (latInterval lonInterval : ℝ) : Grid → Outcome Grid :=
  drawGrid latInterval lonInterval latValues lonValues
    (fun n => drawRow samples lines (c.gridRow lines n))
    (fun m => drawColumn c.prograde samples lines (c.gridColumn samples m))

end Cylindrical

/-! ## Mercator -/

namespace Mercator

/-- `k` of a latitude (lib/marc/Mercator.cpp:177-192). -/
def gridRow (body : Spheroid) (samples lines : ℕ) (n : ℝ) : ℤ :=
  cround (mercatorX body (body.graphicLatitude (n * degree)) /
      (xmax samples lines / lines * 2) + lines / 2)

/-- `i` of a longitude before its conversion (lib/marc/Mercator.cpp:207). -/
def gridColumn (samples : ℕ) (m : ℝ) : ℤ := cround (m * samples / 360)

/-- `plot_grid` (lib/marc/Mercator.cpp:166-217). -/
def plotGrid (body : Spheroid) (prograde : Bool) (samples lines : ℕ)
    (latInterval lonInterval : ℝ) : Grid → Outcome Grid :=
  drawGrid latInterval lonInterval latValues lonValues
    (fun n => drawRow samples lines (some (gridRow body samples lines n)))
    (fun m => drawColumn prograde samples lines (some (gridColumn samples m)))

end Mercator

/-! ## Polar stereographic -/

namespace Stereographic

variable (p : Stereographic)

/-- `pix_conv_val` of the grid (lib/marc/PolarStereographic.cpp:249-252);
`samples` and `lines` are taken to be positive. -/
def gridScale (samples lines : ℕ) : ℝ :=
  2 * p.stereoRho (p.body.graphicLatitude p.maxLat) / (min (samples - 1) (lines - 1) : ℕ)

/-- Draw the point at a distance and angle from the pole
(lib/marc/PolarStereographic.cpp:273-288, 307-322). -/
def drawPoint (samples lines : ℕ) (rho angle : ℝ) (g : Grid) : Outcome Grid :=
  let k := cround (rho * Real.cos angle / p.gridScale samples lines + lines / 2)
  let i := cround (rho * Real.sin angle / p.gridScale samples lines + samples / 2)
  if 0 ≤ i ∧ i < samples ∧ 0 ≤ k ∧ k < lines then setCell (k.toNat * samples + i.toNat) g
  else .ok g

/-- `mm` or `nn` of the inner loops (lib/marc/PolarStereographic.cpp:270-271,
297-298). -/
def turn (m : ℕ) : ℝ := (m : ℝ) / 2000 * degree * 360

/-- A circle of latitude (lib/marc/PolarStereographic.cpp:258-290). -/
def drawCircle (samples lines : ℕ) (n : ℝ) : Grid → Outcome Grid :=
  drawAll (fun m =>
      p.drawPoint samples lines (p.stereoRho (p.body.graphicLatitude (n * degree))) (turn m))
    (List.range 2000)

/-- A meridian (lib/marc/PolarStereographic.cpp:293-324). -/
def drawMeridian (samples lines : ℕ) (m : ℝ) : Grid → Outcome Grid :=
  drawAll (fun n => p.drawPoint samples lines (p.stereoRho (turn n)) (m * degree))
    (List.range 2000)

/-- `plot_grid` (lib/marc/PolarStereographic.cpp:240-325). -/
def plotGrid (samples lines : ℕ) (latInterval lonInterval : ℝ) : Grid → Outcome Grid :=
  drawGrid latInterval lonInterval latValues lonValues
    (p.drawCircle samples lines) (p.drawMeridian samples lines)

end Stereographic

/-! ## Orthographic -/

namespace Ortho

variable (o : Ortho)

/-- `for (double n = -90; n <= 90; n += interval)` (lib/marc/Orthographic.cpp:437). -/
def gridLats (interval : ℝ) : List ℝ :=
  (List.range (stepsTo (-90) interval 90)).map fun j : ℕ => -90 + j * interval

/-- `for (double m = interval; m <= 360; m += interval)`
(lib/marc/Orthographic.cpp:525-527). -/
def gridLons (interval : ℝ) : List ℝ :=
  (List.range (stepsTo interval interval 360)).map fun j : ℕ => interval + j * interval

/-- `cosine` of a latitude (lib/marc/Orthographic.cpp:454-458, 536-540); see
`limbCosine` for the polar case. -/
def gridCosine (lat : ℝ) : ℝ := limbCosine o.body ⟨o.subLat, o.subLon, o.pa, o.polar⟩ lat

open Classical in
/-- `low_bound` and `high_bound` (lib/marc/Orthographic.cpp:460-471, 545-556), if
part of the circle of latitude is visible. -/
def gridBounds (lat : ℝ) : Option (ℝ × ℝ) :=
  if -1 ≤ o.gridCosine lat ∧ o.gridCosine lat ≤ 1 then
    some (o.subLon - |Real.arccos (-o.gridCosine lat)|,
      o.subLon + |Real.arccos (-o.gridCosine lat)|)
  else if 1 < o.gridCosine lat then some (-Real.pi, Real.pi)
  else none

open Classical in
/-- The bounds in the latitude loop (lib/marc/Orthographic.cpp:444-472). -/
def latBounds (n : ℝ) : Option (ℝ × ℝ) :=
  if n = 0 ∧ AlmostEqual |o.subLat| (Real.pi / 2) 8 then some (-Real.pi, Real.pi)
  else o.gridBounds (n * degree)

open Classical in
/-- Longitude brought between the bounds (lib/marc/Orthographic.cpp:480-485,
558-563). -/
def wrapTo (bounds : ℝ × ℝ) (m : ℝ) : Option ℝ :=
  let m := if m < bounds.1 then m + 2 * Real.pi
    else if m > bounds.2 then m - 2 * Real.pi else m
  if m ≥ bounds.1 ∧ m ≤ bounds.2 then some m else none

/-- `coord` in kilometers (lib/marc/Orthographic.cpp:491-497, 571-577). -/
def gridCoord (lat angle : ℝ) : Vec ℝ 3 :=
  matVec (matMul (Geometry.rotYMatrix (-o.pa)) (Geometry.rotXMatrix o.subLat))
    ![o.body.centricRadius lat * Real.cos lat * Real.sin angle,
      -o.body.centricRadius lat * Real.cos lat * Real.cos angle,
      o.body.centricRadius lat * Real.sin lat]

/-- Draw a point of the body (lib/marc/Orthographic.cpp:491-511, 571-591). -/
def drawPoint (samples lines : ℕ) (lat angle : ℝ) (g : Grid) : Outcome Grid := do
  let i ← ssizeOf (cround ((o.mapCenter samples lines).1
    - (o.gridCoord lat angle) 0 / o.mapKm samples lines))
  let k ← ssizeOf (cround ((o.mapCenter samples lines).2
    + (o.gridCoord lat angle) 2 / o.mapKm samples lines))
  if 0 ≤ i ∧ i < samples ∧ 0 ≤ k ∧ k < lines then setCell (k.toNat * samples + i.toNat) g
  else .ok g

/-- `mm` of the body's frame in the latitude loop (lib/marc/Orthographic.cpp:486-489). -/
def latAngle (mm : ℝ) : ℝ :=
  if o.prograde then o.subLon + Real.pi - mm else mm - (Real.pi - o.subLon)

/-- `mm2` of the body's frame in the longitude loop
(lib/marc/Orthographic.cpp:564-567). -/
def lonAngle (mm : ℝ) : ℝ :=
  if o.prograde then o.subLon + Real.pi - mm else mm - (Real.pi + o.subLon)

/-- The inner loop of `plot_lat_lines` (lib/marc/Orthographic.cpp:476-513). -/
def drawLatLine (samples lines : ℕ) (n : ℝ) (g : Grid) : Outcome Grid :=
  match o.latBounds n with
  | none => .ok g
  | some b =>
    drawAll (fun m : ℕ => match wrapTo b ((m : ℝ) / 2000 * degree * 360) with
        | none => .ok
        | some mm => o.drawPoint samples lines (n * degree) (o.latAngle mm))
      (List.range 2000) g

/-- The inner loop of `plot_lon_lines` (lib/marc/Orthographic.cpp:531-593). -/
def drawLonLine (samples lines : ℕ) (m : ℝ) (g : Grid) : Outcome Grid :=
  drawAll (fun n : ℕ => match o.gridBounds (((n : ℝ) / 1000 * 180 - 90) * degree) with
      | none => .ok
      | some b => match wrapTo b (m * degree) with
        | none => .ok
        | some mm => o.drawPoint samples lines (((n : ℝ) / 1000 * 180 - 90) * degree)
            (o.lonAngle mm))
    (List.range 1000) g

/-- `plot_grid` (lib/marc/Orthographic.cpp:407-426) with `plot_lat_lines`
(428-515) and `plot_lon_lines` (517-595). -/
def plotGrid (samples lines : ℕ) (latInterval lonInterval : ℝ) : Grid → Outcome Grid :=
  drawGrid latInterval lonInterval gridLats gridLons
    (o.drawLatLine samples lines) (o.drawLonLine samples lines)

end Ortho

end

/-! ## The latitude counter in floating point -/

/-- Value of the loop counter of the latitude loop
(lib/marc/SimpleCylindrical.cpp:154-158) after `k` iterations. -/
def latCounter (F : Fp) (interval : Dbl) : ℕ → Dbl
  | 0 => F.add (.fin (-90)) interval
  | k + 1 => F.add (latCounter F interval k) interval

end MaRC.Projection
