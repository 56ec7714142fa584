import Verif.Model.Num

/-!
# `lib/marc/first_read.cpp`, `unweighted_average.cpp`, `weighted_average.cpp`, `MosaicImage.cpp`

An image of a mosaic, at a fixed latitude and longitude, is what its
`read_data` does with the output variable(s).  All images of a mosaic are read
through the same variable `data`.

`F` is the arithmetic of `double` and `L` that of `long double`.
-/

namespace MaRC.Compositing

/-- `read_data(lat, lon, data)` at a fixed location: incoming `data` to return
value and outgoing `data` (lib/marc/SourceImage.h:59-61). -/
abbrev Image := Dbl → Outcome (Bool × Dbl)

/-- `read_data(lat, lon, data, weight, scan)` at a fixed location: incoming
`data` and `weight` to return value, outgoing `data` and outgoing `weight`
(lib/marc/SourceImage.h:83-87). -/
abbrev WImage := Dbl → Dbl → Outcome (Bool × Dbl × Dbl)

/-- `first_read::composite` (lib/marc/first_read.cpp:14-26):
returns the count and the outgoing `data`. -/
def firstRead : List Image → Dbl → Outcome (ℕ × Dbl)
  | [], data => .ok (0, data)
  | i :: is, data => do
    let (found, data) ← i data
    if found then .ok (1, data) else firstRead is data

/-- Loop of `unweighted_average::composite`
(lib/marc/unweighted_average.cpp:47-52): the sum, the count and
`data`.  Overflow of the `int` count is not modelled. -/
def sumLoop (L : Fp) : List Image → Dbl × ℕ × Dbl → Outcome (Dbl × ℕ × Dbl)
  | [], s => .ok s
  | i :: is, (sum, count, data) => do
    let (found, data) ← i data
    if found then sumLoop L is (L.add sum data, count + 1, data)
    else sumLoop L is (sum, count, data)

/-- Conversion `long double` → `double`. -/
def narrow (F : Fp) : Dbl → Dbl
  | .fin q => F.rnd q
  | d => d

/-- `unweighted_average::composite`
(lib/marc/unweighted_average.cpp:14-66). -/
def unweighted (L F : Fp) (images : List Image) (data : Dbl) : Outcome (ℕ × Dbl) := do
  let (sum, count, data) ← sumLoop L images (.fin 0, 0, data)
  if count > 1 then .ok (count, narrow F (L.div sum (.fin count)))
  else .ok (count, data)

/-- Loop of `weighted_average::composite`
(lib/marc/weighted_average.cpp:27-40): the weighted sum, the sum of
weights, the count and `data`. -/
def wsumLoop (L F : Fp) : List WImage → Dbl × Dbl × ℕ × Dbl → Outcome (Dbl × Dbl × ℕ × Dbl)
  | [], s => .ok s
  | i :: is, (wdsum, wsum, count, data) => do
    let (found, data, weight) ← i data (.fin 1)
    if found then
      wsumLoop L F is (L.add wdsum (F.mul weight data), L.add wsum weight, count + 1, data)
    else wsumLoop L F is (wdsum, wsum, count, data)

/-- `weighted_average::composite`
(lib/marc/weighted_average.cpp:14-53). -/
def weighted (L F : Fp) (images : List WImage) (data : Dbl) : Outcome (ℕ × Dbl) := do
  let (wdsum, wsum, count, data) ← wsumLoop L F images (.fin 0, .fin 0, 0, data)
  if count > 1 && wsum.gt (.fin 0) then .ok (count, narrow F (L.div wdsum wsum))
  else .ok (count, data)

/-- `MosaicImage::read_data` (lib/marc/MosaicImage.cpp:23-30) on top of a
compositor. -/
def mosaicRead (composite : Dbl → Outcome (ℕ × Dbl)) (data : Dbl) : Outcome (Bool × Dbl) := do
  let (count, data) ← composite data
  .ok (decide (count > 0), data)

end MaRC.Compositing
