import Verif.Model.MapFactory

/-!
# `src/FITS_image.cpp`, `src/FITS_image_t.cpp`, `src/FITS_file.cpp` (reading)

CFITSIO is not modelled; its calls succeed or fail as an input of the model says.
-/

namespace MaRC.Fits

/-- Conversion of a `std::size_t` to `LONGLONG` (two's complement). -/
def toLL (n : ℕ) : ℤ := if n < 2 ^ 63 then n else (n : ℤ) - 2 ^ 64

/-- `FITS::image` (src/FITS_image.h:286-302) with the data array of its HDU.  The
array elements are numbered from one, as CFITSIO does. -/
structure Image where
  /-- `fpixel_` -/
  fpixel : ℤ
  /-- `nelements_` -/
  nelements : ℤ
  /-- `max_elements_` -/
  maxElements : ℤ
  /-- What was written to each element of the file's data array. -/
  cells : ℤ → Option Dbl

/-- `image(fptr, bitpix, samples, lines, planes, extname)`
(src/FITS_image.cpp:17-27).  The keywords it writes are not modelled. -/
def Image.new (samples lines planes : ℕ) : Image where
  fpixel := 1
  nelements := toLL (szMul samples lines)
  maxElements := toLL (szMul (szMul samples lines) planes)
  cells := fun _ => none

/-- `image::write` (src/FITS_image_t.cpp:90-150).  `cfitsio` tells whether
`fits_write_img` succeeds; a failing one is taken to leave the array unchanged. -/
def Image.write (im : Image) (cfitsio : Bool) (img : List Dbl) : Outcome (Bool × Image) :=
  if im.fpixel ≥ im.maxElements then .ok (false, im)
  else if (img.length : ℤ) ≠ im.nelements then .ok (false, im)
  else if !cfitsio then .ok (false, im)
  else if im.fpixel + im.nelements ≥ 2 ^ 63 then .ub
  else .ok (true, { im with
    fpixel := im.fpixel + im.nelements
    cells := fun p =>
      if im.fpixel ≤ p ∧ p < im.fpixel + im.nelements then img[(p - im.fpixel).toNat]?
      else im.cells p })

/-- A sequence of `write` calls: their return values and the final state. -/
def Image.writeAll (im : Image) : List (Bool × List Dbl) → Outcome (List Bool × Image)
  | [] => .ok ([], im)
  | (c, d) :: rest => do
    let (b, im) ← im.write c d
    let (bs, im) ← im.writeAll rest
    .ok (b :: bs, im)

/-- The primary image of an input file: `NAXIS`, `NAXIS1`, `NAXIS2` and the physical
values of the pixels, NaN where the file says BLANK. -/
structure Input where
  naxis : ℤ
  naxis1 : ℤ
  naxis2 : ℤ
  pixels : List Dbl

/-- `FITS::input_file::read` (src/FITS_file.cpp:369-452): image, samples and lines.
`fits_read_pixll` is given the address of an array of two coordinates but reads one
for each dimension.  Errors of CFITSIO other than a short data array are not
modelled. -/
def Input.read (f : Input) : Outcome (List Dbl × ℕ × ℕ) :=
  if f.naxis < 2 then .throw .runtimeError
  else if f.naxis1 < 2 ∨ f.naxis2 < 2 then .throw .runtimeError
  else if f.naxis1 * f.naxis2 ≥ 2 ^ 63 then .ub
  else if f.naxis > 2 then .ub
  else if (f.pixels.length : ℤ) < f.naxis1 * f.naxis2 then .throw .runtimeError
  else .ok (f.pixels.take (f.naxis1 * f.naxis2).toNat, f.naxis1.toNat, f.naxis2.toNat)

end MaRC.Fits
