import Verif.Model.Execute
import Verif.Model.Factories
import Verif.Model.PhotoImage

/-!
# What source images tell a map command

`populate_parameters` of the source image factories, and the photo factory as a
map command uses it.  CFITSIO is not modelled; what it finds in a photo file is
an input of the model.
-/

namespace MaRC.Source

open MapParams Execute

/-- A keyword of a FITS file as `fits_read_key` finds it: it does not exist, has
a value, or reading it fails. -/
inductive Keyword (α : Type) where
  | absent
  | value (a : α)
  | unreadable
  deriving DecidableEq

/-- `read_fits_key` (src/FITS_file.cpp:78-99). -/
def Keyword.read {α : Type} : Keyword α → Outcome (Option α)
  | absent => .ok none
  | value a => .ok (some a)
  | unreadable => .throw .runtimeError

/-- `read_fits_string_key` (src/FITS_file.cpp:111-136). -/
def Keyword.readString : Keyword String → Outcome String
  | absent => .ok ""
  | value s => .ok s
  | unreadable => .throw .runtimeError

/-- A photo file: its image type, the keywords that are used, and its array.
`bscale` and `bzero` are 1 and 0 if the file does not say otherwise. -/
structure PhotoFile where
  bitpix : ℤ
  str : StrKey → Keyword String
  blank : Keyword ℤ
  equinox : Keyword Dbl
  bscale : Dbl
  bzero : Dbl
  naxis : ℤ
  naxis1 : ℤ
  naxis2 : ℤ
  /-- The elements of the array as they are in the file. -/
  raw : List Dbl

/-- An element of an integer image with the value of BLANK. -/
def PhotoFile.isBlank (f : PhotoFile) (x : Dbl) : Bool :=
  match f.blank with
  | .value b => decide (0 < f.bitpix) && decide (x = .fin b)
  | _ => false

/-- What `fits_read_pixll` makes of an element when asked for `double` values with
NaN for BLANK (src/FITS_file.cpp:430-447). -/
def PhotoFile.physical (F : Fp) (f : PhotoFile) (x : Dbl) : Dbl :=
  if f.isBlank x then .nan
  else if f.bscale = .fin 1 ∧ f.bzero = .fin 0 then
    if f.bitpix = 64 then MapType.i64.toDouble x else x
  else F.add (F.mul x f.bscale) f.bzero

/-- The image `input_file::read` (src/FITS_file.cpp:369-452) sees. -/
def PhotoFile.input (F : Fp) (f : PhotoFile) : Fits.Input :=
  ⟨f.naxis, f.naxis1, f.naxis2, f.raw.map (f.physical F)⟩

/-- `MARC_SET_PARAM` of a string (src/PhotoImageFactory.cpp:57). -/
def copyStr (f : PhotoFile) (p : Params) (k : StrKey) : Outcome Params :=
  (f.str k).readString >>= fun s => .ok (setStr p k s)

/-- `PhotoImageFactory::populate_parameters` (src/PhotoImageFactory.cpp:59-88); it
always returns `true`.  An image type other than those of FITS is refused by
`map_parameters`. -/
def populatePhoto (f : PhotoFile) (p : Params) : Outcome Params := do
  let p ← copyStr f p .author
  let p ← setBitpix p f.bitpix
  let b ← f.blank.read
  let p := setBlank p b
  let p ← copyStr f p .bunit
  let e ← f.equinox.read
  let p := setReal p .equinox e
  let p ← copyStr f p .instrument
  let p ← copyStr f p .object
  let p ← copyStr f p .observer
  let p ← copyStr f p .origin
  let p ← copyStr f p .reference
  copyStr f p .telescope

/-- The loop of `MosaicImageFactory::populate_parameters`
(src/MosaicImageFactory.cpp:58-72). -/
def populateMosaic : List PhotoFile → Params → Outcome Params
  | [], p => .ok p
  | f :: fs, p => populatePhoto f p >>= fun p => populateMosaic fs p

/-- The source images of map planes, as far as they tell the command something.
`degrees` are images of latitudes and longitudes, `plain` those of the cosines. -/
inductive Kind where
  | photo (f : PhotoFile)
  | mosaic (fs : List PhotoFile)
  | degrees
  | plain

/-- `populate_parameters` of each factory (src/PhotoImageFactory.cpp:59-88,
src/MosaicImageFactory.cpp:58-72, src/LatitudeImageFactory.cpp:30-57,
src/LongitudeImageFactory.cpp:26-53, src/MuImageFactory.cpp:33-51,
src/Mu0ImageFactory.cpp:32-50, src/CosPhaseImageFactory.cpp:38-57). -/
def Kind.populate : Kind → Params → Outcome (Option Params)
  | .photo f, p => populatePhoto f p >>= fun p => .ok (some p)
  | .mosaic fs, p => populateMosaic fs p >>= fun p => .ok (some p)
  | .degrees, p => .ok (some (setStr p .bunit "deg"))
  | .plain, p => .ok (some p)

/-- `PhotoImageFactory` (src/PhotoImageFactory.cpp:35-150) as a map command uses it:
the file, the other settings `s` of the factory, and the configuration and geometry
handed to the image. -/
def photoFactory {C : Type} (F : Fp) (f : PhotoFile) (s : MaRC.Factory.Photo)
    (config : Photo.Params) (geometry : Photo.Geometry C) : Execute.Factory C where
  populate := (Kind.photo f).populate
  make := fun _ =>
    ({ s with file := f.input F } : MaRC.Factory.Photo).make F >>= fun r =>
      match r.1 with
      | none => .ok none
      | some (img, samples, lines) =>
        Photo.new img samples lines (some config) (some geometry) >>= fun im =>
          .ok (some (⟨Photo.read im, r.2.extrema⟩, none))

end MaRC.Source
