import Verif.Spec.Planes
import Verif.Spec.Program
import Verif.Props.PhysicalValues

/-!
# The data that input files ask for

What a user finds in the cells of a map, in terms of the entries of the input files, the
photos, and the points that the projection plots.
-/

namespace MaRC.ProgramSpec

open MaRC.Execute (Hdu valueOf FitsType)
open MaRC.Grammar (Source Body Env PlaneImage)
open MaRC.Parser (PhotoCmd Averaging Proj Nibbles)
open MaRC.InputFile (Item)
open MaRC.InputMeaning (Part Defaults AreDefaults HasBody ArePlanes entries parts upTo int averaging
  projection afterProjection afterMap)
open MaRC.Program (Machine Fits Loc)
open MaRC.MapFactory (PlaneLimits)

/-! ## What is in force for a map -/

/-- The maps of one input file, each with the defaults and the kind of latitudes in force. -/
def fileMaps (d : Defaults) : Bool → List Part → List (Defaults × Bool × Part)
  | _, [] => []
  | graphic, es :: ess => (d, graphic, es) :: fileMaps d (afterMap graphic es) ess

/-- The maps of input files with entries `files`, each with the defaults and the kind of
latitudes in force.  Files without maps set defaults for the files that follow. -/
inductive InForce (E : Env) :
    Defaults → Bool → List Part → List (Defaults × Bool × Part) → Prop where
  | nil {d graphic} : InForce E d graphic [] []
  | cons {d d' graphic es ess ms} :
      (parts "MAP" es = [] → AreDefaults E es d d') → (parts "MAP" es ≠ [] → d' = d) →
      InForce E d' ((parts "MAP" es).foldl afterMap graphic) ess ms →
      InForce E d graphic (es :: ess) (fileMaps d graphic (parts "MAP" es) ++ ms)

/-- The defaults of the program. -/
def firstDefaults : Defaults := ⟨.fin 10, .fin 10, ⟨0, 0, 0, 0⟩⟩

/-! ## Photos -/

/-- The physical value of the array of a FITS file at some line and sample. -/
def physicalAt (f : Fits) (line sample : ℕ) : Option Dbl :=
  f.photo.raw[line * f.photo.naxis1.toNat + sample]?.map (f.photo.physical .ieee)

/-- The value of the pixel at line `k` and sample `i` of a photo, after the inversions and the
subtraction of the flat field. -/
def pixelValue (M : Machine) (f : Fits) (c : PhotoCmd) (k i : ℕ) : Option Dbl :=
  let line := if c.invertV then f.photo.naxis2.toNat - 1 - k else k
  let sample := if c.invertH then f.photo.naxis1.toNat - 1 - i else i
  if c.flatField = "" then physicalAt f line sample
  else (M.fits c.flatField).bind fun flat =>
    Option.map₂ Fp.ieee.sub (physicalAt f line sample) (physicalAt flat line sample)

/-- The camera sees the point `pt` of the body at sample `x` and line `z` of the photo, in the
pixel of line `k` and sample `i`, and the pixel is used: it is not nibbled off, and on the
body if the sky is removed. -/
def SeenAt (M : Machine) (b : Body) (f : Fits) (c : PhotoCmd) (pt : Loc) (x z : ℚ) (k i : ℕ) :
    Prop :=
  let samples := f.photo.naxis1.toNat
  let lines := f.photo.naxis2.toNat
  ((M.geometry b c samples lines).latlon2pix pt = (true, .fin x, .fin z) ∧
    (i : ℚ) ≤ x ∧ x < i + 1 ∧ (k : ℚ) ≤ z ∧ z < k + 1) ∧
  c.nibble.left ≤ i ∧ i + c.nibble.right < samples ∧
  c.nibble.top ≤ k ∧ k + c.nibble.bottom < lines ∧
  (c.removeSky = true → (M.geometry b c samples lines).onBody i k = true)

/-- `q + (b - a) t` in floating point. -/
def along (q a b t : Dbl) : Dbl := Fp.ieee.add (Fp.ieee.mul (Fp.ieee.sub b a) t) q

/-- The values that interpolation takes the mean of, given two pixels of a line, the two
pixels of the next line, and the fractions of a pixel. -/
def edges (bl br tl tr u v : Dbl) : List Dbl :=
  (if bl ≠ .nan ∧ br ≠ .nan then [along bl bl br u, along br bl br v] else []) ++
  (if tl ≠ .nan ∧ tr ≠ .nan then [along tl tl tr u] else []) ++
  (if bl ≠ .nan ∧ tl ≠ .nan then [along bl bl tl v] else [])

/-- The photo has the value `y` at sample `x` and line `z`, which are in the pixel of line `k`
and sample `i`: the value of the pixel, or with interpolation the mean of the `edges`, if
they are in the part of the photo that is not nibbled off and there are any. -/
def ValueAt (M : Machine) (f : Fits) (c : PhotoCmd) (x z : ℚ) (k i : ℕ) (y : Dbl) : Prop :=
  if c.interpolate then
    i + 1 + c.nibble.right < f.photo.naxis1.toNat ∧
    k + 1 + c.nibble.bottom < f.photo.naxis2.toNat ∧
    ∃ bl br tl tr, pixelValue M f c k i = some bl ∧ pixelValue M f c k (i + 1) = some br ∧
      pixelValue M f c (k + 1) i = some tl ∧ pixelValue M f c (k + 1) (i + 1) = some tr ∧
      let es := edges bl br tl tr (Fp.ieee.sub (.fin x) (Fp.ieee.rnd i))
        (Fp.ieee.sub (.fin z) (Fp.ieee.rnd k))
      es ≠ [] ∧ y = Fp.ieee.div (es.foldl Fp.ieee.add (.fin 0)) (.fin es.length)
  else pixelValue M f c k i = some y

/-- The weight of the pixel of line `k` and sample `i` of a photo in weighted averages: its
distance from the edge of the photo.  If the sky is removed the program weighs all pixels
0 (`C27_sky_violated`). -/
def pixelWeight (f : Fits) (c : PhotoCmd) (k i : ℕ) : ℕ :=
  if c.removeSky then 0
  else min i (min (f.photo.naxis1.toNat - i) (min k (f.photo.naxis2.toNat - k)))

/-- A photo has the datum `y` with weight `w` at the point `pt`. -/
def PhotoShare (M : Machine) (b : Body) (c : PhotoCmd) (pt : Loc) (y : Dbl) (w : ℕ) : Prop :=
  ∃ f, M.fits c.file = some f ∧ y ≠ .nan ∧
    ∃ x z k i, SeenAt M b f c pt x z k i ∧ ValueAt M f c x z k i y ∧ w = pixelWeight f c k i

/-- A photo has the datum `y` at the point `pt`. -/
def PhotoDatum (M : Machine) (b : Body) (c : PhotoCmd) (pt : Loc) (y : Dbl) : Prop :=
  ∃ w, PhotoShare M b c pt y w

/-- The theorems are about photos of a size that fits into memory, and of which fewer lines
and samples are nibbled off than there are. -/
structure PlainPhoto (M : Machine) (c : PhotoCmd) : Prop where
  size : ∀ f, M.fits c.file = some f → f.photo.naxis1 * f.photo.naxis2 < 2 ^ 63 ∧
    (c.nibble.right : ℤ) ≤ f.photo.naxis1 ∧ (c.nibble.bottom : ℤ) ≤ f.photo.naxis2
  flat : ∀ f, M.fits c.flatField = some f → f.photo.naxis1 * f.photo.naxis2 < 2 ^ 63

/-! ## Mosaics -/

/-- The data, with weights, of the photos that have one at the point `pt`, in order. -/
inductive Shares (M : Machine) (b : Body) (pt : Loc) : List PhotoCmd → List (Dbl × ℕ) → Prop where
  | nil : Shares M b pt [] []
  | has {c cs y w ys} : PhotoShare M b c pt y w → Shares M b pt cs ys →
      Shares M b pt (c :: cs) ((y, w) :: ys)
  | hasNot {c cs ys} : (∀ y w, ¬ PhotoShare M b c pt y w) → Shares M b pt cs ys →
      Shares M b pt (c :: cs) ys

/-- Conversion of a `long double` to a `double`. -/
def toDouble : Dbl → Dbl
  | .fin q => Fp.ieee.rnd q
  | d => d

/-- The average of data with weights.  Sums and quotients are rounded as `L` does. -/
def average (L : Fp) (a : Averaging) (ys : List (Dbl × ℕ)) (y : Dbl) : Prop :=
  match a with
  | .none => ys.head?.map Prod.fst = some y
  | .unweighted =>
    if ys.length = 1 then ys.head?.map Prod.fst = some y
    else ys ≠ [] ∧ y = toDouble (L.div ((ys.map Prod.fst).foldl L.add (.fin 0)) (.fin ys.length))
  | .weighted =>
    let weights := (ys.map fun q => Dbl.fin (q.2 : ℚ)).foldl L.add (.fin 0)
    if 1 < ys.length ∧ Dbl.lt (.fin 0) weights = true then
      y = toDouble (L.div
        ((ys.map fun q => Fp.ieee.mul (.fin (q.2 : ℚ)) q.1).foldl L.add (.fin 0)) weights)
    else ys.getLast?.map Prod.fst = some y

/-- A mosaic has the datum `y` at the point `pt`. -/
def MosaicDatum (M : Machine) (b : Body) (cs : List PhotoCmd) (a : Averaging) (pt : Loc)
    (y : Dbl) : Prop :=
  ∃ ys, Shares M b pt cs ys ∧ average M.L a ys y

/-- No photo sees the point `pt` in a pixel without having a datum there. -/
def Clear (M : Machine) (b : Body) (cs : List PhotoCmd) (pt : Loc) : Prop :=
  ∀ c ∈ cs, ∀ f x z k i, M.fits c.file = some f → SeenAt M b f c pt x z k i →
    ∃ y, PhotoDatum M b c pt y

/-! ## Computed images -/

/-- The scale and the offset with which a map of some type holds latitudes in degrees. -/
def latitudeScale : MapType → Option (ℚ × ℚ)
  | .u8 => some (1, 90)
  | .i16 => some (100, 0)
  | .i32 => some (10 ^ 7, 0)
  | .i64 => some (10 ^ 16, 0)
  | _ => some (1, 0)

/-- The scale and the offset with which a map of some type holds longitudes in degrees. -/
def longitudeScale : MapType → Option (ℚ × ℚ)
  | .u8 => none
  | .i16 => some (100, -18000)
  | .i32 => some (10 ^ 7, -180 * 10 ^ 7)
  | .i64 => some (10 ^ 16, 0)
  | _ => some (1, 0)

/-- The scale and the offset with which a map of some type holds cosines. -/
def cosineScale : MapType → Option (ℚ × ℚ)
  | .u8 => some (100, 100)
  | .i16 => some (10 ^ 4, 0)
  | .i32 => some (10 ^ 9, 0)
  | .i64 => some (10 ^ 18, 0)
  | _ => some (1, 0)

/-- A quantity, scaled. -/
def scaled (y : Dbl) (s : ℚ × ℚ) : Dbl := Fp.ieee.add (Fp.ieee.mul y (.fin s.1)) (.fin s.2)

/-! ## Planes -/

/-- What the theorems cover. -/
def Covered (M : Machine) : Source → Prop
  | .photos (.single c) => PlainPhoto M c
  | .photos (.mosaic cs _) => ∀ c ∈ cs, PlainPhoto M c
  | _ => True

/-- The points at which the theorems cover a plane: all, but of mosaics those that are `Clear`.
The others are not shown as they should be (`C91_mosaic_violated`). -/
def CoveredAt (M : Machine) (b : Body) (pt : Loc) : Source → Prop
  | .photos (.mosaic cs _) => Clear M b cs pt
  | _ => True

/-- The source image of a plane in a map of type `T` has the datum `x` at the point `pt`. -/
def HasDatum (M : Machine) (T : MapType) (b : Body) (s : Source) (pt : Loc) (x : Dbl) : Prop :=
  match s with
  | .photos (.single c) => PhotoDatum M b c pt x
  | .photos (.mosaic cs a) => MosaicDatum M b cs a pt x
  | .latitude graphic => ∃ y s, latitudeData .ieee (M.graphicLatitude b) graphic pt.1 = some y ∧
      latitudeScale T = some s ∧ x = scaled y s
  | .longitude => ∃ y s, longitudeData .ieee pt.2 = some y ∧
      longitudeScale T = some s ∧ x = scaled y s
  | s => ∃ y t, M.cosine b s pt = some y ∧ cosineScale T = some t ∧ x = scaled y t

/-- The least and the greatest datum that the source image of a plane can have, as far as
that is known: DATAMIN and DATAMAX of a photo, the scaled range of a computed image.  Nothing
is known of mosaics: the program does not use DATAMIN and DATAMAX of their photos. -/
def ownLimits (M : Machine) (T : MapType) : Source → Extrema
  | .photos (.single c) => ⟨(M.fits c.file).bind (·.datamin), (M.fits c.file).bind (·.datamax)⟩
  | .photos (.mosaic ..) => .empty
  | .latitude _ => ⟨(latitudeScale T).map (scaled (.fin (-90))),
      (latitudeScale T).map (scaled (.fin 90))⟩
  | .longitude => ⟨(longitudeScale T).map (scaled (.fin 0)),
      (longitudeScale T).map (scaled (.fin 360))⟩
  | _ => ⟨(cosineScale T).map (scaled (.fin (-1))), (cosineScale T).map (scaled (.fin 1))⟩

/-- The limits of a plane: those of the user, or else those of the source image. -/
def limits (M : Machine) (T : MapType) (p : PlaneImage) : Extrema :=
  ⟨p.minimum.or (ownLimits M T p.source).min, p.maximum.or (ownLimits M T p.source).max⟩

/-- The cells of a map are the ones that its entries `es` ask for, given the defaults `d`
and the kind of latitudes `graphic` in force.  Planes follow each other, and lines within
planes. -/
def IsData (M : Machine) (d : Defaults) (graphic : Bool) (es : Part) (map : Hdu) : Prop :=
  ∀ (samples lines : ℕ) (T : MapType), int "SAMPLES" (upTo "PLANE" es) = some (samples : ℤ) →
    int "LINES" (upTo "PLANE" es) = some (lines : ℤ) → FitsType map.bitpix T →
    2 ≤ samples * lines → samples * lines * ((parts "PLANE" es).length + 1) < 2 ^ 63 →
    ∃ body proj planes blank, HasBody M.E (upTo "PLANE" es) body ∧
      projection M.E body graphic (upTo "PLANE" es) = some proj ∧
      ArePlanes M.E body (averaging (upTo "PLANE" es)) d.nibble
        (afterProjection graphic (upTo "PLANE" es)) (parts "PLANE" es) planes ∧
      valueOf "BLANK" map.header = (if T.isIntegral then blank.map .int else none) ∧
      ∀ (j : ℕ) plane, planes[j]? = some plane → Covered M plane.source →
        ∃ lo hi, PlaneLimits T (limits M T plane) lo hi ∧
          ∀ o < samples * lines,
            (∀ pt, (pt, o) ∈ M.plots body proj samples lines → CoveredAt M body pt plane.source) →
            CellShows T (M.plots body proj samples lines) (HasDatum M T body plane.source) lo hi
              (Source.emptyCell T blank) o
              (map.image.cells (1 + (j * (samples * lines) + o : ℕ)))

end MaRC.ProgramSpec
