import Verif.Model.MapFactory
import Verif.Model.PhotoImage
import Verif.Model.ViewingGeometry
import Verif.Model.VirtualImage

/-!
# What joins the parts of the program

`PhotoImage` holds a `ViewingGeometry`.  The geometry is modelled over the
reals; the numbers it hands on are rounded by `rnd`, which is left open.
-/

namespace MaRC

/-- `VirtualImage::read_data` (lib/marc/VirtualImage.cpp:20-33) as a map factory
calls it.  What it leaves in `data` when it fails is not used. -/
def VirtualImage.asRead {C : Type} (F : Fp) (v : VirtualImage) (physical : C → Option Dbl) :
    ReadData C :=
  fun c data =>
    match v.readData F (physical c) with
    | some d => .ok (true, d)
    | none => .ok (false, data)

/-- `LatitudeImageFactory::make` (src/LatitudeImageFactory.cpp:59-86): the image
with the limits of the factory, which the user has not set, and its scaling.
`graphicLatitude` is the body's conversion. -/
def latitudePlane (F : Fp) (T : MapType) (graphicLatitude : Dbl → Dbl) (graphic : Bool) :
    Outcome (MapFactory.Plane (Dbl × Dbl) × VirtualImage) :=
  (makeVirtual F T (.fin (-90)) (.fin 90)).bind fun (v, lo, hi) =>
    .ok (⟨v.asRead F fun c => latitudeData F graphicLatitude graphic c.1, ⟨some lo, some hi⟩⟩, v)

/-- `LongitudeImageFactory::make` (src/LongitudeImageFactory.cpp:55-85), likewise. -/
def longitudePlane (F : Fp) (T : MapType) :
    Outcome (MapFactory.Plane (Dbl × Dbl) × VirtualImage) :=
  (makeVirtual F T (.fin 0) (.fin 360)).bind fun (v, lo, hi) =>
    .ok (⟨v.asRead F fun c => longitudeData F c.2, ⟨some lo, some hi⟩⟩, v)

noncomputable section

/-- The calls `PhotoImage` makes of `ViewingGeometry`
(lib/marc/PhotoImage.cpp:119-121, lib/marc/ViewingGeometry.cpp:953-982).  The
body mask consults `pix2latlon`.  When `latlon2pix` fails its results are not
used. -/
def Camera.photoGeometry (c : Camera) (center : ℝ × ℝ) (rnd : ℝ → Dbl) :
    Photo.Geometry (ℝ × ℝ) where
  latlon2pix := fun loc =>
    match c.latlon2pix loc.1 loc.2 with
    | some (sample, line) => (true, rnd sample, rnd line)
    | none => (false, .nan, .nan)
  onBody := fun i k =>
    match c.pix2latlon center i k with
    | .ok (some _) => true
    | _ => false

end

end MaRC
