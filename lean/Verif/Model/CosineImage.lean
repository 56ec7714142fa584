import Verif.Model.VirtualImage

/-!
# Incidence angle images in floating point: `lib/marc/Mu0Image.cpp` and the
functions of `lib/marc/OblateSpheroid.cpp` it calls

`Verif.Model.OblateSpheroid` has the same functions for real numbers.
-/

namespace MaRC

/-- Functions of `<cmath>` on `double`s. -/
structure Libm where
  sin : Dbl → Dbl
  cos : Dbl → Dbl
  tan : Dbl → Dbl
  atan : Dbl → Dbl

/-- `graphic_latitude` (lib/marc/OblateSpheroid.cpp:112-125).  `std::pow(x, 2)` is
taken to be the rounded product. -/
def graphicLatitudeF (F : Fp) (L : Libm) (eqRad polRad lat : Dbl) : Dbl :=
  L.atan (F.mul (F.mul (F.div eqRad polRad) (F.div eqRad polRad)) (L.tan lat))

/-- `mu0` (lib/marc/OblateSpheroid.cpp:154-170), without contraction of products and
sums. -/
def mu0F (F : Fp) (L : Libm) (eqRad polRad subLat subLon lat lon : Dbl) : Dbl :=
  let latg := graphicLatitudeF F L eqRad polRad lat
  F.add (F.mul (L.sin subLat) (L.sin latg))
    (F.mul (F.mul (L.cos subLat) (L.cos latg)) (L.cos (F.sub subLon lon)))

/-- `Mu0Image` (lib/marc/Mu0Image.h, Mu0Image.cpp:19-29). -/
structure Mu0Image where
  eqRad : Dbl
  polRad : Dbl
  /-- radians -/
  subLat : Dbl
  /-- radians -/
  subLon : Dbl
  /-- scale and offset -/
  virtual : VirtualImage

/-- `Mu0Image` (lib/marc/Mu0Image.cpp:19-29), from degrees. -/
def Mu0Image.new (F : Fp) (eqRad polRad subLat subLon : Dbl) (v : VirtualImage) : Mu0Image :=
  ⟨eqRad, polRad, F.mul subLat cDegree, F.mul subLon cDegree, v⟩

/-- `Mu0Image::read_data_i` (lib/marc/Mu0Image.cpp:31-48).  `asserts` tells whether
`assert` is compiled in (NDEBUG not defined). -/
def Mu0Image.readDataI (F : Fp) (L : Libm) (asserts : Bool) (m : Mu0Image) (lat lon : Dbl) :
    Outcome (Option Dbl) :=
  let data := mu0F F L m.eqRad m.polRad m.subLat m.subLon lat lon
  if asserts && !(data.ge (.fin (-1)) && data.le (.fin 1)) then .ub else .ok (some data)

/-- `VirtualImage::read_data` (lib/marc/VirtualImage.cpp:20-33) of a `Mu0Image`. -/
def Mu0Image.readData (F : Fp) (L : Libm) (asserts : Bool) (m : Mu0Image) (lat lon : Dbl) :
    Outcome (Option Dbl) :=
  (m.readDataI F L asserts lat lon).bind fun d => .ok (m.virtual.readData F d)

/-- `Mu0ImageFactory::make` (src/Mu0ImageFactory.cpp:51-79): the image and the
factory's minimum and maximum, when they were not set before. -/
def Mu0Image.make (F : Fp) (T : MapType) (eqRad polRad subLat subLon : Dbl) :
    Outcome (Mu0Image × Dbl × Dbl) :=
  (makeVirtual F T (.fin (-1)) (.fin 1)).bind fun (v, lo, hi) =>
    .ok (.new F eqRad polRad subLat subLon v, lo, hi)

end MaRC
