import Verif.Model.CosineImage

/-!
# Emission and phase angle images in floating point: `lib/marc/MuImage.cpp`,
`lib/marc/CosPhaseImage.cpp` and the functions of `lib/marc/OblateSpheroid.cpp` they
call

`Verif.Model.OblateSpheroid` has the same functions for real numbers.
-/

namespace MaRC

/-- The functions of `Libm`, square root and `std::hypot`. -/
structure LibmRoot extends Libm where
  sqrt : Dbl → Dbl
  hypot : Dbl → Dbl → Dbl

/-- `centric_radius` (lib/marc/OblateSpheroid.cpp:47-95). -/
def centricRadiusF (F : Fp) (L : LibmRoot) (eqRad polRad lat : Dbl) : Dbl :=
  F.div (.fin 1) (L.hypot (F.div (L.cos lat) eqRad) (F.div (L.sin lat) polRad))

/-- The magnitude `mu` and `cos_phase` divide by
(lib/marc/OblateSpheroid.cpp:147-151, 196-201), without contraction of products and
sums. -/
def observerDistanceF (F : Fp) (L : LibmRoot) (radius subLat subLon lat lon range : Dbl) : Dbl :=
  L.sqrt (F.sub (F.add (F.mul range range) (F.mul radius radius))
    (F.mul (F.mul (F.mul (.fin 2) range) radius)
      (F.add (F.mul (L.sin subLat) (L.sin lat))
        (F.mul (F.mul (L.cos subLat) (L.cos lat)) (L.cos (F.sub subLon lon))))))

/-- `mu` (lib/marc/OblateSpheroid.cpp:127-152), without contraction of products and
sums. -/
def muF (F : Fp) (L : LibmRoot) (eqRad polRad subLat subLon lat lon range : Dbl) : Dbl :=
  let latg := graphicLatitudeF F L.toLibm eqRad polRad lat
  let radius := centricRadiusF F L eqRad polRad lat
  F.div
    (F.add
      (F.sub (F.mul (F.mul range (L.sin subLat)) (L.sin latg))
        (F.mul radius (L.cos (F.sub lat latg))))
      (F.mul (F.mul (F.mul range (L.cos subLat)) (L.cos latg)) (L.cos (F.sub subLon lon))))
    (observerDistanceF F L radius subLat subLon lat lon range)

/-- `cos_phase` (lib/marc/OblateSpheroid.cpp:172-202), without contraction of products
and sums. -/
def cosPhaseF (F : Fp) (L : LibmRoot)
    (eqRad polRad obsLat obsLon sunLat sunLon lat lon range : Dbl) : Dbl :=
  let radius := centricRadiusF F L eqRad polRad lat
  F.div
    (F.sub
      (F.mul range
        (F.add (F.mul (F.mul (L.cos obsLat) (L.cos sunLat)) (L.cos (F.sub obsLon sunLon)))
          (F.mul (L.sin obsLat) (L.sin sunLat))))
      (F.mul radius
        (F.add (F.mul (F.mul (L.cos lat) (L.cos sunLat)) (L.cos (F.sub lon sunLon)))
          (F.mul (L.sin lat) (L.sin sunLat)))))
    (observerDistanceF F L radius obsLat obsLon lat lon range)

/-- `MuImage` (lib/marc/MuImage.h, MuImage.cpp:19-31). -/
structure MuImage where
  eqRad : Dbl
  polRad : Dbl
  /-- radians -/
  subLat : Dbl
  /-- radians -/
  subLon : Dbl
  range : Dbl
  /-- scale and offset -/
  virtual : VirtualImage

/-- `MuImage` (lib/marc/MuImage.cpp:19-31), from degrees. -/
def MuImage.new (F : Fp) (eqRad polRad subLat subLon range : Dbl) (v : VirtualImage) : MuImage :=
  ⟨eqRad, polRad, F.mul subLat cDegree, F.mul subLon cDegree, range, v⟩

/-- `MuImage::read_data_i` (lib/marc/MuImage.cpp:33-51).  `asserts` tells whether
`assert` is compiled in (NDEBUG not defined). -/
def MuImage.readDataI (F : Fp) (L : LibmRoot) (asserts : Bool) (m : MuImage) (lat lon : Dbl) :
    Outcome (Option Dbl) :=
  let data := muF F L m.eqRad m.polRad m.subLat m.subLon lat lon m.range
  if asserts && !(data.ge (.fin (-1)) && data.le (.fin 1)) then .ub else .ok (some data)

/-- `VirtualImage::read_data` (lib/marc/VirtualImage.cpp:20-33) of a `MuImage`. -/
def MuImage.readData (F : Fp) (L : LibmRoot) (asserts : Bool) (m : MuImage) (lat lon : Dbl) :
    Outcome (Option Dbl) :=
  (m.readDataI F L asserts lat lon).bind fun d => .ok (m.virtual.readData F d)

/-- `MuImageFactory::make` (src/MuImageFactory.cpp:54-82): the image and the factory's
minimum and maximum, when they were not set before. -/
def MuImage.make (F : Fp) (T : MapType) (eqRad polRad subLat subLon range : Dbl) :
    Outcome (MuImage × Dbl × Dbl) :=
  (makeVirtual F T (.fin (-1)) (.fin 1)).bind fun (v, lo, hi) =>
    .ok (.new F eqRad polRad subLat subLon range v, lo, hi)

/-- `CosPhaseImage` (lib/marc/CosPhaseImage.h, CosPhaseImage.cpp:19-35). -/
structure CosPhaseImage where
  eqRad : Dbl
  polRad : Dbl
  /-- radians, as the angles below -/
  obsLat : Dbl
  obsLon : Dbl
  sunLat : Dbl
  sunLon : Dbl
  range : Dbl
  /-- scale and offset -/
  virtual : VirtualImage

/-- `CosPhaseImage` (lib/marc/CosPhaseImage.cpp:19-35), from degrees. -/
def CosPhaseImage.new (F : Fp) (eqRad polRad obsLat obsLon sunLat sunLon range : Dbl)
    (v : VirtualImage) : CosPhaseImage :=
  ⟨eqRad, polRad, F.mul obsLat cDegree, F.mul obsLon cDegree, F.mul sunLat cDegree,
    F.mul sunLon cDegree, range, v⟩

/-- `CosPhaseImage::read_data_i` (lib/marc/CosPhaseImage.cpp:37-57).  `asserts` as for
`MuImage.readDataI`. -/
def CosPhaseImage.readDataI (F : Fp) (L : LibmRoot) (asserts : Bool) (m : CosPhaseImage)
    (lat lon : Dbl) : Outcome (Option Dbl) :=
  let data := cosPhaseF F L m.eqRad m.polRad m.obsLat m.obsLon m.sunLat m.sunLon lat lon m.range
  if asserts && !(data.ge (.fin (-1)) && data.le (.fin 1)) then .ub else .ok (some data)

/-- `VirtualImage::read_data` (lib/marc/VirtualImage.cpp:20-33) of a `CosPhaseImage`. -/
def CosPhaseImage.readData (F : Fp) (L : LibmRoot) (asserts : Bool) (m : CosPhaseImage)
    (lat lon : Dbl) : Outcome (Option Dbl) :=
  (m.readDataI F L asserts lat lon).bind fun d => .ok (m.virtual.readData F d)

/-- `CosPhaseImageFactory::make` (src/CosPhaseImageFactory.cpp:59-89): the image and the
factory's minimum and maximum, when they were not set before. -/
def CosPhaseImage.make (F : Fp) (T : MapType)
    (eqRad polRad obsLat obsLon sunLat sunLon range : Dbl) :
    Outcome (CosPhaseImage × Dbl × Dbl) :=
  (makeVirtual F T (.fin (-1)) (.fin 1)).bind fun (v, lo, hi) =>
    .ok (.new F eqRad polRad obsLat obsLon sunLat sunLon range v, lo, hi)

end MaRC
