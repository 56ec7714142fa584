import Verif.Model.Actions
import Verif.Model.Compositing
import Verif.Model.Pipeline
import Verif.Model.Scanner
import Verif.Model.Sources

/-!
# The whole program

`main` (src/marc.cpp:191-245) from the texts of the input files to the map files,
made of the scanner, the grammar, the actions of the parser, the factories of the
source images and the map commands.

What the geometry computes (plots of the projections, grids, positions in photos, the
cosine images) is modelled over the reals elsewhere and is an input here, like the C
library and CFITSIO.  Files are read as they are before the first map is made: photos
are opened while the input files are parsed, before any map is made, but a flat field
is opened when its photo is read.
-/

namespace MaRC.Program

open Source Execute Grammar MaRC.Calc MaRC.Scan
open MaRC.Parser (PhotoCmd PlanePhotos Averaging Proj)

/-- Latitude and longitude in radians. -/
abbrev Loc := Dbl × Dbl

/-- A FITS file that holds a photo (src/FITS_file.cpp:152-225); DATAMIN and DATAMAX are
taken to be readable if there. -/
structure Fits where
  photo : PhotoFile
  datamin : Option Dbl
  datamax : Option Dbl

/-- What a run of the program depends on. -/
structure Machine where
  /-- arithmetic, the C library and the constructors of the projections -/
  E : Grammar.Env
  /-- arithmetic of `long double` -/
  L : Fp
  /-- `fopen` and reading of an input file; `none` if it cannot be opened -/
  text : String → Option (List Char)
  /-- `errno` is `ENOENT` when it cannot be opened -/
  absent : String → Bool
  /-- `fits_open_image` of a photo or flat field -/
  fits : String → Option Fits
  /-- `ViewingGeometry::finalize_setup` for a photo of some size -/
  finalize : Body → PhotoCmd → ℕ → ℕ → Outcome Unit
  /-- the geometry of a photo of some size afterwards -/
  geometry : Body → PhotoCmd → ℕ → ℕ → Photo.Geometry Loc
  /-- `OblateSpheroid::graphic_latitude` -/
  graphicLatitude : Body → Dbl → Dbl
  /-- `read_data_i` of the images of cosines -/
  cosine : Body → Grammar.Source → Loc → Option Dbl
  /-- `MapFactory::plot_map` -/
  plots : Body → Proj → ℕ → ℕ → List (Loc × ℕ)
  /-- `MapFactory::make_grid` -/
  grid : Body → Proj → Dbl × Dbl → ℕ → ℕ → Outcome (List Dbl)
  /-- which calls of CFITSIO succeed for each map command -/
  cfitsio : ℕ → Execute.Env

variable (M : Machine)

/-! ## Source images -/

/-- The configuration of a photo of some size: `image_setup` (`src/parse.yy` 1087-1178)
and `PhotoImageFactory::make` (src/PhotoImageFactory.cpp:118-127). -/
def photoConfig (F : Fp) (c : PhotoCmd) (samples lines : ℕ) : Photo.Params where
  nibbleLeft := c.nibble.left
  nibbleRight := c.nibble.right
  nibbleTop := c.nibble.top
  nibbleBottom := c.nibble.bottom
  removeSky := c.removeSky
  interpolate := if c.interpolate then
      Bilinear.interpolate F (Bilinear.new samples lines c.nibble.left c.nibble.right
        c.nibble.top c.nibble.bottom)
    else Bilinear.null
  correct := Photo.nullCorrect

/-- The image a flat field file is read as (src/PhotoImageFactory.cpp:191-215).  One that
cannot be opened throws the same exception as one without an image. -/
def flatField (name : String) : Option MaRC.Fits.Input :=
  if name = "" then none
  else some (match M.fits name with
    | none => ⟨0, 0, 0, []⟩
    | some f => f.photo.input M.E.F)

/-- Settings of a photo factory (src/PhotoImageFactory.h) for a photo in file `f`;
`e` are the limits the user gave. -/
def photoSettings (b : Body) (f : Fits) (c : PhotoCmd) (e : Extrema) : MaRC.Factory.Photo where
  file := f.photo.input M.E.F
  datamin := f.datamin
  datamax := f.datamax
  flatField := flatField M c.flatField
  invertV := c.invertV
  invertH := c.invertH
  configSet := true
  geometrySet := true
  finalize := M.finalize b c
  extrema := e

/-- The samples and lines of a photo (src/FITS_file.cpp:369-452). -/
def Fits.size (f : Fits) : ℕ × ℕ := (f.photo.naxis1.toNat, f.photo.naxis2.toNat)

/-- The factory of a plane of one photo (`src/parse.yy` 1062-1067). -/
def oneFactory (b : Body) (f : Fits) (c : PhotoCmd) (e : Extrema) : Execute.Factory Loc :=
  photoFactory M.E.F f.photo (photoSettings M b f c e) (photoConfig M.E.F c f.size.1 f.size.2)
    (M.geometry b c f.size.1 f.size.2)

/-- A photo of a mosaic (src/MosaicImageFactory.cpp:82-98); its own limits are not set
before its image is made. -/
def mosaicPhoto (b : Body) (x : Fits × PhotoCmd) : MaRC.Factory.MosaicPhoto (Photo.Img Loc) where
  before := .empty
  make := (photoSettings M b x.1 x.2 .empty).make M.E.F >>= fun r =>
    match r.1 with
    | none => .ok (none, r.2.extrema)
    | some (img, samples, lines) =>
      Photo.new img samples lines (some (photoConfig M.E.F x.2 x.1.size.1 x.1.size.2))
        (some (M.geometry b x.2 x.1.size.1 x.1.size.2)) >>= fun im => .ok (some im, r.2.extrema)

/-- `read_data` of a photo of a mosaic at a location (lib/marc/first_read.cpp:14-26,
lib/marc/unweighted_average.cpp:47-52). -/
def readOne (c : Loc) : Option (Photo.Img Loc) → Compositing.Image
  | none => fun _ => .ub
  | some im => Photo.read im c

/-- `read_data` with a weight (lib/marc/weighted_average.cpp:27-40). -/
def readOneWeighted (c : Loc) : Option (Photo.Img Loc) → Compositing.WImage
  | none => fun _ _ => .ub
  | some im => fun data weight => Photo.readWeighted im c data weight true

/-- `make_compositor` (src/MosaicImageFactory.cpp:23-40) and `composite`. -/
def composite (F L : Fp) (a : Averaging) (imgs : List (Option (Photo.Img Loc))) (c : Loc) :
    Dbl → Outcome (ℕ × Dbl) :=
  match a with
  | .none => Compositing.firstRead (imgs.map (readOne c))
  | .unweighted => Compositing.unweighted L F (imgs.map (readOne c))
  | .weighted => Compositing.weighted L F (imgs.map (readOneWeighted c))

/-- The factory of a plane of several photos (`src/parse.yy` 1067-1072,
src/MosaicImageFactory.cpp:44-117). -/
def mosaicFactory (b : Body) (fs : List (Fits × PhotoCmd)) (a : Averaging) (e : Extrema) :
    Execute.Factory Loc where
  populate := (Kind.mosaic (fs.map fun x => x.1.photo)).populate
  make := fun _ => MaRC.Factory.mosaicMake e (fs.map (mosaicPhoto M b)) >>= fun r =>
    .ok (some (⟨fun c => Compositing.mosaicRead (composite M.E.F M.L a r.1 c), r.2⟩, none))

/-- `make` of the factories of virtual images, with the limits the user gave
(src/LatitudeImageFactory.cpp:59-86, src/LongitudeImageFactory.cpp:55-85,
src/MuImageFactory.cpp:54-82, src/Mu0ImageFactory.cpp:52-79,
src/CosPhaseImageFactory.cpp:59-89). -/
def virtualFactory (F : Fp) (kind : Kind) (low high : Dbl) (e : Extrema)
    (physical : Loc → Option Dbl) : Execute.Factory Loc where
  populate := kind.populate
  make := fun T => makeVirtual F T low high >>= fun r =>
    MaRC.Factory.setMinimum e r.2.1 >>= fun e =>
    MaRC.Factory.setMaximum e r.2.2 >>= fun e =>
    .ok (some (⟨r.1.asRead F physical, e⟩, some r.1))

/-- Opening a photo (src/PhotoImageFactory.cpp:38-50, src/FITS_file.cpp:43-64). -/
def openPhoto (c : PhotoCmd) : Outcome (Fits × PhotoCmd) :=
  match M.fits c.file with
  | none => .throw .runtimeError
  | some f => .ok (f, c)

/-- Opening the photos of a plane (`src/parse.yy` 1155-1178). -/
def openPhotos : List PhotoCmd → Outcome (List (Fits × PhotoCmd))
  | [] => .ok []
  | c :: cs => openPhoto M c >>= fun x => openPhotos cs >>= fun xs => .ok (x :: xs)

/-- The factory of a plane (`src/parse.yy` 1062-1085, 1315-1390). -/
def sourceFactory (b : Body) (e : Extrema) (s : Grammar.Source) : Outcome (Execute.Factory Loc) :=
  match s with
  | .photos (.single c) => openPhoto M c >>= fun x => .ok (oneFactory M b x.1 x.2 e)
  | .photos (.mosaic cs a) => openPhotos M cs >>= fun xs =>
      if xs.length < 2 then .throw .invalidArgument else .ok (mosaicFactory M b xs a e)
  | .latitude graphic => .ok (virtualFactory M.E.F .degrees (.fin (-90)) (.fin 90) e fun c =>
      latitudeData M.E.F (M.graphicLatitude b) graphic c.1)
  | .longitude => .ok (virtualFactory M.E.F .degrees (.fin 0) (.fin 360) e fun c =>
      longitudeData M.E.F c.2)
  | s => .ok (virtualFactory M.E.F .plain (.fin (-1)) (.fin 1) e (M.cosine b s))

/-- `plane_setup` (`src/parse.yy` 955-968): the factory with the limits the user gave. -/
def planeFactory (b : Body) (p : PlaneImage) : Outcome (Execute.Factory Loc) :=
  MaRC.Factory.optMinimum .empty p.minimum >>= fun e =>
  MaRC.Factory.optMaximum e p.maximum >>= fun e => sourceFactory M b e p.source

/-- The factories of the planes of a map (`src/parse.yy` 951-968). -/
def planeFactories (b : Body) : List PlaneImage → Outcome (List (Execute.Factory Loc))
  | [] => .ok []
  | p :: ps => planeFactory M b p >>= fun f => planeFactories b ps >>= fun fs => .ok (f :: fs)

/-- `projection_name` (lib/marc/Mercator.cpp:84-88, lib/marc/Orthographic.cpp:293-297,
lib/marc/PolarStereographic.cpp:134-138, lib/marc/SimpleCylindrical.cpp:99-103). -/
def projectionName : Proj → String
  | .mercator => "Mercator"
  | .ortho .. => "Orthographic"
  | .polar .. => "Polar Stereographic"
  | .simple .. => "Simple Cylindrical"

/-- A command of the parser as a `MapCommand` (`src/parse.yy` 595-610). -/
def command (c : Grammar.Command) : Outcome (Execute.Command Loc) :=
  planeFactories M c.body c.planes >>= fun fs =>
    .ok {
      filename := c.file
      samples := c.samples.toNat
      lines := c.lines.toNat
      params := c.params
      factories := fs
      projection := projectionName c.proj
      plots := M.plots c.body c.proj
      grid := c.grid.map fun i => M.grid c.body c.proj i c.samples.toNat c.lines.toNat }

/-- The commands of an input file, as `push_command` collects them
(src/parse_scan.cpp:34-38). -/
def commands : List Grammar.Command → Outcome (List (Execute.Command Loc))
  | [] => .ok []
  | c :: cs => command M c >>= fun x => commands cs >>= fun xs => .ok (x :: xs)

/-! ## Input files -/

open Classical in
/-- The parse tree of a text, of which there is at most one (`src/parse.yy`,
`src/lexer.ll`). -/
noncomputable def tree (text : List Char) : Option File :=
  if h : ∃ f, Parses (scan symrec text) f then some h.choose else none

/-- `parse_file` (src/marc.cpp:96-138): the parser's variables and the commands, or a
nonzero value.  With a text that is not in the grammar the actions up to the error are
left out; whichever way they end, the program ends with the same status and no map is
made. -/
noncomputable def parseFile (name : String) (s : State) :
    Outcome (Option (State × List (Execute.Command Loc))) :=
  match M.text name with
  | none => .ok none
  | some text =>
    match tree text with
    | none => .ok none
    | some f =>
      match f.run M.E s with
      | .ub => .ub
      | .throw e => .throw e
      | .ok none => .ok none
      | .ok (some r) => commands M r.2 >>= fun cs => .ok (some (r.1, cs))

/-- The input files of the command line (src/marc.cpp:216-219). -/
noncomputable def parseFiles : List String → State →
    Outcome (Option (State × List (Execute.Command Loc)))
  | [], s => .ok (some (s, []))
  | n :: ns, s => parseFile M n s >>= fun r =>
    match r with
    | none => .ok none
    | some (s, cs) => parseFiles ns s >>= fun r =>
      match r with
      | none => .ok none
      | some (s, ds) => .ok (some (s, cs ++ ds))

/-! ## Running -/

/-- The map command loop (src/marc.cpp:221-231) from command number `i` on, with the
result so far; an exception ends it with -1 (src/marc.cpp:232-242). -/
def runCommands (F : Fp) (cfitsio : ℕ → Execute.Env) :
    ℕ → List (Execute.Command Loc) → World → ℤ → Outcome (World × ℤ)
  | _, [], w, r => .ok (w, r)
  | i, c :: cs, w, r =>
    match execute F c (cfitsio i) w with
    | .ub => .ub
    | .throw _ => .ok (w, -1)
    | .ok (w, .raised _) => .ok (w, -1)
    | .ok (w, .returned n) => runCommands F cfitsio (i + 1) cs w (if n ≠ 0 then 1 else r)

/-- The part of `main` after the configuration file (src/marc.cpp:206-245), with the
variables and commands it left. -/
noncomputable def mainFiles (files : Option (List String)) (s : State)
    (cs : List (Execute.Command Loc)) (w : World) : Outcome (World × ℤ) :=
  match files with
  | none => .ok (w, 1)
  | some names =>
    match parseFiles M names s with
    | .ub => .ub
    | .throw _ => .ok (w, -1)
    | .ok none => .ok (w, -1)
    | .ok (some (_, ds)) => runCommands M.E.F M.cfitsio 0 (cs ++ ds) w 0

/-- `main` (src/marc.cpp:191-245): the files afterwards and the exit status.  `config` is
the name of the configuration file, `files` what `command_line::parse` gives (see
`CommandLine`).  `errno` is `ENOENT` after a failed parse only if the file could not be
opened. -/
noncomputable def main (config : String) (files : Option (List String)) (w : World) :
    Outcome (World × ℤ) :=
  match parseFile M config .start with
  | .ub => .ub
  | .throw _ => .ok (w, -1)
  | .ok none =>
    if M.text config = none ∧ M.absent config = true then mainFiles M files .start [] w
    else .ok (w, -1)
  | .ok (some (s, cs)) => mainFiles M files s cs w

end MaRC.Program
