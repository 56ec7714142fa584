import Verif.Model.MapCommand
import Verif.Model.VirtualImage

/-!
# `MapCommand::execute`: the FITS file of a map

`src/MapCommand.cpp`, `src/MapCommand_t.cpp`, `src/FITS_image.cpp`,
`src/FITS_image_t.cpp`.

CFITSIO itself is not modelled.  `fits_create_file`, `fits_create_imgll` and
`fits_write_img` succeed or fail as an input of the model says; the calls that
write keywords are taken to succeed.  The keywords CFITSIO writes on its own
(SIMPLE, END, ...), DATE and the checksums are left out.  Messages to the terminal
are left out.
-/

namespace MaRC.Execute

open Fits MapFactory MapCommand MapParams

/-- Value of a FITS keyword. -/
inductive Value where
  | str (s : String)
  | int (n : ℤ)
  | real (x : Dbl)
  deriving DecidableEq, Repr

/-- Text of a HISTORY card.  Formatting of numbers is not modelled. -/
inductive Note where
  | text (s : String)
  /-- "Plane n characteristics:" -/
  | plane (n : ℕ)
  /-- "    BSCALE: x" -/
  | bscale (x : Dbl)
  /-- "    BZERO:  x" -/
  | bzero (x : Dbl)
  deriving DecidableEq, Repr

/-- A line of a FITS header. -/
inductive Card where
  | key (name : String) (v : Value)
  | comment (s : String)
  | history (n : Note)
  deriving DecidableEq, Repr

/-- The card of a keyword. -/
def Card.isKey (name : String) : Card → Bool
  | .key n _ => n == name
  | _ => false

/-- `fits_update_key`: the value of the first card of that name is replaced; without
one a card is appended. -/
def updateKey (name : String) (v : Value) : List Card → List Card
  | [] => [.key name v]
  | c :: cs => if c.isKey name then .key name v :: cs else c :: updateKey name v cs

/-- `image::update_fits_key` of strings (src/FITS_image.cpp:190-228): empty ones are
not written. -/
def updateStr (name s : String) (h : List Card) : List Card :=
  if s = "" then h else updateKey name (.str s) h

/-- `image::bzero`, `image::bscale` (src/FITS_image.cpp:112-131). -/
def updateReal (name : String) (x : Dbl) (h : List Card) : List Card :=
  if x.isNaN then h else updateKey name (.real x) h

/-- `image::comment` (src/FITS_image.cpp:160-168). -/
def addComment (s : String) (h : List Card) : List Card := h ++ [.comment s]

/-- `image::history` (src/FITS_image.cpp:170-178). -/
def addHistory (n : Note) (h : List Card) : List Card := h ++ [.history n]

/-- Conversion of a `blank_type` value to an integral `T` (modulo its size). -/
def wrapTo (T : MapType) (b : ℤ) : ℤ :=
  (b - T.intRange.1) % (T.intRange.2 - T.intRange.1 + 1) + T.intRange.1

/-- `image::blank<T>` (src/FITS_image_t.cpp:44-64). -/
def updateBlank (T : MapType) (blank : Option ℤ) (h : List Card) : List Card :=
  match T.isIntegral, blank with
  | true, some b => updateKey "BLANK" (.int (wrapTo T b)) h
  | _, _ => h

/-- `image::datamin<T>`, `image::datamax<T>` (src/FITS_image_t.cpp:66-88). -/
def updateExtremum (T : MapType) (name : String) (v : Option Dbl) (h : List Card) : List Card :=
  match v with
  | none => h
  | some x =>
    match T.isIntegral, x with
    | true, .fin q => updateKey name (.int q.num) h
    | _, _ => updateKey name (.real x) h

/-- A header and data unit of a FITS file. -/
structure Hdu where
  /-- BITPIX -/
  bitpix : ℤ
  /-- NAXISn -/
  axes : List ℕ
  header : List Card
  image : Image

/-- `PACKAGE_STRING`; the version is left out. -/
def packageString : String := "MaRC"

/-- `FITS::image` constructor (src/FITS_image.cpp:17-91). -/
def Hdu.new (bitpix : ℤ) (samples lines planes : ℕ) (extname : Option String) : Hdu where
  bitpix := bitpix
  axes := if planes > 1 then [samples, lines, planes] else [samples, lines]
  header := updateStr "CREATOR" packageString (updateStr "EXTNAME" (extname.getD "") [])
  image := Image.new samples lines planes

/-- Files by name; a file is the list of its HDUs. -/
abbrev World := String → Option (List Hdu)

/-- The file named `n` is replaced. -/
def World.set (w : World) (n : String) (f : Option (List Hdu)) : World :=
  fun m => if m = n then f else w m

/-- Which calls of CFITSIO succeed. -/
structure Env where
  /-- `fits_create_file` -/
  create : Bool
  /-- `fits_create_imgll` of the map and of the grid -/
  map : Bool
  grid : Bool
  /-- `fits_write_img` of each plane, and of the grid -/
  plane : ℕ → Bool
  gridData : Bool

/-- A source image factory as a map command uses it (src/SourceImageFactory.h). -/
structure Factory (C : Type) where
  /-- `populate_parameters`: the parameters of the plane afterwards, or `false`. -/
  populate : Params → Outcome (Option Params)
  /-- `make(scale_and_offset<T>)`: no image, or the image with the factory's extrema
  afterwards, and the scale and offset of a `VirtualImage`. -/
  make : MapType → Outcome (Option (Plane C × Option VirtualImage))

/-- `MapCommand` (src/MapCommand.h).  `transform_data_` is always `false`
(src/MapCommand.cpp:67-82). -/
structure Command (C : Type) where
  filename : String
  samples : ℕ
  lines : ℕ
  params : Params
  factories : List (Factory C)
  /-- `factory_->projection_name()` -/
  projection : String
  /-- `factory_->plot_map` -/
  plots : ℕ → ℕ → List (C × ℕ)
  /-- If a grid was asked for: how `factory_->make_grid` ends. -/
  grid : Option (Outcome (List Dbl))

/-- How a call ends, if not in undefined behaviour. -/
inductive Result where
  | returned (n : ℤ)
  | raised (e : Exc)
  deriving DecidableEq, Repr

/-- The loop of `populate_map_parameters` (src/MapCommand.cpp:409-424). -/
def populateLoop {C : Type} (F : Fp) : List (Factory C) → ℕ → Params → Outcome (Option Params)
  | [], _, m => .ok (some m)
  | f :: fs, plane, m =>
    f.populate (fresh plane) >>= fun r =>
      match r with
      | none => .ok none
      | some pp => merge F m pp >>= fun m => populateLoop F fs (plane + 1) m

/-- `populate_map_parameters` (src/MapCommand.cpp:393-437). -/
def populateParameters {C : Type} (F : Fp) (c : Command C) : Outcome (Option Params) :=
  populateLoop F c.factories 1 (fresh 0) >>= fun r =>
    match r with
    | none => .ok none
    | some m => merge F c.params m >>= fun p => .ok (some p)

/-- `write_virtual_image_facts` (src/MapCommand.cpp:283-391).  The scaling that
CFITSIO is told not to do is not modelled. -/
def imageFacts (F : Fp) (p : Params) (bitpix : ℤ) (plane planes : ℕ) (v : Option VirtualImage)
    (h : List Card) : List Card :=
  match v with
  | none => h
  | some v =>
    if bitpix < 0 then h
    else
      let scale := v.bscale F
      let offset := if almostZero F (v.bzero F) 1 then .fin 0 else v.bzero F
      let h := updateStr "BUNIT" (p.str .bunit) h
      if planes = 1 then updateReal "BZERO" offset (updateReal "BSCALE" scale h)
      else addHistory (.bzero (if almostZero F offset 1 then .fin 0 else offset))
        (addHistory (.bscale (if almostZero F scale 1 then .fin 0 else scale))
          (addHistory (.plane plane) h))

/-- State of the plane loop: as in `MapCommand.Loop`, with the header. -/
structure PlaneState where
  loop : Loop
  header : List Card

/-- The body of the plane loop after the image was made
(src/MapCommand_t.cpp:149-173): the state afterwards, and an exception if one
was thrown. -/
def planeStep {C : Type} (F : Fp) (T : MapType) (c : Command C) (env : Env) (p : Params)
    (im : Plane C × Option VirtualImage) (s : PlaneState) : Outcome (PlaneState × Option Exc) :=
  let h := imageFacts F p p.bitpix s.loop.planeCount c.factories.length im.2 s.header
  match makePlane T c.plots im.1 s.loop.info with
  | .ub => .ub
  | .throw e => .ok (⟨s.loop, h⟩, some e)
  | .ok (map, info) =>
    match s.loop.image.write (env.plane s.loop.planeCount) map with
    | .ub => .ub
    | .throw e => .ok (⟨{ s.loop with info := info }, h⟩, some e)
    | .ok (written, image) =>
      .ok (⟨⟨s.loop.planeCount + 1, info, image, s.loop.tried + 1,
        if info.dataMapped then s.loop.noData else s.loop.noData ++ [s.loop.planeCount],
        if written then s.loop.notWritten else s.loop.notWritten ++ [s.loop.planeCount]⟩, h⟩,
        none)

/-- The plane loop (src/MapCommand_t.cpp:126-174), which an exception ends. -/
def planes {C : Type} (F : Fp) (T : MapType) (c : Command C) (env : Env) (p : Params) :
    List (Factory C) → PlaneState → Outcome (PlaneState × Option Exc)
  | [], s => .ok (s, none)
  | f :: fs, s =>
    match f.make T with
    | .ub => .ub
    | .throw e => .ok (s, some e)
    | .ok none => planes F T c env p fs ⟨{ s.loop with tried := s.loop.tried + 1 }, s.header⟩
    | .ok (some im) =>
      match planeStep F T c env p im s with
      | .ub => .ub
      | .throw e => .throw e
      | .ok (s, some e) => .ok (s, some e)
      | .ok (s, none) => planes F T c env p fs s

/-- The header before the plane loop (src/MapCommand_t.cpp:40-105). -/
def mapHeader {C : Type} (T : MapType) (c : Command C) (p : Params) (h : List Card) : List Card :=
  addHistory (.text (c.projection ++ " projection created by " ++ packageString ++ "."))
    (p.comments.foldl (fun h s => addComment s h)
      (updateStr "OBJECT" (p.str .object)
        (updateStr "ORIGIN" (p.str .origin)
          (updateStr "AUTHOR" (p.str .author) (updateBlank T p.blank h)))))

/-- `make_map_planes<T>` (src/MapCommand_t.cpp:29-185): the HDU of the map, and an
exception if one was thrown. -/
def makeMapHdu {C : Type} (F : Fp) (T : MapType) (c : Command C) (env : Env) (p : Params) :
    Outcome (Hdu × Option Exc) :=
  let hdu := Hdu.new p.bitpix c.samples c.lines c.factories.length none
  let info := PlotInfo.new c.samples c.lines p.blank
  let info := { info with notifier := { info.notifier with observers := [[]] } }
  planes F T c env p c.factories ⟨⟨1, info, hdu.image, 0, [], []⟩, mapHeader T c p hdu.header⟩
    >>= fun r =>
    let hdu := { hdu with header := r.1.header, image := r.1.loop.image }
    match r.2 with
    | some e => .ok (hdu, some e)
    | none => dataKeywords r.1.loop.info >>= fun k =>
        .ok ({ hdu with
          header := updateExtremum T "DATAMAX" k.2 (updateExtremum T "DATAMIN" k.1 hdu.header) },
          none)

/-- `write_grid` (src/MapCommand.cpp:209-263), when a grid was asked for: the HDU of
the grid, and an exception if one was thrown. -/
def makeGridHdu {C : Type} (c : Command C) (env : Env) (p : Params) (grid : Outcome (List Dbl)) :
    Outcome (Hdu × Option Exc) :=
  let hdu := Hdu.new 8 c.samples c.lines 1 (some "GRID")
  let h := p.xcomments.foldl (fun h s => addComment s h) hdu.header
  let h := addHistory
    (.text (c.projection ++ " projection grid created using " ++ packageString ++ ".")) h
  let h := updateReal "DATAMAX" (.fin 255) (updateReal "DATAMIN" (.fin 255) h)
  let h := updateKey "BLANK" (.int 0) h
  match grid with
  | .ub => .ub
  | .throw e => .ok ({ hdu with header := h }, some e)
  | .ok g =>
    match hdu.image.write env.gridData g with
    | .ub => .ub
    | .throw e => .throw e
    | .ok (_, image) => .ok ({ hdu with header := h, image := image }, none)

/-- `write_grid` after the map was written (src/MapCommand.cpp:209-263) and the end of
`execute` (src/MapCommand.cpp:184-188). -/
def finish {C : Type} (c : Command C) (env : Env) (p : Params) (map : Hdu) (w : World) :
    Outcome (World × Result) :=
  match c.grid with
  | none => .ok (w.set c.filename (some [map]), .returned 0)
  | some g =>
    if !env.grid then .ok (w.set c.filename (some [map]), .raised .runtimeError)
    else makeGridHdu c env p g >>= fun r =>
      .ok (w.set c.filename (some [map, r.1]),
        match r.2 with
        | some e => .raised e
        | none => .returned 0)

/-- `MapCommand::execute` once the parameters are known (src/MapCommand.cpp:140-188).
`unlink` is taken to succeed for existing files. -/
def create {C : Type} (F : Fp) (c : Command C) (env : Env) (p : Params) (w : World) :
    Outcome (World × Result) :=
  let w := w.set c.filename none
  if !env.create then .ok (w, .raised .runtimeError)
  else
    let w := w.set c.filename (some [])
    match getBitpix p with
    | .ub => .ub
    | .throw e => .ok (w, .raised e)
    | .ok n =>
      match bitpixType n with
      | none => .ok (w, .returned (-1))
      | some T =>
        if !env.map then .ok (w, .raised .runtimeError)
        else makeMapHdu F T c env p >>= fun r =>
          match r.2 with
          | some e => .ok (w.set c.filename (some [r.1]), .raised e)
          | none => finish c env p r.1 w

/-- `MapCommand::execute` (src/MapCommand.cpp:130-189): the files afterwards and how
the call ended. -/
def execute {C : Type} (F : Fp) (c : Command C) (env : Env) (w : World) :
    Outcome (World × Result) :=
  match populateParameters F c with
  | .ub => .ub
  | .throw e => .ok (w, .raised e)
  | .ok none => .ok (w, .returned (-1))
  | .ok (some p) => create F c env p w

end MaRC.Execute
