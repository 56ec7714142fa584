import Verif.Model.Program
import Verif.Spec.Header
import Verif.Spec.InputMeaning
import Verif.Spec.Map

/-!
# The map files that input files ask for

What a user finds in the file of a map, in terms of the entries of the input file.
-/

namespace MaRC.ProgramSpec

open MaRC.Execute (Hdu Value World Note packageString valueOf commentsOf historiesOf FitsType strValue)
open MaRC.InputFile (Item Written)
open MaRC.InputMeaning (Part entries parts upTo has string strings int choice bitpix)
open MaRC.Program (Machine)

/-- The input files the program reads: the user's configuration file if there is one,
then those of the command line. -/
def inputs (M : Machine) (config : String) (names : List String) : List String :=
  (if M.text config = none then [] else [config]) ++ names

/-- The maps that input files ask for, `items` being the entries of each file. -/
def maps (items : String → List Item) (files : List String) : List Part :=
  files.flatMap fun n => parts "MAP" (entries (items n))

/-- The name of the file of a map. -/
def fileOf (es : Part) : Option String := string "MAP" (upTo "PLANE" es)

/-- What a map type is called in a map. -/
def title : String → String
  | "MERCATOR" => "Mercator"
  | "ORTHO" => "Orthographic"
  | "P_STEREO" => "Polar Stereographic"
  | "SIMPLE_C" => "Simple Cylindrical"
  | _ => ""

/-- The image of a map is the one that its entries `es` ask for, but for its data;
`head` are the entries before the first plane. -/
structure IsMap (es head : Part) (map : Hdu) : Prop where
  size : ∃ samples lines : ℕ, int "SAMPLES" head = some (samples : ℤ) ∧ 0 < samples ∧
    int "LINES" head = some (lines : ℤ) ∧ 0 < lines ∧
    map.axes = if (parts "PLANE" es).length > 1 then
        [samples, lines, (parts "PLANE" es).length]
      else [samples, lines]
  type : ∃ T, FitsType map.bitpix T
  bitpix : bitpix head ≠ 0 → map.bitpix = InputMeaning.bitpix head
  creator : valueOf "CREATOR" map.header = some (.str packageString)
  author : ∀ s, string "AUTHOR" head = some s → valueOf "AUTHOR" map.header = strValue s
  origin : ∀ s, string "ORIGIN" head = some s → valueOf "ORIGIN" map.header = strValue s
  object : ∀ s, string "BODY" head = some s → valueOf "OBJECT" map.header = strValue s
  blank : ∀ b T, int "DATA_BLANK" head = some b → FitsType map.bitpix T → T.isIntegral = true →
    T.intRange.1 ≤ b → b ≤ T.intRange.2 → valueOf "BLANK" map.header = some (.int b)
  comments : commentsOf map.header = strings "COMMENT" head
  projection : ∃ t, choice "MAP_TYPE" head = some t ∧ title t ≠ "" ∧
    (historiesOf map.header).head? =
      some (.text (title t ++ " projection created by " ++ packageString ++ "."))

/-- The second image of a map is its grid. -/
structure IsGrid (head : Part) (grid : Hdu) : Prop where
  size : ∃ samples lines : ℕ, int "SAMPLES" head = some (samples : ℤ) ∧
    int "LINES" head = some (lines : ℤ) ∧ grid.axes = [samples, lines]
  bitpix : grid.bitpix = 8
  name : valueOf "EXTNAME" grid.header = some (.str "GRID")
  comments : commentsOf grid.header = strings "XCOMMENT" head

/-- The file of the map that the entries `es` ask for. -/
def IsMapFile (es : Part) (hdus : List Hdu) : Prop :=
  ∃ map, IsMap es (upTo "PLANE" es) map ∧
    ((choice "GRID" (upTo "PLANE" es) ≠ some "YES" ∧ hdus = [map]) ∨
      choice "GRID" (upTo "PLANE" es) = some "YES" ∧
        ∃ grid, hdus = [map, grid] ∧ IsGrid (upTo "PLANE" es) grid)

end MaRC.ProgramSpec
