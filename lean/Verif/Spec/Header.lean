import Verif.Model.Execute

/-! Specification vocabulary for FITS headers, after the FITS standard. -/

namespace MaRC.Execute

/-- The value of a keyword in a header. -/
def valueOf (name : String) : List Card → Option Value
  | [] => none
  | .key n v :: cs => if n = name then some v else valueOf name cs
  | _ :: cs => valueOf name cs

/-- The COMMENT cards of a header. -/
def commentsOf : List Card → List String
  | [] => []
  | .comment s :: cs => s :: commentsOf cs
  | _ :: cs => commentsOf cs

/-- The HISTORY cards of a header. -/
def historiesOf : List Card → List Note
  | [] => []
  | .history n :: cs => n :: historiesOf cs
  | _ :: cs => historiesOf cs

/-- The data type that a BITPIX value stands for. -/
inductive FitsType : ℤ → MapType → Prop where
  | byte : FitsType 8 .u8
  | short : FitsType 16 .i16
  | long : FitsType 32 .i32
  | longlong : FitsType 64 .i64
  | float : FitsType (-32) .f32
  | double : FitsType (-64) .f64

/-- What a string parameter should leave in the header: its value unless it is empty. -/
def strValue (s : String) : Option Value := if s = "" then none else some (.str s)

/-- A number as keyword of a map of type `T`: integers for integer types. -/
def numValue (T : MapType) : Dbl → Value
  | .fin q => if T.isIntegral then .int q.num else .real (.fin q)
  | x => .real x

/-- The physical value that FITS assigns to an array value: `BZERO + BSCALE * v`, with
the defaults 0 and 1. -/
def physical (h : List Card) (v : ℚ) : Option ℚ :=
  match (valueOf "BZERO" h).getD (.real (.fin 0)), (valueOf "BSCALE" h).getD (.real (.fin 1)) with
  | .real (.fin z), .real (.fin s) => some (z + s * v)
  | _, _ => none

/-- What the history of a map of several planes should say about the scaling of plane
`k`: nothing for photos, and BSCALE and BZERO for virtual images (a BZERO below the
precision of numbers near one may be given as zero). -/
def planeNotes (F : Fp) (k : ℕ) : Option VirtualImage → List Note
  | none => []
  | some v => [.plane k, .bscale (v.bscale F),
      .bzero (if almostZero F (v.bzero F) 1 then .fin 0 else v.bzero F)]

/-- `planeNotes` for planes numbered from `k`. -/
def planesNotes (F : Fp) : ℕ → List (Option VirtualImage) → List Note
  | _, [] => []
  | k, v :: vs => planeNotes F k v ++ planesNotes F (k + 1) vs

end MaRC.Execute
