import Verif.Model.Mathematics

/-!
# `src/map_parameters.cpp`, `MapCommand::populate_map_parameters`
-/

namespace MaRC.MapParams

/-- String valued parameters (src/map_parameters.h:414-620). -/
inductive StrKey where
  | author | bunit | instrument | object | observer | origin | reference | telescope
  deriving DecidableEq, Repr

/-- Optional floating point parameters (src/map_parameters.h:414-620). -/
inductive RealKey where
  | bscale | bzero | datamax | datamin | equinox
  deriving DecidableEq, Repr

/-- `param_key` (src/map_parameters.h:338-356). -/
inductive Key where
  | str (k : StrKey)
  | real (k : RealKey)
  | blank
  | comment
  | xcomment
  deriving DecidableEq, Repr

/-- What a HISTORY entry is formatted from: plane, parameter, value
(src/map_parameters.cpp:400-407, 448-455).  The text itself is not modelled. -/
inductive History where
  | real (plane : ℤ) (k : RealKey) (value : Dbl)
  | blank (plane : ℤ) (value : ℤ)
  deriving DecidableEq, Repr

/-- State of `map_parameters` (src/map_parameters.h:414-620).  The fields of
each type are kept as one function of the parameter. -/
structure Params where
  locked : Key → Bool
  plane : ℤ
  bitpix : ℤ
  str : StrKey → String
  real : RealKey → Option Dbl
  blank : Option ℤ
  comments : List String
  xcomments : List String
  histories : List History

/-- `valid_bitpix` (src/map_parameters.cpp:38-46). -/
def validBitpix (n : ℤ) : Bool :=
  n == 8 || n == 16 || n == 32 || n == 64 || n == -32 || n == -64

/-- Initial values (src/map_parameters.cpp:54-79). -/
def fresh (plane : ℤ) : Params :=
  ⟨fun _ => false, plane, 0, fun _ => "", fun _ => none, none, [], [], []⟩

/-- Constructor (src/map_parameters.cpp:54-84). -/
def new (plane : ℤ) : Outcome Params :=
  if plane < 0 then .throw .invalidArgument else .ok (fresh plane)

/-- `user_supplied` (src/map_parameters.h:412). -/
def userSupplied (p : Params) : Bool := p.plane == 0

/-- `lock_parameter` (src/map_parameters.cpp:242-249). -/
def lock (p : Params) (key : Key) : Params :=
  if userSupplied p then { p with locked := fun k => if k = key then true else p.locked k } else p

/-- `is_mergeable` (src/map_parameters.cpp:251-257). -/
def isMergeable (p : Params) (key : Key) : Bool := !p.locked key || !userSupplied p

/-- Setters of the string parameters (src/map_parameters.cpp:86-91, 132-137,
186-226). -/
def setStr (p : Params) (k : StrKey) (s : String) : Params :=
  lock { p with str := fun j => if j = k then s else p.str j } (.str k)

/-- Setters of the optional floating point parameters
(src/map_parameters.cpp:121-130, 139-184). -/
def setReal (p : Params) (k : RealKey) (v : Option Dbl) : Params :=
  lock { p with real := fun j => if j = k then v else p.real j } (.real k)

/-- `blank(blank_type)` (src/map_parameters.cpp:113-119). -/
def setBlank (p : Params) (v : Option ℤ) : Params := lock { p with blank := v } .blank

/-- `bitpix(int)` (src/map_parameters.cpp:93-101). -/
def setBitpix (p : Params) (n : ℤ) : Outcome Params :=
  if !validBitpix n then .throw .invalidArgument else .ok { p with bitpix := n }

/-- `bitpix()` (src/map_parameters.cpp:103-111). -/
def getBitpix (p : Params) : Outcome ℤ :=
  if !validBitpix p.bitpix then .throw .runtimeError else .ok p.bitpix

/-- `push_comment` (src/map_parameters.cpp:228-233). -/
def pushComment (p : Params) (c : String) : Params :=
  lock { p with comments := p.comments ++ [c] } .comment

/-- `push_xcomment` (src/map_parameters.cpp:235-240). -/
def pushXcomment (p : Params) (c : String) : Params :=
  lock { p with xcomments := p.xcomments ++ [c] } .xcomment

/-- `merge_optional` of floating point values (src/map_parameters.cpp:361-411). -/
def mergeReal (F : Fp) (p : Params) (k : RealKey) (src : Option Dbl) : Params :=
  match src with
  | none => p
  | some f =>
    if f.isNaN || !isMergeable p (.real k) then p
    else match p.real k with
      | none => { p with real := fun j => if j = k then some f else p.real j }
      | some t =>
        if almostEqual F t f 2 then p
        else if userSupplied p then p
        else { p with histories := p.histories ++ [.real p.plane k t] }

/-- `merge_optional` of blank values (src/map_parameters.cpp:413-459). -/
def mergeBlank (p : Params) (src : Option ℤ) : Params :=
  match src with
  | none => p
  | some f =>
    if !isMergeable p .blank then p
    else match p.blank with
      | none => { p with blank := some f }
      | some t =>
        if t = f then p
        else if userSupplied p then p
        else { p with histories := p.histories ++ [.blank p.plane t] }

/-- `merge_optional` of strings (src/map_parameters.cpp:461-476). -/
def mergeStr (p : Params) (k : StrKey) (src : String) : Params :=
  if !isMergeable p (.str k) then p
  else if p.str k = "" then { p with str := fun j => if j = k then src else p.str j }
  else p

/-- BITPIX part of `merge` (src/map_parameters.cpp:278-311). -/
def mergeBitpix (p : Params) (src : ℤ) : Outcome Params :=
  if src ≠ 0 ∧ (p.bitpix = 0 ∨ userSupplied p = false) then
    if p.bitpix = 0 ∨ (src > 0 ∧ src > p.bitpix) ∨ (src < 0 ∧ src < p.bitpix) then
      setBitpix p src
    else .ok p
  else .ok p

/-- Comment part of `merge` (src/map_parameters.cpp:350-352). -/
def mergeComments (p : Params) (src : List String) : Params :=
  if isMergeable p .comment then { p with comments := p.comments ++ src } else p

/-- Grid comment part of `merge` (src/map_parameters.cpp:354-356). -/
def mergeXcomments (p : Params) (src : List String) : Params :=
  if isMergeable p .xcomment then { p with xcomments := p.xcomments ++ src } else p

/-- `merge` (src/map_parameters.cpp:275-359).  No `merge_optional` returns
`false`, so neither does `merge`.  The comments moved out of the argument are
dropped from it by the code; the argument's later content is not modelled. -/
def merge (F : Fp) (p q : Params) : Outcome Params := do
  let p ← mergeBitpix p q.bitpix
  let p := mergeStr p .author (q.str .author)
  let p := mergeBlank p q.blank
  let p := mergeReal F p .bscale (q.real .bscale)
  let p := mergeStr p .bunit (q.str .bunit)
  let p := mergeReal F p .bzero (q.real .bzero)
  let p := mergeReal F p .equinox (q.real .equinox)
  let p := mergeStr p .instrument (q.str .instrument)
  let p := mergeStr p .object (q.str .object)
  let p := mergeStr p .observer (q.str .observer)
  let p := mergeStr p .origin (q.str .origin)
  let p := mergeStr p .reference (q.str .reference)
  let p := mergeStr p .telescope (q.str .telescope)
  let p := mergeComments p q.comments
  .ok (mergeXcomments p q.xcomments)

/-- Merge a sequence of parameter sets, one after the other. -/
def mergeAll (F : Fp) (p : Params) : List Params → Outcome Params
  | [] => .ok p
  | q :: qs => do
    let p ← merge F p q
    mergeAll F p qs

/-- `MapCommand::populate_map_parameters` (src/MapCommand.cpp:393-437) for
source images that populate the given plane parameters.  Note that `to_merge` is
default constructed, i.e. has plane 0. -/
def populate (F : Fp) (user : Params) (planes : List Params) : Outcome Params := do
  let toMerge ← mergeAll F (fresh 0) planes
  merge F user toMerge

/-- What a client can do with map parameters. -/
inductive Op where
  | str (k : StrKey) (s : String)
  | real (k : RealKey) (v : Option Dbl)
  | blank (v : Option ℤ)
  | bitpix (n : ℤ)
  | comment (c : String)
  | xcomment (c : String)
  | merge (q : Params)

/-- Perform one operation. -/
def step (F : Fp) (p : Params) : Op → Outcome Params
  | .str k s => .ok (setStr p k s)
  | .real k v => .ok (setReal p k v)
  | .blank v => .ok (setBlank p v)
  | .bitpix n => setBitpix p n
  | .comment c => .ok (pushComment p c)
  | .xcomment c => .ok (pushXcomment p c)
  | .merge q => merge F p q

/-- Perform a history; an operation that throws has no effect (its exception is
caught by the client). -/
def run (F : Fp) (p : Params) : List Op → Params
  | [] => p
  | op :: ops =>
    match step F p op with
    | .ok p' => run F p' ops
    | _ => run F p ops

end MaRC.MapParams
