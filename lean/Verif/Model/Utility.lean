import Verif.Model.Num

/-!
# `lib/marc/utility.h`: image inversion
-/

namespace MaRC.Utility

open MaRC

/-- `std::reverse` over `[start, start + n)`; forming or using an iterator past
the end is undefined. -/
def reverseRange {α : Type} (img : List α) (start n : ℕ) : Outcome (List α) :=
  if start + n ≤ img.length then
    .ok (img.take start ++ ((img.drop start).take n).reverse ++ img.drop (start + n))
  else .ub

/-- Body of the loop of `invert_samples` (lib/marc/utility.h:49-54): `count`
remaining lines, `start` the position of `begin`. -/
def invertSamplesLoop {α : Type} (samples : ℕ) :
    (count start : ℕ) → List α → Outcome (List α)
  | 0, _, img => .ok img
  | count + 1, start, img => do
      let img ← reverseRange img start samples
      invertSamplesLoop samples count (start + samples) img

/-- `MaRC::invert_samples` (lib/marc/utility.h:39-55).  The product
`samples * lines` is computed in `std::size_t`. -/
def invertSamples {α : Type} (img : List α) (samples lines : ℕ) :
    Outcome (List α) :=
  if img.length ≠ szMul samples lines then .throw .invalidArgument
  else invertSamplesLoop samples lines 0 img

/-- Exchange of two elements (`std::iter_swap`). -/
def swapAt {α : Type} (img : List α) (a b : ℕ) : Outcome (List α) :=
  match img[a]?, img[b]? with
  | some x, some y => .ok ((img.set a y).set b x)
  | _, _ => .ub

/-- `std::swap_ranges` of the `n` elements starting at `top` with those
starting at `bottom`, element by element. -/
def swapRanges {α : Type} : (n top bottom : ℕ) → List α → Outcome (List α)
  | 0, _, _, img => .ok img
  | n + 1, top, bottom, img => do
      let img ← swapAt img top bottom
      swapRanges n (top + 1) (bottom + 1) img

/-- Loop of `invert_lines` (lib/marc/utility.h:84-95): `count` iterations
starting at `line`. -/
def invertLinesLoop {α : Type} (samples lines : ℕ) :
    (count line : ℕ) → List α → Outcome (List α)
  | 0, _, img => .ok img
  | count + 1, line, img => do
      let img ← swapRanges samples (line * samples) ((lines - line - 1) * samples) img
      invertLinesLoop samples lines count (line + 1) img

/-- `MaRC::invert_lines` (lib/marc/utility.h:72-96). -/
def invertLines {α : Type} (img : List α) (samples lines : ℕ) :
    Outcome (List α) :=
  if img.length ≠ szMul samples lines then .throw .invalidArgument
  else invertLinesLoop samples lines (lines / 2) 0 img

end MaRC.Utility
