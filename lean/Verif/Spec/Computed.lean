import Verif.Spec.InputValid
import Verif.Spec.Program

/-!
# Maps of computed images

When nothing stands in the way of a map: its planes show latitudes, longitudes or
cosines, its data type can hold them, and the libraries and projections do their work.
-/

namespace MaRC.ProgramSpec

open MaRC.InputMeaning (Part parts upTo has int bitpix words)
open MaRC.Program (Machine)

/-- The entries `es` of a map that needs no photos and whose data type can hold its data. -/
structure Computed (es : Part) : Prop where
  type : bitpix (upTo "PLANE" es) ≠ 0
  size : ∀ s l, int "SAMPLES" (upTo "PLANE" es) = some s → int "LINES" (upTo "PLANE" es) = some l →
    s * l * (max 1 (parts "PLANE" es).length : ℕ) < 2 ^ 63 - 1
  photos : ∀ p ∈ parts "PLANE" es, parts "IMAGE" p = []
  limits : ∀ p ∈ parts "PLANE" es, has "DATA_MIN" p = false ∧ has "DATA_MAX" p = false
  bytes : ∀ p ∈ parts "PLANE" es, "LONGITUDE" ∈ p.flatMap (words ·.2) →
    bitpix (upTo "PLANE" es) ≠ 8

/-- Arithmetic is that of IEEE 754, all calls of CFITSIO succeed, projections plot no more
points than a map has, all of them in the map, and grids can be drawn. -/
structure Working (M : Machine) : Prop where
  ieee : M.E.F = .ieee
  create : ∀ i, (M.cfitsio i).create = true
  map : ∀ i, (M.cfitsio i).map = true
  grid : ∀ i, (M.cfitsio i).grid = true
  offsets : ∀ b p samples lines, ∀ x ∈ M.plots b p samples lines, x.2 < samples * lines
  count : ∀ b p samples lines, (M.plots b p samples lines).length ≤ samples * lines
  grids : ∀ b p i samples lines, ∃ g, M.grid b p i samples lines = .ok g

end MaRC.ProgramSpec
