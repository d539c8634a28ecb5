import Mathlib.Algebra.Order.Floor.Ring
import Mathlib.Algebra.Order.Field.Basic
import Verif.Model.Loops

/-!
# Spiner `RegularGrid1D` and `DataBox`

An external library (`utils/spiner`, an empty submodule at this commit): this file is an assumption about it, recorded in
DESIGN.md.  A grid has `N` equally spaced points; interpolation is linear in each coordinate between the two
neighbouring points, and continues the first or last segment outside the grid (`interpToReal`).  Index 0 of `range` is the
fastest (last) argument.
-/

namespace Verif.Databox

variable {K : Type*} [Field K] [LinearOrder K] [IsStrictOrderedRing K] [FloorRing K]

/-- `RegularGrid1D(min, max, N)` (external: ports-of-call spiner, regular_grid_1d.hpp) -/
structure Grid (K : Type*) where
  (min max : K) (N : Nat)

/-- `RegularGrid1D::dx()` (external: ports-of-call spiner, regular_grid_1d.hpp) -/
def Grid.dx (g : Grid K) : K := (g.max - g.min) / ((g.N : K) - 1)

/-- `RegularGrid1D::x(i)` (external: ports-of-call spiner, regular_grid_1d.hpp) -/
def Grid.x (g : Grid K) (i : Nat) : K := g.min + i * g.dx

/-- `RegularGrid1D::index(x)`: clamped to `[0, N-2]`. (external: ports-of-call spiner, regular_grid_1d.hpp) -/
def Grid.index (g : Grid K) (x : K) : Nat := Nat.min (g.N - 2) ⌊(x - g.min) / g.dx⌋.toNat

/-- `RegularGrid1D::weights`: the weight of the upper neighbour.
(external: ports-of-call spiner, regular_grid_1d.hpp) -/
def Grid.w (g : Grid K) (x : K) : K := (x - g.x (g.index x)) / g.dx

/-- One-dimensional `interpToReal`. (external: ports-of-call spiner, databox.hpp) -/
def lin (g : Grid K) (f : Nat → K) (x : K) : K :=
  (1 - g.w x) * f (g.index x) + g.w x * f (g.index x + 1)

/-- A two-dimensional `DataBox` with its ranges. (external: ports-of-call spiner, databox.hpp) -/
structure Box2 (K : Type*) where
  (g1 g0 : Grid K)
  data : Nat → Nat → K

/-- A three-dimensional `DataBox` with its ranges. (external: ports-of-call spiner, databox.hpp) -/
structure Box3 (K : Type*) where
  (g2 g1 g0 : Grid K)
  data : Nat → Nat → Nat → K

/-- `DataBox::interpToReal(x1, x0)` (external: ports-of-call spiner, databox.hpp) -/
def Box2.interp (b : Box2 K) (x1 x0 : K) : K := lin b.g1 (fun j => lin b.g0 (b.data j) x0) x1

/-- `DataBox::interpToReal(x2, x1, x0)` (external: ports-of-call spiner, databox.hpp) -/
def Box3.interp (b : Box3 K) (x2 x1 x0 : K) : K :=
  lin b.g2 (fun k => lin b.g1 (fun j => lin b.g0 (b.data k j) x0) x1) x2

/-- `DataBox::min()` of a two-dimensional box. (external: ports-of-call spiner, databox.hpp) -/
def Box2.min (b : Box2 K) : K :=
  forN b.g1.N (fun m j => forN b.g0.N (fun m i => if b.data j i < m then b.data j i else m) m) (b.data 0 0)

/-- `DataBox::max()` of a two-dimensional box. (external: ports-of-call spiner, databox.hpp) -/
def Box2.max (b : Box2 K) : K :=
  forN b.g1.N (fun m j => forN b.g0.N (fun m i => if m < b.data j i then b.data j i else m) m) (b.data 0 0)

end Verif.Databox
