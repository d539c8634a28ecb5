import Verif.Model.Table.DataBox

/-!
# Spiner `PiecewiseGrid1D`

The grids of the sesame tables (`Grid_t`, base/spiner_table_utils.hpp:42): up to three regular grids in a row; where two
meet the point is stored twice.  The class is in an external library (`utils/spiner`, an empty submodule at this commit): a
mesh is its points and the segment it selects for an argument.  What is assumed about the selection is `Mesh.Ok`
(`Lemmas/Mesh.lean`), recorded in DESIGN.md.
-/

namespace Verif.Databox

variable {K : Type*} [Field K] [LinearOrder K] [IsStrictOrderedRing K]

/-- `PiecewiseGrid1D`: points `x 0, …, x (N-1)`, and `index(y)`. (external: ports-of-call spiner, piecewise_grid_1d.hpp) -/
structure Mesh (K : Type*) where
  x : Nat → K
  N : Nat
  idx : K → Nat

/-- `min()` (external: ports-of-call spiner, piecewise_grid_1d.hpp) -/
def Mesh.min (g : Mesh K) : K := g.x 0

/-- `max()` (external: ports-of-call spiner, piecewise_grid_1d.hpp) -/
def Mesh.max (g : Mesh K) : K := g.x (g.N - 1)

/-- `weights`: the weight of the upper neighbour. (external: ports-of-call spiner, piecewise_grid_1d.hpp) -/
def Mesh.w (g : Mesh K) (y : K) : K := (y - g.x (g.idx y)) / (g.x (g.idx y + 1) - g.x (g.idx y))

/-- `interpToReal` in one dimension. (external: ports-of-call spiner, databox.hpp) -/
def Mesh.lin (g : Mesh K) (f : Nat → K) (y : K) : K := (1 - g.w y) * f (g.idx y) + g.w y * f (g.idx y + 1)

/-- `interpToReal` in two dimensions; `d j i` is point `j` of `g1`, point `i` of `g0`.
(external: ports-of-call spiner, databox.hpp) -/
def Mesh.lin2 (g1 g0 : Mesh K) (d : Nat → Nat → K) (y1 y0 : K) : K := g1.lin (fun j => g0.lin (d j) y0) y1

end Verif.Databox
