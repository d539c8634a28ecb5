import Verif.Model.Loops
import Verif.Model.Robust

/-!
# Model of the free helpers of `closure/mixed_cell_models.hpp`

`Real` is a linearly ordered field `K` (exact arithmetic, no NaN); `σ` is `robust::SMALL<Real>()`.
`PORTABLE_REQUIRE` is compiled out in release builds and is not part of the model.
-/

namespace Verif.PTE

open Robust

variable {K : Type*} [Field K] [LinearOrder K]

/-- `mixed_cell_models.hpp:97-105` (in `EnforceMassVolumesSum`): `imax`, `fmax` scan. -/
def argmaxV (n : Nat) (v : Nat → K) : Nat × K :=
  forN n (fun s m => if v m > s.2 then (m, v m) else s) (0, -1)

/-- Subtract every entry but `imax` (`mixed_cell_models.hpp:107-111`, `:141-145`). -/
def subOthers (n imax : Nat) (tot : K) (f : Nat → K) : K :=
  forN n (fun s m => if m = imax then s else s - f m) tot

/-- `mixed_cell_models.hpp:94-117` `EnforceMassVolumesSum`; returns `(rho, vfracs)`. -/
def enforceMassVolumesSum (σ : K) (n : Nat) (totVol : K) (rho vfracs : Nat → K) :
    (Nat → K) × (Nat → K) :=
  let imax := (argmaxV n vfracs).1
  let vnew := subOthers n imax totVol vfracs
  (Function.update rho imax (rho imax * ratio σ (vfracs imax) vnew),
   Function.update vfracs imax vnew)

/-- `mixed_cell_models.hpp:132-140` (in `EnforceEnergiesSum`): largest absolute contribution. -/
def argmaxAbs (n : Nat) (um : Nat → K) : Nat × K :=
  forN n (fun s m => if |um m| > s.2 then (m, |um m|) else s) (0, 0)

/-- `mixed_cell_models.hpp:119-149` `EnforceEnergiesSum`; returns `sies`. -/
def enforceEnergiesSum (σ : K) (n : Nat) (totRho totSie : K) (rhos vfracs sies : Nat → K) :
    Nat → K :=
  let um := fun m => rhos m * vfracs m * sies m
  let imax := (argmaxAbs n um).1
  let unew := subOthers n imax (totSie * totRho) um
  Function.update sies imax (ratio σ unew (rhos imax * vfracs imax))

/-- `mixed_cell_models.hpp:287-305` `sum_neumaier`. `iskip < 0` skips nothing. -/
def sumNeumaier (data : Nat → K) (n : Nat) (offset : Nat := 0) (iskip : Int := -1)
    (op : K → K := id) : K :=
  let r := forN n (fun (s : K × K) i =>
    if iskip ≥ 0 ∧ (i : Int) = iskip then s
    else
      let x := op (data (i + offset))
      let t := s.1 + x
      if |s.1| ≥ |x| then (t, s.2 + ((s.1 - t) + x)) else (t, s.2 + ((x - t) + s.1))) (0, 0)
  r.1 + r.2

/-- `mixed_cell_models.hpp:188-203` (in `solve_Ax_b_wscr`): the largest absolute entry of a row. -/
def rowMax (n : Nat) (a : Nat → K) (row : Nat) : K :=
  forN n (fun s c => max |a (row * n + c)| s) 0

/-- `mixed_cell_models.hpp:189-202`: one pass of the row scaling loop; `none` after the early
`return false`. -/
def scaleRow (n : Nat) (s : Option ((Nat → K) × (Nat → K))) (row : Nat) :
    Option ((Nat → K) × (Nat → K)) :=
  match s with
  | none => none
  | some (a, b) =>
    if rowMax n a row = 0 then none
    else some
      (forN n (fun a' c => Function.update a' (row * n + c) (a' (row * n + c) / rowMax n a row)) a,
        Function.update b row (b row / rowMax n a row))

/-- `mixed_cell_models.hpp:188-203`: the row scaling loop. -/
def scaleRows (n : Nat) (a b : Nat → K) : Option ((Nat → K) × (Nat → K)) :=
  forN n (scaleRow n) (some (a, b))

/-- `mixed_cell_models.hpp:176-278` `solve_Ax_b_wscr`. `none` is `return false`; the solution replaces
`b`. For `n ≥ 3` the code calls a QR factorisation from Eigen or Kokkos Kernels: that is the
parameter `qr` (unspecified here). The final `check_nans` is always true in exact arithmetic. -/
def solveAxb (σ : K) (qr : (Nat → K) → (Nat → K) → (Nat → K)) (n : Nat) (a b : Nat → K) :
    Option (Nat → K) :=
  match scaleRows n a b with
  | none => none
  | some (a, b) =>
    if n = 1 then some (Function.update b 0 (ratio σ (b 0) (a 0)))
    else if n = 2 then
      let det := a 0 * a 3 - a 1 * a 2
      let x0 := ratio σ (a 3 * b 0 - a 1 * b 1) det
      let x1 := ratio σ (a 0 * b 1 - a 2 * b 0) det
      some (Function.update (Function.update b 0 x0) 1 x1)
    else some (qr a b)

/-! ## Scratch layout -/

/-- `mixed_cell_models.hpp:766-770` `AssignIncrement`, over a list of block sizes: the blocks are the
consecutive `(offset, size)` pairs handed out, and the final scratch pointer. -/
def assign (start : Nat) : List Nat → List (Nat × Nat) × Nat
  | [] => ([], start)
  | s :: ss => ((start, s) :: (assign (start + s) ss).1, (assign (start + s) ss).2)

/-- `mixed_cell_models.hpp:371-386`: blocks of `PTESolverBase`: jacobian, dx, sol_scratch, residual,
u, rhobar. -/
def baseBlocks (nmat neq : Nat) : List Nat := [neq * neq, neq, 2 * neq, neq, nmat, nmat]

/-- The five solver classes. (mixed_cell_models.hpp:884, 1208, 1463, 1686, 1935) -/
inductive Solver where
  | rhoT | pT | fixedT | fixedP | rhoU
  deriving DecidableEq

/-- Number of equations passed to the base constructor
(`mixed_cell_models.hpp:929`, `:1252`, `:1504`, `:1729`, `:1980`). -/
def neqOf : Solver → Nat → Nat
  | .rhoT, n => n
  | .pT, _ => 2
  | .fixedT, n => n
  | .fixedP, n => n + 1
  | .rhoU, n => 2 * n

/-- Blocks assigned by each constructor: `:931-934` (RhoT: dpdv, dedv, dpdT, vtemp), `:1252-1254` (PT: none),
`:1506-1507` (FixedT: dpdv, vtemp), `:1731-1733` (FixedP: dpdv, dpdT, vtemp), `:1982-1987` (RhoU: dpdv,
dtdv, dpde, dtde, vtemp, utemp). -/
def blocks (s : Solver) (n : Nat) : List Nat :=
  baseBlocks n (neqOf s n) ++
    match s with
    | .rhoT => [n, n, n, n]
    | .pT => []
    | .fixedT => [n, n]
    | .fixedP => [n, n, n]
    | .rhoU => [n, n, n, n, n, n]

/-- `PTESolver*RequiredScratch(nmat)`: `mixed_cell_models.hpp:873-878`, `:1190-1195`, `:1453-1459`,
`:1674-1680`, `:1924-1929`. -/
def requiredScratch : Solver → Nat → Nat
  | .rhoT, n => n * n + 4 * n + 6 * n
  | .pT, n => 2 * 2 + 4 * 2 + 2 * n
  | .fixedT, n => n * n + 4 * n + 2 * n + 2 * n
  | .fixedP, n => (n + 1) * (n + 1) + 4 * (n + 1) + 2 * n + 3 * n
  | .rhoU, n => (2 * n) * (2 * n) + 4 * (2 * n) + 8 * n

/-- `mixed_cell_models.hpp:307-324` `CacheAccessor`: the cells of material `m`'s lambda. `L` is
`MAX_NUM_LAMBDAS`. -/
def cacheCells (L m i : Nat) : Nat := m * L + i

end Verif.PTE
