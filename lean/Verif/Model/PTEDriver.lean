import Verif.Model.PTESolvers

/-!
# Model of the Newton driver `PTESolver` of `closure/mixed_cell_models.hpp:2189-2292`

A solver class is a record `Sys` of the member functions the driver calls, over an arbitrary state `S`
(the solver object together with everything it points to).  `robust::SMALL` is `σ`.
-/

namespace Verif.PTE

open Robust

variable {S K : Type*} [Field K] [LinearOrder K]

/-- The member functions `PTESolver` uses (`mixed_cell_models.hpp:2196-2289`). -/
structure Sys (S K : Type*) where
  nmat : Nat
  /-- `Init()` -/
  init : S → S × K
  /-- `CheckPTE()`: (converged, acceptable) -/
  check : S → Bool × Bool
  /-- `Jacobian()` -/
  jacobian : S → S
  /-- `Solve()` -/
  solve : S → S × Bool
  /-- `ScaleDx()` (which also multiplies `dx`) -/
  scaleDx : S → S × K
  /-- `TestUpdate(scale, cache_state)` -/
  testUpdate : S → K → Bool → S × K
  /-- `Fixup()` -/
  fixup : S → S
  /-- `Finalize()` -/
  finalize : S → S

/-- The fields of `MixParams` (`mixed_cell_models.hpp:44-78`) read by the driver. -/
structure DriverParams (K : Type*) where
  maxIterPerMat : Nat
  smallTries : Nat
  smallThresh : K
  lineAlpha : K
  lineMax : Nat
  lineFac : K
  slowThresh : K

/-- Default values (`mixed_cell_models.hpp:54`, `:62-71`). -/
def defaultParams : DriverParams K where
  maxIterPerMat := 128
  smallTries := 2
  smallThresh := 1 / 10 ^ 16
  lineAlpha := 1 / 100
  lineMax := 6
  lineFac := 1 / 2
  slowThresh := 99 / 100

/-- The driver's local variables and `SolverStatus` (`mixed_cell_models.hpp:82-88`, `:2191-2206`). -/
structure DState (S K : Type*) where
  s : S
  err : K
  converged : Bool
  close : Bool
  small : Nat
  slow : Bool
  maxNiter : Nat
  maxLine : Nat
  niter : Nat

/-- `mixed_cell_models.hpp:2258-2266`: the backtracking loop. `it` is `line_iter`, the first argument
the number of passes left. Returns state, error and `max_line_niter`. -/
def lineLoop (Y : Sys S K) (α fac errOld g : K) : Nat → Nat → S → K → K → Nat → S × K × Nat
  | 0, _, s, err, _, ml => (s, err, ml)
  | f + 1, it, s, _, scale, ml =>
    let r := Y.testUpdate s scale false
    if r.2 < errOld + α * scale * g then (r.1, r.2, ml)
    else lineLoop Y α fac errOld g f (it + 1) r.1 r.2 (scale * fac) (max it ml)

/-- `mixed_cell_models.hpp:2255`: the scale of the pseudo-parabolic fit. -/
def parabola (σ err errMid errOld : K) : K :=
  3 / 4 + 1 / 2 * ratio σ (errMid - err) (err - 2 * errMid + errOld)

/-- `mixed_cell_models.hpp:2241-2268`: the line search. `g` is `gradfdx`. -/
def lineSearch (σ : K) (Y : Sys S K) (p : DriverParams K) (s : S) (errOld g : K) (ml : Nat) :
    S × K × Nat :=
  let r := Y.testUpdate s 1 true
  if r.2 > errOld + p.lineAlpha * g then
    let q := Y.testUpdate r.1 (1 / 2) false
    let scale := if q.2 < r.2 ∧ q.2 < errOld then parabola σ r.2 q.2 errOld else 1 / 2
    lineLoop Y p.lineAlpha p.lineFac errOld g p.lineMax 0 q.1 r.2 scale ml
  else (r.1, r.2, ml)

/-- `mixed_cell_models.hpp:2239-2283`: the part of a pass after the step has been scaled: line search,
`Fixup`, and the slow-convergence exit. `d.s` is the state after `ScaleDx`, `scale` its (capped) result. -/
def driverTail (σ : K) (Y : Sys S K) (p : DriverParams K) (maxIter k : Nat) (scale : K) (d : DState S K) :
    Bool × DState S K :=
  let l := lineSearch σ Y p d.s d.err (-2 * scale * d.err) d.maxLine
  if (l.2.1 > p.slowThresh * d.err ∨ k = maxIter - 1) ∧ d.close = true then
    (true, { d with s := Y.fixup l.1, err := l.2.1, maxLine := l.2.2, converged := true, slow := true })
  else (false, { d with s := Y.fixup l.1, err := l.2.1, maxLine := l.2.2 })

/-- `mixed_cell_models.hpp:2217-2237`: Jacobian, linear solve, step scaling and the small-step exit.
`PORTABLE_REQUIRE(scale <= 1.0)` always holds and is left out. -/
def driverMid (σ : K) (Y : Sys S K) (p : DriverParams K) (maxIter k : Nat) (d : DState S K) :
    Bool × DState S K :=
  let sv := Y.solve (Y.jacobian d.s)
  if sv.2 = false then (true, { d with s := sv.1, converged := false })
  else
    let sc := Y.scaleDx sv.1
    let scale := min 1 sc.2
    let small := if |scale| < p.smallThresh then d.small + 1 else d.small
    if p.smallTries ≤ small then (true, { d with s := sc.1, small := small, converged := false })
    else driverTail σ Y p maxIter k scale { d with s := sc.1, small := small }

/-- `mixed_cell_models.hpp:2208-2284`: one pass of the main loop; `true` means `break`. -/
def driverBody (σ : K) (Y : Sys S K) (p : DriverParams K) (maxIter k : Nat) (d : DState S K) :
    Bool × DState S K :=
  let c := Y.check d.s
  let d := { d with niter := k, maxNiter := max d.maxNiter k, converged := c.1, close := c.2 }
  if c.1 = true then (true, d) else driverMid σ Y p maxIter k d

/-- `mixed_cell_models.hpp:2206-2285`: the main loop with `f` passes left, `k` done. -/
def driverLoop (σ : K) (Y : Sys S K) (p : DriverParams K) (maxIter : Nat) :
    Nat → Nat → DState S K → DState S K
  | 0, k, d => { d with niter := k }
  | f + 1, k, d =>
    let r := driverBody σ Y p maxIter k d
    if r.1 then r.2 else driverLoop σ Y p maxIter f (k + 1) r.2

/-- `mixed_cell_models.hpp:2189-2292` `PTESolver`: status and final state. `SolverStatus` starts
as `{false, 0, 0, 0, false, 0}` (`:82-88`). -/
def pteSolver (σ : K) (Y : Sys S K) (p : DriverParams K) (s0 : S) : DState S K :=
  let i := Y.init s0
  let maxIter := Y.nmat * p.maxIterPerMat
  let d := driverLoop σ Y p maxIter maxIter 0
    { s := i.1, err := i.2, converged := false, close := false, small := 0, slow := false,
      maxNiter := 0, maxLine := 0, niter := 0 }
  { d with s := Y.finalize (Y.fixup d.s) }

end Verif.PTE
