import Verif.Model.IeeeRootFind
import Verif.Model.PTECheck

/-! # The PTE iteration on machine numbers

The residuals, their norm, the convergence tests and the driver of `closure/mixed_cell_models.hpp` with IEEE arithmetic
(`Spec/Ieee`): every operation rounded with `rnd`, overflow beyond `Ω` to infinities, NaN. A solver class is again a record
`PTE.Sys` of its member functions, now on machine numbers. Signed zeros are not distinguished. -/

namespace Verif.Ieee

open Classical PTE

/-- `std::sqrt` (mixed_cell_models.hpp:1028, 1570, 1797, 2035-2036), correctly rounded; the root of a finite number does not overflow. -/
noncomputable def sqrtE (rnd : ℝ → ℝ) : Ext → Ext
  | .nan => .nan
  | .inf s => if s then .nan else .inf false
  | .fin x => if x < 0 then .nan else .fin (rnd (Real.sqrt x))

variable (rnd : ℝ → ℝ) (Ω : ℝ)

/-- `[](const Real x) { return x * x; }` (mixed_cell_models.hpp:666, 1029). -/
noncomputable def sqE (x : Ext) : Ext := mul rnd Ω x x

/-- `mixed_cell_models.hpp:287-305` `sum_neumaier`, `iskip` as in `PTE.sumNeumaier`. -/
noncomputable def sumNeumaierE (data : Nat → Ext) (n : Nat) (offset : Nat := 0) (iskip : Int := -1) (op : Ext → Ext := id) : Ext :=
  let r := forN n (fun (s : Ext × Ext) i =>
    if iskip ≥ 0 ∧ (i : Int) = iskip then s
    else
      let x := op (data (i + offset))
      let t := add rnd Ω s.1 x
      if le (absE x) (absE s.1) then (t, add rnd Ω s.2 (add rnd Ω (sub rnd Ω s.1 t) x))
      else (t, add rnd Ω s.2 (add rnd Ω (sub rnd Ω x t) s.1))) (.fin 0, .fin 0)
  add rnd Ω r.1 r.2

/-- `mixed_cell_models.hpp:665-667` `ResidualNorm`, with `neq = n`. -/
noncomputable def residualNormE (residual : Nat → Ext) (n : Nat) : Ext :=
  mul rnd Ω (.fin (1 / 2)) (sumNeumaierE rnd Ω residual n 0 (-1) (sqE rnd Ω))

/-! ## Residuals -/

/-- `mixed_cell_models.hpp:1011-1019` `PTESolverRhoT::Residual` (see `PTE.skipFill`). -/
noncomputable def rhoTResidualE (n ms : Nat) (utot : Ext) (u press res : Nat → Ext) : Nat → Ext :=
  (forN n (fun (s : Nat × (Nat → Ext)) m =>
    if m = ms then s else (s.1 + 1, Function.update s.2 s.1 (sub rnd Ω (press ms) (press m))))
    (1, Function.update res 0 (sub rnd Ω utot (sumNeumaierE rnd Ω u n)))).2

/-- `mixed_cell_models.hpp:1315-1320` `PTESolverPT::Residual`. -/
noncomputable def ptResidualE (n : Nat) (vt utot : Ext) (vfrac u res : Nat → Ext) : Nat → Ext :=
  Function.update (Function.update res 0 (sub rnd Ω vt (sumNeumaierE rnd Ω vfrac n))) 1 (sub rnd Ω utot (sumNeumaierE rnd Ω u n))

/-- `mixed_cell_models.hpp:1554-1560` `PTESolverFixedT::Residual`. -/
noncomputable def fixedTResidualE (n : Nat) (vt : Ext) (vfrac press res : Nat → Ext) : Nat → Ext :=
  forN (n - 1) (fun r m => Function.update r (1 + m) (sub rnd Ω (press m) (press (m + 1))))
    (Function.update res 0 (sub rnd Ω vt (sumNeumaierE rnd Ω vfrac n)))

/-- `mixed_cell_models.hpp:1782-1788` `PTESolverFixedP::Residual`. -/
noncomputable def fixedPResidualE (n : Nat) (vt P uscale : Ext) (vfrac press res : Nat → Ext) : Nat → Ext :=
  Function.update (forN n (fun r m => Function.update r m (sub rnd Ω (ratio rnd Ω P uscale) (press m))) res) n
    (sub rnd Ω vt (sumNeumaierE rnd Ω vfrac n))

/-- `mixed_cell_models.hpp:2009-2020` `PTESolverRhoU::Residual`; `neq = 2 nmat`. -/
noncomputable def rhoUResidualE (n : Nat) (vt utot : Ext) (vfrac u press temp res : Nat → Ext) : Nat → Ext :=
  let r0 := Function.update (Function.update res 0 (sub rnd Ω vt (sumNeumaierE rnd Ω vfrac n))) 1
    (sub rnd Ω utot (sumNeumaierE rnd Ω u n))
  let r1 := forN (n - 1) (fun r m => Function.update r (2 + m) (sub rnd Ω (press (m + 1)) (press m))) r0
  forN (2 * n - (n + 1)) (fun r k => Function.update r (n + 1 + k) (sub rnd Ω (temp (1 + k)) (temp k))) r1

/-! ## Convergence tests -/

/-- The tolerances of `MixParams` as machine numbers (`mixed_cell_models.hpp:47-60`). -/
structure TolE where
  relP : Ext
  relT : Ext
  relE : Ext
  relV : Ext
  absP : Ext
  absT : Ext

/-- Tolerances given as real numbers (`mixed_cell_models.hpp:47-60`). -/
def tolE (t : Tol) : TolE where
  relP := .fin t.relP
  relT := .fin t.relT
  relE := .fin t.relE
  relV := .fin t.relV
  absP := .fin t.absP
  absT := .fin t.absT

/-- `err < rel * |scale| || err < abs` (pattern of `mixed_cell_models.hpp:1032-1033`). -/
def smallE (err rel scale abs : Ext) : Prop := lt err (mul rnd Ω rel (absE scale)) ∨ lt err abs

/-- `mixed_cell_models.hpp:1022-1040` `PTESolverRhoT::CheckPTE`, one component of the pair; `neq - 1 = nmat - 1`. -/
noncomputable def rhoTCheckE (t : TolE) (n : Nat) (vfrac press residual : Nat → Ext) : Prop :=
  let meanP := forN n (fun a m => add rnd Ω a (mul rnd Ω (vfrac m) (press m))) (.fin 0)
  let errP := sqrtE rnd (sumNeumaierE rnd Ω residual (n - 1) 1 (-1) (sqE rnd Ω))
  smallE rnd Ω errP t.relP meanP t.absP ∧ lt (absE (residual 0)) t.relE

/-- `mixed_cell_models.hpp:1323-1335` `PTESolverPT::CheckPTE` (`RV = 0`, `RSIE = 1`). -/
def ptCheckE (t : TolE) (residual : Nat → Ext) : Prop :=
  lt (absE (residual 0)) t.relV ∧ lt (absE (residual 1)) t.relE

/-- The loop `for m = 1 .. n-1: acc += term(m)` (`mixed_cell_models.hpp:1566-1569`, `:2028-2033`). -/
noncomputable def accE (n : Nat) (init : Ext) (term : Nat → Ext) : Ext :=
  forN (n - 1) (fun a m => add rnd Ω a (term (m + 1))) init

/-- `mixed_cell_models.hpp:1563-1581` `PTESolverFixedT::CheckPTE`. -/
noncomputable def fixedTCheckE (t : TolE) (n : Nat) (vfrac press residual : Nat → Ext) : Prop :=
  let meanP := accE rnd Ω n (mul rnd Ω (vfrac 0) (press 0)) (fun m => mul rnd Ω (vfrac m) (press m))
  let errP := sqrtE rnd (accE rnd Ω n (.fin 0) (fun m => sqE rnd Ω (residual m)))
  smallE rnd Ω errP t.relP meanP t.absP ∧ lt (absE (residual 0)) t.relV

/-- `mixed_cell_models.hpp:1791-1807` `PTESolverFixedP::CheckPTE`; `neq - 1 = nmat`. -/
noncomputable def fixedPCheckE (t : TolE) (n : Nat) (uscale : Ext) (residual : Nat → Ext) : Prop :=
  let errP := mul rnd Ω (sqrtE rnd (forN n (fun a m => add rnd Ω a (sqE rnd Ω (residual m))) (.fin 0))) uscale
  (lt errP t.relP ∨ lt errP t.absP) ∧ lt (absE (residual n)) t.relV

/-- `mixed_cell_models.hpp:2023-2048` `PTESolverRhoU::CheckPTE`. -/
noncomputable def rhoUCheckE (t : TolE) (n : Nat) (rhoTotal : Ext) (rhobar vfrac press temp residual : Nat → Ext) : Prop :=
  let meanP := accE rnd Ω n (mul rnd Ω (vfrac 0) (press 0)) (fun m => mul rnd Ω (vfrac m) (press m))
  let meanT := ratio rnd Ω (accE rnd Ω n (mul rnd Ω (rhobar 0) (temp 0)) (fun m => mul rnd Ω (rhobar m) (temp m))) rhoTotal
  let errP := sqrtE rnd (accE rnd Ω n (.fin 0) (fun m => sqE rnd Ω (residual (m + 1))))
  let errT := sqrtE rnd (accE rnd Ω n (.fin 0) (fun m => sqE rnd Ω (residual (m + n))))
  smallE rnd Ω errP t.relP meanP t.absP ∧ (lt errT (mul rnd Ω t.relT meanT) ∨ lt errT t.absT)

/-! ## The driver -/

variable {S : Type*}

/-- `mixed_cell_models.hpp:2258-2266`: the backtracking loop (see `PTE.lineLoop`). -/
noncomputable def lineLoopE (Y : Sys S Ext) (α fac errOld g : Ext) : Nat → Nat → S → Ext → Ext → Nat → S × Ext × Nat
  | 0, _, s, err, _, ml => (s, err, ml)
  | f + 1, it, s, _, scale, ml =>
    let r := Y.testUpdate s scale false
    if lt r.2 (add rnd Ω errOld (mul rnd Ω (mul rnd Ω α scale) g)) then (r.1, r.2, ml)
    else lineLoopE Y α fac errOld g f (it + 1) r.1 r.2 (mul rnd Ω scale fac) (max it ml)

/-- `mixed_cell_models.hpp:2255`: the scale of the pseudo-parabolic fit. -/
noncomputable def parabolaE (err errMid errOld : Ext) : Ext :=
  add rnd Ω (.fin (3 / 4)) (mul rnd Ω (.fin (1 / 2))
    (ratio rnd Ω (sub rnd Ω errMid err) (add rnd Ω (sub rnd Ω err (mul rnd Ω (.fin 2) errMid)) errOld)))

/-- `mixed_cell_models.hpp:2241-2268`: the line search. `g` is `gradfdx`. -/
noncomputable def lineSearchE (Y : Sys S Ext) (p : DriverParams Ext) (s : S) (errOld g : Ext) (ml : Nat) : S × Ext × Nat :=
  let r := Y.testUpdate s (.fin 1) true
  if lt (add rnd Ω errOld (mul rnd Ω p.lineAlpha g)) r.2 then
    let q := Y.testUpdate r.1 (.fin (1 / 2)) false
    let scale := if lt q.2 r.2 ∧ lt q.2 errOld then parabolaE rnd Ω r.2 q.2 errOld else .fin (1 / 2)
    lineLoopE rnd Ω Y p.lineAlpha p.lineFac errOld g p.lineMax 0 q.1 r.2 scale ml
  else (r.1, r.2, ml)

/-- `mixed_cell_models.hpp:2239-2283`: line search, `Fixup`, slow-convergence exit (see `PTE.driverTail`). -/
noncomputable def driverTailE (Y : Sys S Ext) (p : DriverParams Ext) (maxIter k : Nat) (scale : Ext) (d : DState S Ext) :
    Bool × DState S Ext :=
  let l := lineSearchE rnd Ω Y p d.s d.err (mul rnd Ω (mul rnd Ω (.fin (-2)) scale) d.err) d.maxLine
  if (lt (mul rnd Ω p.slowThresh d.err) l.2.1 ∨ k = maxIter - 1) ∧ d.close = true then
    (true, { d with s := Y.fixup l.1, err := l.2.1, maxLine := l.2.2, converged := true, slow := true })
  else (false, { d with s := Y.fixup l.1, err := l.2.1, maxLine := l.2.2 })

/-- `mixed_cell_models.hpp:2217-2237`: Jacobian, linear solve, step scaling and the small-step exit. `std::min(1.0, ScaleDx())` is
`stdMin`; `PORTABLE_REQUIRE(scale <= 1.0)` then always holds and is left out. -/
noncomputable def driverMidE (Y : Sys S Ext) (p : DriverParams Ext) (maxIter k : Nat) (d : DState S Ext) : Bool × DState S Ext :=
  let sv := Y.solve (Y.jacobian d.s)
  if sv.2 = false then (true, { d with s := sv.1, converged := false })
  else
    let sc := Y.scaleDx sv.1
    let scale := stdMin (.fin 1) sc.2
    let small := if lt (absE scale) p.smallThresh then d.small + 1 else d.small
    if p.smallTries ≤ small then (true, { d with s := sc.1, small := small, converged := false })
    else driverTailE rnd Ω Y p maxIter k scale { d with s := sc.1, small := small }

/-- `mixed_cell_models.hpp:2208-2284`: one pass of the main loop; `true` means `break`. -/
noncomputable def driverBodyE (Y : Sys S Ext) (p : DriverParams Ext) (maxIter k : Nat) (d : DState S Ext) : Bool × DState S Ext :=
  let c := Y.check d.s
  let d := { d with niter := k, maxNiter := max d.maxNiter k, converged := c.1, close := c.2 }
  if c.1 = true then (true, d) else driverMidE rnd Ω Y p maxIter k d

/-- `mixed_cell_models.hpp:2206-2285`: the main loop with `f` passes left, `k` done. -/
noncomputable def driverLoopE (Y : Sys S Ext) (p : DriverParams Ext) (maxIter : Nat) : Nat → Nat → DState S Ext → DState S Ext
  | 0, k, d => { d with niter := k }
  | f + 1, k, d =>
    let r := driverBodyE rnd Ω Y p maxIter k d
    if r.1 then r.2 else driverLoopE Y p maxIter f (k + 1) r.2

/-- `mixed_cell_models.hpp:2189-2292` `PTESolver`: status and final state. -/
noncomputable def pteSolverE (Y : Sys S Ext) (p : DriverParams Ext) (s0 : S) : DState S Ext :=
  let i := Y.init s0
  let maxIter := Y.nmat * p.maxIterPerMat
  let d := driverLoopE rnd Ω Y p maxIter maxIter 0
    { s := i.1, err := i.2, converged := false, close := false, small := 0, slow := false,
      maxNiter := 0, maxLine := 0, niter := 0 }
  { d with s := Y.finalize (Y.fixup d.s) }

/-- Parameters given as real numbers; the default decimal values (`mixed_cell_models.hpp:62-71`) are rounded by the compiler. -/
noncomputable def paramsE (p : DriverParams ℝ) : DriverParams Ext where
  maxIterPerMat := p.maxIterPerMat
  smallTries := p.smallTries
  smallThresh := .fin (rnd p.smallThresh)
  lineAlpha := .fin (rnd p.lineAlpha)
  lineMax := p.lineMax
  lineFac := .fin (rnd p.lineFac)
  slowThresh := .fin (rnd p.slowThresh)

end Verif.Ieee
