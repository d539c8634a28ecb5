import Verif.Model.Loops
import Verif.Model.MixUtils

/-!
# The host (C / Fortran) interface `get_sg_eos` and `init_sg_*`

`Real` is a field `K`. EOS queries and the PTE solver are arbitrary functions (oracles): nothing below
depends on what they return. Floating-point checks (`check_all_vals`, debug builds only) are not modelled.
-/

namespace Verif.CApi

open PTE

/-! ## Scratch rows and tokens -/

/-- What a running loop iteration holds: its loop index and the token it acquired
(`get_sg_eos_rho_t.cpp:34-38`, same lines in the three other kernels). -/
structure Active where
  iloop : Nat
  token : Nat
  deriving DecidableEq

/-- State of the parallel loop: the iterations now running, the loop indices already dispatched.
(get_sg_eos_rho_e.cpp:35-88 (the parallel loop of each of the four modes)) -/
structure Sched where
  active : List Active
  started : List Nat

/-- One scheduler event. `portableFor` dispatches each index below `ncell` once, in any order;
`UniqueToken::acquire` returns some token below `size()` that nobody holds; `release` frees it
(`get_sg_eos_rho_t.cpp:31-38`, `:99`). The token contract is Kokkos', not this repository's. -/
inductive SchedStep (ncell ntok : Nat) : Sched → Sched → Prop where
  | start (s : Sched) (i t : Nat) (hi : i < ncell) (hnew : i ∉ s.started) (ht : t < ntok)
      (hfree : ∀ a ∈ s.active, a.token ≠ t) :
      SchedStep ncell ntok s ⟨⟨i, t⟩ :: s.active, i :: s.started⟩
  | finish (s : Sched) (a : Active) (ha : a ∈ s.active) :
      SchedStep ncell ntok s ⟨s.active.erase a, s.started⟩

/-- States reachable from the start of the loop, under any schedule. (same loop) -/
inductive Reach (ncell ntok : Nat) : Sched → Prop where
  | init : Reach ncell ntok ⟨[], []⟩
  | step {s s'} (h : Reach ncell ntok s) (hs : SchedStep ncell ntok s s') : Reach ncell ntok s'

/-- `get_sg_eos.cpp:134`: `small_loop = tokens.size() > ncell`. -/
def smallLoop (ncell ntok : Nat) : Bool := decide (ncell < ntok)

/-- `get_sg_eos.cpp:135`: `scratch_size = min(tokens.size(), ncell)` rows. -/
def scratchRows (ncell ntok : Nat) : Nat := min ntok ncell

/-- `get_sg_eos_rho_t.cpp:38`: `tid = small_loop ? iloop : token`, the row index. -/
def rowOf (ncell ntok : Nat) (a : Active) : Nat :=
  if smallLoop ncell ntok then a.iloop else a.token

/-! ## Memory: iterations as sequences of steps on their own cell and row -/

/-- One loop iteration as a list of atomic steps; each step reads and writes only the iteration's own
cell data and its own scratch row (`get_sg_eos_*.cpp` index every view by `i` or `tid`).
(get_sg_eos_rho_e.cpp:35-88) -/
abbrev Prog (C R : Type*) := List (C × R → C × R)

/-- The loop with memory: cells, rows and the iterations in flight with the steps they still have. (same loop) -/
structure Mem (C R : Type*) where
  cell : Nat → C
  row : Nat → R
  active : List (Active × Prog C R)
  started : List Nat

/-- Interleaved execution. `progs i` is the body of iteration `i` and `cellOf i` the cell it works on
(`offsets_v(iloop) - 1`). Starting, one atomic step of any running iteration, and finishing one that has
no steps left. (same loop) -/
inductive MemStep {C R : Type*} (ncell ntok : Nat) (cellOf : Nat → Nat) (progs : Nat → Prog C R) :
    Mem C R → Mem C R → Prop where
  | start (s : Mem C R) (i t : Nat) (hi : i < ncell) (hnew : i ∉ s.started) (ht : t < ntok)
      (hfree : ∀ a ∈ s.active, a.1.token ≠ t) :
      MemStep ncell ntok cellOf progs s
        ⟨s.cell, s.row, (⟨i, t⟩, progs i) :: s.active, i :: s.started⟩
  | run (s : Mem C R) (pre post : List (Active × Prog C R)) (a : Active) (f : C × R → C × R)
      (fs : Prog C R) (hs : s.active = pre ++ (a, f :: fs) :: post) :
      MemStep ncell ntok cellOf progs s
        ⟨Function.update s.cell (cellOf a.iloop)
            (f (s.cell (cellOf a.iloop), s.row (rowOf ncell ntok a))).1,
         Function.update s.row (rowOf ncell ntok a)
            (f (s.cell (cellOf a.iloop), s.row (rowOf ncell ntok a))).2,
         pre ++ (a, fs) :: post, s.started⟩
  | finish (s : Mem C R) (pre post : List (Active × Prog C R)) (a : Active)
      (hs : s.active = pre ++ (a, []) :: post) :
      MemStep ncell ntok cellOf progs s ⟨s.cell, s.row, pre ++ post, s.started⟩

/-- Executions of the interleaved loop. (same loop) -/
inductive MemReach {C R : Type*} (ncell ntok : Nat) (cellOf : Nat → Nat) (progs : Nat → Prog C R)
    (c0 : Nat → C) (r0 : Nat → R) : Mem C R → Prop where
  | init : MemReach ncell ntok cellOf progs c0 r0 ⟨c0, r0, [], []⟩
  | step {s s'} (h : MemReach ncell ntok cellOf progs c0 r0 s)
      (hs : MemStep ncell ntok cellOf progs s s') : MemReach ncell ntok cellOf progs c0 r0 s'

/-! ## Scratch sizes and the lambda cache -/

/-- `get_sg_eos.cpp:65-71`: the input modes (`NORM_RHO_E` falls through to `RHO_E`, `:215-218`). -/
inductive Mode where
  | rhoT | rhoP | pT | rhoE
  deriving DecidableEq

/-- `MAX_NUM_LAMBDAS`, `constants.hpp:37`. -/
def L : Nat := 3

/-- Reals allocated per scratch row (`get_sg_eos.cpp:174-175`, `:191`, `:204`, `:220`). -/
def rowSize : Mode → Nat → Nat
  | .rhoT, nmat => requiredScratch .fixedT nmat + nmat * L
  | .rhoP, nmat => requiredScratch .rhoT nmat + nmat * L
  | .pT, nmat => nmat * L
  | .rhoE, nmat => requiredScratch .rhoT nmat + nmat * L

/-- The solver a kernel constructs on its row (`get_sg_eos_rho_t.cpp:69`, `get_sg_eos_rho_p.cpp:67`,
`get_sg_eos_rho_e.cpp:68`; none in `get_sg_eos_p_t.cpp`). -/
def kernelSolver : Mode → Option Solver
  | .rhoT => some .fixedT
  | .rhoP => some .fixedP
  | .pT => none
  | .rhoE => some .rhoT

/-- `neq` as the kernel computes it for the cache offset (`get_sg_eos_rho_t.cpp:52`,
`get_sg_eos_rho_p.cpp:49`, `get_sg_eos_rho_e.cpp:50`). -/
def kernelNeq : Mode → Nat → Nat
  | .rhoT, npte => npte
  | .rhoP, npte => npte + 1
  | .pT, _ => 0
  | .rhoE, npte => npte + 1

/-- Where the `CacheAccessor` starts in the row (`get_sg_eos_rho_t.cpp:53-54`,
`get_sg_eos_rho_p.cpp:53-54`, `get_sg_eos_rho_e.cpp:51-52`, `get_sg_eos_p_t.cpp:49`). -/
def cacheStart : Mode → Nat → Nat
  | .pT, _ => 0
  | m, npte => kernelNeq m npte * (kernelNeq m npte + 4) + 2 * npte

/-- First index after the lambda slots of the `npte` participating materials.
(get_sg_eos_rho_e.cpp:51-53 and mixed_cell_models.hpp:307-323 (`CacheAccessor`)) -/
def cacheEnd (m : Mode) (npte : Nat) : Nat := cacheStart m npte + npte * L

/-- The blocks the kernel's solver carves from the row, from index 0 (`pscratch = &solver_scratch(tid,0)`).
(get_sg_eos_rho_e.cpp:67; mixed_cell_models.hpp:378-390, 931-934, 1506-1507, 1731-1733, 1982-1987) -/
def solverBlocks (m : Mode) (npte : Nat) : List (Nat × Nat) :=
  (kernelSolver m).elim [] fun s => (assign 0 (blocks s npte)).1

/-! ## Optional outputs -/

/-- `get_sg_eos.cpp:58-63`: which optional per-material outputs are written, from the pointers
(`none` = `nullptr`), in the order bmod, dpde, cv. -/
def doFlags {A : Type*} (fracBmod fracDpde fracCv : Option A) : Bool × Bool × Bool :=
  let _ := fracCv
  (fracBmod.isSome, fracDpde.isSome, fracDpde.isSome)

/-! ## One cell -/

/-- Per-cell arrays of the caller, one cell (`get_sg_eos.cpp:40-46`). -/
structure Cell (K : Type*) where
  press : K
  pmax : K
  vol : K
  spvol : K
  sie : K
  temp : K
  bmod : K
  dpde : K
  cv : K
  fmass : Nat → K
  fvol : Nat → K
  fie : Nat → K
  fbmod : Nat → K
  fdpde : Nat → K
  fcv : Nat → K

/-- One scratch row (`get_sg_eos.cpp:136-143`), without the solver scratch. -/
structure Row (K : Type*) where
  mats : Nat → Nat
  idxs : Nat → Int
  vfrac : Nat → K
  sie : Nat → K
  temp : Nat → K
  press : Nat → K
  rho : Nat → K

/-- EOS queries the interface makes, of EOS number `idx` at (density, temperature), etc.
(interface eos_base.hpp; called from get_sg_eos_functors.hpp:28-394) -/
structure Eos (K : Type*) where
  pRT : Int → K → K → K
  eRT : Int → K → K → K
  tRE : Int → K → K → K
  bRT : Int → K → K → K
  cvRT : Int → K → K → K
  gRT : Int → K → K → K
  rePT : Int → K → K → K × K

variable {K : Type*} [Field K] [LinearOrder K]

/-- The participating-material loop `get_sg_eos_functors.hpp:88-95`. -/
def selectMats (n : Nat) (cutoff : K) (offs : Nat → Int) (fm : Nat → K)
    (mats : Nat → Nat) (idxs : Nat → Int) : Nat × (Nat → Nat) × (Nat → Int) :=
  forN n (fun s m => if cutoff < fm m
    then (s.1 + 1, Function.update s.2.1 s.1 m, Function.update s.2.2 s.1 (offs m - 1)) else s)
    (0, mats, idxs)

/-- Result of `init_functor`. (get_sg_eos_functors.hpp:28-156) -/
structure InitOut (K : Type*) where
  cell : Cell K
  row : Row K
  massSum : K
  npte : Nat
  vfracSum : K

/-- `get_sg_eos_functors.hpp:65-119` `init_functor::operator()`. Loops that do several independent array
stores per pass are written as one loop per array. `ev2k` is the constant of `get_sg_eos.hpp:68`. -/
def initFunctor (ev2k : K) (n : Nat) (cutoff : K) (offs : Nat → Int) (tM sM pM : K) (c : Cell K)
    (r : Row K) : InitOut K :=
  let massSum := forN n (fun s m => s + c.fmass m) 0
  let fvol := fill n (fun m => c.fmass m) c.fvol
  let fie := fill n (fun m => c.sie * c.fmass m * sM) c.fie
  let fm := mapN n (fun _ x => x / massSum) c.fmass
  let sel := selectMats n cutoff offs fm r.mats (fill n (fun m => offs m - 1) r.idxs)
  let npte := sel.1
  let mats := sel.2.1
  let vfrac := fill npte (fun mp => fm (mats mp)) (fill n (fun _ => 0) r.vfrac)
  let vfracSum := forN npte (fun s mp => s + vfrac mp) 0
  let rho := fill npte (fun mp => fm (mats mp) / c.spvol / vfrac mp) r.rho
  let temp := fill npte (fun _ => c.temp * ev2k * tM) (fill n (fun _ => 0) r.temp)
  let press := fill npte (fun _ => c.press * pM) (fill n (fun _ => 0) r.press)
  let sie := fill npte (fun mp => c.sie * fm (mats mp) * sM) (fill n (fun _ => 0) r.sie)
  { cell := { c with fmass := fm, fvol := fvol, fie := fie }
    row := ⟨mats, sel.2.2, vfrac, sie, temp, press, rho⟩
    massSum := massSum, npte := npte, vfracSum := vfracSum }

/-- One pass of the averaging loop `get_sg_eos_functors.hpp:230-271`. -/
def finalBody (E : Eos K) (ev2k : K) (flags : Bool × Bool × Bool) (tM sM pM massSum : K) (r : Row K)
    (c : Cell K) (mp : Nat) : Cell K :=
  let m := r.mats mp
  let ie := r.sie mp * c.fmass m * massSum
  let b := E.bRT (r.idxs mp) (r.rho mp) (r.temp mp)
  let cv := ev2k * E.cvRT (r.idxs mp) (r.rho mp) (r.temp mp)
  let g := E.gRT (r.idxs mp) (r.rho mp) (r.temp mp)
  { c with
    press := c.press + r.press mp * r.vfrac mp * pM
    temp := c.temp + r.temp mp * r.vfrac mp * tM
    sie := c.sie + ie * sM
    fie := Function.update c.fie m ie
    fvol := Function.update c.fvol m (r.vfrac mp * c.vol)
    bmod := c.bmod + b * r.vfrac mp
    cv := c.cv + cv * c.fmass m
    dpde := c.dpde + g * r.vfrac mp
    fbmod := if flags.1 then Function.update c.fbmod m b else c.fbmod
    fcv := if flags.2.2 then Function.update c.fcv m cv else c.fcv
    fdpde := if flags.2.1 then Function.update c.fdpde m g else c.fdpde }

/-- `get_sg_eos_functors.hpp:209-284` `final_functor::operator()`. `flags` = (bmod, dpde, cv). -/
def finalFunctor (E : Eos K) (ev2k : K) (n : Nat) (flags : Bool × Bool × Bool) (npte : Nat)
    (massSum tM sM pM : K) (r : Row K) (c : Cell K) : Cell K :=
  let c1 : Cell K := { c with
    temp := if tM = 1 then 0 else c.temp
    press := if pM = 1 then 0 else c.press
    sie := if sM = 1 then 0 else c.sie
    bmod := 0, cv := 0, dpde := 0 }
  let c2 := forN npte (finalBody E ev2k flags tM sM pM massSum r) c1
  { c2 with
    temp := if tM = 1 then c2.temp / ev2k else c2.temp
    sie := if sM = 1 then c2.sie / massSum else c2.sie
    fmass := mapN n (fun _ x => x * massSum) c2.fmass }

/-- `pmax_v(i) = press_v(i) > pmax_v(i) ? press_v(i) : pmax_v(i)` (every kernel, e.g.
`get_sg_eos_rho_e.cpp:85`). -/
def setPmax (c : Cell K) : Cell K := { c with pmax := if c.pmax < c.press then c.press else c.pmax }

/-- A PTE solver run: number of materials, total volume fraction, the fixed quantity (temperature,
pressure or energy), and the row whose density, volume fraction, energy, temperature and pressure arrays
it overwrites. The solver keeps `mats` and `idxs`.
(called at get_sg_eos_rho_e.cpp:68-72 and its three siblings; the solver itself is modelled in PTEDriver/PTESolvers) -/
abbrev SolverOracle (K : Type*) := Nat → K → K → Row K → Row K

/-- Run the oracle, keeping the material tables (`method` only receives pointers to the five arrays,
`get_sg_eos_rho_t.cpp:63-71`). -/
def runSolver (S : SolverOracle K) (npte : Nat) (vs x : K) (r : Row K) : Row K :=
  let r' := S npte vs x r
  { r' with mats := r.mats, idxs := r.idxs }

/-- Total energy loop `get_sg_eos_rho_t.cpp:75-78`. -/
def sieTotal (npte : Nat) (r : Row K) (fm : Nat → K) : K :=
  forN npte (fun s mp => s + r.sie mp * fm (r.mats mp)) 0

/-- `get_sg_eos_rho_t.cpp:31-100`, one cell. -/
def kernelRhoT (E : Eos K) (S : SolverOracle K) (ev2k : K) (n : Nat) (cutoff : K) (offs : Nat → Int)
    (flags : Bool × Bool × Bool) (c : Cell K) (r : Row K) : Cell K × Row K :=
  let i := initFunctor ev2k n cutoff offs 1 0 0 c r
  let q : K × Row K :=
    if 1 < i.npte then
      let r1 := runSolver S i.npte i.vfracSum (i.row.temp 0) i.row
      (sieTotal i.npte r1 i.cell.fmass, r1)
    else
      let e := E.eRT (i.row.idxs 0) (i.row.rho 0) (i.row.temp 0)
      (e, { i.row with sie := Function.update i.row.sie 0 e
                       press := Function.update i.row.press 0
                         (E.pRT (i.row.idxs 0) (i.row.rho 0) (i.row.temp 0)) })
  let c1 := { i.cell with sie := q.1 }
  (setPmax (finalFunctor E ev2k n flags i.npte i.massSum 0 0 1 q.2 c1), q.2)

/-- `get_sg_eos_rho_p.cpp:31-108`, one cell; `rootT` is the temperature `findRoot` leaves in `temp_i`. -/
def kernelRhoP (E : Eos K) (S : SolverOracle K) (rootT : Int → K → K → K) (ev2k : K) (n : Nat)
    (cutoff : K) (offs : Nat → Int) (flags : Bool × Bool × Bool) (c : Cell K) (r : Row K) :
    Cell K × Row K :=
  let i := initFunctor ev2k n cutoff offs 0 0 1 c r
  let q : K × Row K :=
    if 1 < i.npte then
      let r1 := runSolver S i.npte i.vfracSum (i.row.press 0) i.row
      (sieTotal i.npte r1 i.cell.fmass, r1)
    else
      let t := rootT (i.row.idxs 0) (i.row.rho 0) i.cell.press
      let e := E.eRT (i.row.idxs 0) (i.row.rho 0) t
      (e, { i.row with sie := Function.update i.row.sie 0 e, temp := Function.update i.row.temp 0 t })
  let c1 := { i.cell with sie := q.1 }
  (setPmax (finalFunctor E ev2k n flags i.npte i.massSum 1 0 0 q.2 c1), q.2)

/-- `get_sg_eos_rho_e.cpp:30-88`, one cell. -/
def kernelRhoE (E : Eos K) (S : SolverOracle K) (ev2k : K) (n : Nat) (cutoff : K) (offs : Nat → Int)
    (flags : Bool × Bool × Bool) (c : Cell K) (r : Row K) : Cell K × Row K :=
  let i := initFunctor ev2k n cutoff offs 0 1 0 c r
  let r2 : Row K :=
    if 1 < i.npte then runSolver S i.npte i.vfracSum i.cell.sie i.row
    else
      let t := E.tRE (i.row.idxs 0) (i.row.rho 0) (i.row.sie 0)
      { i.row with temp := Function.update i.row.temp 0 t
                   press := Function.update i.row.press 0 (E.pRT (i.row.idxs 0) (i.row.rho 0) t) }
  (setPmax (finalFunctor E ev2k n flags i.npte i.massSum 1 0 1 r2 i.cell), r2)

/-- `get_sg_eos_p_t.cpp:34-95`, one cell. Loops with independent stores are split. -/
def kernelPT (E : Eos K) (ev2k : K) (n : Nat) (offs : Nat → Int) (flags : Bool × Bool × Bool)
    (c : Cell K) (r : Row K) : Cell K × Row K :=
  let massSum := forN n (fun s m => s + c.fmass m) 0
  let idxs := fill n (fun m => offs m - 1) r.idxs
  let mats := fill n (fun m => m) r.mats
  let temp := fill n (fun _ => c.temp * ev2k) r.temp
  let press := fill n (fun _ => c.press) r.press
  let fm := mapN n (fun _ x => x / massSum) c.fmass
  let rho := fill n (fun m => (E.rePT (idxs m) (press m) (temp m)).1) r.rho
  let sie := fill n (fun m => (E.rePT (idxs m) (press m) (temp m)).2) r.sie
  let vf := fill n (fun m => fm m / rho m * massSum) r.vfrac
  let vtot := forN n (fun s m => s + vf m) 0
  let sieTot := forN n (fun s m => s + sie m * fm m) 0
  let vf1 := mapN n (fun _ x => x / vtot) vf
  let r1 : Row K := ⟨mats, idxs, vf1, sie, temp, press, rho⟩
  let c1 := { c with fmass := fm, sie := sieTot, vol := vtot, spvol := vtot / massSum }
  (setPmax (finalFunctor E ev2k n flags n massSum 0 0 0 r1 c1), r1)

/-! ## `init_sg_*` -/

/-- Which EOS an `init_sg_*` call stores: the base EOS under modifiers, with their parameters.
(singularity_eos.cpp, singularity_eos_init_utils.hpp:30-87) -/
inductive Desc (K : Type*) where
  | base
  | shifted (e : Desc K) (shift : K)
  | scaled (e : Desc K) (scale : K)
  | ramp (e : Desc K) (r0 a b c : K)

/-- `singularity_eos_init_utils.hpp:25-40` `applyShiftAndScale`. -/
def applyShiftAndScale (e : Desc K) (scaled shifted : Bool) (scale shift : K) : Desc K :=
  if shifted && scaled then .scaled (.shifted e shift) scale
  else if shifted then .shifted e shift
  else if scaled then .scaled e scale
  else e

/-- `singularity_eos_init_utils.hpp:42-72` `applyWrappedShiftAndScale` with `W = BilinearRampEOS`, and
`applyShiftAndScaleAndBilinearRamp`. -/
def applyAll (e : Desc K) (scaled shifted ramped : Bool) (scale shift r0 a b c : K) : Desc K :=
  if ramped then
    if shifted && scaled then .ramp (.scaled (.shifted e shift) scale) r0 a b c
    else if shifted then .ramp (.shifted e shift) r0 a b c
    else if scaled then .ramp (.scaled e scale) r0 a b c
    else .ramp e r0 a b c
  else applyShiftAndScale e scaled shifted scale shift

/-- `ramps_eos.hpp:43-77` `pAlpha2BilinearRampParams`: reference density `rho0` of the EOS and the two root
finder results are oracles depending on the EOS and the parameters (`alpha0`, `Pe`, `Pc`). -/
def pAlpha (σ : K) (rho0 : Desc K → K) (rmid r1 : Desc K → K → K → K → K) (e : Desc K)
    (alpha0 Pe Pc : K) : K × K × K × K :=
  let r0 := Robust.ratio σ (rho0 e) alpha0
  let m := rmid e alpha0 Pe Pc
  let x := r1 e alpha0 Pe Pc
  (r0, Robust.ratio σ (r0 * Pe) (m - r0), Robust.ratio σ (r0 * (Pc - Pe)) (x - m),
    Robust.ratio σ (Pc * m - Pe * x) (r0 * (Pc - Pe)))

/-- `singularity_eos.cpp:67-78` `init_sg_IdealGas` (and the same body in every `init_sg_*`): the stored
EOS and the caller's `vals` array after the call. -/
def initSg (σ : K) (rho0 : Desc K → K) (rmid r1 : Desc K → K → K → K → K) (enabled : Nat → Int)
    (vals : Nat → K) : Desc K × (Nat → K) :=
  let ei := applyShiftAndScale (.base : Desc K) (enabled 0 == 1) (enabled 1 == 1) (vals 0) (vals 1)
  let vals' := if enabled 3 = 1 then
      let q := pAlpha σ rho0 rmid r1 ei (vals 2) (vals 3) (vals 4)
      Function.update (Function.update (Function.update (Function.update vals 2 q.1) 3 q.2.1)
        4 q.2.2.1) 5 q.2.2.2
    else vals
  (applyAll .base (enabled 0 == 1) (enabled 1 == 1) (enabled 2 == 1 || enabled 3 == 1)
    (vals' 0) (vals' 1) (vals' 2) (vals' 3) (vals' 4) (vals' 5), vals')

end Verif.CApi
