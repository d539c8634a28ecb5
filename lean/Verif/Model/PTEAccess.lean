import Verif.Model.MixUtils

/-!
# Which array cells the PTE solvers touch

For every member function of the five PTE solvers (closure/mixed_cell_models.hpp) the list of array
cells it reads and writes, in the order of the code. `nmat` is `n`. Values are dropped; a branch
taken on values is an argument of the model, so the theorems quantify over both outcomes. Where a
condition reads the same cells as the body it guards, the cells are listed once. `std::size_t`
arithmetic is that of the natural numbers (`n ≥ 1` in every theorem, so `nmat - 1` does not wrap).
-/

namespace Verif.PTE.Acc

/-- The arrays of a solver object: the blocks of the base class (mixed_cell_models.hpp:380-385), those of
the derived classes (`:1190`, `:1667`, `:1917`, `:2182`), and the caller's indexers, `eos` and `lambda`
included (`:776-781`). -/
inductive Arr where
  | jacobian | dx | solScratch | residual | u | rhobar
  | dpdv | dedv | dpdT | vtemp | dtdv | dpde | dtde | utemp
  | rho | vfrac | sie | temp | press | lambda | eos
  deriving DecidableEq

/-- One access: array, index, and whether it is a write. (mixed_cell_models.hpp, every `a[i]`) -/
structure Cell where
  arr : Arr
  idx : Nat
  write : Bool
  deriving DecidableEq

/-- `a[i]` read. (mixed_cell_models.hpp) -/
def R (a : Arr) (i : Nat) : Cell := ⟨a, i, false⟩
/-- `a[i]` written. (mixed_cell_models.hpp) -/
def W (a : Arr) (i : Nat) : Cell := ⟨a, i, true⟩

/-- `for (std::size_t m = lo; m < n; ++m)`. (mixed_cell_models.hpp, e.g. `:392`, `:1566`) -/
def forFrom (lo n : Nat) (f : Nat → List Cell) : List Cell := (List.range' lo (n - lo)).flatMap f
/-- `for (std::size_t m = 0; m < n; ++m)`. (mixed_cell_models.hpp, e.g. `:392`) -/
def for0 (n : Nat) (f : Nat → List Cell) : List Cell := (List.range n).flatMap f

/-- A loop over the materials that steps over some of them with `continue` and counts the others in a second
variable. (mixed_cell_models.hpp:1014-1018, `:1082-1085`, `:1087-1104`, `:1165-1169`) -/
def countLoop (skip : Nat → Bool) (f : Nat → Nat → List Cell) : List Nat → Nat → List Cell
  | [], _ => []
  | m :: ms, c => if skip m then countLoop skip f ms c else f m c ++ countLoop skip f ms (c + 1)

/-- `sum_neumaier(data, n, offset, iskip)`. (mixed_cell_models.hpp:287-305) -/
def sumReads (a : Arr) (n offset : Nat) (iskip : Option Nat) : List Cell :=
  for0 n fun i => if iskip = some i then [] else [R a (i + offset)]

/-- `MatIndex(i, j)`. (mixed_cell_models.hpp:669-672) -/
def matIndex (neq i j : Nat) : Nat := i * neq + j

/-! ## Base class -/

/-- `InitRhoBarandRho`. (mixed_cell_models.hpp:388-399) -/
def initRhoBar (n : Nat) : List Cell :=
  (for0 n fun m => [R .vfrac m, R .rho m, W .rhobar m]) ++ sumReads .rhobar n 0 none

/-- `NormalizeVfrac`. (mixed_cell_models.hpp:401-407) -/
def normalizeVfrac (n : Nat) : List Cell :=
  sumReads .vfrac n 0 none ++ for0 n fun m => [R .vfrac m, W .vfrac m]

/-- One round of the filling loop of `SetVfracFromT`. (mixed_cell_models.hpp:474-491) -/
def fillRound (n : Nat) : List Cell :=
  (for0 n fun m => [R .eos m, R .rhobar m, R .vfrac m, W .vfrac m]) ++
    for0 n fun m => [R .eos m, R .rhobar m, R .vfrac m, W .vfrac m]

/-- `SetVfracFromT`; `fail`: the early return, `rounds`: rounds of the filling loop taken.
(mixed_cell_models.hpp:423-498) -/
def setVfracFromT (n : Nat) (fail : Bool) (rounds : Nat) : List Cell :=
  (for0 n fun m => [R .eos m, R .rhobar m, R .vfrac m, W .vfrac m]) ++
    if fail then []
    else normalizeVfrac n ++ (List.replicate rounds (fillRound n)).flatten ++ normalizeVfrac n

/-- One pass of the loop of `GetTguess`. (mixed_cell_models.hpp:543-573) -/
def tguessPass (n : Nat) (iterate fail : Bool) (rounds : Nat) : List Cell :=
  (if iterate then for0 n fun m => [R .eos m, R .rho m, R .press m, R .lambda m, R .rhobar m] else []) ++
    (for0 n fun m => [R .eos m]) ++ setVfracFromT n fail rounds ++
    if fail then []
    else (for0 n fun m => [R .rhobar m, R .vfrac m, W .rho m]) ++ for0 n fun m => [R .eos m, R .rho m]

/-- `GetTguess`; `given`: `Tnorm > 0`; `passes`: the passes taken (at most three).
(mixed_cell_models.hpp:500-581) -/
def getTguess (n : Nat) (given iterate : Bool) (passes : List (Bool × Nat)) : List Cell :=
  (if given then [] else for0 n fun m => [R .temp m]) ++
    passes.flatMap fun q => tguessPass n iterate q.1 q.2

/-- `InitBase`. (mixed_cell_models.hpp:627-662) -/
def initBase (n : Nat) (given iterate : Bool) (passes : List (Bool × Nat)) : List Cell :=
  initRhoBar n ++ getTguess n given iterate passes ++
    (for0 n fun m => [W .temp m, R .eos m, R .rho m, R .lambda m, W .sie m, R .press m, R .sie m, W .press m]) ++
    for0 n fun m => [R .sie m, R .rhobar m, W .u m]

/-- `ResidualNorm`. (mixed_cell_models.hpp:664-667) -/
def residualNorm (neq : Nat) : List Cell := sumReads .residual neq 0 none

/-- `Finalize` of the base class. (mixed_cell_models.hpp:349-357) -/
def finalizeBase (n : Nat) : List Cell :=
  for0 n fun m => [R .temp m, W .temp m, R .u m, W .u m, R .press m, W .press m]

/-- `Solve`: the copy `dx = residual`, then `solve_Ax_b_wscr(neq, jacobian, dx, sol_scratch)` without an early
return on a zero row; the general case lists every cell the QR factorisation may use, the second half of the
workspace included (the Kokkos branch). (mixed_cell_models.hpp:358-364, 177-278) -/
def solve (neq : Nat) : List Cell :=
  (for0 neq fun m => [R .residual m, W .dx m]) ++
    (for0 neq fun row =>
      (for0 neq fun c => [R .jacobian (row * neq + c)]) ++
        (for0 neq fun c => [R .jacobian (row * neq + c), W .jacobian (row * neq + c)]) ++
        [R .dx row, W .dx row]) ++
    (if neq = 1 then [R .dx 0, R .jacobian 0, W .dx 0]
     else if neq = 2 then
      [R .jacobian 0, R .jacobian 3, R .jacobian 1, R .jacobian 2,
       R .jacobian 3, R .dx 0, R .jacobian 1, R .dx 1, W .solScratch 0,
       R .jacobian 0, R .dx 1, R .jacobian 2, R .dx 0, W .solScratch 1,
       R .solScratch 0, W .dx 0, R .solScratch 1, W .dx 1]
     else
      (for0 neq fun i => for0 neq fun j => [R .jacobian (i * neq + j), W .jacobian (i * neq + j)]) ++
        (for0 neq fun i => [R .dx i, W .dx i]) ++
        for0 (2 * neq) fun i => [W .solScratch i, R .solScratch i]) ++
    for0 neq fun i => [R .dx i]

/-! ## RhoT -/

/-- The choice of the excluded material by the largest value so far; `better m`: the comparison at `m` succeeds.
(mixed_cell_models.hpp:965-973, `:996-1003`) -/
def pickMax (n : Nat) (better : Nat → Bool) : Nat :=
  (List.range n).foldl (fun ms m => if better m then m else ms) 0

/-- `PTESolverRhoT::Residual`. (mixed_cell_models.hpp:1010-1019) -/
def rhoTResidual (n ms : Nat) : List Cell :=
  sumReads .u n 0 none ++ [W .residual 0] ++
    countLoop (fun m => m == ms) (fun m ires => [R .press ms, R .press m, W .residual ires]) (List.range n) 1

/-- `PTESolverRhoT::Init` after the choice of `ms`. (mixed_cell_models.hpp:947-984) -/
def rhoTInit (n ms : Nat) (given iterate : Bool) (passes : List (Bool × Nat)) : List Cell :=
  initBase n given iterate passes ++ (for0 n fun m => [R .rhobar m]) ++ rhoTResidual n ms ++ [R .temp 0] ++
    residualNorm n

/-- `PTESolverRhoT::CheckPTE`. (mixed_cell_models.hpp:1021-1040) -/
def rhoTCheck (n : Nat) : List Cell :=
  (for0 n fun m => [R .vfrac m, R .press m]) ++ sumReads .residual (n - 1) 1 none ++ [R .residual 0]

/-- `PTESolverRhoT::Jacobian`. (mixed_cell_models.hpp:1042-1105) -/
def rhoTJacobian (n ms : Nat) : List Cell :=
  (for0 n fun m =>
    [R .vfrac m, R .rhobar m, R .eos m, R .lambda m, R .press m, W .dpdv m, R .u m, W .dedv m, R .rho m, W .dpdT m]) ++
    (for0 (n * n) fun i => [W .jacobian i]) ++
    [W .jacobian 0] ++
    countLoop (fun m => m == ms) (fun m col => [R .dedv m, R .dedv ms, W .jacobian col]) (List.range n) 1 ++
    countLoop (fun m => m == ms)
      (fun m row => [R .dpdT m, R .dpdT ms, W .jacobian (matIndex n row 0)] ++
        countLoop (fun mm => mm == ms)
          (fun mm col => (if mm = m then [R .dpdv m, R .dpdv ms] else [R .dpdv ms]) ++
            [W .jacobian (matIndex n row col)]) (List.range n) 1)
      (List.range n) 1

/-- `PTESolverRhoT::ScaleDx`; `unstable m`: `alpha_max < vfrac[m]`, the `continue` before the counter moves.
(mixed_cell_models.hpp:1107-1151) -/
def rhoTScaleDx (n ms : Nat) (unstable : Nat → Bool) : List Cell :=
  sumReads .dx (n - 1) 1 none ++
    countLoop (fun m => m == ms) (fun _ idx => [R .dx idx]) (List.range n) 1 ++
    (for0 n fun m => [R .vfrac m]) ++ [R .dx 0] ++
    (for0 n fun m => [R .eos m, R .rhobar m, R .vfrac m]) ++
    countLoop (fun m => unstable m || m == ms) (fun _ idx => [R .dx idx]) (List.range n) 1 ++
    [R .dx 0] ++ for0 n fun i => [R .dx i, W .dx i]

/-- `PTESolverRhoT::TestUpdate`. (mixed_cell_models.hpp:1153-1187) -/
def rhoTTestUpdate (n ms : Nat) (cache : Bool) : List Cell :=
  (if cache then for0 n fun m => [R .vfrac m, W .vtemp m] else []) ++ [R .dx 0] ++
    countLoop (fun m => m == ms) (fun m idx => [R .vtemp m, R .dx idx, W .vfrac m]) (List.range n) 1 ++
    sumReads .vfrac n 0 (some ms) ++ [W .vfrac ms, R .vfrac ms, W .vfrac ms] ++
    (for0 n fun m =>
      [R .rhobar m, R .vfrac m, W .rho m, R .eos m, R .rho m, R .lambda m, W .u m, R .u m, W .sie m, W .u m,
       W .temp m, R .sie m, W .press m]) ++
    rhoTResidual n ms ++ residualNorm n

/-- `PTESolverRhoT::Fixup`; `fixed`: the caller gave an index to exclude. (mixed_cell_models.hpp:986-1008) -/
def rhoTFixup (n ms : Nat) (fixed : Bool) : List Cell :=
  if fixed then [] else (for0 n fun m => [R .vfrac m]) ++ rhoTResidual n ms

/-! ## PT -/

/-- `PTESolverPT::Residual`. (mixed_cell_models.hpp:1314-1320) -/
def ptResidual (n : Nat) : List Cell :=
  sumReads .vfrac n 0 none ++ sumReads .u n 0 none ++ [W .residual 0, W .residual 1]

/-- `PTESolverPT::Init`. (mixed_cell_models.hpp:1265-1297) -/
def ptInit (n : Nat) (given iterate : Bool) (passes : List (Bool × Nat)) : List Cell :=
  initBase n given iterate passes ++ ptResidual n ++ (for0 n fun m => [R .press m, R .vfrac m]) ++
    sumReads .vfrac n 0 none ++
    (for0 n fun m =>
      [R .eos m, R .lambda m, W .rho m, W .sie m, R .rhobar m, R .rho m, W .vfrac m, R .sie m, W .u m, W .temp m]) ++
    ptResidual n ++ residualNorm 2

/-- `PTESolverPT::CheckPTE`. (mixed_cell_models.hpp:1322-1334) -/
def ptCheck : List Cell := [R .residual 0, R .residual 1]

/-- `PTESolverPT::Jacobian`. (mixed_cell_models.hpp:1336-1385) -/
def ptJacobian (n : Nat) : List Cell :=
  (for0 n fun m => [R .rho m, R .sie m, R .eos m, R .lambda m, R .rhobar m, R .u m]) ++
    [W .jacobian 0, W .jacobian 1, W .jacobian 2, W .jacobian 3]

/-- `PTESolverPT::ScaleDx`. (mixed_cell_models.hpp:1387-1411) -/
def ptScaleDx (n : Nat) : List Cell :=
  [R .dx 0] ++ (for0 n fun m => [R .eos m, R .dx 1]) ++ (for0 n fun m => [R .dx 0, R .eos m]) ++
    for0 2 fun i => [R .dx i, W .dx i]

/-- `PTESolverPT::TestUpdate`. (mixed_cell_models.hpp:1413-1435) -/
def ptTestUpdate (n : Nat) : List Cell :=
  [R .dx 0, R .dx 1] ++
    (for0 n fun m =>
      [R .eos m, R .lambda m, W .rho m, W .sie m, R .rhobar m, R .rho m, W .vfrac m, R .sie m, W .u m, W .temp m,
       W .press m]) ++
    ptResidual n ++ residualNorm 2

/-- `PTESolverPT::Finalize` with no null pointers. (mixed_cell_models.hpp:1299-1312) -/
def ptFinalize (n : Nat) : List Cell := for0 n fun m => [W .press m, W .temp m, R .u m, W .u m]

/-! ## FixedT -/

/-- `PTESolverFixedT::Residual`. (mixed_cell_models.hpp:1553-1560) -/
def fixedTResidual (n : Nat) : List Cell :=
  sumReads .vfrac n 0 none ++ [W .residual 0] ++
    for0 (n - 1) fun m => [R .press m, R .press (m + 1), W .residual (1 + m)]

/-- `PTESolverFixedT::Init`. (mixed_cell_models.hpp:1523-1551) -/
def fixedTInit (n : Nat) (fail : Bool) (rounds : Nat) : List Cell :=
  initRhoBar n ++ setVfracFromT n fail rounds ++
    (for0 n fun m =>
      [R .rhobar m, R .vfrac m, W .rho m, R .eos m, R .rho m, R .lambda m, W .sie m, R .sie m, W .press m]) ++
    (for0 n fun m => [R .press m, W .press m, R .sie m, R .rhobar m, W .u m]) ++
    fixedTResidual n ++ residualNorm n

/-- `PTESolverFixedT::CheckPTE`. (mixed_cell_models.hpp:1562-1581) -/
def fixedTCheck (n : Nat) : List Cell :=
  [R .vfrac 0, R .press 0] ++ (forFrom 1 n fun m => [R .vfrac m, R .press m, R .residual m]) ++ [R .residual 0]

/-- `PTESolverFixedT::Jacobian`. (mixed_cell_models.hpp:1583-1609) -/
def fixedTJacobian (n : Nat) : List Cell :=
  (for0 n fun m => [R .vfrac m, R .rhobar m, R .eos m, R .lambda m, R .press m, W .dpdv m]) ++
    (for0 (n * n) fun i => [W .jacobian i]) ++ (for0 n fun m => [W .jacobian m]) ++
    for0 (n - 1) fun m =>
      [R .dpdv m, W .jacobian (matIndex n (m + 1) m), R .dpdv (m + 1), W .jacobian (matIndex n (m + 1) (m + 1))]

/-- `PTESolverFixedT::ScaleDx`. (mixed_cell_models.hpp:1611-1640) -/
def fixedTScaleDx (n : Nat) (unstable : Nat → Bool) : List Cell :=
  (for0 n fun m => [R .dx m, R .vfrac m]) ++
    (for0 n fun m =>
      [R .eos m, R .rhobar m, R .vfrac m] ++ if unstable m then [] else [R .dx m, R .vfrac m]) ++
    for0 n fun i => [R .dx i, W .dx i]

/-- `PTESolverFixedT::TestUpdate`. (mixed_cell_models.hpp:1642-1664) -/
def fixedTTestUpdate (n : Nat) (cache : Bool) : List Cell :=
  (if cache then for0 n fun m => [R .vfrac m, W .vtemp m] else []) ++
    (for0 n fun m =>
      [R .vtemp m, R .dx m, W .vfrac m, R .rhobar m, R .vfrac m, W .rho m, R .eos m, R .rho m, R .lambda m, W .u m,
       R .u m, W .sie m, W .u m, W .press m]) ++
    fixedTResidual n ++ residualNorm n

/-! ## FixedP -/

/-- `PTESolverFixedP::Residual`. (mixed_cell_models.hpp:1781-1788) -/
def fixedPResidual (n : Nat) : List Cell :=
  sumReads .vfrac n 0 none ++ (for0 n fun m => [R .press m, W .residual m]) ++ [W .residual n]

/-- `PTESolverFixedP::Init`. (mixed_cell_models.hpp:1747-1779) -/
def fixedPInit (n : Nat) (given iterate : Bool) (passes : List (Bool × Nat)) : List Cell :=
  initRhoBar n ++ getTguess n given iterate passes ++
    (for0 n fun m => [W .temp m, R .eos m, R .rho m, R .lambda m, W .sie m]) ++
    (for0 n fun m => [R .sie m, R .rhobar m, W .u m, R .eos m, R .rho m, R .lambda m, W .press m]) ++
    fixedPResidual n ++ [R .temp 0] ++ residualNorm (n + 1)

/-- `PTESolverFixedP::CheckPTE`. (mixed_cell_models.hpp:1790-1807) -/
def fixedPCheck (n : Nat) : List Cell := (for0 n fun m => [R .residual m]) ++ [R .residual (n + 1 - 1)]

/-- `PTESolverFixedP::Jacobian`. (mixed_cell_models.hpp:1809-1849) -/
def fixedPJacobian (n : Nat) : List Cell :=
  (for0 n fun m =>
    [R .vfrac m, R .rhobar m, R .eos m, R .lambda m, R .press m, W .dpdv m, R .rho m, W .dpdT m]) ++
    (for0 ((n + 1) * (n + 1)) fun i => [W .jacobian i]) ++
    (for0 n fun m =>
      [R .dpdv m, W .jacobian (matIndex (n + 1) m m), R .dpdT m, W .jacobian (matIndex (n + 1) m n)]) ++
    for0 (n + 1 - 1) fun m => [W .jacobian (matIndex (n + 1) (n + 1 - 1) m)]

/-- `PTESolverFixedP::ScaleDx`. (mixed_cell_models.hpp:1851-1886) -/
def fixedPScaleDx (n : Nat) (unstable : Nat → Bool) : List Cell :=
  (for0 n fun m => [R .dx m, R .vfrac m]) ++ [R .dx n] ++
    (for0 n fun m =>
      [R .eos m, R .rhobar m, R .vfrac m] ++ if unstable m then [] else [R .dx m, R .vfrac m]) ++
    [R .dx n] ++ for0 (n + 1) fun i => [R .dx i, W .dx i]

/-- `PTESolverFixedP::TestUpdate`. (mixed_cell_models.hpp:1888-1914) -/
def fixedPTestUpdate (n : Nat) (cache : Bool) : List Cell :=
  (if cache then for0 n fun m => [R .vfrac m, W .vtemp m] else []) ++ [R .dx n] ++
    (for0 n fun m =>
      [R .vtemp m, R .dx m, W .vfrac m, R .rhobar m, R .vfrac m, W .rho m, R .eos m, R .rho m, R .lambda m, W .u m,
       W .press m, R .u m, W .sie m, W .u m, W .temp m]) ++
    fixedPResidual n ++ residualNorm (n + 1)

/-! ## RhoU -/

/-- `PTESolverRhoU::Residual`. (mixed_cell_models.hpp:2008-2020) -/
def rhoUResidual (n : Nat) : List Cell :=
  sumReads .vfrac n 0 none ++ sumReads .u n 0 none ++ [W .residual 0, W .residual 1] ++
    (for0 (n - 1) fun m => [R .press (m + 1), R .press m, W .residual (2 + m)]) ++
    forFrom (n + 1) (2 * n) fun m => [R .temp (m - n), R .temp (m - n - 1), W .residual m]

/-- `TryIdealPTE`, called by RhoU only; `abort`: the material at which it gives up, `reject`: the new residual is
worse. The four arrays and the residual are saved from `jacobian` on. (mixed_cell_models.hpp:692-763) -/
def tryIdeal (n : Nat) (abort : Option Nat) (reject : Bool) : List Cell :=
  (for0 n fun m => [R .vfrac m, R .press m, R .temp m, R .rho m, R .sie m]) ++
    (for0 n fun m =>
      [R .u m, W .jacobian m, R .press m, W .jacobian (n + m), R .vfrac m, W .jacobian (2 * n + m), R .rho m,
       W .jacobian (3 * n + m)]) ++
    (for0 (2 * n) fun m => [R .residual m, W .jacobian (4 * n + m), R .jacobian (4 * n + m)]) ++
    match abort with
    | some m =>
      (for0 (min (m + 1) n) fun m => [R .vfrac m, R .press m, R .temp m, W .vfrac m, R .rhobar m, R .eos m]) ++
        for0 (min (m + 1) n) fun k => [R .jacobian (2 * n + k), W .vfrac k]
    | none =>
      (for0 n fun m => [R .vfrac m, R .press m, R .temp m, W .vfrac m, R .rhobar m, R .eos m]) ++
        (for0 n fun m =>
          [R .rhobar m, R .vfrac m, W .rho m, R .eos m, R .rho m, R .lambda m, W .u m, W .press m]) ++
        rhoUResidual n ++ (for0 (2 * n) fun m => [R .residual m]) ++
        if reject then
          (for0 n fun m =>
            [R .jacobian (2 * n + m), W .vfrac m, R .jacobian (3 * n + m), W .rho m, R .jacobian m, W .u m,
             R .jacobian (n + m), W .press m]) ++
            for0 (2 * n) fun m => [R .jacobian (4 * n + m), W .residual m]
        else for0 n fun m => [W .temp m, R .u m, R .rhobar m, W .sie m]

/-- `PTESolverRhoU::Init`. (mixed_cell_models.hpp:2000-2006) -/
def rhoUInit (n : Nat) (given iterate : Bool) (passes : List (Bool × Nat)) (abort : Option Nat) (reject : Bool) :
    List Cell :=
  initBase n given iterate passes ++ rhoUResidual n ++ tryIdeal n abort reject ++ residualNorm (2 * n)

/-- `PTESolverRhoU::CheckPTE`. (mixed_cell_models.hpp:2022-2048) -/
def rhoUCheck (n : Nat) : List Cell :=
  [R .vfrac 0, R .press 0, R .rhobar 0, R .temp 0] ++
    forFrom 1 n fun m =>
      [R .vfrac m, R .press m, R .rhobar m, R .temp m, R .residual (m + 1), R .residual (m + n)]

/-- `PTESolverRhoU::Jacobian`. (mixed_cell_models.hpp:2050-2115) -/
def rhoUJacobian (n : Nat) : List Cell :=
  (for0 n fun m =>
    [R .vfrac m, R .rhobar m, R .eos m, R .sie m, R .lambda m, R .press m, W .dpdv m, R .temp m, W .dtdv m, R .u m,
     R .rho m, W .dpde m, W .dtde m, R .dtde m, W .dtde m]) ++
    (for0 (2 * n * (2 * n)) fun i => [W .jacobian i]) ++
    (for0 n fun m => [W .jacobian m, W .jacobian (2 * n + n + m)]) ++
    [R .dpdv 0, W .jacobian (2 * 2 * n),
     R .dpdv (n - 1), W .jacobian (n * 2 * n + n - 1),
     R .dtdv 0, W .jacobian ((n + 1) * 2 * n),
     R .dtdv (n - 1), W .jacobian ((2 * n - 1) * 2 * n + n - 1),
     R .dpde 0, W .jacobian (2 * 2 * n + n),
     R .dpde (n - 1), W .jacobian (n * 2 * n + 2 * n - 1),
     R .dtde 0, W .jacobian ((n + 1) * 2 * n + n),
     R .dtde (n - 1), W .jacobian ((2 * n - 1) * 2 * n + 2 * n - 1)] ++
    forFrom 1 (n - 1) fun m =>
      [R .dpdv m, W .jacobian ((1 + m) * 2 * n + m), W .jacobian ((2 + m) * 2 * n + m),
       R .dtdv m, W .jacobian ((n + m) * 2 * n + m), W .jacobian ((n + m + 1) * 2 * n + m),
       R .dpde m, W .jacobian ((1 + m) * 2 * n + n + m), W .jacobian ((2 + m) * 2 * n + n + m),
       R .dtde m, W .jacobian ((n + m) * 2 * n + n + m), W .jacobian ((n + m + 1) * 2 * n + n + m)]

/-- `PTESolverRhoU::ScaleDx`. (mixed_cell_models.hpp:2117-2151) -/
def rhoUScaleDx (n : Nat) (unstable : Nat → Bool) : List Cell :=
  (for0 n fun m =>
    [R .dx m, R .vfrac m, R .dtdv m, R .dtde m, R .dx (m + n), R .temp m, R .eos m, R .rhobar m] ++
      if unstable m then [] else [R .dx m, R .vfrac m]) ++
    for0 (2 * n) fun i => [R .dx i, W .dx i]

/-- `PTESolverRhoU::TestUpdate`. (mixed_cell_models.hpp:2153-2179) -/
def rhoUTestUpdate (n : Nat) (cache : Bool) : List Cell :=
  (if cache then for0 n fun m => [R .vfrac m, W .vtemp m, R .u m, W .utemp m] else []) ++
    (for0 n fun m =>
      [R .vtemp m, R .dx m, W .vfrac m, R .rhobar m, R .vfrac m, W .rho m, R .utemp m, R .dx (n + m), W .u m, R .u m,
       W .sie m, R .eos m, R .rho m, R .sie m, R .lambda m, W .temp m, R .temp m, W .press m]) ++
    rhoUResidual n ++ residualNorm (2 * n)

/-- `Residual` of each solver. (mixed_cell_models.hpp:1010-1019, `:1314-1320`, `:1553-1560`, `:1781-1788`,
`:2008-2020`) -/
def residualCells : Solver → Nat → Nat → List Cell
  | .rhoT, n, ms => rhoTResidual n ms
  | .pT, n, _ => ptResidual n
  | .fixedT, n, _ => fixedTResidual n
  | .fixedP, n, _ => fixedPResidual n
  | .rhoU, n, _ => rhoUResidual n

/-! ## The calls of `PTESolver` -/

/-- One call the driver makes, with every choice that depends on values. (mixed_cell_models.hpp:2188-2291) -/
inductive Call where
  /-- `Init` (mixed_cell_models.hpp:2196) -/
  | init (given iterate : Bool) (passes : List (Bool × Nat)) (better : Nat → Bool) (fail : Bool) (rounds : Nat)
      (abort : Option Nat) (reject : Bool)
  /-- `CheckPTE` (mixed_cell_models.hpp:2211) -/
  | check
  /-- `Jacobian` (mixed_cell_models.hpp:2217) -/
  | jacobian
  /-- `Solve` (mixed_cell_models.hpp:2220) -/
  | solve
  /-- `ScaleDx` (mixed_cell_models.hpp:2229) -/
  | scaleDx (unstable : Nat → Bool)
  /-- `TestUpdate` (mixed_cell_models.hpp:2249, 2253, 2262) -/
  | testUpdate (cache : Bool)
  /-- `Fixup` (mixed_cell_models.hpp:2271, 2287) -/
  | fixup (better : Nat → Bool)
  /-- `Finalize` (mixed_cell_models.hpp:2289) -/
  | finalize

/-- The member `ms` of RhoT after a call: the caller's index if one was given, otherwise picked again by `Init` and
`Fixup`. (mixed_cell_models.hpp:962-974, `:995-1006`) -/
def nextMs (n : Nat) (exclude : Option Nat) (ms : Nat) : Call → Nat
  | .init _ _ _ better _ _ _ _ => exclude.getD (pickMax n better)
  | .fixup better => if exclude.isSome then ms else pickMax n better
  | _ => ms

/-- The cells one call touches; `ms` is RhoT's excluded material after the call's own choice, `exclude` the caller's
index (`pte_reduced_system_exclude_idx` if not negative). (mixed_cell_models.hpp, each solver's member functions) -/
def callCells (s : Solver) (n : Nat) (exclude : Option Nat) (ms : Nat) : Call → List Cell
  | .init given iterate passes _ fail rounds abort reject =>
    match s with
    | .rhoT => rhoTInit n ms given iterate passes
    | .pT => ptInit n given iterate passes
    | .fixedT => fixedTInit n fail rounds
    | .fixedP => fixedPInit n given iterate passes
    | .rhoU => rhoUInit n given iterate passes abort reject
  | .check =>
    match s with
    | .rhoT => rhoTCheck n
    | .pT => ptCheck
    | .fixedT => fixedTCheck n
    | .fixedP => fixedPCheck n
    | .rhoU => rhoUCheck n
  | .jacobian =>
    match s with
    | .rhoT => rhoTJacobian n ms
    | .pT => ptJacobian n
    | .fixedT => fixedTJacobian n
    | .fixedP => fixedPJacobian n
    | .rhoU => rhoUJacobian n
  | .solve => solve (neqOf s n)
  | .scaleDx unstable =>
    match s with
    | .rhoT => rhoTScaleDx n ms unstable
    | .pT => ptScaleDx n
    | .fixedT => fixedTScaleDx n unstable
    | .fixedP => fixedPScaleDx n unstable
    | .rhoU => rhoUScaleDx n unstable
  | .testUpdate cache =>
    match s with
    | .rhoT => rhoTTestUpdate n ms cache
    | .pT => ptTestUpdate n
    | .fixedT => fixedTTestUpdate n cache
    | .fixedP => fixedPTestUpdate n cache
    | .rhoU => rhoUTestUpdate n cache
  | .fixup _ =>
    match s with
    | .rhoT => rhoTFixup n ms exclude.isSome
    | _ => []
  | .finalize =>
    match s with
    | .pT => ptFinalize n
    | _ => finalizeBase n

/-- Any sequence of calls on one solver object: `Init` first. (mixed_cell_models.hpp:2188-2291) -/
def runCells (s : Solver) (n : Nat) (exclude : Option Nat) : Nat → List Call → List Cell
  | _, [] => []
  | ms, c :: cs =>
    callCells s n exclude (nextMs n exclude ms c) c ++ runCells s n exclude (nextMs n exclude ms c) cs

/-- The scratch arrays in the order the constructors carve them from the caller's memory.
(mixed_cell_models.hpp:380-385, `:931-934`, `:1506-1507`, `:1731-1733`, `:1982-1987`) -/
def carveOrder : Solver → List Arr
  | .rhoT => [.jacobian, .dx, .solScratch, .residual, .u, .rhobar, .dpdv, .dedv, .dpdT, .vtemp]
  | .pT => [.jacobian, .dx, .solScratch, .residual, .u, .rhobar]
  | .fixedT => [.jacobian, .dx, .solScratch, .residual, .u, .rhobar, .dpdv, .vtemp]
  | .fixedP => [.jacobian, .dx, .solScratch, .residual, .u, .rhobar, .dpdv, .dpdT, .vtemp]
  | .rhoU =>
    [.jacobian, .dx, .solScratch, .residual, .u, .rhobar, .dpdv, .dtdv, .dpde, .dtde, .vtemp, .utemp]

/-- Where a scratch array starts, counted from the caller's pointer; none for the caller's own arrays.
(mixed_cell_models.hpp:765-770) -/
def arrStart (s : Solver) (n : Nat) (a : Arr) : Option Nat :=
  (((carveOrder s).zip (assign 0 (blocks s n)).1).find? fun q => q.1 == a).map (·.2.1)

end Verif.PTE.Acc
