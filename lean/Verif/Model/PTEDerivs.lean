import Verif.Model.PTESolvers

/-! # The finite differences of the PTE solvers other than RhoT (`closure/mixed_cell_models.hpp`) -/

namespace Verif.PTE

open Robust

variable {K : Type*} [Field K] [LinearOrder K]

/-- The perturbation of a volume fraction, always towards one half
(`mixed_cell_models.hpp:1049`, `:1588`, `:1816`, `:2052`). -/
def vPert (eps v : K) : K := (if v < 1 / 2 then 1 else -1) * v * eps

/-- `mixed_cell_models.hpp:1584-1597` `PTESolverFixedT::Jacobian`: `dpdv`. The energy passed on is the
one the EOS gives at the perturbed state, which `PressureFromDensityTemperature` does not read. -/
def fixedTDpdv (σ : K) (E : MatEOS K) (eps pmx uscale T : K) (rhobar : Nat → K) (s : Mats K) (m : Nat) : K :=
  let dv := vPert eps (s.vfrac m)
  let rp := ratio σ (rhobar m) (s.vfrac m + dv)
  min (ratio σ (ratio σ (E.pOf m rp T (E.eOf m rp T)) uscale - s.press m) dv) (-|pmx|)

/-- `mixed_cell_models.hpp:1812-1837` `PTESolverFixedP::Jacobian`: `dpdv` and `dpdT`;
`GetPressureFromPreferred(.., true)` looks the energy up at the perturbed state. -/
def fixedPDerivs (σ : K) (E : MatEOS K) (eps pmx uscale Tnorm Tequil : K) (rhobar : Nat → K) (s : Mats K)
    (m : Nat) : K × K :=
  let dv := vPert eps (s.vfrac m)
  let rp := ratio σ (rhobar m) (s.vfrac m + dv)
  let T := Tnorm * Tequil
  let dT := Tequil * eps
  let T' := Tnorm * (Tequil + dT)
  (min (ratio σ (ratio σ (E.pOf m rp T (E.eOf m rp T)) uscale - s.press m) dv) (-|pmx|),
   ratio σ (ratio σ (E.pOf m (s.rho m) T' (E.eOf m (s.rho m) T')) uscale - s.press m) dT)

/-- `mixed_cell_models.hpp:1337-1378` `PTESolverPT::Jacobian`: one material's four terms, in the order of
the arguments of `ptJacobian`: `(rbor2_dr_dT, rbor2_dr_dP, dudT, dudP)`. -/
def ptTerms (σ : K) (E : MatEOS K) (eps uscale Tnorm P T : K) (rhobar : Nat → K) (s : Mats K) (m : Nat) :
    K × K × K × K :=
  let dp := -P * eps
  let a := E.rhoEOfPT m (uscale * (P + dp)) (Tnorm * T)
  let dT := T * eps
  let b := E.rhoEOfPT m (uscale * P) (Tnorm * (T + dT))
  let c := ratio σ (rhobar m) (s.rho m * s.rho m)
  (c * ratio σ (b.1 - s.rho m) dT, c * ratio σ (a.1 - s.rho m) dp,
   ratio σ (ratio σ (rhobar m * b.2) uscale - s.u m) dT,
   ratio σ (ratio σ (rhobar m * a.2) uscale - s.u m) dp)

/-- `mixed_cell_models.hpp:1337-1385` `PTESolverPT::Jacobian`: the sums and the matrix. -/
def ptJacobianOf (σ : K) (E : MatEOS K) (n : Nat) (eps uscale Tnorm P T : K) (rhobar : Nat → K) (s : Mats K)
    (jac : Nat → K) : Nat → K :=
  let t := ptTerms σ E eps uscale Tnorm P T rhobar s
  let sum := fun (f : Nat → K) => forN n (fun a m => a + f m) 0
  ptJacobian (sum fun m => (t m).1) (sum fun m => (t m).2.1) (sum fun m => (t m).2.2.1)
    (sum fun m => (t m).2.2.2) jac

/-- `mixed_cell_models.hpp:2048-2087` `PTESolverRhoU::Jacobian`: the derivative arrays. -/
def rhoUDerivs (σ : K) (E : MatEOS K) (eps pmx minDtde uscale Tnorm : K) (rhobar : Nat → K) (s : Mats K) :
    DerivsU K :=
  let dv := fun m => vPert eps (s.vfrac m)
  let rp := fun m => ratio σ (rhobar m) (s.vfrac m + dv m)
  let tv := fun m => ratio σ (E.tOf m (rp m) (s.sie m)) Tnorm
  let pv := fun m => ratio σ (E.pOf m (rp m) (Tnorm * tv m) (s.sie m)) uscale
  let de := fun m => |s.u m| * eps
  let ep := fun m => ratio σ (s.u m + de m) (rhobar m)
  let te := fun m => ratio σ (E.tOf m (s.rho m) (uscale * ep m)) Tnorm
  let pe := fun m => ratio σ (E.pOf m (s.rho m) (Tnorm * te m) (uscale * ep m)) uscale
  let dtde := fun m => ratio σ (te m - s.temp m) (de m)
  { dpdv := fun m => min (ratio σ (pv m - s.press m) (dv m)) (-|pmx|)
    dtdv := fun m => ratio σ (tv m - s.temp m) (dv m)
    dpde := fun m => ratio σ (pe m - s.press m) (de m)
    dtde := fun m => if |dtde m| < minDtde then eps else dtde m }

end Verif.PTE
