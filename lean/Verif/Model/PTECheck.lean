import Verif.Model.PTEDriver
import Mathlib.Analysis.SpecialFunctions.Pow.Real

/-! # Model of the `CheckPTE` member functions of the PTE solvers (over `ℝ`, because of `sqrt`) -/

namespace Verif.PTE

open Robust

/-- The tolerances of `MixParams` (`mixed_cell_models.hpp:47-60`). -/
structure Tol where
  relP : ℝ
  relT : ℝ
  relE : ℝ
  relV : ℝ
  absP : ℝ
  absT : ℝ

/-- Default tolerances (`mixed_cell_models.hpp:47-52`). -/
noncomputable def tolDefault : Tol := ⟨1 / 10 ^ 6, 1 / 10 ^ 4, 1 / 10 ^ 6, 1 / 10 ^ 6, 1 / 10 ^ 6, 1 / 10 ^ 4⟩

/-- The initialisers of the `_sufficient` tolerances (`mixed_cell_models.hpp:55-60`), from the tolerances the object is
made with. -/
noncomputable def sufficientOf (t : Tol) : Tol :=
  ⟨100 * t.relP, 10 * t.relT, 100 * t.relE, 100 * t.relV, 100 * t.absP, 10 * t.absT⟩

/-- Default `_sufficient` tolerances (`mixed_cell_models.hpp:55-60`). -/
noncomputable def tolSufficient : Tol := sufficientOf tolDefault

/-- The tolerances in a `MixParams` object: those tested for convergence and those tested for acceptance
(`mixed_cell_models.hpp:43-60`). -/
structure MixTols where
  tol : Tol
  suff : Tol

/-- `MixParams params;` (`mixed_cell_models.hpp:43-60`). -/
noncomputable def MixTols.fresh : MixTols := ⟨tolDefault, sufficientOf tolDefault⟩

/-- `params.pte_rel_tolerance_p = x` and so on, after construction: plain members, so nothing else changes
(`mixed_cell_models.hpp:47-52`). -/
def MixTols.assign (p : MixTols) (t : Tol) : MixTols := { p with tol := t }

/-- `err < rel * |scale| || err < abs` (pattern of `mixed_cell_models.hpp:1032-1033`). -/
def small (err rel scale abs : ℝ) : Prop := err < rel * |scale| ∨ err < abs

/-- `mixed_cell_models.hpp:1022-1040` `PTESolverRhoT::CheckPTE`, one component of the pair (the other is
the same with the other tolerances). `mean_p` accumulates in a loop. -/
noncomputable def rhoTCheck (t : Tol) (n : Nat) (vfrac press residual : Nat → ℝ) : Prop :=
  let meanP := forN n (fun a m => a + vfrac m * press m) 0
  let errP := Real.sqrt (sumNeumaier residual (n - 1) 1 (-1) (fun x => x * x))
  let errU := |residual 0|
  small errP t.relP meanP t.absP ∧ errU < t.relE

/-- `mixed_cell_models.hpp:1323-1335` `PTESolverPT::CheckPTE` (`RV = 0`, `RSIE = 1`). -/
def ptCheck (t : Tol) (residual : Nat → ℝ) : Prop :=
  |residual 0| < t.relV ∧ |residual 1| < t.relE

/-- `mixed_cell_models.hpp:1563-1581` `PTESolverFixedT::CheckPTE`. The loop starts at 1. -/
noncomputable def fixedTCheck (t : Tol) (n : Nat) (vfrac press residual : Nat → ℝ) : Prop :=
  let meanP := forN (n - 1) (fun a m => a + vfrac (m + 1) * press (m + 1)) (vfrac 0 * press 0)
  let errP := Real.sqrt (forN (n - 1) (fun a m => a + residual (m + 1) * residual (m + 1)) 0)
  small errP t.relP meanP t.absP ∧ |residual 0| < t.relV

/-- `mixed_cell_models.hpp:1791-1807` `PTESolverFixedP::CheckPTE`; `neq - 1 = nmat`. -/
noncomputable def fixedPCheck (t : Tol) (n : Nat) (uscale : ℝ) (residual : Nat → ℝ) : Prop :=
  let errP := Real.sqrt (forN n (fun a m => a + residual m * residual m) 0) * uscale
  (errP < t.relP ∨ errP < t.absP) ∧ |residual n| < t.relV

/-- `mixed_cell_models.hpp:2023-2048` `PTESolverRhoU::CheckPTE`. -/
noncomputable def rhoUCheck (σ : ℝ) (t : Tol) (n : Nat) (rhoTotal : ℝ)
    (rhobar vfrac press temp residual : Nat → ℝ) : Prop :=
  let meanP := forN (n - 1) (fun a m => a + vfrac (m + 1) * press (m + 1)) (vfrac 0 * press 0)
  let meanT := ratio σ (forN (n - 1) (fun a m => a + rhobar (m + 1) * temp (m + 1)) (rhobar 0 * temp 0)) rhoTotal
  let errP := Real.sqrt (forN (n - 1) (fun a m => a + residual (m + 1 + 1) * residual (m + 1 + 1)) 0)
  let errT := Real.sqrt (forN (n - 1) (fun a m => a + residual (m + 1 + n) * residual (m + 1 + n)) 0)
  small errP t.relP meanP t.absP ∧ (errT < t.relT * meanT ∨ errT < t.absT)

end Verif.PTE
