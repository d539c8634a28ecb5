import Verif.Model.PTESolvers
import Mathlib.Analysis.Calculus.Deriv.Basic
import Mathlib.Order.Interval.Set.UnorderedInterval

/-! # What it means for the arrays of a PTE solver to describe real material states

`s.press`, `s.u` are in units of the solver's energy-density scale `uscale`. -/

namespace Verif.PTE

/-- Material `m` has mass `rhobar m`, and its density, specific energy, pressure and energy density are
those its own equation of state gives at temperature `T`. -/
structure MatState {K : Type*} [Field K] (E : MatEOS K) (rhobar : Nat → K) (uscale T : K) (s : Mats K) (m : Nat) :
    Prop where
  mass : s.rho m * s.vfrac m = rhobar m
  energy : s.sie m = E.eOf m (s.rho m) T
  pressure : s.press m * uscale = E.pOf m (s.rho m) T (s.sie m)
  density : s.u m * uscale = rhobar m * s.sie m

/-- `q` is the derivative of `f` at some point between `x` and `x + h`. -/
def SlopeNear (f : ℝ → ℝ) (x h q : ℝ) : Prop := ∃ ξ ∈ Set.uIcc x (x + h), deriv f ξ = q

end Verif.PTE
