import Verif.Spec.ThermoLaws

/-! # Thermal expansion -/

namespace Verif.Spec

/-- `x` is the thermal expansion of the specific volume, `dV/dT` at constant pressure `= (dP/dT) / (rho^2 dP/drho)`. -/
def Expansion (f : Answers ℝ) (r T x : ℝ) : Prop :=
  ∃ Pr PT, HasDerivAt (fun y => f .pRT y T) Pr r ∧ HasDerivAt (fun t => f .pRT r t) PT T ∧ Pr ≠ 0 ∧ x = PT / (r ^ 2 * Pr)

end Verif.Spec
