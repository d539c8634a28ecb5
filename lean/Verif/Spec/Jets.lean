import Mathlib.Analysis.Calculus.Deriv.Basic

/-!
# What it means for a reported derivative to be a derivative, and for reported arrays to obey the laws

`g r T a z` is a reported quantity with its reported derivatives at density `r`, temperature `T`, mean atomic mass
`a`, mean atomic number `z`.
-/

namespace Verif.Spec

/-- A reported value with four reported derivatives. -/
structure Reported where
  (val ddr ddt dda ddz : ℝ)

/-- Each reported derivative is the derivative of the reported value. -/
structure Jet (g : ℝ → ℝ → ℝ → ℝ → Reported) (r T a z : ℝ) : Prop where
  ddr : HasDerivAt (fun x => (g x T a z).val) (g r T a z).ddr r
  ddt : HasDerivAt (fun x => (g r x a z).val) (g r T a z).ddt T
  dda : HasDerivAt (fun x => (g r T x z).val) (g r T a z).dda a
  ddz : HasDerivAt (fun x => (g r T a x).val) (g r T a z).ddz z

/-- The first law and the Maxwell relation between reported pressure, energy and entropy:
`T ds/dT = de/dT`, `de/drho = (P - T dP/dT)/rho^2`, `ds/drho = -(dP/dT)/rho^2`. -/
structure Laws (p e s : Reported) (r T : ℝ) : Prop where
  heat : T * s.ddt = e.ddt
  first : e.ddr = (p.val - T * p.ddt) / r ^ 2
  maxwell : s.ddr = -p.ddt / r ^ 2

end Verif.Spec
