import Verif.Model.RootFind
import Verif.Model.Modifiers

/-!
# `pAlpha2BilinearRampParams` with its two root searches (`modifiers/ramps_eos.hpp:43-77`)

`Model/Modifiers.pAlphaParams` models the algebra that follows the two searches; here the searches
themselves are run.  Exact arithmetic; `expf` stands for `std::exp`, `maxArg` for the logarithm of the
largest `Real`.  `assert(alpha0 > 1)` (debug builds only) is omitted.
-/

namespace Verif.PAlpha

open Verif.RootFind Verif.Mods Verif.Robust

variable {K : Type*} [Field K] [LinearOrder K]

/-- What `ValuesAtReferenceState` returns and the function uses, and the isotherm
`rho ↦ PressureFromDensityTemperature(rho, T0)`. (`ramps_eos.hpp:47-49, 54-56, 65-67`) -/
structure Solid (K : Type*) where
  rho0 : K
  p0 : K
  bmod0 : K
  isotherm : K → K

/-- `ramps_eos.hpp:58-62`: the upper bound of both searches. -/
def upperBound (σ : K) (expf : K → K) (maxArg : K) (s : Solid K) (Pc : K) : K :=
  s.rho0 * expf (min maxArg (ratio σ (2 * Pc - s.p0) s.bmod0))

/-- What the function leaves behind: the two search statuses (which the code discards), the two densities
and the four output parameters. (`ramps_eos.hpp:45-52, 64, 70, 71-76`) -/
structure Out (K : Type*) where
  st1 : Status
  st2 : Status
  rmid : K
  r1 : K
  params : K × K × K × K

/-- `ramps_eos.hpp:43-77` `pAlpha2BilinearRampParams`. `u1 u2` are the contents of the uninitialised
locals `rmid` and `r1`. -/
def pAlpha (dv : K → K → K) (σ : K) (expf : K → K) (maxArg : K) (s : Solid K)
    (alpha0 Pe Pc u1 u2 : K) : Out K :=
  let r0 := ratio σ s.rho0 alpha0
  let ub := upperBound σ expf maxArg s Pc
  let a1 := findRoot dv (fun x => s.isotherm (alpha0 * x)) Pe s.rho0 r0 ub (1 / 10 ^ 12) (1 / 10 ^ 12)
  let rmid := a1.xroot.getD u1
  let a2 := findRoot dv (fun x => s.isotherm x) Pc rmid r0 ub (1 / 10 ^ 12) (1 / 10 ^ 12)
  let r1 := a2.xroot.getD u2
  ⟨a1.status, a2.status, rmid, r1, pAlphaParams σ s.rho0 alpha0 Pe Pc rmid r1⟩

end Verif.PAlpha
