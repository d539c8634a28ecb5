import Verif.Model.EosIface
import Mathlib.Analysis.Calculus.Deriv.Basic
import Mathlib.Analysis.Calculus.Deriv.Mul
import Mathlib.Analysis.Calculus.Deriv.Add
import Mathlib.Analysis.Calculus.Deriv.Comp

/-!
# What it means for the queries of an EOS to be thermodynamically consistent

Independent of any implementation: `f k rho y` is the answer to query `k` (a name such as
`PressureFromDensityTemperature`) at density `rho` and second argument `y` (a temperature or a
specific internal energy, according to the query's name).
-/

namespace Verif.Spec

open Verif.Mods

/-- The answers of an EOS at a fixed lambda. -/
abbrev Answers (K : Type*) := Q → K → K → K

section algebra
variable {K : Type*}

/-- Temperature recovered from the energy at a temperature. -/
def RoundTripT (f : Answers K) (r T : K) : Prop := f .tRE r (f .eRT r T) = T

/-- Energy recovered from the temperature at an energy. -/
def RoundTripE (f : Answers K) (r e : K) : Prop := f .eRT r (f .tRE r e) = e

/-- A by-temperature query and its by-energy twin agree along `e = e(rho, T)`. -/
def Twin (f : Answers K) (kT kE : Q) (r T : K) : Prop := f kT r T = f kE r (f .eRT r T)

/-- All five pairs of twin queries agree at this state. -/
def Twins (f : Answers K) (r T : K) : Prop :=
  Twin f .pRT .pRE r T ∧ Twin f .sRT .sRE r T ∧ Twin f .cvRT .cvRE r T ∧ Twin f .bRT .bRE r T ∧
    Twin f .gRT .gRE r T

end algebra

/-- The heat capacity is the temperature derivative of the energy at constant density. -/
def HeatCapacity (f : Answers ℝ) (r T : ℝ) : Prop :=
  HasDerivAt (fun t => f .eRT r t) (f .cvRT r T) T

/-- `rho * Gruneisen` is the energy derivative of the pressure at constant density. -/
def Gruneisen (f : Answers ℝ) (r e : ℝ) : Prop :=
  HasDerivAt (fun x => f .pRE r x) (r * f .gRE r e) e

/-- The bulk modulus is `rho dP/drho` along an isentrope, i.e. along `de = P/rho^2 drho`:
`rho (dP/drho|_e + P/rho^2 dP/de|_rho)`. -/
def IsentropicBulk (f : Answers ℝ) (r e : ℝ) : Prop :=
  ∃ Pr Pe, HasDerivAt (fun x => f .pRE x e) Pr r ∧ HasDerivAt (fun x => f .pRE r x) Pe e ∧
    f .bRE r e = r * (Pr + f .pRE r e / r ^ 2 * Pe)

/-- First law at constant density: `T dS = de`, i.e. `dS/dT = cv/T`. -/
def EntropyT (f : Answers ℝ) (r T : ℝ) : Prop :=
  HasDerivAt (fun t => f .sRT r t) (f .cvRT r T / T) T

/-- First law at constant temperature with the Maxwell relation: `dS/drho|_T = -(dP/dT)/rho^2`. -/
def EntropyRho (f : Answers ℝ) (r T : ℝ) : Prop :=
  ∃ PT, HasDerivAt (fun t => f .pRT r t) PT T ∧ HasDerivAt (fun x => f .sRT x T) (-PT / r ^ 2) r

/-- Thermodynamic identity of energy and pressure: `de/drho|_T = (P - T dP/dT)/rho^2`. -/
def EnergyRho (f : Answers ℝ) (r T : ℝ) : Prop :=
  ∃ PT, HasDerivAt (fun t => f .pRT r t) PT T ∧
    HasDerivAt (fun x => f .eRT x T) ((f .pRT r T - T * PT) / r ^ 2) r

/-- Every law above at one state: temperature and energy invert each other, by-temperature and by-energy
queries agree, heat capacity, Gruneisen parameter and bulk modulus are the derivatives they are named
after, and energy, pressure and entropy satisfy the first law. -/
structure Consistent (f : Answers ℝ) (r T : ℝ) : Prop where
  roundTrip : RoundTripT f r T
  twins : Twins f r T
  heat : HeatCapacity f r T
  energyRho : EnergyRho f r T
  entropyT : EntropyT f r T
  entropyRho : EntropyRho f r T
  gruneisen : Gruneisen f r (f .eRT r T)
  bulk : IsentropicBulk f r (f .eRT r T)

/-- The state reported by `ValuesAtReferenceState` is a state of the EOS: pressure, energy, heat capacity,
bulk modulus and `dp/de` are the direct queries at the reported density and temperature. -/
def RefDirect {Λ : Type*} (t : Eos ℝ Λ) (l : Λ) : Prop :=
  t.q .pRT l (t.ref l).rho (t.ref l).temp = (t.ref l).press ∧
  t.q .eRT l (t.ref l).rho (t.ref l).temp = (t.ref l).sie ∧
  t.q .cvRT l (t.ref l).rho (t.ref l).temp = (t.ref l).cv ∧
  t.q .bRT l (t.ref l).rho (t.ref l).temp = (t.ref l).bmod ∧
  (t.ref l).rho * t.q .gRT l (t.ref l).rho (t.ref l).temp = (t.ref l).dpde

end Verif.Spec
