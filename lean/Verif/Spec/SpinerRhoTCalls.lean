import Verif.Model.Table.SpinerRhoTCalls

/-! # What the calls on a `SpinerEOSDependsRhoT` object should do with the caller's lambda (C158) -/

namespace Verif.Spec.RhoTCalls

open Verif.RhoT Verif.Mods

variable {K : Type} [Field K] [LinearOrder K]

/-- The energy is, by more than the soft threshold, above the cold curve and below the hottest isotherm. -/
def EnergyOn (t : Tab K) (rho e : K) : Prop :=
  t.sieCold (t.lRho rho) + t.soft * |t.sieCold (t.lRho rho)| < e ∧ e < t.sielTMax (t.lRho rho) - t.soft * |t.sielTMax (t.lRho rho)|

/-- The energy is so high that the state counts as beyond the hottest isotherm. -/
def EnergyAbove (t : Tab K) (rho e : K) : Prop :=
  t.sielTMax (t.lRho rho) - t.soft * |t.sielTMax (t.lRho rho)| ≤ e

/-- The call has to search in a table for its answer. -/
def Searches (t : Tab K) : Call K → Prop
  | .query k rho e => k.byEnergy = true ∧ EnergyOn t rho e
  | .fill fl v => fl.rho = true ∨ (fl.temp = true ∧ if fl.sie = true
      then t.PCold (t.lRho v.rho) < v.press ∧ v.press < t.PMax (t.lRho v.rho) else EnergyOn t v.rho v.sie)
  | .pt _ _ => True
  | _ => False

/-- The call is one that can be answered without inverting anything: it gives the density, and a temperature or nothing else. -/
def Direct (o : Obj K) : Call K → Prop
  | .query k _ _ => k.byEnergy = false
  | .fill fl _ => fl.rho = false ∧ fl.temp = false
  | .pt _ _ => False
  | .massE _ _ => o.mf = none
  | _ => True

/-- The call is made at density `rho` and temperature `T`. -/
def At (rho T : K) : Call K → Prop
  | .query k r y => k.byEnergy = false ∧ r = rho ∧ y = T
  | .fill fl v => fl.rho = false ∧ fl.temp = false ∧ v.rho = rho ∧ v.temp = T
  | _ => False

/-- What the call returns with this lambda and these contents of uninitialised memory. -/
def answer (o : Obj K) (j : Junk K) (c : Call K) (l : Lam K) : Option (Ans K) := (step o j c l).map (·.1)

end Verif.Spec.RhoTCalls
