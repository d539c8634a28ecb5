import Verif.Model.Table.SpinerRhoSieCalls

/-! # What the calls on a `SpinerEOSDependsRhoSie` object should do with the caller's lambda (C159) -/

namespace Verif.Spec.RhoSieCalls

open Verif.RhoSie Verif.Mods
open Verif.RhoT (Lam Call Ans)

variable {K : Type} [Field K] [LinearOrder K]

/-- The pressure is beyond that of the highest tabulated density, where the table is continued by a line. -/
def Beyond (t : Tab K) (P T : K) : Prop := 0 < t.dPdRhoMax (t.lT T) ∧ t.PMaxRho (t.lT T) < P

/-- The call finds the density of a pressure and temperature. -/
def ByPressure : Call K → Prop
  | .fill fl _ => fl.rho = true
  | .pt _ _ => True
  | _ => False

/-- The call has to search in a table for its answer. -/
def Searches (t : Tab K) : Call K → Prop
  | .fill fl v => fl.rho = true ∧ ¬ Beyond t v.press v.temp
  | .pt P T => ¬ Beyond t P T
  | _ => False

/-- The call is made at density `rho` (any second input), and is not the Grüneisen parameter by energy. -/
def AtDensity (rho : K) : Call K → Prop
  | .query k r _ => r = rho ∧ k ≠ .gRE
  | .fill fl v => fl.rho = false ∧ v.rho = rho
  | _ => False

/-- The call leaves the cached density alone: it takes a density but does not note it. -/
def Quiet : Call K → Prop
  | .query k _ _ => k = .gRE
  | .minE _ => True
  | .ref => True
  | .massE _ _ => True
  | _ => False

/-- What the call returns with this lambda and this content of uninitialised memory. -/
def answer (o : Obj K) (u : K) (c : Call K) (l : Lam K) : Option (Ans K) := (step o u c l).map (·.1)

end Verif.Spec.RhoSieCalls
