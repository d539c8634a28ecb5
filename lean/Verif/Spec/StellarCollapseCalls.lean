import Verif.Model.Table.StellarCollapseCalls

/-! # What the calls on a `StellarCollapse` object should do, whatever was called before (C157) -/

namespace Verif.Spec.SCCalls

open Verif.SC Verif.Mods

variable {K : Type} [Field K] [LinearOrder K] [IsStrictOrderedRing K] [FloorRing K]

/-- The energy lies strictly between the cold and the hot curve at this density and electron fraction: only then is there something
to search for. -/
def Between (m : Env K) (s : Eos K) (Ye rho e : K) : Prop :=
  s.eCold.interp Ye (lRho m rho) < e ∧ e < s.eHot.interp Ye (lRho m rho)

/-- The call has to search for a temperature: it is made with an energy on the table. -/
def Searches (m : Env K) (s : Eos K) (Ye : K) : Call K → Prop
  | .query k rho e => k.byEnergy = true ∧ Between m s Ye rho e
  | .fill fl v => fl.temp = true ∧ Between m s Ye v.rho v.sie
  | _ => False

/-- The call is made with a temperature, `T`. -/
def At (T : K) : Call K → Prop
  | .query k _ y => k.byEnergy = false ∧ y = T
  | .comp _ _ y => y = T
  | .fill fl v => fl.temp = false ∧ v.temp = T
  | .pt _ y _ => y = T
  | _ => False

/-- No call of the run is that of the reference state. -/
def NoReference (cs : List (K × Call K)) : Prop := ∀ p ∈ cs, p.2 ≠ .ref

/-- What the call with lambda `l` returns. -/
def answer (m : Env K) (s : Eos K) (u : K) (c : Call K) (l : Lam K) : Option (Ans K) := (call m s u c (some l)).map (·.1)

end Verif.Spec.SCCalls
