import Verif.Model.Table.SpinerRhoSie
import Verif.Model.Table.SpinerRhoTCalls

/-!
# The calls on a `SpinerEOSDependsRhoSie` object, with the lambda they read and write

`singularity-eos/eos/eos_spiner_rho_sie.hpp:654-985`.  A lambda is as in `SpinerRhoTCalls`; in a numerically indexed one cell 0 is the log
density and 1, 2, … are the mass fractions (`:137-139`, `:786`, `:793`).  Only the log density is read, and only by `lRhoFromPlT_`.  An abort
is `none`; `u` is what the uninitialised `lRho_cache` (`:963`) contains.
-/

namespace Verif.RhoSie

open Verif.RootFind Verif.Mods
open Verif.RhoT (Slot Lam Call Ans statusCode)

/-- The object: tables, number of phases (`numphases`), reference state. (eos_spiner_rho_sie.hpp:320-372) -/
structure Obj (K : Type) where
  t : Tab K
  phases : Nat
  ref : RefState K

variable {K : Type} [Field K] [LinearOrder K]

/-- The lambda after `lRhoFromPlT_`, `:982-983`. -/
def afterSearch (r : K × Status) (l : Lam K) : Lam K := (l.set .lRho r.1).set .root (statusCode r.2)

/-- One call: answer and lambda afterwards. The entropies abort (`:694-709`). `interpRhoT_` and `interpRhoSie_` store the log density (`:925`,
`:937`); the Grüneisen parameter by energy (`:759-766`), the least energy (`:687-692`) and the mass fractions by energy (`:812-836`) do not. -/
def step (o : Obj K) (u : K) (c : Call K) (l : Lam K) : Option (Ans K × Lam K) :=
  let t := o.t
  match c with
  | .query .sRT _ _ => none
  | .query .sRE _ _ => none
  | .query .gRE rho y => some (.num (query t .gRE rho y), l)
  | .query k rho y => some (.num (query t k rho y), l.set .lRho (t.lRho rho))
  | .minE rho => some (.num (minE t rho), l)
  | .fill fl v =>
    (fillEos t fl (l.get .lRho u) v).map fun w =>
      (.thermo w, if fl.rho then afterSearch (lRhoOfPT t (l.get .lRho u) v.press (t.lT v.temp)) l else l.set .lRho (t.lRho v.rho))
  | .ref => some (.ref o.ref, l)
  | .pt P T =>
    let c := l.get .lRho u
    some (.pair (dePT t c P T).1 (dePT t c P T).2, afterSearch (lRhoOfPT t c P (t.lT T)) l)
  | .massT rho T =>
    if t.hasMf then some (.unit, (l.set .lRho (t.lRho rho)).phases o.phases (massT t rho T))
    else some (.unit, l.set (.mf 0) 1)
  | .massE rho e =>
    if t.hasMf then some (.unit, l.phases o.phases (massE t rho e))
    else some (.unit, l.set (.mf 0) 1)

/-- A run of calls with one lambda: answers in order, and the lambda afterwards; `none` if one aborts.
(eos_spiner_rho_sie.hpp:654-985) -/
def run (o : Obj K) : List (K × Call K) → Lam K → Option (List (Ans K) × Lam K)
  | [], l => some ([], l)
  | (u, c) :: cs, l => do
    let r ← step o u c l
    let q ← run o cs r.2
    some (r.1 :: q.1, q.2)

/-- The mass fractions into an array of the caller (`:768-780`, `:800-816`): its contents afterwards; without phase data only the first entry is written. -/
def massArray (o : Obj K) (f : Nat → K) (a : Nat → K) : Nat → K :=
  if o.t.hasMf then forN o.phases (fun a n => Function.update a n (f n)) a else Function.update a 0 1

end Verif.RhoSie
