import Verif.Model.EosIface
import Verif.Model.RootFind

/-!
# Model of the default member functions of `eos/eos_base.hpp` and of the `FillEos` patterns

An EOS class that does not define one of these members inherits it from `EosBase`.  Each default is
a function of the queries `q` of the derived class (what CRTP calls back into).
-/

namespace Verif.Base

open Verif.Mods Verif.Robust Verif.RootFind

section defaults
variable {K Λ : Type*} [Field K] [LinearOrder K]

/-- `eos_base.hpp:383-392` `GibbsFreeEnergyFromDensityTemperature`. -/
def gibbsRT (q : Q → K → K → K) (r T : K) : K := q .eRT r T + q .pRT r T / r - T * q .sRT r T

/-- `eos_base.hpp:393-402` `GibbsFreeEnergyFromDensityInternalEnergy`. -/
def gibbsRE (q : Q → K → K → K) (r e : K) : K :=
  let T := q .tRE r e
  e + q .pRT r T / r - T * q .sRT r T

/-- `eos_base.hpp:606-611` default `MinInternalEnergyFromDensity`: the energy at zero temperature, with
the default lambda `l0` whatever lambda the caller passes. -/
def minE (q : Q → Λ → K → K → K) (l0 : Λ) (_l : Λ) (r : K) : K := q .eRT l0 r 0

/-- `eos_base.hpp:687-707` `InternalEnergyFromDensityPressure(rho, P, sie, lambda)`; `e` is the incoming
`sie`, returned unchanged when `regula_falsi` fails to bracket.  The energy bounds use the default
lambda `l0` (`:695-698`). -/
def eRP (ε : K) (q : Q → Λ → K → K → K) (l0 : Λ) (tMin : K) (l : Λ) (r P e : K) : K :=
  let lo := q .eRT l0 r tMin
  let hi := q .eRT l0 r (10 ^ 20)
  -- `:699-700` the midpoint when the incoming value IS inside, the incoming value when it is NOT
  let g := if lo < e ∧ e < hi then 1 / 2 * (lo + hi) else e
  match regulaFalsi 1000 (fun x => q .pRE l r x) P g lo hi ε ε with
  | some (⟨_, some x⟩, _) => x
  | _ => e

/-- `eos_base.hpp:709-721` `InternalEnergyFromDensityPressure(rho, P, lambda)` without a guess. -/
def eRPNoGuess (ε : K) (q : Q → Λ → K → K → K) (l0 : Λ) (tMin : K) (l : Λ) (r P : K) : K :=
  eRP ε q l0 tMin l r P (1 / 2 * (q .eRT l0 r tMin + q .eRT l0 r (10 ^ 20)))

/-- `eos_base.hpp:652-660` the density guess handed to `findRoot`. -/
def rhoGuess (lo hi rho : K) : K :=
  if rho ≤ lo ∨ hi ≤ rho then
    if lo < 12 ∧ 12 < hi then 12 else 1 / 2 * (lo + hi)
  else rho

/-- `eos_base.hpp:630-671` `DensityEnergyFromPressureTemperature`; `g` is the incoming `(rho, sie)`,
`dv` the division used by the secant iteration.  `findRoot` always writes a density (status ignored). -/
def rePT (ε : K) (dv : K → K → K) (q : Q → Λ → K → K → K) (rhoMin rhoMax : K) (rhoPmin : K → K)
    (l : Λ) (P T : K) (g : K × K) : K × K :=
  let lo := max (rhoPmin T) rhoMin
  let rho := ((findRoot dv (fun r => q .pRT l r T) P (rhoGuess lo rhoMax g.1) lo rhoMax ε ε).xroot).getD g.1
  (rho, q .eRT l rho T)

/-- `eos_base.hpp:299-321` `PTDerivativesByFiniteDifferences`; `inv` is the derived class's
`DensityEnergyFromPressureTemperature` as a function of `(P, T)` and of the (uninitialised, `:304`)
incoming pair `u`. -/
def ptdFD (σ ε δ : K) (inv : K → K → K × K → K × K) (u : K × K) (r e P T : K) : PTDer K :=
  let absP := max |P| (ε / δ)
  let dP := -sgn P * absP * δ
  let absT := max |T| (ε / δ)
  let dT := absT * δ
  let o := inv (P + dP) T u
  let o' := inv P (T + dT) o
  ⟨ratio σ (o.2 - e) dP, ratio σ (o.1 - r) dP, ratio σ (o'.2 - e) dT, ratio σ (o'.1 - r) dT⟩

/-- Numerical constants: `robust::SMALL()`, `robust::EPS()`, `derivative_eps` (`eos_base.hpp:415`, `3e-6`),
and the content of variables the code reads before writing. -/
structure Num (K : Type*) where
  σ : K
  ε : K
  δ : K
  u : K × K

/-- An EOS that inherits every member it does not define from `EosBase`: `MinInternalEnergyFromDensity`
(`:606-611`), `InternalEnergyFromDensityPressure` (`:687-707`), `PTDerivativesFromPreferred` (`:409-419`)
and the bounds (`:535-557`).  Arguments: what every class defines itself.  `l0` is the default lambda. -/
def ofClass (n : Num K) (l0 : Λ) (q : Q → Λ → K → K → K) (rePT : Λ → K → K → K × K → K × K)
    (fill : Λ → Flags → Thermo K → Thermo K) (ref : Λ → RefState K) (abar zbar : K) (pref : Pref) :
    Eos K Λ where
  q := q
  minE := minE q l0
  eRP := fun l r P e => eRP n.ε q l0 0 l r P e
  rePT := rePT
  ptd := fun l r e P T => ptdFD n.σ n.ε n.δ (rePT l) n.u r e P T
  fill := fill
  ref := ref
  rhoMin := 0
  rhoMax := 10 ^ 100
  tMin := 0
  pMin := 0
  pMaxT := fun _ => 10 ^ 100
  rhoPmin := fun _ => 0
  abar := fun _ _ _ => abar
  zbar := fun _ _ _ => zbar
  pref := pref

end defaults

section fill
variable {K : Type*} [Field K] [LinearOrder K]

/-- The four trailing `if (output & ...)` statements shared by the `FillEos` of IdealGas
(`eos_ideal.hpp:255-261`), StiffGas, NobleAbel, CarnahanStarling, SAP_Polynomial, IdealElectrons,
Gruneisen (`eos_gruneisen.hpp:542-548`), JWL (`eos_jwl.hpp:247-256`) and both Davis EOS
(`eos_davis.hpp:499-511`, `:585-595`). -/
def fillRE (q : Q → K → K → K) (fl : Flags) (s : Thermo K) : Thermo K :=
  let s := if fl.press then { s with press := q .pRE s.rho s.sie } else s
  let s := if fl.temp then { s with temp := q .tRE s.rho s.sie } else s
  let s := if fl.bmod then { s with bmod := q .bRE s.rho s.sie } else s
  if fl.cv then { s with cv := q .cvRE s.rho s.sie } else s

/-- `eos_ideal.hpp:236-262` `FillEos`, also `eos_stiff.hpp:203-229`, `eos_noble_abel.hpp:216-242`,
`eos_carnahan_starling.hpp:291-318`, `eos_sap_polynomial.hpp:220-246`, `eos_electrons.hpp:235-262`:
they differ in `eFromRP`, the formula for the energy from density and pressure.  `none` is
`UNDEFINED_ERROR` (abort). -/
def fillGas (q : Q → K → K → K) (inv : K → K → K × K → K × K) (eFromRP : K → K → K) (fl : Flags)
    (s : Thermo K) : Option (Thermo K) :=
  if fl.rho ∧ fl.sie ∧ (fl.press ∨ fl.temp) then none
  else
    let s := if fl.rho ∧ fl.sie then
        { s with rho := (inv s.press s.temp (s.rho, s.sie)).1
                 sie := (inv s.press s.temp (s.rho, s.sie)).2 } else s
    if fl.press ∧ fl.sie ∧ (fl.rho ∨ fl.temp) then none
    else
      let s := if fl.press ∧ fl.sie then { s with sie := q .eRT s.rho s.temp } else s
      let s := if fl.temp ∧ fl.sie then { s with sie := eFromRP s.rho s.press } else s
      some (fillRE q fl s)

/-- `eos_mgusup.hpp:362-383`, `eos_powermg.hpp:440-461` `FillEos`; `none` is `EOS_ERROR` (abort). -/
def fillMG (q : Q → K → K → K) (fl : Flags) (s : Thermo K) : Option (Thermo K) :=
  if fl.rho then none
  else if fl.temp ∧ fl.sie then none
  else
    let s := if fl.temp then s else { s with sie := q .eRT s.rho s.temp }
    let s := if fl.temp then { s with temp := q .tRE s.rho s.sie } else s
    let s := if fl.press then { s with press := q .pRE s.rho s.sie } else s
    let s := if fl.cv then { s with cv := q .cvRE s.rho s.sie } else s
    some (if fl.bmod then { s with bmod := q .bRE s.rho s.sie } else s)

/-- `shifted_eos.hpp:151-167` `ShiftedEOS::FillEos` over a `FillEos` that may abort (`none`); the `default`
branch is `EOS_ERROR`. (`Mods.shifted` has the total version.) -/
def shiftedFill (sh : K) (pref : Pref) (inner : Flags → Thermo K → Option (Thermo K)) (fl : Flags)
    (s : Thermo K) : Option (Thermo K) :=
  match pref with
  | .DT => (inner fl s).map fun o => { o with sie := o.sie + sh }
  | .DE => (inner fl { s with sie := s.sie - sh }).map fun o => { o with sie := s.sie }
  | .other => none

/-- `scaled_eos.hpp:162-180` `ScaledEOS::FillEos`, likewise. -/
def scaledFill (sc : K) (pref : Pref) (inner : Flags → Thermo K → Option (Thermo K)) (fl : Flags)
    (s : Thermo K) : Option (Thermo K) :=
  match pref with
  | .DT => (inner fl { s with rho := sc * s.rho }).map fun o => { o with rho := s.rho, sie := sc * o.sie }
  | .DE => (inner fl { s with rho := sc * s.rho, sie := 1 / sc * s.sie }).map
      fun o => { o with rho := s.rho, sie := s.sie }
  | .other => none

end fill

end Verif.Base
