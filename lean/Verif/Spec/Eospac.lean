import Verif.Model.Eos.Eospac

/-!
# What the EOSPAC wrapper should answer

In cgs units: densities and temperatures are as in the table, energies, pressures, heat capacities and
entropies are `10^10` times the tabulated number.  Nothing here mentions options, sessions or scratch.
-/

namespace Verif.Spec.Eospac

open Verif.Mods Verif.Eospac

variable {K : Type*} [Field K] [LinearOrder K] [IsStrictOrderedRing K]

/-- temperature of density and energy -/
def temp (T : Tabs K) (rho sie : K) : K := (T .TofRE).f rho (sie / 10 ^ 10)
/-- pressure of density and temperature -/
def press (T : Tabs K) (rho temp : K) : K := 10 ^ 10 * (T .PofRT).f rho temp
/-- energy of density and temperature -/
def sie (T : Tabs K) (rho temp : K) : K := 10 ^ 10 * (T .EofRT).f rho temp
/-- entropy of density and temperature -/
def entropy (T : Tabs K) (rho temp : K) : K := 10 ^ 10 * (T .SofRT).f rho temp
/-- pressure of density and energy -/
def pressE (T : Tabs K) (rho sie : K) : K := 10 ^ 10 * (T .PofRE).f rho (sie / 10 ^ 10)
/-- density of pressure and temperature -/
def density (T : Tabs K) (press temp : K) : K := (T .RofPT).f (press / 10 ^ 10) temp
/-- temperature of density and pressure -/
def tempP (T : Tabs K) (rho press : K) : K := (T .TofRP).f rho (press / 10 ^ 10)
/-- heat capacity: the energy derivative by temperature, at least 0 -/
def cv (T : Tabs K) (rho temp : K) : K := max (10 ^ 10 * (T .EofRT).fy rho temp) 0
/-- bulk modulus: `ρ ∂P/∂ρ + (∂P/∂T)/(∂e/∂T) · (P/ρ − ρ ∂e/∂ρ)` where `∂e/∂T > 0`, the isothermal one
elsewhere, at least 0 -/
def bulk (T : Tabs K) (rho temp : K) : K :=
  if rho ≤ 0 then 0
  else if 0 < (T .EofRT).fy rho temp then
    max (rho * (10 ^ 10 * (T .PofRT).fx rho temp)
      + (T .PofRT).fy rho temp / (T .EofRT).fy rho temp
        * (press T rho temp / rho - rho * (10 ^ 10 * (T .EofRT).fx rho temp))) 0
  else max (rho * (10 ^ 10 * (T .PofRT).fx rho temp)) 0
/-- Grüneisen parameter `(∂P/∂T)/(∂e/∂T)/ρ`, with the division guarded by `σ` -/
def gru (σ : K) (T : Tabs K) (rho temp : K) : K :=
  Verif.Robust.ratio σ ((T .PofRT).fy rho temp / (T .EofRT).fy rho temp) rho

/-- The right answer to each two-input query. -/
def answer (σ : K) (T : Tabs K) : Q → K → K → K
  | .tRE => temp T
  | .eRT => sie T
  | .pRT => press T
  | .pRE => pressE T
  | .sRT => entropy T
  | .sRE => fun r e => entropy T r (temp T r e)
  | .cvRT => cv T
  | .cvRE => fun r e => cv T r (temp T r e)
  | .bRT => bulk T
  | .bRE => fun r e => bulk T r (temp T r e)
  | .gRT => gru σ T
  | .gRE => fun r e => gru σ T r (temp T r e)

/-- The state of the library after loading: no table carries a conversion. -/
def fresh : Sess K := fun _ => Conv.none

end Verif.Spec.Eospac
