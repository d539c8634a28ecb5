import Verif.Model.Eos.Helmholtz
import Verif.Model.EosIface

/-!
# The queries of the Helmholtz EOS, with the lambda they read and write

`singularity-eos/eos/eos_helmholtz.hpp:515-717`, `:759-793`, `:818-866`.  The lambda is `none` for a null pointer; an abort is
`none`.  `σ` is the sign-safe small number of `robust::ratio`, `ε` is `robust::EPS()`, the record `j` holds what the uninitialised
local variables of the queries happen to contain, and `j.temp` also what the uninitialised `lTguess` contains.
-/

namespace Verif.Helm

open Verif.Mods (Q Flags Thermo RefState)

noncomputable section

/-- `SafeMustGet` of the mean atomic mass and number: aborts on a null lambda (`eos_helmholtz.hpp:829-832`,
`indexable_types.hpp:146-150`). -/
def mustGet (l : Option Lam) : Option Lam := l

/-- `Helmholtz::FillEos`, `eos_helmholtz.hpp:818-866`. -/
def fillEos (σ ε : ℝ) (m : Model) (u : ℝ) (l : Option Lam) (out : Flags) (v : Thermo ℝ) : Option (Thermo ℝ × Option Lam) :=
  if out.rho then none
  else if out.temp && out.sie then none
  else do
    let lam ← mustGet l
    let d := dens σ m.c v.rho lam.abar lam.zbar
    let T := if out.temp then pow10 (lTFromRhoSie σ m v.rho v.sie u lam) else v.temp
    let lam' := if out.temp then lam else { lam with lT := lam.lT.map fun _ => log10 v.temp }
    let g := getRT σ m v.rho T lam.abar lam.zbar d
    some ({ rho := v.rho
            temp := T
            sie := if out.sie then g.e.val else v.sie
            press := if out.press then g.p.val else v.press
            cv := if out.cv then g.e.ddt else v.cv
            bmod := if out.bmod then max ε (g.p.val * gamma1 σ v.rho T g.p g.e) else v.bmod }, some lam')

/-- No output requested (constants.hpp:22: `none`). -/
def noOut : Flags := ⟨false, false, false, false, false, false⟩

/-- `GetFromDensityTemperature_`, `eos_helmholtz.hpp:759-775`: the arrays; the lambda is read (`SafeGet` where `FillEos` has
`SafeSet`) and not written. -/
def fromRT (σ : ℝ) (m : Model) (l : Option Lam) (rho T : ℝ) : Option Five := do
  let lam ← mustGet l
  some (getRT σ m rho T lam.abar lam.zbar (dens σ m.c rho lam.abar lam.zbar))

/-- `GetFromDensityInternalEnergy_`, `eos_helmholtz.hpp:777-793`, and `:631-642`: the temperature found and the arrays. -/
def fromRE (σ : ℝ) (m : Model) (u : ℝ) (l : Option Lam) (rho e : ℝ) : Option (ℝ × Five) := do
  let lam ← mustGet l
  let T := pow10 (lTFromRhoSie σ m rho e u lam)
  some (T, getRT σ m rho T lam.abar lam.zbar (dens σ m.c rho lam.abar lam.zbar))

/-- The two-argument queries, `eos_helmholtz.hpp:515-645`: value and lambda afterwards. -/
def query (σ ε : ℝ) (m : Model) (j : Thermo ℝ) (q : Q) (l : Option Lam) (rho y : ℝ) : Option (ℝ × Option Lam) :=
  let byT : Thermo ℝ := { j with rho := rho, temp := y }
  let byE : Thermo ℝ := { j with rho := rho, sie := y }
  let u := j.temp
  match q with
  | .tRE => (fillEos σ ε m u l { noOut with temp := true } byE).map fun r => (r.1.temp, r.2)
  | .eRT => (fillEos σ ε m u l { noOut with sie := true } byT).map fun r => (r.1.sie, r.2)
  | .pRT => (fillEos σ ε m u l { noOut with press := true } byT).map fun r => (r.1.press, r.2)
  | .pRE => (fillEos σ ε m u l { noOut with press := true, temp := true } byE).map fun r => (r.1.press, r.2)
  | .sRT => (fromRT σ m l rho y).map fun g => (g.s.val, l)
  | .sRE => (fromRE σ m u l rho y).map fun g => (g.2.s.val, l)
  | .cvRT => (fillEos σ ε m u l { noOut with cv := true } byT).map fun r => (r.1.cv, r.2)
  | .cvRE => (fillEos σ ε m u l { noOut with cv := true, temp := true } byE).map fun r => (r.1.cv, r.2)
  | .bRT => (fillEos σ ε m u l { noOut with bmod := true } byT).map fun r => (r.1.bmod, r.2)
  | .bRE => (fillEos σ ε m u l { noOut with bmod := true, temp := true } byE).map fun r => (r.1.bmod, r.2)
  | .gRT => (fromRT σ m l rho y).map fun g => (gamma3 σ rho y g.p g.e - 1, l)
  | .gRE => (fromRE σ m u l rho y).map fun g => (gamma3 σ rho g.1 g.2.p g.2.e - 1, l)

/-- `MeanAtomicMassFromDensityTemperature`, `eos_helmholtz.hpp:657-664`: the entry of the lambda. -/
def massOf (l : Option Lam) : Option ℝ := (mustGet l).map (·.abar)

/-- `MeanAtomicNumberFromDensityTemperature`, `eos_helmholtz.hpp:665-672`. -/
def numberOf (l : Option Lam) : Option ℝ := (mustGet l).map (·.zbar)

/-- `ValuesAtReferenceState`, `eos_helmholtz.hpp:680-696`. -/
def refState (σ ε : ℝ) (m : Model) (j : Thermo ℝ) (l : Option Lam) : Option (RefState ℝ × Option Lam) := do
  let v : Thermo ℝ := { j with rho := 10 ^ 7, temp := 3 / 2 * 10 ^ 9 }
  let (w, l1) ← fillEos σ ε m j.temp l { noOut with sie := true, press := true, cv := true, bmod := true } v
  let (g, l2) ← query σ ε m j .gRT l1 w.rho w.temp
  some ({ rho := w.rho
          temp := w.temp
          sie := w.sie
          press := w.press
          cv := w.cv
          bmod := w.bmod
          dpde := g * w.rho
          dvdt := 0 }, l2)

/-- The lambda `PofRT` of `eos_helmholtz.hpp:705-707`. (It writes `log10 temp` into the caller's lambda at every evaluation, but reads
only the composition; the lambda after the search is that of the last statement, `:716`.) -/
def pofRT (σ ε : ℝ) (m : Model) (j : Thermo ℝ) (l : Option Lam) (T r : ℝ) : ℝ :=
  match query σ ε m j .pRT l r T with
  | some (p, _) => p
  | none => 0

/-- `DensityEnergyFromPressureTemperature`, `eos_helmholtz.hpp:697-717`: guess `1e7`, bounds of the table, tolerances `1e-8`; aborts
when the search fails and on a negative density. (The requirement `temp >= 0` is compiled out of release builds; it is not modelled.) -/
def rhoSiePT (σ ε : ℝ) (m : Model) (j : Thermo ℝ) (l : Option Lam) (P T : ℝ) : Option (ℝ × ℝ × Option Lam) := do
  let _ ← mustGet l
  match RootFind.regulaFalsi 1000 (pofRT σ ε m j l T) P (10 ^ 7) m.tb.rhoMin m.tb.rhoMax (1 / 10 ^ 8) (1 / 10 ^ 8) with
  | some (⟨.success, some rho⟩, _) =>
    if rho < 0 then none
    else do
      let (e, l') ← query σ ε m j .eRT l rho T
      some (rho, e, l')
  | _ => none

/-- The public calls on one Helmholtz object (`eos_helmholtz.hpp:515-717`). -/
inductive Call where
  | query (q : Q) (rho y : ℝ)
  | fill (out : Flags) (v : Thermo ℝ)
  | ref
  | pt (P T : ℝ)

/-- What a call leaves in the caller's lambda (`eos_helmholtz.hpp:515-717`); `none` if it aborts. -/
def Call.lamAfter (σ ε : ℝ) (m : Model) (j : Thermo ℝ) : Call → Option Lam → Option (Option Lam)
  | .query q rho y, l => (Helm.query σ ε m j q l rho y).map (·.2)
  | .fill out v, l => (fillEos σ ε m j.temp l out v).map (·.2)
  | .ref, l => (refState σ ε m j l).map (·.2)
  | .pt P T, l => (rhoSiePT σ ε m j l P T).map (·.2.2)

/-- A run of calls on one lambda (eos_helmholtz.hpp:515-717), each with its own contents of the uninitialised variables. -/
def runCalls (σ ε : ℝ) (m : Model) : List (Thermo ℝ × Call) → Option Lam → Option (Option Lam)
  | [], l => some l
  | (j, c) :: cs, l => do
    let l' ← c.lamAfter σ ε m j l
    runCalls σ ε m cs l'

end

end Verif.Helm
