import Verif.Model.EosBase
import Mathlib.Analysis.SpecialFunctions.Log.Basic
import Mathlib.Analysis.SpecialFunctions.Sqrt

/-!
# Model of MGUsup (`eos/eos_mgusup.hpp`) and PowerMG (`eos/eos_powermg.hpp`)

Both are Mie-Gruneisen EOS about a Hugoniot, in terms of the compression `eta = 1 - rho0/rho`.  `exp` and `std::log` are
`Real.exp` and `Real.log`.  Warnings printed in debug builds are not modelled.
-/

namespace Verif.MG

open Verif.Mods Verif.Robust Verif.Base

noncomputable section

variable {Λ : Type*}

/-! ## MGUsup -/

/-- `eos_mgusup.hpp:40-46` constructor arguments. -/
structure Usup where
  rho0 : ℝ
  T0 : ℝ
  Cs : ℝ
  s : ℝ
  G0 : ℝ
  Cv0 : ℝ
  E0 : ℝ
  S0 : ℝ
  abar : ℝ
  zbar : ℝ

namespace Usup

/-- `eos_mgusup.hpp:199` and everywhere else: `eta`. -/
def eta (p : Usup) (n : Num ℝ) (r : ℝ) : ℝ := 1 - ratio n.σ p.rho0 r

/-- `eos_mgusup.hpp:198-201` `HugPressureFromDensity`. -/
def hugP (p : Usup) (n : Num ℝ) (r : ℝ) : ℝ :=
  p.Cs * p.Cs * p.rho0 * ratio n.σ (p.eta n r) ((1 - p.s * p.eta n r) * (1 - p.s * p.eta n r))

/-- `eos_mgusup.hpp:202-205` `HugInternalEnergyFromDensity`. -/
def hugE (p : Usup) (n : Num ℝ) (r : ℝ) : ℝ := p.E0 + ratio n.σ (p.eta n r) (2 * p.rho0) * p.hugP n r

/-- `eos_mgusup.hpp:230-238` the loop of `HugTemperatureFromDensity`; the first argument counts the remaining
iterations (`sumkmax = 20`). Returns `sum`. -/
def hugLoop (σ g f1 eta : ℝ) : Nat → Nat → ℝ → ℝ → ℝ → ℝ
  | 0, _, _, _, sum => sum
  | k + 1, i, sk, lk, sum =>
    let mk := g / (i + 2) / (i + 2)
    let sk' := (sk * f1 - lk * eta) * (i + 1) * mk
    let lk' := mk * (i + 1) * lk
    let sum' := sum + sk'
    if ratio σ (sk' * sk') (sum' * sum') < 1 / 10 ^ 16 * (1 / 10 ^ 16) then sum' else hugLoop σ g f1 eta k (i + 1) sk' lk' sum'

/-- `eos_mgusup.hpp:225` `pf`. -/
def pf (p : Usup) : ℝ := p.Cs * p.Cs / (2 * p.Cv0 * p.s * p.s)

/-- `eos_mgusup.hpp:206-251` `HugTemperatureFromDensity` in terms of `eta`. The abort for `1 - s eta ≤ 0` (`:211-216`)
is not modelled: theorems about this function assume `0 < 1 - s eta`. -/
def hugTe (p : Usup) (n : Num ℝ) (eta : ℝ) : ℝ :=
  let f1 := 1 - p.s * eta
  let g := ratio n.σ p.G0 p.s
  if eta * eta < 1 / 10 ^ 8 then
    p.T0 * Real.exp (p.G0 * eta)
      + p.pf * (2 * Real.log f1 - p.s * eta / (f1 * f1) * (3 * p.s * eta - 2))
  else
    let sum := hugLoop n.σ g f1 eta 20 0 (-p.G0 * eta) p.G0 (-p.G0 * eta)
    (p.T0 - p.pf * ((g - 3) + Real.exp (-g) * (g * g - 4 * g + 2) * (Real.log f1 + sum))) * Real.exp (p.G0 * eta)
      - p.pf / f1 * ((4 - g) - 1 / f1)

/-- `eos_mgusup.hpp:206-251` `HugTemperatureFromDensity`. -/
def hugT (p : Usup) (n : Num ℝ) (r : ℝ) : ℝ := p.hugTe n (p.eta n r)

/-- `eos_mgusup.hpp:310-322` `TemperatureFromDensityInternalEnergy`. -/
def temp (p : Usup) (n : Num ℝ) (r e : ℝ) : ℝ :=
  let v := (e - p.hugE n r) / p.Cv0 + p.hugT n r
  if v < 0 then 1 / 10 ^ 12 else v

/-- `eos_mgusup.hpp:253-259` `InternalEnergyFromDensityTemperature`. -/
def energy (p : Usup) (n : Num ℝ) (r T : ℝ) : ℝ := p.hugE n r + p.Cv0 * (T - p.hugT n r)

/-- `eos_mgusup.hpp:344-357` `BulkModulusFromDensityInternalEnergy`. -/
def bulkE (p : Usup) (n : Num ℝ) (r e : ℝ) : ℝ :=
  let x := p.eta n r
  let v := ratio n.σ (1 + p.s * x - p.G0 * p.s * x * x) (1 - p.s * x)
  let v := if x = 0 then p.Cs * p.Cs * p.rho0 else v * ratio n.σ (p.hugP n r) x
  ratio n.σ p.rho0 r * (v + p.G0 * p.G0 * p.rho0 * (e - p.hugE n r))

/-- `eos_mgusup.hpp:295-309` `BulkModulusFromDensityTemperature`. -/
def bulkT (p : Usup) (n : Num ℝ) (r T : ℝ) : ℝ :=
  let x := p.eta n r
  let v := ratio n.σ (1 + p.s * x - p.G0 * p.s * x * x) (x * (1 - p.s * x))
  let v := if x = 0 then p.Cs * p.Cs * p.rho0 else v * ratio n.σ (p.hugP n r) x
  ratio n.σ p.rho0 r * (v - p.G0 * p.G0 * p.Cv0 * p.rho0 * (T - p.hugT n r))

/-- `eos_mgusup.hpp:281-294` `TBulkModulusFromDensityTemperature` (the isothermal bulk modulus; not part of the common
interface). -/
def tbulk (p : Usup) (n : Num ℝ) (r _T : ℝ) : ℝ :=
  let x := p.eta n r
  let v := ratio n.σ (1 + p.s * x - p.G0 * p.s * x * x) (1 - p.s * x)
  let v := if x = 0 then p.Cs * p.Cs * p.rho0 else v * ratio n.σ (p.hugP n r) x
  ratio n.σ p.rho0 r * (v - p.G0 * p.G0 * p.Cv0 * p.rho0 * p.hugT n r)

/-- `eos_mgusup.hpp:274-280` `TExpansionCoeffFromDensityTemperature` (the thermal expansion; likewise). -/
def texp (p : Usup) (n : Num ℝ) (r T : ℝ) : ℝ := ratio n.σ (p.Cv0 * p.rho0 * p.G0) (p.tbulk n r T)

/-- `eos_mgusup.hpp:267-273` `EntropyFromDensityTemperature`. -/
def sT (p : Usup) (n : Num ℝ) (r T : ℝ) : ℝ := p.S0 - p.G0 * p.Cv0 * p.eta n r + p.Cv0 * Real.log (T / p.T0)

/-- `eos_mgusup.hpp:330-343` `EntropyFromDensityInternalEnergy`. -/
def sE (p : Usup) (n : Num ℝ) (r e : ℝ) : ℝ :=
  let v := p.S0 - p.G0 * p.Cv0 * p.eta n r + p.Cv0 * Real.log (p.temp n r e / p.T0)
  if v < 0 then 1 / 10 ^ 12 else v

/-- `eos_mgusup.hpp:50-119` the scalar queries (pressures `:260-266`, `:323-329`). -/
def q (p : Usup) (n : Num ℝ) : Q → ℝ → ℝ → ℝ
  | .tRE, r, e => p.temp n r e
  | .eRT, r, T => p.energy n r T
  | .pRE, r, e => p.hugP n r + p.rho0 * p.G0 * (e - p.hugE n r)
  | .pRT, r, T => p.hugP n r + p.G0 * p.rho0 * p.Cv0 * (T - p.hugT n r)
  | .cvRE, _, _ => p.Cv0
  | .cvRT, _, _ => p.Cv0
  | .bRE, r, e => p.bulkE n r e
  | .bRT, r, T => p.bulkT n r T
  | .gRT, r, _ => ratio n.σ (p.G0 * p.rho0) r
  | .gRE, r, _ => ratio n.σ (p.G0 * p.rho0) r
  | .sRT, r, T => p.sT n r T
  | .sRE, r, e => p.sE n r e

/-- `eos_mgusup.hpp:131-138` `MaximumDensity`. -/
def rhoMaxOf (p : Usup) (n : Num ℝ) : ℝ :=
  if 1 < p.s then 99 / 100 * ratio n.σ (p.s * p.rho0) (p.s - 1) else 10 ^ 3 * p.rho0

/-- `eos_mgusup.hpp:36-174` the class; reference state `:386-408`, bounds `:128-144`; density and energy from pressure and
temperature are the base class's (`dv` is the division of its secant method). -/
def eos (p : Usup) (n : Num ℝ) (dv : ℝ → ℝ → ℝ) (l0 : Λ) : Eos ℝ Λ :=
  { ofClass n l0 (fun k _ => p.q n k)
      (fun l => Base.rePT n.ε dv (fun k (_ : Λ) => p.q n k) (Real.sqrt n.ε * p.rho0) (p.rhoMaxOf n) (fun _ => 0) l)
      (fun _ fl s => (fillMG (p.q n) fl s).getD s)
      (fun _ => ⟨p.rho0, p.T0, p.E0, p.q n .pRT p.rho0 p.T0, p.Cv0, p.Cs * p.Cs * p.rho0, p.G0 * p.rho0,
        ratio n.σ (-1) (p.T0 * p.G0 * p.rho0)⟩) p.abar p.zbar .DE with
    rhoMin := Real.sqrt n.ε * p.rho0
    rhoMax := p.rhoMaxOf n
    pMin := -10 ^ 100 }

end Usup

/-! ## PowerMG -/

/-- `eos_powermg.hpp:40-52`, `:212-224` constructor arguments after initialisation; `K i` is `_K0toK40[i]`, `M` the index
of the last nonzero coefficient. -/
structure Power where
  rho0 : ℝ
  T0 : ℝ
  G0 : ℝ
  Cv0 : ℝ
  E0 : ℝ
  S0 : ℝ
  Pmin : ℝ
  K : Nat → ℝ
  M : Nat
  abar : ℝ
  zbar : ℝ

namespace Power

/-- `eos_powermg.hpp:219-223` the initialisation loop: `_M` after reading coefficients `0 .. n-1`. -/
def lastIdx (K : Nat → ℝ) : Nat → Nat
  | 0 => 0
  | n + 1 => if K n ≠ 0 then n else lastIdx K n

/-- `eos_powermg.hpp:40-52` the constructor; `Kin` is the 41-element input array. -/
def make (rho0 T0 G0 Cv0 E0 S0 Pmin : ℝ) (Kin : Nat → ℝ) (abar zbar : ℝ) : Power :=
  ⟨rho0, T0, G0, Cv0, E0, S0, if Pmin ≥ 0 then -1000 * Kin 0 else Pmin, Kin, lastIdx Kin 41, abar, zbar⟩

/-- `eta` (`eos_powermg.hpp:227` and everywhere else). -/
def eta (p : Power) (n : Num ℝ) (r : ℝ) : ℝ := 1 - ratio n.σ p.rho0 r

/-- `eos_powermg.hpp:229-231` `for (ind = M; ind >= 1; ind--) value = eta * value + K[ind]`. -/
def hornerP (K : Nat → ℝ) (x : ℝ) : Nat → ℝ → ℝ
  | 0, v => v
  | i + 1, v => hornerP K x i (x * v + K (i + 1))

/-- `eos_powermg.hpp:226-234` `_HugPressureFromDensity` in terms of `eta`. -/
def hugPe (p : Power) (x : ℝ) : ℝ := p.K 0 * x * (x * hornerP p.K x p.M 0 + 1)

/-- `eos_powermg.hpp:260-265` the while loop of `_SN2Mp2`; the first argument bounds the iterations (`ind < 200` stops the
loop first). Returns `sum`. -/
def snLoop (pf x : ℝ) : Nat → Nat → ℝ → ℝ → ℝ
  | 0, _, _, sum => sum
  | k + 1, ind, ak, sum =>
    if pf * ak > sum * (1 / 10 ^ 15) ∧ ind < 200 then
      snLoop pf x k (ind + 1) (ak * x / (ind + 1 : ℕ)) (sum + ak * x / (ind + 1 : ℕ))
    else sum

/-- `eos_powermg.hpp:251-272` `_SN2Mp2`. -/
def sn (p : Power) (x : ℝ) : ℝ := snLoop (Real.exp x - 1) x 200 (p.M + 2) (1 / (p.M + 2 : ℕ)) (1 / (p.M + 2 : ℕ))

/-- `eos_powermg.hpp:239-242` the loop of `_HugTemperatureFromDensity`, from `ind = i` down to 1. Returns `sum`. -/
def hugTLoop (p : Power) (x : ℝ) : Nat → ℝ → ℝ → ℝ
  | 0, _, sum => sum
  | i + 1, gam, sum =>
    let gam' := p.G0 * x / ((i + 1 : ℕ) + 2) * gam + 1 / ((i + 1 : ℕ) + 2)
    hugTLoop p x i gam' (x * sum + (i + 1 : ℕ) * p.K (i + 1) * gam')

/-- `eos_powermg.hpp:235-246` `_HugTemperatureFromDensity` in terms of `eta`. -/
def hugTe (p : Power) (x : ℝ) : ℝ :=
  let gam := p.sn (p.G0 * x)
  let sum := p.hugTLoop x (p.M - 1) gam (p.M * p.K p.M * gam)
  p.T0 * Real.exp (x * p.G0) + x * x * x * sum * (p.K 0 / p.Cv0 / 2 / p.rho0)

/-- `eos_powermg.hpp:274-287` `AllHugPressureFromDensity`. -/
def hugP (p : Power) (n : Num ℝ) (r : ℝ) : ℝ :=
  let x := p.eta n r
  if x ≤ 0 then (if x < p.Pmin / p.K 0 then p.Pmin else p.K 0 * x) else p.hugPe x

/-- `eos_powermg.hpp:288-291` `AllHugInternalEnergyFromDensity`. -/
def hugE (p : Power) (n : Num ℝ) (r : ℝ) : ℝ := p.E0 + ratio n.σ (p.eta n r) (2 * p.rho0) * p.hugP n r

/-- `eos_powermg.hpp:292-301` `AllHugTemperatureFromDensity`. -/
def hugT (p : Power) (n : Num ℝ) (r : ℝ) : ℝ :=
  let x := p.eta n r
  if x ≤ 0 then p.T0 * Real.exp (x * p.G0) else p.hugTe x

/-- `eos_powermg.hpp:342-344`, `:373-375` `for (ind = M; ind >= 1; ind--) sum = sum * eta + ind * K[ind] * eta`. -/
def hornerB (K : Nat → ℝ) (x : ℝ) : Nat → ℝ → ℝ
  | 0, v => v
  | i + 1, v => hornerB K x i (v * x + (i + 1 : ℕ) * K (i + 1) * x)

/-- `eos_powermg.hpp:337-350` `_compBulkModulusFromDensityTemperature`. -/
def compT (p : Power) (n : Num ℝ) (r T : ℝ) : ℝ :=
  let x := p.eta n r
  ratio n.σ p.rho0 r * ((1 - p.G0 * x / 2) * p.K 0 * hornerB p.K x p.M 0 + ratio n.σ (p.hugPe x) x
    + p.G0 * p.G0 * p.Cv0 * p.rho0 * (T - p.hugTe x))

/-- `eos_powermg.hpp:368-381` `_compBulkModulusFromDensityInternalEnergy`. -/
def compE (p : Power) (n : Num ℝ) (r e : ℝ) : ℝ :=
  let x := p.eta n r
  ratio n.σ p.rho0 r * ((1 - p.G0 * x / 2) * p.K 0 * hornerB p.K x p.M 0 + ratio n.σ (p.hugPe x) x
    + p.G0 * p.G0 * p.rho0 * (e - p.hugE n r))

/-- `eos_powermg.hpp:351-367` `BulkModulusFromDensityTemperature`. -/
def bulkT (p : Power) (n : Num ℝ) (r T : ℝ) : ℝ :=
  let x := p.eta n r
  if x ≤ 0 then
    ratio n.σ p.rho0 r * (if x < p.Pmin / p.K 0 then p.G0 * p.G0 * p.Cv0 * p.rho0 * (T - p.T0 * Real.exp (p.G0 * x))
      else p.K 0 + p.G0 * p.G0 * p.Cv0 * p.rho0 * (T - p.T0 * Real.exp (p.G0 * x)))
  else p.compT n r T

/-- `eos_powermg.hpp:382-400` `BulkModulusFromDensityInternalEnergy`. -/
def bulkE (p : Power) (n : Num ℝ) (r e : ℝ) : ℝ :=
  let x := p.eta n r
  if x ≤ 0 then
    ratio n.σ p.rho0 r * (if x < p.Pmin / p.K 0 then
        p.G0 * p.G0 * p.rho0 * (e - p.E0 + p.Pmin / p.rho0 * (p.Pmin / p.K 0 / 2 - x))
      else p.K 0 + p.G0 * p.G0 * p.rho0 * (e - p.E0 - p.K 0 * x * x / 2))
  else p.compE n r e

/-- `eos_powermg.hpp:402-414` `TemperatureFromDensityInternalEnergy`. -/
def temp (p : Power) (n : Num ℝ) (r e : ℝ) : ℝ :=
  let v := (e - p.hugE n r) / p.Cv0 + p.hugT n r
  if v < 0 then 1 / 10 ^ 12 else v

/-- `eos_powermg.hpp:303-309` `InternalEnergyFromDensityTemperature`. -/
def energy (p : Power) (n : Num ℝ) (r T : ℝ) : ℝ := p.hugE n r + p.Cv0 * (T - p.hugT n r)

/-- `eos_powermg.hpp:331-336` `TBulkModulusFromDensityTemperature` (isothermal; not in the common interface). -/
def tbulk (p : Power) (n : Num ℝ) (r T : ℝ) : ℝ :=
  p.bulkT n r T - p.G0 * p.G0 * p.Cv0 * p.rho0 * ratio n.σ p.rho0 r * T

/-- `eos_powermg.hpp:317-323` `EntropyFromDensityTemperature`. -/
def sT (p : Power) (n : Num ℝ) (r T : ℝ) : ℝ := p.S0 - p.G0 * p.Cv0 * p.eta n r + p.Cv0 * Real.log (T / p.T0)

/-- `eos_powermg.hpp:422-435` `EntropyFromDensityInternalEnergy`. -/
def sE (p : Power) (n : Num ℝ) (r e : ℝ) : ℝ :=
  let v := p.S0 - p.G0 * p.Cv0 * p.eta n r + p.Cv0 * Real.log (p.temp n r e / p.T0)
  if v < 0 then 1 / 10 ^ 12 else v

/-- `eos_powermg.hpp:56-125` the scalar queries (pressures `:310-316`, `:415-421`). -/
def q (p : Power) (n : Num ℝ) : Q → ℝ → ℝ → ℝ
  | .tRE, r, e => p.temp n r e
  | .eRT, r, T => p.energy n r T
  | .pRE, r, e => p.hugP n r + p.rho0 * p.G0 * (e - p.hugE n r)
  | .pRT, r, T => p.hugP n r + p.G0 * p.rho0 * p.Cv0 * (T - p.hugT n r)
  | .cvRE, _, _ => p.Cv0
  | .cvRT, _, _ => p.Cv0
  | .bRE, r, e => p.bulkE n r e
  | .bRT, r, T => p.bulkT n r T
  | .gRT, r, _ => ratio n.σ (p.G0 * p.rho0) r
  | .gRE, r, _ => ratio n.σ (p.G0 * p.rho0) r
  | .sRT, r, T => p.sT n r T
  | .sRE, r, e => p.sE n r e

/-- `eos_powermg.hpp:36-193` the class; reference state `:464-486`, bounds `:159-171`; density and energy from pressure and
temperature are the base class's, whose default maximum density is `1e100`. -/
def eos (p : Power) (n : Num ℝ) (dv : ℝ → ℝ → ℝ) (l0 : Λ) : Eos ℝ Λ :=
  { ofClass n l0 (fun k _ => p.q n k)
      (fun l => Base.rePT n.ε dv (fun k (_ : Λ) => p.q n k) (1 / 10 ^ 4 * p.rho0) (10 ^ 100) (fun _ => 0) l)
      (fun _ fl s => (fillMG (p.q n) fl s).getD s)
      (fun _ => ⟨p.rho0, p.T0, p.E0, p.q n .pRT p.rho0 p.T0, p.Cv0, p.K 0, p.G0 * p.rho0,
        ratio n.σ (-1) (p.T0 * p.G0 * p.rho0)⟩) p.abar p.zbar .DE with
    rhoMin := 1 / 10 ^ 4 * p.rho0
    pMin := -10 ^ 100 }

end Power

end

end Verif.MG
