import Verif.Model.EosBase
import Mathlib.Analysis.SpecialFunctions.Pow.Real
import Mathlib.Analysis.SpecialFunctions.Sqrt

/-!
# Model of Vinet (`eos/eos_vinet.hpp`)

`exp`, `std::log`, `std::sqrt` are the real functions; `std::cbrt(y)` is `y ^ (1/3)` (theorems assume a positive argument).
Warnings printed in debug builds are not modelled.
-/

namespace Verif.VinetEos

open Verif.Mods Verif.Robust Verif.Base

noncomputable section

variable {Λ : Type*}

/-- `eos_vinet.hpp:43-51` constructor arguments; `d i` is `_d2tod40[i]`, the coefficient `d_(i+2)`. -/
structure Vinet where
  rho0 : ℝ
  T0 : ℝ
  B0 : ℝ
  BP0 : ℝ
  A0 : ℝ
  Cv0 : ℝ
  E0 : ℝ
  S0 : ℝ
  d : Nat → ℝ
  abar : ℝ
  zbar : ℝ

namespace Vinet

/-- `eos_vinet.hpp:213` `_VIP[1]`, the exponent `eta0`. -/
def eta0 (p : Vinet) : ℝ := 3 / 2 * (p.BP0 - 1)

/-- `eos_vinet.hpp:215-219` `_VIP[2..42]` before the loop: `d0 = 1`, `d1 = 0`, `d2 ..`. -/
def vip0 (p : Vinet) (i : Nat) : ℝ := if i = 2 then 1 else if i = 3 then 0 else p.d (i - 4)

/-- `eos_vinet.hpp:220-223` the in-place loop, `ind` from `i + 1` down to 2. -/
def vipLoop (eta : ℝ) : Nat → (Nat → ℝ) → Nat → ℝ
  | 0, a => a
  | i + 1, a => vipLoop eta i (Function.update a (i + 2) (a (i + 2) - (i + 2 : ℕ) / eta * a (i + 3)))

/-- `eos_vinet.hpp:199-224` `InitializeVinet`: `_VIP[2..42]` afterwards (`ind` from `43 - 2 = 41` down to 2). -/
def vip (p : Vinet) : Nat → ℝ := vipLoop p.eta0 40 p.vip0

/-- `eos_vinet.hpp:239-248` one Horner accumulator: `sum = c_(i-1) + y * sum` for `i` down to 1. -/
def horner (c : Nat → ℝ) (y : ℝ) : Nat → ℝ → ℝ
  | 0, s => s
  | i + 1, s => horner c y i (c i + y * s)

/-- `eos_vinet.hpp:228-290` output of `Vinet_F_DT_func`. -/
structure Out where
  energy : ℝ
  pressure : ℝ
  dpdrho : ℝ
  dpdt : ℝ
  dedt : ℝ
  dedrho : ℝ
  entropy : ℝ
  soundspeed : ℝ

/-- `eos_vinet.hpp:228-290` `Vinet_F_DT_func`. -/
def func (p : Vinet) (n : Num ℝ) (rho T : ℝ) : Out :=
  let x := (ratio n.σ p.rho0 rho) ^ ((1 : ℝ) / 3)
  let x2inv := ratio n.σ 1 (x * x)
  let y := 1 - x
  let ex := Real.exp (p.eta0 * y)
  let sumP := horner p.d y 39 0
  let sumB := horner (fun i => p.d i * (i + 2 : ℕ)) y 39 0
  let sumE := horner (fun i => p.vip (i + 4)) y 39 0
  let sumE := horner (fun i => p.vip (i + 2)) y 2 sumE
  let sumP := 1 + sumP * (y * y)
  let sumB := sumB * y
  let sumE := p.eta0 * y * sumE
  let energy := 9 * ratio n.σ p.B0 (p.eta0 * p.eta0 * p.rho0) * (p.vip 2 - ex * (p.vip 2 - sumE))
    - p.A0 * p.B0 * (ratio n.σ p.T0 p.rho0 - ratio n.σ p.T0 rho)
  let pressure := 3 * p.B0 * x2inv * y * ex * sumP
  let temp := (1 + y * (p.eta0 * x + 1)) * sumP + x * y * sumB
  let temp := ratio n.σ p.B0 p.rho0 * x * ex * temp
  let energy := energy + p.Cv0 * (T - p.T0) + p.E0
  let pressure := pressure + p.A0 * p.B0 * (T - p.T0)
  let dpdt := p.A0 * p.B0
  let entropy := if T < 0 then 0 else
    p.A0 * p.B0 * (ratio n.σ 1 rho - ratio n.σ 1 p.rho0) + p.Cv0 * Real.log (ratio n.σ T p.T0) + p.S0
  ⟨energy, pressure, temp, dpdt, p.Cv0, ratio n.σ (pressure - T * (p.A0 * p.B0)) (rho * rho), entropy,
    Real.sqrt (max 0 (temp + T * ratio n.σ (dpdt * dpdt) (rho * rho * p.Cv0)))⟩

/-- `eos_vinet.hpp:335-342` `TemperatureFromDensityInternalEnergy`. -/
def temp (p : Vinet) (n : Num ℝ) (r e : ℝ) : ℝ := ratio n.σ (e - (p.func n r p.T0).energy) p.Cv0 + p.T0

/-- `eos_vinet.hpp:327-333` `BulkModulusFromDensityTemperature`. -/
def bulkT (p : Vinet) (n : Num ℝ) (r T : ℝ) : ℝ := (p.func n r T).soundspeed * (p.func n r T).soundspeed * r

/-- `eos_vinet.hpp:320-326` `TBulkModulusFromDensityTemperature` (isothermal; not in the common interface). -/
def tbulk (p : Vinet) (n : Num ℝ) (r T : ℝ) : ℝ := (p.func n r T).dpdrho * r

/-- `eos_vinet.hpp:313-319` `TExpansionCoeffFromDensityTemperature` (likewise). -/
def texp (p : Vinet) (n : Num ℝ) (r T : ℝ) : ℝ := ratio n.σ (p.func n r T).dpdt ((p.func n r T).dpdrho * r)

/-- `eos_vinet.hpp:55-119`, `:292-370` the scalar queries. -/
def q (p : Vinet) (n : Num ℝ) : Q → ℝ → ℝ → ℝ
  | .tRE, r, e => p.temp n r e
  | .eRT, r, T => (p.func n r T).energy
  | .pRE, r, e => (p.func n r (p.temp n r e)).pressure
  | .pRT, r, T => (p.func n r T).pressure
  | .cvRE, _, _ => p.Cv0
  | .cvRT, _, _ => p.Cv0
  | .bRE, r, e => p.bulkT n r (p.temp n r e)
  | .bRT, r, T => p.bulkT n r T
  | .gRT, r, _ => ratio n.σ (p.A0 * p.B0) (p.Cv0 * r)
  | .gRE, r, _ => ratio n.σ (p.A0 * p.B0) (p.Cv0 * r)
  | .sRT, r, T => (p.func n r T).entropy
  | .sRE, r, e => (p.func n r (p.temp n r e)).entropy

/-- `eos_vinet.hpp:371-395` `FillEos`; `none` is `EOS_ERROR` (abort). -/
def fill (p : Vinet) (n : Num ℝ) (fl : Flags) (s : Thermo ℝ) : Option (Thermo ℝ) :=
  if fl.rho then none
  else if fl.temp ∧ fl.sie then none
  else
    let s := if fl.sie then s else { s with temp := p.temp n s.rho s.sie }
    let o := p.func n s.rho s.temp
    let s := if fl.sie then { s with sie := o.energy } else s
    let s := if fl.press then { s with press := o.pressure } else s
    let s := if fl.cv then { s with cv := o.dedt } else s
    some (if fl.bmod then { s with bmod := o.soundspeed * o.soundspeed * s.rho } else s)

/-- `eos_vinet.hpp:36-173` the class; reference state `:398-420`, bounds `:132-141`; density and energy from pressure and
temperature are the base class's. -/
def eos (p : Vinet) (n : Num ℝ) (dv : ℝ → ℝ → ℝ) (l0 : Λ) : Eos ℝ Λ :=
  { ofClass n l0 (fun k _ => p.q n k)
      (fun l => Base.rePT n.ε dv (fun k (_ : Λ) => p.q n k) ((10 * n.ε) ^ ((1 : ℝ) / 3) * p.rho0) (10 ^ 100) (fun _ => 0) l)
      (fun _ fl s => (p.fill n fl s).getD s)
      (fun _ => ⟨p.rho0, p.T0, p.E0, p.q n .pRT p.rho0 p.T0, p.Cv0, p.q n .bRT p.rho0 p.T0, ratio n.σ (p.A0 * p.B0) p.Cv0,
        ratio n.σ p.A0 p.rho0⟩) p.abar p.zbar .DT with
    rhoMin := (10 * n.ε) ^ ((1 : ℝ) / 3) * p.rho0
    pMin := -10 ^ 100 }

end Vinet

end

end Verif.VinetEos
