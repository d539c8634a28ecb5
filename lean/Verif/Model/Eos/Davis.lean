import Verif.Model.EosBase
import Mathlib.Analysis.SpecialFunctions.Pow.Real

/-!
# Model of DavisReactants and DavisProducts (`eos/eos_davis.hpp`)

`std::pow` is `Real.rpow`, `std::exp` is `Real.exp`; the `PORTABLE_REQUIRE`s (off in release builds) are not modelled.
-/

namespace Verif.Davis

open Verif.Mods Verif.Robust Verif.Base Verif.RootFind

noncomputable section

variable {Λ : Type*}

/-! ## DavisReactants -/

/-- `eos_davis.hpp:44-52` constructor arguments. -/
structure Reac where
  rho0 : ℝ
  e0 : ℝ
  P0 : ℝ
  T0 : ℝ
  A : ℝ
  B : ℝ
  C : ℝ
  G0 : ℝ
  Z : ℝ
  alpha : ℝ
  Cv0 : ℝ
  abar : ℝ
  zbar : ℝ

namespace Reac

/-- `eos_davis.hpp:49-50` `_i1pa`. -/
def i1pa (p : Reac) : ℝ := 1 / (1 + p.alpha)

/-- `eos_davis.hpp:50`, `:406`, `:421` `phat`, from `_A2oB`. -/
def phat (p : Reac) : ℝ := 1 / 4 * (p.A * p.A / p.B) * p.rho0

/-- `eos_davis.hpp:402-417` `Ps`. -/
def Ps (p : Reac) (n : Num ℝ) (r : ℝ) : ℝ :=
  if r ≤ 0 then 0
  else
    let y := 1 - ratio n.σ p.rho0 (max r 0)
    let b4y := 4 * p.B * y
    if r ≥ p.rho0 then
      p.phat * (b4y + 1 / 2 * (b4y ^ 2 + 1 / 3 * (b4y ^ 3 + p.C * b4y ^ 4 * (1 / 4))) + ratio n.σ (y ^ 2) ((1 - y) ^ 4))
    else p.phat * (Real.exp b4y - 1)

/-- `eos_davis.hpp:418-434` `Es`. -/
def Es (p : Reac) (n : Num ℝ) (r : ℝ) : ℝ :=
  if r ≤ 0 then 0
  else
    let y := 1 - ratio n.σ p.rho0 (max r 0)
    let b4y := 4 * p.B * y
    let es := if y > 0 then
        let z := r * (1 / p.rho0) - 1
        1 / 2 * y * b4y * (1 + 1 / 3 * b4y * (1 + 1 / 4 * b4y * (1 + p.C * (1 / 5) * b4y))) + 1 / 3 * z ^ 3
      else -y - ratio n.σ (1 - Real.exp b4y) (4 * p.B)
    p.e0 + p.P0 * (1 / p.rho0 - ratio n.σ 1 (max r 0)) + p.phat * (1 / p.rho0) * es

/-- `eos_davis.hpp:435-440` `Ts`. -/
def Ts (p : Reac) (n : Num ℝ) (r : ℝ) : ℝ :=
  if r ≤ 0 then p.T0
  else
    let q := ratio n.σ p.rho0 (max r 0)
    p.T0 * Real.exp (-p.Z * (1 - q)) * q ^ (-p.G0 - p.Z)

/-- `eos_davis.hpp:441-448` `Gamma`. -/
def gamma (p : Reac) (n : Num ℝ) (r : ℝ) : ℝ :=
  if r ≥ p.rho0 then p.G0 + p.Z * (1 - ratio n.σ p.rho0 (max r 0)) else p.G0

/-- `eos_davis.hpp:397-400` `DimlessEdiff`. -/
def edif (p : Reac) (n : Num ℝ) (r e : ℝ) : ℝ :=
  ratio n.σ (1 + p.alpha) (p.Ts n r * p.Cv0) * (e - p.Es n r) + 1

/-- `eos_davis.hpp:76-84` `InternalEnergyFromDensityTemperature`. -/
def energy (p : Reac) (n : Num ℝ) (r T : ℝ) : ℝ :=
  p.Es n r + p.Cv0 * p.Ts n r * p.i1pa * ((ratio n.σ T (p.Ts n r)) ^ (1 + p.alpha) - 1)

/-- `eos_davis.hpp:92-97` `PressureFromDensityInternalEnergy`. -/
def pressure (p : Reac) (n : Num ℝ) (r e : ℝ) : ℝ := p.Ps n r + p.gamma n r * r * (e - p.Es n r)

/-- `eos_davis.hpp:129-139` `SpecificHeatFromDensityInternalEnergy`. -/
def cv (p : Reac) (n : Num ℝ) (r e : ℝ) : ℝ :=
  if p.edif n r e ≤ 0 then 0 else ratio n.σ p.Cv0 ((p.edif n r e) ^ (-p.alpha * p.i1pa))

/-- `eos_davis.hpp:450-474` `BulkModulusFromDensityInternalEnergy`. -/
def bulk (p : Reac) (n : Num ℝ) (r e : ℝ) : ℝ :=
  let y := 1 - ratio n.σ p.rho0 (max r 0)
  let b4y := 4 * p.B * y
  let g := p.gamma n (max r 0)
  let esv := -p.Ps n (max r 0)
  let psv := if r ≥ p.rho0 then
      -p.phat * p.rho0 * (4 * p.B * (1 + b4y + 1 / 2 * (b4y ^ 2 + 1 / 3 * p.C * b4y ^ 3))
        + 3 * ratio n.σ y ((1 - y) ^ 4) + 4 * ratio n.σ (y ^ 2) ((1 - y) ^ 5))
    else -p.phat * 4 * p.B * p.rho0 * Real.exp b4y
  let gv := if r ≥ p.rho0 then -p.Z * p.rho0 else 0
  let es := p.Es n r
  let num := -(psv + (e - es) * max r 0 * (gv - g * max r 0) - g * max r 0 * esv)
  ratio n.σ num (max r 0) + g * (-esv + r * g * (e - es))

/-- `eos_davis.hpp:63-162` the scalar queries; entropy aborts. -/
def q (p : Reac) (n : Num ℝ) : Q → ℝ → ℝ → ℝ
  | .tRE, r, e => if p.edif n r e ≤ 0 then 0 else p.Ts n r * (p.edif n r e) ^ p.i1pa
  | .eRT, r, T => p.energy n r T
  | .pRE, r, e => p.pressure n r e
  | .pRT, r, T => p.pressure n r (p.energy n r T)
  | .cvRE, r, e => p.cv n r e
  | .cvRT, r, T => p.cv n r (p.energy n r T)
  | .bRE, r, e => p.bulk n r e
  | .bRT, r, T => p.bulk n r (p.energy n r T)
  | .gRT, r, _ => p.gamma n r
  | .gRE, r, _ => p.gamma n r
  | .sRT, _, _ => 1
  | .sRE, _, _ => 1

/-- `eos_davis.hpp:482-485` the lambda `PofRatT`. -/
def pofR (p : Reac) (n : Num ℝ) (T r : ℝ) : ℝ :=
  p.Ps n r + p.gamma n r * r * p.Cv0 * p.Ts n r * p.i1pa * ((ratio n.σ T (p.Ts n r)) ^ (1 + p.alpha) - 1)

/-- `eos_davis.hpp:476-496` the density of `DensityEnergyFromPressureTemperature`; `none` is an abort. -/
def density (p : Reac) (n : Num ℝ) (P T : ℝ) : Option ℝ :=
  match regulaFalsi 1000 (p.pofR n T) P p.rho0 (1 / 10 ^ 5) (10 ^ 3) (1 / 10 ^ 8) (1 / 10 ^ 8) with
  | some (⟨.success, some x⟩, _) => some (max 0 x)
  | _ => none

/-- `eos_davis.hpp:40-209` the class. `MinInternalEnergyFromDensity` `:99-107`, `MinimumDensity` `:194-195`,
`FillEos` `:498-511`, reference state `:515-530`. -/
def eos (p : Reac) (n : Num ℝ) (l0 : Λ) : Eos ℝ Λ :=
  { ofClass n l0 (fun k _ => p.q n k)
      (fun _ P T g => match p.density n P T with | some x => (x, p.q n .eRT x T) | none => g)
      (fun _ fl s => fillRE (p.q n) fl s)
      (fun _ =>
        let e := p.q n .eRT p.rho0 p.T0
        ⟨p.rho0, p.T0, e, p.q n .pRE p.rho0 e, p.q n .cvRE p.rho0 e, p.q n .bRE p.rho0 e, p.gamma n p.rho0 * p.rho0,
          p.gamma n p.rho0 * p.rho0 * ratio n.σ (p.q n .cvRE p.rho0 e) (p.q n .bRE p.rho0 e)⟩) p.abar p.zbar .DE with
    minE := fun _ r => p.Es n r - p.Cv0 * p.Ts n r * p.i1pa
    rhoMin := n.ε }

end Reac

/-! ## DavisProducts -/

/-- `eos_davis.hpp:215-221` constructor arguments. -/
structure Prod where
  a : ℝ
  b : ℝ
  k : ℝ
  n : ℝ
  vc : ℝ
  pc : ℝ
  Cv : ℝ
  abar : ℝ
  zbar : ℝ

namespace Prod

/-- `eos_davis.hpp:366` `0.5 * (pow(vvc, n) + pow(vvc, -n))`, the base of all the powers. -/
def h (p : Prod) (x : ℝ) : ℝ := 1 / 2 * (x ^ p.n + x ^ (-p.n))

/-- `eos_davis.hpp:353-359` `F`. -/
def F (p : Prod) (m : Num ℝ) (r : ℝ) : ℝ :=
  if r ≤ 0 then 0
  else 2 * ratio m.σ p.a ((ratio m.σ 1 (r * p.vc)) ^ (2 * p.n) + 1)

/-- `eos_davis.hpp:360-369` `Ps`. -/
def Ps (p : Prod) (m : Num ℝ) (r : ℝ) : ℝ :=
  if r ≤ 0 then 0
  else
    let x := ratio m.σ 1 (r * p.vc)
    p.pc * ratio m.σ (p.h x ^ (p.a / p.n)) (x ^ (p.k + p.a)) * ratio m.σ (p.k - 1 + p.F m r) (p.k - 1 + p.a)

/-- `eos_davis.hpp:370-380` `Es`. -/
def Es (p : Prod) (m : Num ℝ) (r : ℝ) : ℝ :=
  if r ≤ 0 then 0
  else
    let x := ratio m.σ 1 (r * p.vc)
    ratio m.σ (p.pc * ratio m.σ p.vc (p.k - 1 + p.a) * p.h x ^ (p.a / p.n)) (x ^ (p.k - 1 + p.a))

/-- `eos_davis.hpp:381-391` `Ts`. -/
def Ts (p : Prod) (m : Num ℝ) (r : ℝ) : ℝ :=
  if r ≤ 0 then 0
  else
    let x := ratio m.σ 1 (r * p.vc)
    (2 : ℝ) ^ (-p.a * ratio m.σ p.b p.n) * p.pc * ratio m.σ p.vc (p.Cv * (p.k - 1 + p.a)) *
      ratio m.σ (p.h x ^ (p.a / p.n * (1 - p.b))) (x ^ (p.k - 1 + p.a * (1 - p.b)))

/-- `eos_davis.hpp:392-394` `Gamma`. -/
def gamma (p : Prod) (m : Num ℝ) (r : ℝ) : ℝ := p.k - 1 + (1 - p.b) * p.F m r

/-- `eos_davis.hpp:248-253` `PressureFromDensityInternalEnergy`. -/
def pressure (p : Prod) (m : Num ℝ) (r e : ℝ) : ℝ := p.Ps m r + r * p.gamma m r * (e - p.Es m r)

/-- `eos_davis.hpp:235-240` `InternalEnergyFromDensityTemperature`. -/
def energy (p : Prod) (m : Num ℝ) (r T : ℝ) : ℝ := p.Cv * (T - p.Ts m r) + p.Es m r

/-- `eos_davis.hpp:532-563` `BulkModulusFromDensityInternalEnergy`. -/
def bulk (p : Prod) (m : Num ℝ) (r e : ℝ) : ℝ :=
  if r ≤ 0 then 0
  else
    let x := ratio m.σ 1 (r * p.vc)
    let Fx := -4 * p.a * p.n * ratio m.σ (x ^ (2 * p.n - 1)) ((1 + x ^ (2 * p.n)) ^ 2)
    let tmp := ratio m.σ (p.h x ^ (p.a / p.n)) (x ^ (p.k + p.a))
    let tmpx := 1 / 2 * p.a * (x ^ (p.n - 1) - x ^ (-p.n - 1))
        * ratio m.σ (p.h x ^ (p.a / p.n - 1)) (x ^ (p.k + p.a))
      - (p.k + p.a) * ratio m.σ tmp x
    let psv := ratio m.σ p.pc (p.k - 1 + p.a) * ratio m.σ (tmp * Fx + (p.k - 1 + p.F m r) * tmpx) p.vc
    let esv := ratio m.σ p.pc (p.k - 1 + p.a) * (tmp + x * tmpx)
    let g := p.gamma m r
    let es := p.Es m r
    let gv := (1 - p.b) * Fx / p.vc
    let ke := -ratio m.σ (psv + (e - es) * r * (gv - g * r) - g * r * esv) r
    ke + g * (p.Ps m r + r * g * (e - es))

/-- `eos_davis.hpp:229-308` the scalar queries; entropy aborts. -/
def q (p : Prod) (m : Num ℝ) : Q → ℝ → ℝ → ℝ
  | .tRE, r, e => p.Ts m r + ratio m.σ (e - p.Es m r) p.Cv
  | .eRT, r, T => p.energy m r T
  | .pRE, r, e => p.pressure m r e
  | .pRT, r, T => p.pressure m r (p.energy m r T)
  | .cvRE, _, _ => p.Cv
  | .cvRT, _, _ => p.Cv
  | .bRE, r, e => p.bulk m r e
  | .bRT, r, T => p.bulk m r (p.energy m r T)
  | .gRT, r, _ => p.gamma m r
  | .gRE, r, _ => p.gamma m r
  | .sRT, _, _ => 1
  | .sRE, _, _ => 1

/-- `eos_davis.hpp:568-570` the lambda `PofRatT`. -/
def pofR (p : Prod) (m : Num ℝ) (T r : ℝ) : ℝ := p.Ps m r + p.gamma m r * r * p.Cv * (T - p.Ts m r)

/-- `eos_davis.hpp:564-582` the density of `DensityEnergyFromPressureTemperature`; `none` is an abort. -/
def density (p : Prod) (m : Num ℝ) (P T : ℝ) : Option ℝ :=
  match regulaFalsi 1000 (p.pofR m T) P (ratio m.σ 1 p.vc) (1 / 10 ^ 5) (10 ^ 3) (1 / 10 ^ 8) (1 / 10 ^ 8) with
  | some (⟨.success, some x⟩, _) => some (max x 0)
  | _ => none

/-- `eos_davis.hpp:211-395` the class. `MinInternalEnergyFromDensity` aborts (`:254-259`; dead `return 0`),
`MinimumDensity` `:343-344`, `FillEos` `:583-595`, reference state `:598-613`. -/
def eos (p : Prod) (m : Num ℝ) (l0 : Λ) : Eos ℝ Λ :=
  { ofClass m l0 (fun k _ => p.q m k)
      (fun _ P T g => match p.density m P T with | some x => (x, p.q m .eRT x T) | none => g)
      (fun _ fl s => fillRE (p.q m) fl s)
      (fun _ =>
        let r := ratio m.σ 1 p.vc
        let e := 2 * p.Es m r
        ⟨r, p.q m .tRE r e, e, p.q m .pRE r e, p.Cv, p.q m .bRE r e, p.gamma m r * r,
          p.gamma m r * r * ratio m.σ p.Cv (p.q m .bRE r e)⟩) p.abar p.zbar .DE with
    minE := fun _ _ => 0
    rhoMin := m.ε }

end Prod

end

end Verif.Davis
