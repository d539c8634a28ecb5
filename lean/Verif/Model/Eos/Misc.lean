import Verif.Model.Eos.Gases

/-!
# Model of JWL, SAP_Polynomial and IdealElectrons
-/

namespace Verif.EosMisc

open Verif.Mods Verif.Robust Verif.Base Verif.RootFind Verif.Gases

noncomputable section

variable {Λ : Type*}

/-- `robust_utils.hpp:70-75` `safe_arg_exp` for arguments that are not above `max_exp_arg`; `lo` is
`min_exp_arg`.  The link to `Robust.safeArgExp`, which has both branches, is `sexp_eq`. -/
def sexp (lo x : ℝ) : ℝ := if x < lo then 0 else Real.exp x

/-! ## JWL -/

/-- `eos_jwl.hpp:42-51`, `:138-139` parameters; `rt` is `ROOM_TEMPERATURE`, `atm` `ATMOSPHERIC_PRESSURE`, `lo`
the cut-off of `safe_arg_exp`. -/
structure Jwl where
  A : ℝ
  B : ℝ
  R1 : ℝ
  R2 : ℝ
  w : ℝ
  rho0 : ℝ
  Cv : ℝ
  abar : ℝ
  zbar : ℝ
  rt : ℝ
  atm : ℝ
  lo : ℝ

namespace Jwl

/-- `eos_jwl.hpp:147-150` `ReferencePressure`. -/
def pRef (p : Jwl) (n : Num ℝ) (r : ℝ) : ℝ :=
  let x := ratio n.σ p.rho0 r
  p.A * sexp p.lo (-p.R1 * x) + p.B * sexp p.lo (-p.R2 * x)

/-- `eos_jwl.hpp:151-154` `ReferenceEnergy`, with `_c1`, `_c2` of `:46`. -/
def eRef (p : Jwl) (n : Num ℝ) (r : ℝ) : ℝ :=
  let x := ratio n.σ p.rho0 r
  ratio n.σ p.A (p.rho0 * p.R1) * sexp p.lo (-p.R1 * x) + ratio n.σ p.B (p.rho0 * p.R2) * sexp p.lo (-p.R2 * x)

/-- `eos_jwl.hpp:155-225` the scalar queries. The entropy queries abort (`EntropyIsNotEnabled`); the value
`1` is the dead `return 1.0` after it. -/
def q (p : Jwl) (n : Num ℝ) : Q → ℝ → ℝ → ℝ
  | .eRT, r, T => p.eRef n r + p.Cv * T
  | .tRE, r, e => ratio n.σ (e - p.eRef n r) p.Cv
  | .pRE, r, e => p.pRef n r + p.w * r * (e - p.eRef n r)
  | .pRT, r, T => p.pRef n r + p.w * r * (p.eRef n r + p.Cv * T - p.eRef n r)
  | .bRE, r, e =>
      let x := ratio n.σ p.rho0 r
      (p.w + 1) * p.w * r * (e - p.eRef n r)
        + x * (p.A * p.R1 * sexp p.lo (-p.R1 * x) + p.B * p.R2 * sexp p.lo (-p.R2 * x))
  | .bRT, r, T =>
      let x := ratio n.σ p.rho0 r
      (p.w + 1) * p.w * r * (p.eRef n r + p.Cv * T - p.eRef n r)
        + x * (p.A * p.R1 * sexp p.lo (-p.R1 * x) + p.B * p.R2 * sexp p.lo (-p.R2 * x))
  | .cvRT, _, _ => p.Cv
  | .cvRE, _, _ => p.Cv
  | .gRT, _, _ => p.w
  | .gRE, _, _ => p.w
  | .sRT, _, _ => 1
  | .sRE, _, _ => 1

/-- `eos_jwl.hpp:226-244` the density of `DensityEnergyFromPressureTemperature` from the incoming density `g`;
`none` is `EOS_ERROR` (abort). -/
def density (p : Jwl) (n : Num ℝ) (P T g : ℝ) : Option ℝ :=
  match regulaFalsi 1000 (fun r => p.Cv * T * r * p.w + p.pRef n r) P (if g < 1 / 10 ^ 8 then p.rho0 else g)
      (1 / 10 ^ 5) (10 ^ 3) (1 / 10 ^ 8) (1 / 10 ^ 8) with
  | some (⟨.success, some x⟩, _) => some x
  | _ => none

/-- `eos_jwl.hpp:226-244` `DensityEnergyFromPressureTemperature` (an abort leaves the incoming pair). -/
def rePT (p : Jwl) (n : Num ℝ) (P T : ℝ) (g : ℝ × ℝ) : ℝ × ℝ :=
  match p.density n P T g.1 with
  | some x => (x, p.eRef n x + p.Cv * T)
  | none => g

/-- `eos_jwl.hpp:39-145` the class; `FillEos` is `:245-256`, the reference state `:261-276`. -/
def eos (p : Jwl) (n : Num ℝ) (l0 : Λ) : Eos ℝ Λ :=
  ofClass n l0 (fun k _ => p.q n k) (fun _ => p.rePT n) (fun _ fl s => fillRE (p.q n) fl s)
    (fun _ =>
      let e := p.q n .eRT p.rho0 p.rt
      let b := p.q n .bRE p.rho0 e
      ⟨p.rho0, p.rt, e, p.atm, p.Cv, b, p.w * p.rho0, ratio n.σ (p.w * p.rho0 * p.Cv) b⟩)
    p.abar p.zbar .DE

end Jwl

/-! ## SAP_Polynomial -/

/-- `eos_sap_polynomial.hpp:210-214` parameters. -/
structure Sap where
  rho0 : ℝ
  a0 : ℝ
  a1 : ℝ
  a2c : ℝ
  a2e : ℝ
  a3 : ℝ
  b0 : ℝ
  b1 : ℝ
  b2c : ℝ
  b2e : ℝ
  b3 : ℝ
  abar : ℝ
  zbar : ℝ

namespace Sap

/-- `eos_sap_polynomial.hpp:152-156` `MuFromDensity`. -/
def mu (p : Sap) (r : ℝ) : ℝ := r / p.rho0 - 1

/-- `eos_sap_polynomial.hpp:75-86` `PressureFromDensityInternalEnergy` as a function of `mu`. -/
def pMu (p : Sap) (mu e : ℝ) : ℝ :=
  if 0 ≤ mu then
    p.a0 + p.a1 * mu + p.a2c * mu * mu + p.a3 * mu * mu * mu
      + e * (p.b0 + p.b1 * mu + p.b2c * mu * mu + p.b3 * mu * mu * mu)
  else
    p.a0 + p.a1 * mu + p.a2e * mu * mu + p.a3 * mu * mu * mu
      + e * (p.b0 + p.b1 * mu + p.b2e * mu * mu + p.b3 * mu * mu * mu)

/-- `eos_sap_polynomial.hpp:54-151` the scalar queries; all by-temperature queries are stubs. -/
def q (p : Sap) : Q → ℝ → ℝ → ℝ
  | .pRE, r, e => p.pMu (p.mu r) e
  | .gRE, r, _ =>
      let m := p.mu r
      if 0 ≤ m then p.b0 + p.b1 * m + p.b2c * m * m + p.b3 * m * m * m
      else p.b0 + p.b1 * m + p.b2e * m * m + p.b3 * m * m * m
  | .bRE, r, e =>
      let m := p.mu r
      if 0 ≤ m then
        (1 + m) * (p.a1 + 2 * p.a2c * m + 3 * p.a3 * m * m + e * (p.b1 + 2 * p.b2c * m + 3 * p.b3 * m * m))
      else
        (1 + m) * (p.a1 + 2 * p.a2e * m + 3 * p.a3 * m * m + e * (p.b1 + 2 * p.b2e * m + 3 * p.b3 * m * m))
  | .tRE, _, _ | .eRT, _, _ | .pRT, _, _ | .sRT, _, _ | .sRE, _, _ | .cvRT, _, _ | .cvRE, _, _
  | .bRT, _, _ | .gRT, _, _ => 0

/-- `eos_sap_polynomial.hpp:36-217` the class. `DensityEnergyFromPressureTemperature` is inherited; `dv` is the
division of its secant iteration.  `FillEos` `:219-246`, reference state `:170-184`, bounds `:158-162`. -/
def eos (p : Sap) (n : Num ℝ) (dv : ℝ → ℝ → ℝ) (l0 : Λ) : Eos ℝ Λ :=
  { ofClass n l0 (fun k _ => p.q k)
      (fun l P T g => Base.rePT n.ε dv (fun k (_ : Λ) => p.q k) 0 (10 ^ 100) (fun _ => 0) l P T g)
      (fun l fl s => (fillGas p.q
        (fun P T g => Base.rePT n.ε dv (fun k (_ : Λ) => p.q k) 0 (10 ^ 100) (fun _ => 0) l P T g)
        (fun _ _ => 0) fl s).getD s)
      (fun _ => ⟨p.rho0, 0, 0, 0, 0, 0, 0, 0⟩) p.abar p.zbar .DE with
    pMin := -10 ^ 100 }

end Sap

/-! ## IdealElectrons -/

/-- `eos_electrons.hpp:222-231` parameters: `_gm1`, `_rho0`, `_T0`, `_P0`, `_Cvbase` (`:64`). -/
structure Electrons where
  gm1 : ℝ
  rho0 : ℝ
  T0 : ℝ
  P0 : ℝ
  Cvbase : ℝ
  abar : ℝ
  zbar : ℝ

namespace Electrons

/-- `eos_electrons.hpp:63-65`, `:222-227` the constructor (`kb/mp` is `k`). -/
def ofAbar (σ kb mp T0 P0 abar zbar : ℝ) : Electrons :=
  ⟨5 / 3 - 1, 1, T0, P0, ratio σ kb ((5 / 3 - 1) * abar * mp), abar, zbar⟩

/-- `eos_electrons.hpp:210-215` `_Cv`; `z` is the ionisation read from the lambda. -/
def cv (p : Electrons) (z : ℝ) : ℝ := p.Cvbase * max z 0

/-- `eos_electrons.hpp:75-157` the scalar queries at ionisation `z`.  Division by the zero heat capacity of a
nonpositive ionisation follows the field convention `x/0 = 0`; the theorems about it only use queries
that do not divide. -/
def q (p : Electrons) (n : Num ℝ) (z : ℝ) : Q → ℝ → ℝ → ℝ
  | .tRE, _, e => max 0 (e / p.cv z)
  | .eRT, _, T => max 0 (p.cv z * T)
  | .pRT, r, T => max 0 (p.gm1 * r * p.cv z * T)
  | .pRE, r, e => max 0 (p.gm1 * r * e)
  | .sRT, r, T => p.cv z * Real.log (ratio n.σ T p.T0) + p.gm1 * p.cv z * Real.log (ratio n.σ p.rho0 r)
  | .sRE, r, e => p.cv z * Real.log (ratio n.σ (max 0 (e / p.cv z)) p.T0)
      + p.gm1 * p.cv z * Real.log (ratio n.σ p.rho0 r)
  | .cvRT, _, _ => p.cv z
  | .cvRE, _, _ => p.cv z
  | .bRT, r, T => max 0 ((p.gm1 + 1) * p.gm1 * r * p.cv z * T)
  | .bRE, r, e => max 0 ((p.gm1 + 1) * p.gm1 * r * e)
  | .gRT, _, _ => p.gm1
  | .gRE, _, _ => p.gm1

/-- `eos_electrons.hpp:159-165` `DensityEnergyFromPressureTemperature`. -/
def rePT (p : Electrons) (z P T : ℝ) : ℝ × ℝ := (max 0 (P / (p.gm1 * max 0 (p.cv z * T))), max 0 (p.cv z * T))

/-- `eos_electrons.hpp:234-262` `FillEos`. -/
def fill (p : Electrons) (n : Num ℝ) (z : ℝ) (fl : Flags) (s : Thermo ℝ) : Option (Thermo ℝ) :=
  fillGas (p.q n z) (fun P T _ => p.rePT z P T) (fun r P => P / (p.gm1 * r)) fl s

/-- `eos_electrons.hpp:54-232` the class; the lambda is the ionisation (`:56-58`); reference state `:167-182`. -/
def eos (p : Electrons) (n : Num ℝ) (z0 : ℝ) : Eos ℝ ℝ :=
  { ofClass n z0 (fun k z => p.q n z k) (fun z P T _ => p.rePT z P T) (fun z fl s => (p.fill n z fl s).getD s)
      (fun z => ⟨p.rho0, p.T0, p.cv z * p.T0, p.P0, p.cv z, p.q n z .bRT p.rho0 p.T0, p.gm1 * p.rho0,
        1 / (p.rho0 * p.T0)⟩) p.abar p.zbar .DE with
    minE := fun _ _ => 0 }

end Electrons

end

end Verif.EosMisc
