import Verif.Model.EosBase
import Mathlib.Analysis.SpecialFunctions.Log.Basic

/-!
# Model of the four gas EOS: IdealGas, StiffGas, NobleAbel, CarnahanStarling

Every class becomes a parameter structure, its queries as a function of it, and a record `Eos ℝ Λ`.
`lambda` is ignored by all four.  `Real` is `ℝ`; `n : Num ℝ` carries `SMALL`, `EPS`.  The `fill` field of the
record is total (an abort leaves the state unchanged); the abort itself is in `Base.fillGas`.
-/

namespace Verif.Gases

open Verif.Mods Verif.Robust Verif.Base Verif.RootFind

noncomputable section

variable {Λ : Type*}

/-! ## IdealGas -/

/-- `eos_ideal.hpp:221-233` members set by the user (`_EntropyT0` and `_EntropyRho0` are `T0` and `rho0` in
the short constructor `:42-47`), `ROOM_TEMPERATURE`, `ATMOSPHERIC_PRESSURE`, mean atomic properties. -/
structure Ideal where
  gm1 : ℝ
  Cv : ℝ
  sT0 : ℝ
  sRho0 : ℝ
  T0 : ℝ
  P0 : ℝ
  abar : ℝ
  zbar : ℝ

namespace Ideal

/-- `eos_ideal.hpp:59-150` the scalar queries (`MYMAX(a,b)` is `a > b ? a : b`). -/
def q (p : Ideal) (n : Num ℝ) : Q → ℝ → ℝ → ℝ
  | .tRE, _, e => max 0 (e / p.Cv)
  | .eRT, _, T => max 0 (p.Cv * T)
  | .pRT, r, T => max 0 (p.gm1 * r * p.Cv * T)
  | .pRE, r, e => max 0 (p.gm1 * r * e)
  | .sRT, r, T => p.Cv * Real.log (ratio n.σ T p.sT0) + p.gm1 * p.Cv * Real.log (ratio n.σ p.sRho0 r)
  | .sRE, r, e => p.Cv * Real.log (ratio n.σ (max 0 (e / p.Cv)) p.sT0)
      + p.gm1 * p.Cv * Real.log (ratio n.σ p.sRho0 r)
  | .cvRT, _, _ => p.Cv
  | .cvRE, _, _ => p.Cv
  | .bRT, r, T => max 0 ((p.gm1 + 1) * p.gm1 * r * p.Cv * T)
  | .bRE, r, e => max 0 ((p.gm1 + 1) * p.gm1 * r * e)
  | .gRT, _, _ => p.gm1
  | .gRE, _, _ => p.gm1

/-- `eos_ideal.hpp:201-207` `DensityEnergyFromPressureTemperature`. -/
def rePT (p : Ideal) (P T : ℝ) : ℝ × ℝ := (max 0 (P / (p.gm1 * max 0 (p.Cv * T))), max 0 (p.Cv * T))

/-- `eos_ideal.hpp:43-45` the reference density `_rho0`. -/
def rho0 (p : Ideal) : ℝ := p.P0 / (p.gm1 * p.Cv * p.T0)

/-- `eos_ideal.hpp:236-262` `FillEos`; the energy from density and pressure is `:253`. -/
def fill (p : Ideal) (n : Num ℝ) (fl : Flags) (s : Thermo ℝ) : Option (Thermo ℝ) :=
  fillGas (p.q n) (fun P T _ => p.rePT P T) (fun r P => P / (p.gm1 * r)) fl s

/-- `eos_ideal.hpp:38-234` the class. `InternalEnergyFromDensityPressure` is `:208-214`,
`PTDerivativesFromPreferred` `:152-168`, the reference state `:176-190` with `:43-45`,
`MinInternalEnergyFromDensity` `:95-99`, `_preferred_input` `:227-229` (four quantities). -/
def eos (p : Ideal) (n : Num ℝ) (l0 : Λ) : Eos ℝ Λ :=
  { ofClass n l0 (fun k _ => p.q n k) (fun _ P T _ => p.rePT P T) (fun _ fl s => (p.fill n fl s).getD s)
      (fun _ => ⟨p.rho0, p.T0, p.Cv * p.T0, p.P0, p.Cv, (p.gm1 + 1) * p.gm1 * p.rho0 * p.Cv * p.T0,
        p.gm1 * p.rho0, 1 / (p.rho0 * p.T0)⟩) p.abar p.zbar .other with
    minE := fun _ _ => 0
    eRP := fun _ r P _ => P / (p.gm1 * r)
    ptd := fun _ _ e P T => ⟨0, ratio n.σ 1 (p.gm1 * e), p.Cv, -ratio n.σ P (p.gm1 * p.Cv * T * T)⟩ }

end Ideal

/-! ## StiffGas -/

/-- `eos_stiff.hpp:190-196` members set by the user (`T0`, `P0`, `qp` have defaults in the short
constructor `:40-50`). -/
structure Stiff where
  gm1 : ℝ
  Cv : ℝ
  Pinf : ℝ
  q : ℝ
  qp : ℝ
  T0 : ℝ
  P0 : ℝ
  abar : ℝ
  zbar : ℝ

namespace Stiff

/-- `eos_stiff.hpp:55` `_rho0`. -/
def rho0 (p : Stiff) (n : Num ℝ) : ℝ := ratio n.σ (p.P0 + p.Pinf) (p.gm1 * p.Cv * p.T0)
/-- `eos_stiff.hpp:56` `_vol0`. -/
def vol0 (p : Stiff) (n : Num ℝ) : ℝ := ratio n.σ (p.gm1 * p.Cv * p.T0) (p.P0 + p.Pinf)
/-- `eos_stiff.hpp:57` `_sie0`. -/
def sie0 (p : Stiff) (n : Num ℝ) : ℝ :=
  ratio n.σ (p.P0 + (p.gm1 + 1) * p.Pinf) (p.P0 + p.Pinf) * p.Cv * p.T0 + p.q

/-- `eos_stiff.hpp:63-145` the scalar queries. -/
def qs (p : Stiff) (n : Num ℝ) : Q → ℝ → ℝ → ℝ
  | .tRE, r, e => max n.σ (ratio n.σ (r * (e - p.q) - p.Pinf) (r * p.Cv))
  | .eRT, r, T => max p.q (ratio n.σ (r * p.Cv * T + p.Pinf) r + p.q)
  | .pRT, r, T => max (-p.Pinf) (p.gm1 * r * p.Cv * T - p.Pinf)
  | .pRE, r, e => max (-p.Pinf) (p.gm1 * r * (e - p.q) - (p.gm1 + 1) * p.Pinf)
  | .sRT, r, T => p.Cv * Real.log (ratio n.σ T p.T0 + n.σ)
      + p.gm1 * p.Cv * Real.log (ratio n.σ (p.rho0 n) r + n.σ) + p.qp
  | .sRE, r, e => p.Cv * Real.log (ratio n.σ (e - p.q - p.Pinf * ratio n.σ 1 r)
        (p.sie0 n - p.q - p.Pinf * p.vol0 n) + n.σ)
      + p.Cv * p.gm1 * Real.log (ratio n.σ (ratio n.σ 1 r) (p.vol0 n) + n.σ) + p.qp
  | .cvRT, _, _ => p.Cv
  | .cvRE, _, _ => p.Cv
  | .bRT, r, T => max n.σ (p.gm1 * (p.gm1 + 1) * r * p.Cv * T)
  | .bRE, r, e => max n.σ (p.gm1 * (p.gm1 + 1) * (r * (e - p.q) - p.Pinf))
  | .gRT, _, _ => p.gm1
  | .gRE, _, _ => p.gm1

/-- `eos_stiff.hpp:177-185` `DensityEnergyFromPressureTemperature`. -/
def rePT (p : Stiff) (n : Num ℝ) (P T : ℝ) : ℝ × ℝ :=
  (max n.σ (ratio n.σ (P + p.Pinf) (p.gm1 * p.Cv * T)),
   max p.q (ratio n.σ (P + (p.gm1 + 1) * p.Pinf) (P + p.Pinf) * p.Cv * T + p.q))

/-- `eos_stiff.hpp:220` energy from density and pressure in `FillEos`. -/
def eFromRP (p : Stiff) (n : Num ℝ) (r P : ℝ) : ℝ := ratio n.σ (P + (p.gm1 + 1) * p.Pinf) (p.gm1 * r) + p.q

/-- `eos_stiff.hpp:203-229` `FillEos`. -/
def fill (p : Stiff) (n : Num ℝ) (fl : Flags) (s : Thermo ℝ) : Option (Thermo ℝ) :=
  fillGas (p.qs n) (fun P T _ => p.rePT n P T) (p.eFromRP n) fl s

/-- `eos_stiff.hpp:36-201` the class; the reference state (`:151-164`, `:55-59`) leaves `dvdt` as the caller
passed it, here `n.u.1`. -/
def eos (p : Stiff) (n : Num ℝ) (l0 : Λ) : Eos ℝ Λ :=
  ofClass n l0 (fun k _ => p.qs n k) (fun _ P T _ => p.rePT n P T) (fun _ fl s => (p.fill n fl s).getD s)
    (fun _ => ⟨p.rho0 n, p.T0, p.sie0 n, p.P0, p.Cv,
      p.gm1 * (p.gm1 + 1) * ratio n.σ (p.P0 + p.Pinf) (p.gm1 * p.Cv * p.T0) * p.Cv * p.T0,
      p.rho0 n * p.gm1, n.u.1⟩) p.abar p.zbar .DE

end Stiff

/-! ## NobleAbel -/

/-- `eos_noble_abel.hpp:203-209` members set by the user. -/
structure Noble where
  gm1 : ℝ
  Cv : ℝ
  b : ℝ
  q : ℝ
  qp : ℝ
  T0 : ℝ
  P0 : ℝ
  abar : ℝ
  zbar : ℝ

namespace Noble

/-- `eos_noble_abel.hpp:55` `_rho0`. -/
def rho0 (p : Noble) (n : Num ℝ) : ℝ := ratio n.σ p.P0 (p.gm1 * p.Cv * p.T0 + p.b * p.P0)
/-- `eos_noble_abel.hpp:56` `_vol0`. -/
def vol0 (p : Noble) (n : Num ℝ) : ℝ := ratio n.σ (p.gm1 * p.Cv * p.T0 + p.b * p.P0) p.P0
/-- `eos_noble_abel.hpp:56` `_sie0`. -/
def sie0 (p : Noble) : ℝ := p.Cv * p.T0 + p.q

/-- `eos_noble_abel.hpp:63-159` the scalar queries. -/
def qs (p : Noble) (n : Num ℝ) : Q → ℝ → ℝ → ℝ
  | .tRE, _, e => max n.σ ((e - p.q) / p.Cv)
  | .eRT, _, T => max p.q (p.Cv * T + p.q)
  | .pRT, r, T => max n.σ (ratio n.σ (p.gm1 * r * p.Cv * T) (1 - p.b * r))
  | .pRE, r, e => max n.σ (ratio n.σ (p.gm1 * r * (e - p.q)) (1 - p.b * r))
  | .sRT, r, T => p.Cv * Real.log (ratio n.σ T p.T0 + n.σ)
      + p.gm1 * p.Cv * Real.log (ratio n.σ (ratio n.σ 1 r - p.b) (p.vol0 n - p.b) + n.σ) + p.qp
  | .sRE, r, e => p.Cv * Real.log (ratio n.σ (e - p.q) (p.sie0 - p.q) + n.σ)
      + p.gm1 * p.Cv * Real.log (ratio n.σ (ratio n.σ 1 r - p.b) (p.vol0 n - p.b) + n.σ) + p.qp
  | .cvRT, _, _ => p.Cv
  | .cvRE, _, _ => p.Cv
  | .bRT, r, T => max n.σ (ratio n.σ (p.gm1 * (p.gm1 + 1) * r * p.Cv * T) ((1 - p.b * r) * (1 - p.b * r)))
  | .bRE, r, e => max n.σ (ratio n.σ (p.gm1 * (p.gm1 + 1) * r * (e - p.q)) ((1 - p.b * r) * (1 - p.b * r)))
  | .gRT, r, _ => ratio n.σ p.gm1 (1 - p.b * r)
  | .gRE, r, _ => ratio n.σ p.gm1 (1 - p.b * r)

/-- `eos_noble_abel.hpp:191-198` `DensityEnergyFromPressureTemperature`. -/
def rePT (p : Noble) (n : Num ℝ) (P T : ℝ) : ℝ × ℝ :=
  (max n.σ (ratio n.σ P (p.gm1 * p.Cv * T + p.b * P)), max p.q (p.Cv * T + p.q))

/-- `eos_noble_abel.hpp:233` energy from density and pressure in `FillEos`. -/
def eFromRP (p : Noble) (r P : ℝ) : ℝ := P * (1 - p.b * r) / p.gm1 + p.q

/-- `eos_noble_abel.hpp:216-242` `FillEos`. -/
def fill (p : Noble) (n : Num ℝ) (fl : Flags) (s : Thermo ℝ) : Option (Thermo ℝ) :=
  fillGas (p.qs n) (fun P T _ => p.rePT n P T) p.eFromRP fl s

/-- `eos_noble_abel.hpp:36-214` the class; reference state `:165-178` with `:55-59` (`dvdt` not set). -/
def eos (p : Noble) (n : Num ℝ) (l0 : Λ) : Eos ℝ Λ :=
  { ofClass n l0 (fun k _ => p.qs n k) (fun _ P T _ => p.rePT n P T) (fun _ fl s => (p.fill n fl s).getD s)
      (fun _ => ⟨p.rho0 n, p.T0, p.sie0, p.P0, p.Cv,
        ratio n.σ (p.rho0 n * p.Cv * p.T0 * p.gm1 * (p.gm1 + 1))
          ((1 - p.b * p.rho0 n) * (1 - p.b * p.rho0 n)),
        ratio n.σ (p.rho0 n * p.gm1) (1 - p.b * p.rho0 n), n.u.1⟩) p.abar p.zbar .DE with
    minE := fun _ _ => p.q }

end Noble

/-! ## CarnahanStarling -/

/-- `eos_carnahan_starling.hpp:279-285` members set by the user. -/
structure Carnahan where
  gm1 : ℝ
  Cv : ℝ
  b : ℝ
  q : ℝ
  qp : ℝ
  T0 : ℝ
  P0 : ℝ
  abar : ℝ
  zbar : ℝ

namespace Carnahan

/-- `eos_carnahan_starling.hpp:79-86` `ZedFromDensity`. -/
def zed (p : Carnahan) (n : Num ℝ) (r : ℝ) : ℝ :=
  1 + ratio n.σ (p.b * r * (4 - 2 * (p.b * r))) ((1 - p.b * r) ^ 3)

/-- `eos_carnahan_starling.hpp:87-92` `PartialRhoZedFromDensity`. -/
def dRhoZed (p : Carnahan) (n : Num ℝ) (r : ℝ) : ℝ :=
  1 + ratio n.σ (p.b * r * (8 - 2 * (p.b * r))) ((1 - p.b * r) ^ 4)

/-- `eos_carnahan_starling.hpp:116-122` the function whose root is the density. -/
def rootF (p : Carnahan) (n : Num ℝ) (P T x : ℝ) : ℝ :=
  x * (1 + p.b * x * (1 + p.b * x * (1 - p.b * x))) - ratio n.σ (P * (1 - p.b * x) ^ 3) (p.Cv * p.gm1 * T)

/-- `eos_carnahan_starling.hpp:93-142` `DensityFromPressureTemperature` with the default guess `SMALL`.
`tiny` is `numeric_limits<Real>::min()`; `none` is `EOS_ERROR` (abort), and also a call of `regula_falsi`
whose loop does not end within its own iteration limit, which does not happen. -/
def density (p : Carnahan) (n : Num ℝ) (tiny P T : ℝ) : Option ℝ :=
  if T ≤ tiny then some 0
  else if p.b ≤ tiny then some (ratio n.σ P (p.Cv * p.gm1 * T))
  else
    match regulaFalsi 1000 (p.rootF n P T) 0 n.σ 0 (1 / p.b) (1 / 10 ^ 9) (1 / 10 ^ 9) with
    | some (⟨.success, some x⟩, _) => some (max 0 x)
    | _ => none

/-- `eos_carnahan_starling.hpp:67-72`, `:143-230` the scalar queries; `r0` is `_rho0`, the reference density
computed by the constructor (`:58`). -/
def qs (p : Carnahan) (n : Num ℝ) (r0 : ℝ) : Q → ℝ → ℝ → ℝ
  | .tRE, _, e => max n.σ ((e - p.q) / p.Cv)
  | .eRT, _, T => max p.q (p.Cv * T + p.q)
  | .pRT, r, T => max n.σ (p.zed n r * r * T * p.Cv * p.gm1)
  | .pRE, r, e => max n.σ (p.zed n r * r * (e - p.q) * p.gm1)
  | .sRT, r, T =>
      let vol := ratio n.σ 1 r
      let vol0 := ratio n.σ 1 r0
      let a := ratio n.σ 1 (vol - p.b)
      let a0 := ratio n.σ 1 (vol0 - p.b)
      p.Cv * Real.log (ratio n.σ T p.T0 + n.σ) + p.gm1 * p.Cv * Real.log (ratio n.σ vol vol0 + n.σ)
        - p.gm1 * p.Cv * p.b * (a - a0) * (4 + p.b * (a + a0)) + p.qp
  | .sRE, r, e =>
      let vol := ratio n.σ 1 r
      let vol0 := ratio n.σ 1 r0
      let a := ratio n.σ 1 (vol - p.b)
      let a0 := ratio n.σ 1 (vol0 - p.b)
      p.Cv * Real.log (ratio n.σ (e - p.q) (p.Cv * p.T0 + p.q - p.q) + n.σ)
        + p.gm1 * p.Cv * Real.log (ratio n.σ vol vol0 + n.σ)
        - p.gm1 * p.Cv * p.b * (a - a0) * (4 + p.b * (a + a0)) + p.qp
  | .cvRT, _, _ => p.Cv
  | .cvRE, _, _ => p.Cv
  | .bRT, r, T => max n.σ (r * p.Cv * T * p.gm1 * (p.dRhoZed n r + p.zed n r * p.zed n r * p.gm1))
  | .bRE, r, e => max n.σ (r * (e - p.q) * p.gm1 * (p.dRhoZed n r + p.zed n r * p.zed n r * p.gm1))
  | .gRT, r, _ => p.zed n r * p.gm1
  | .gRE, r, _ => p.zed n r * p.gm1

/-- `eos_carnahan_starling.hpp:309` energy from density and pressure in `FillEos`. -/
def eFromRP (p : Carnahan) (n : Num ℝ) (r P : ℝ) : ℝ := ratio n.σ P (p.zed n r * r * p.gm1) + p.q

/-- `eos_carnahan_starling.hpp:268-274` `DensityEnergyFromPressureTemperature` (an abort leaves the incoming
pair). -/
def rePT (p : Carnahan) (n : Num ℝ) (tiny P T : ℝ) (g : ℝ × ℝ) : ℝ × ℝ :=
  ((p.density n tiny P T).getD g.1, max p.q (p.Cv * T + p.q))

/-- `eos_carnahan_starling.hpp:291-318` `FillEos`. -/
def fill (p : Carnahan) (n : Num ℝ) (r0 tiny : ℝ) (fl : Flags) (s : Thermo ℝ) : Option (Thermo ℝ) :=
  fillGas (p.qs n r0) (p.rePT n tiny) (p.eFromRP n) fl s

/-- `eos_carnahan_starling.hpp:38-290` the class, given the reference density `r0` its constructor computed;
reference state `:241-254` with `:58-63` (`_bmod0` has no factor `gm1`; `dvdt` not set). -/
def eos (p : Carnahan) (n : Num ℝ) (r0 tiny : ℝ) (l0 : Λ) : Eos ℝ Λ :=
  { ofClass n l0 (fun k _ => p.qs n r0 k) (fun _ P T g => p.rePT n tiny P T g)
      (fun _ fl s => (p.fill n r0 tiny fl s).getD s)
      (fun _ => ⟨r0, p.T0, p.Cv * p.T0 + p.q, p.P0, p.Cv,
        r0 * p.Cv * p.T0 * (p.dRhoZed n r0 + p.zed n r0 * p.zed n r0 * p.gm1),
        r0 * p.zed n r0 * p.gm1, n.u.1⟩) p.abar p.zbar .DE with
    minE := fun _ _ => p.q }

end Carnahan

end

end Verif.Gases
