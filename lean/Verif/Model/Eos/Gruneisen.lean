import Verif.Model.EosBase
import Mathlib.Analysis.SpecialFunctions.Sqrt

/-!
# Model of the Gruneisen EOS (`eos/eos_gruneisen.hpp`)
-/

namespace Verif.Grun

open Verif.Mods Verif.Robust Verif.Base Verif.RootFind

noncomputable section

variable {Λ : Type*}

/-- `eos_gruneisen.hpp:188-189` members (`:40-66` constructors). -/
structure Grun where
  C0 : ℝ
  s1 : ℝ
  s2 : ℝ
  s3 : ℝ
  G0 : ℝ
  b : ℝ
  rho0 : ℝ
  T0 : ℝ
  P0 : ℝ
  Cv : ℝ
  rhoMax : ℝ
  abar : ℝ
  zbar : ℝ

/-! ## The automatic maximum density -/

/-- `eos_gruneisen.hpp:206-222` `find_min_bounded_val`; `none` is minus infinity. -/
def findMinBounded (v1 v2 lo hi : ℝ) : Option ℝ :=
  let mn := min v1 v2
  let mx := max v1 v2
  if mn > lo ∧ mn < hi then some mn
  else if mx > lo ∧ mx < hi then some mx
  else none

/-- `eos_gruneisen.hpp:237-239` the denominator polynomial of the reference pressure. -/
def poly (s1 s2 s3 eta : ℝ) : ℝ := 1 - s1 * eta - s2 * eta ^ 2 - s3 * eta ^ 3

/-- `eos_gruneisen.hpp:264-265` the discriminant of the cubic. -/
def disc (s1 s2 s3 : ℝ) : ℝ :=
  -18 * s3 * s2 * s1 - 4 * (-s2) ^ 3 + s2 ^ 2 * s1 ^ 2 - 4 * s3 * s1 ^ 3 - 27 * s3 ^ 2

/-- `eos_gruneisen.hpp:266-295` the interval searched for the root of the cubic. -/
def bracket (s1 s2 s3 : ℝ) : ℝ × ℝ :=
  if 0 ≤ disc s1 s2 s3 then
    let e1 := (s2 + Real.sqrt (s2 ^ 2 - 3 * s3 * s1)) / (-3 * s3)
    let e2 := (s2 - Real.sqrt (s2 ^ 2 - 3 * s3 * s1)) / (-3 * s3)
    let mn := min e1 e2
    let mx := max e1 e2
    if s3 < 0 then
      let lo := max mn 0
      (lo, min (max mx lo) 1)
    else if mn > 0 then (0, min mn 1) else (0, 1)
  else (0, 1)

/-- `eos_gruneisen.hpp:260-320` the root for a cubic: `none` is an abort, `some none` "no root". -/
def cubicRoot (ε s1 s2 s3 : ℝ) : Option (Option ℝ) :=
  let lo := (bracket s1 s2 s3).1
  let hi := (bracket s1 s2 s3).2
  if poly s1 s2 s3 lo * poly s1 s2 s3 hi < 0 then
    match regulaFalsi 1000 (poly s1 s2 s3) 0 (1 / 1000) lo hi (100 * ε) (100 / 10 * ε) with
    | some (⟨.success, some x⟩, _) => some (some x)
    | _ => none
  else if |poly s1 s2 s3 lo| < ε then some (some lo)
  else if |poly s1 s2 s3 hi| < ε then some (some hi)
  else some none

/-- `eos_gruneisen.hpp:244-321` the value of `root`; `some none` covers every value outside `(0,1)` that means
"no maximum density" (`-1` and minus infinity). -/
def etaRoot (ε s1 s2 s3 : ℝ) : Option (Option ℝ) :=
  if |s2| < ε ∧ |s3| < ε ∧ s1 > 1 then some (some (1 / s1))
  else if |s3| < ε ∧ ¬ |s2| < ε then
    let d := s1 ^ 2 + 4 * s2
    if d < 0 then some none
    else some (findMinBounded ((s1 + Real.sqrt d) / (-2 * s2)) ((s1 - Real.sqrt d) / (-2 * s2)) 0 1)
  else if ¬ |s3| < ε then cubicRoot ε s1 s2 s3
  else some none

/-- `eos_gruneisen.hpp:231-329` `ComputeRhoMax`: outer `none` is an abort, `some none` is infinity. -/
def computeRhoMax (ε s1 s2 s3 rho0 : ℝ) : Option (Option ℝ) :=
  match etaRoot ε s1 s2 s3 with
  | none => none
  | some none => some none
  | some (some x) => if x > 0 ∧ x < 1 then some (some (rho0 / ((1 - x) + ε))) else some none

namespace Grun

/-! ## Queries -/

/-- `eos_gruneisen.hpp:192-195` `Gamma`. -/
def gamma (p : Grun) (rin : ℝ) : ℝ :=
  let r := min rin p.rhoMax
  if r < p.rho0 then p.G0 else p.G0 * p.rho0 / r + p.b * (1 - p.rho0 / r)

/-- `eos_gruneisen.hpp:362` `s`. -/
def sPoly (p : Grun) (eta : ℝ) : ℝ := p.s1 * eta + p.s2 * eta ^ 2 + p.s3 * eta ^ 3

/-- `eos_gruneisen.hpp:353-372` `PressureFromDensityInternalEnergy`. -/
def pressure (p : Grun) (rin e : ℝ) : ℝ :=
  let r := min rin p.rhoMax
  if r ≥ p.rho0 then
    let eta := 1 - p.rho0 / r
    let PH := p.P0 + p.C0 ^ 2 * p.rho0 * eta / (1 - p.sPoly eta) ^ 2
    let EH := (PH + p.P0) * eta / p.rho0 / 2
    PH + p.gamma r * r * (e - EH)
  else
    p.P0 + p.C0 ^ 2 * (r - p.rho0) + p.gamma r * r * (e - 0)

/-- `eos_gruneisen.hpp:331-351` `dPres_drho_e`. -/
def dPdr (p : Grun) (rin e : ℝ) : ℝ :=
  let r := min rin p.rhoMax
  if r < p.rho0 then p.C0 ^ 2 + p.gamma r * e
  else
    let eta := 1 - p.rho0 / r
    let s := p.sPoly eta
    let ds := p.s1 + 2 * p.s2 * eta + 3 * p.s3 * eta ^ 2
    let deta := p.rho0 / r ^ 2
    let dGam := (p.b - p.G0) * deta
    let PH := p.P0 + p.C0 ^ 2 * p.rho0 * eta / (1 - s) ^ 2
    let dPH := p.C0 ^ 2 * p.rho0 / (1 - s) ^ 2 * deta * (1 + 2 * eta * ds / (1 - s))
    let EH := (PH + p.P0) * eta / p.rho0 / 2
    let dEH := deta * (PH + p.P0) / p.rho0 / 2 + eta / p.rho0 / 2 * dPH
    dPH + p.gamma r * (e - EH) + r * dGam * (e - EH) - r * p.gamma r * dEH

/-- `eos_gruneisen.hpp:385-400` `BulkModulusFromDensityInternalEnergy`. -/
def bulk (p : Grun) (rin e : ℝ) : ℝ :=
  let r := min rin p.rhoMax
  if r < p.rho0 then r * p.C0 ^ 2 + p.G0 * (r * e + p.pressure r e)
  else r * p.dPdr r e + p.pressure r e / r * (r * p.gamma r)

/-- `eos_gruneisen.hpp:82-143`, `:353-422` the scalar queries; the entropy queries abort. -/
def q (p : Grun) : Q → ℝ → ℝ → ℝ
  | .tRE, _, e => p.T0 + e / p.Cv
  | .eRT, _, T => p.Cv * (T - p.T0)
  | .pRE, r, e => p.pressure r e
  | .pRT, r, T => p.pressure (min r p.rhoMax) (p.Cv * (T - p.T0))
  | .bRE, r, e => p.bulk r e
  | .bRT, r, T => p.bulk (min r p.rhoMax) (p.Cv * (T - p.T0))
  | .cvRT, _, _ => p.Cv
  | .cvRE, _, _ => p.Cv
  | .gRT, r, _ => p.gamma (min r p.rhoMax)
  | .gRE, r, _ => p.gamma (min r p.rhoMax)
  | .sRT, _, _ => 1
  | .sRE, _, _ => 1

/-- `eos_gruneisen.hpp:423-476` `MaxStableDensityAtTemperature`; `none` is an abort. -/
def maxStable (p : Grun) (T : ℝ) : Option ℝ :=
  let f : ℝ → ℝ := fun r => p.dPdr r (p.Cv * (T - p.T0))
  if 0 ≤ f p.rhoMax then some p.rhoMax
  else if f p.rho0 < 0 then none
  else
    let hi := min p.rhoMax (10 ^ 4)
    match regulaFalsi 1000 f 0 ((p.rho0 + hi) / 2) p.rho0 hi (1 / 10 ^ 8) (1 / 10 ^ 8) with
    | some (⟨.success, some x⟩, _) => some x
    | _ => none

/-- `eos_gruneisen.hpp:478-525` the density of `DensityEnergyFromPressureTemperature`; `none` is an abort. -/
def density (p : Grun) (P T : ℝ) : Option ℝ :=
  let pref := p.q .pRT p.rho0 T
  let find : ℝ → ℝ → ℝ → ℝ → Option ℝ := fun P g lo hi =>
    match regulaFalsi 1000 (fun r => p.q .pRT r T) P g lo hi (1 / 10 ^ 8) (1 / 10 ^ 8) with
    | some (⟨.success, some x⟩, _) => some x
    | _ => none
  if P < pref then find P p.rho0 0 (11 / 10 * p.rho0)
  else
    match p.maxStable T with
    | none => none
    | some hi =>
      let pmax := p.q .pRT hi T
      let pu := if P > pmax then pmax else P
      find pu (p.rho0 + (hi - p.rho0) / (pmax - pref) * (pu - pref)) (9 / 10 * p.rho0) hi

/-- `eos_gruneisen.hpp:478-525` `DensityEnergyFromPressureTemperature` (an abort leaves the incoming pair). -/
def rePT (p : Grun) (P T : ℝ) (g : ℝ × ℝ) : ℝ × ℝ :=
  match p.density P T with
  | some x => (x, p.q .eRT x T)
  | none => g

/-- `eos_gruneisen.hpp:527-549` `FillEos`; `none` is an abort. -/
def fill (p : Grun) (fl : Flags) (s : Thermo ℝ) : Option (Thermo ℝ) :=
  let tail : Thermo ℝ → Thermo ℝ := fun s =>
    let o := fillRE p.q fl { s with rho := min s.rho p.rhoMax }
    { o with rho := s.rho }
  if fl.temp = false ∧ fl.press = false then
    match p.density s.press s.temp with
    | some x => some (tail { s with rho := x, sie := p.q .eRT x s.temp })
    | none => none
  else if fl.rho ∨ fl.sie then none
  else some (tail s)

/-- `eos_gruneisen.hpp:36-204` the class; reference state `:552-568`, where `dv` is the floating point
division `P / 0` of `:563`; bounds `:170-177`; `MinInternalEnergyFromDensity` `:373-378`.  The maximum pressure is
`MaxStableDensityAtTemperature` (`:174-177`); its abort is modelled by `0`. -/
def eos (p : Grun) (n : Num ℝ) (dv : ℝ → ℝ → ℝ) (l0 : Λ) : Eos ℝ Λ :=
  { ofClass n l0 (fun k _ => p.q k) (fun _ => p.rePT) (fun _ fl s => (p.fill fl s).getD s)
      (fun _ => ⟨p.rho0, p.T0, 0, p.q .pRE p.rho0 0, p.Cv, p.q .bRE p.rho0 0, dv (p.q .pRE p.rho0 0) 0,
        p.q .gRE p.rho0 0 * p.rho0 * p.Cv / p.q .bRE p.rho0 0⟩) p.abar p.zbar .DE with
    minE := fun _ r => p.q .eRT (min r p.rhoMax) 0
    rhoMax := p.rhoMax
    pMin := p.q .pRE 0 0
    pMaxT := fun T => (p.maxStable T).getD 0 }

end Grun

end

end Verif.Grun
