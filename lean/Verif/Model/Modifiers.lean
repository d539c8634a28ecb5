import Verif.Model.EosIface

/-!
# Model of the EOS modifiers (`singularity-eos/eos/modifiers/*.hpp`)
-/

namespace Verif.Mods

open Verif.Robust

variable {K Λ : Type*} [Field K] [LinearOrder K]

/-! ## `shifted_eos.hpp` -/

/-- `shifted_eos.hpp:40-177` and `:441-500`: `class ShiftedEOS`, scalar members. -/
def shifted (sh : K) (t : Eos K Λ) : Eos K Λ where
  q := fun k l r y =>
    match k with
    | .tRE => t.q .tRE l r (y - sh)
    | .eRT => t.q .eRT l r y + sh
    | .pRE => t.q .pRE l r (y - sh)
    | .sRE => t.q .sRE l r (y - sh)
    | .cvRE => t.q .cvRE l r (y - sh)
    | .bRE => t.q .bRE l r (y - sh)
    | .gRE => t.q .gRE l r (y - sh)
    | .pRT => t.q .pRT l r y
    | .sRT => t.q .sRT l r y
    | .cvRT => t.q .cvRT l r y
    | .bRT => t.q .bRT l r y
    | .gRT => t.q .gRT l r y
  minE := fun l r => t.minE l r + sh
  eRP := fun l r P e => t.eRP l r P (e - sh) + sh
  rePT := fun l P T g => let o := t.rePT l P T g; (o.1, o.2 + sh)
  ptd := fun l r e P T => t.ptd l r (e - sh) P T
  fill := fun l fl s =>
    match t.pref with
    -- the shift is added whether or not the energy was an output
    | .DT => let o := t.fill l fl s; { o with sie := o.sie + sh }
    -- `senergy` is a local: an energy written by the inner call is lost
    | .DE => let o := t.fill l fl { s with sie := s.sie - sh }; { o with sie := s.sie }
    | .other => s
  ref := fun l => let o := t.ref l; { o with sie := o.sie + sh }
  rhoMin := t.rhoMin
  rhoMax := t.rhoMax
  tMin := t.tMin
  pMin := t.pMin
  pMaxT := t.pMaxT
  rhoPmin := t.rhoPmin
  abar := t.abar
  zbar := t.zbar
  pref := t.pref

/-- `shifted_eos.hpp:179-390` array members with scratch: `shift_sies` into the scratch array, then
the wrapped array call with the *unchanged* transform; `unshift_sies` on the result of
`InternalEnergyFromDensityTemperature` and `MinInternalEnergyFromDensity`. -/
def shiftedV (sh : K) (t : VEos K Λ) : VEos K Λ where
  s := shifted sh t.s
  v2 := fun k tr n a b ls out =>
    if k.byEnergy then t.v2 k tr n a (Verif.fill n (fun i => b i - sh) b) ls out
    else if k = .eRT then mapN n (fun _ v => v + sh) (t.v2 .eRT tr n a b ls out)
    else t.v2 k tr n a b ls out
  v1 := fun tr n a ls out => mapN n (fun _ v => v + sh) (t.v1 tr n a ls out)

/-! ## `scaled_eos.hpp` -/

/-- `scaled_eos.hpp:40-190`, `:228-290`: `class ScaledEOS`, scalar members. -/
def scaled (sc : K) (t : Eos K Λ) : Eos K Λ where
  q := fun k l r y =>
    match k with
    | .tRE => t.q .tRE l (sc * r) (1 / sc * y)
    -- `:77-81` the density is not scaled here
    | .eRT => sc * t.q .eRT l r y
    | .pRE => t.q .pRE l (sc * r) (1 / sc * y)
    | .sRE => sc * t.q .sRE l (sc * r) (1 / sc * y)
    | .cvRE => t.q .cvRE l (sc * r) (1 / sc * y)
    | .bRE => t.q .bRE l (sc * r) (1 / sc * y)
    | .gRE => t.q .gRE l (sc * r) (1 / sc * y)
    | .pRT => t.q .pRT l (sc * r) y
    | .sRT => sc * t.q .sRT l (sc * r) y
    | .cvRT => t.q .cvRT l (sc * r) y
    | .bRT => t.q .bRT l (sc * r) y
    | .gRT => t.q .gRT l (sc * r) y
  minE := fun l r => t.minE l (sc * r)
  eRP := fun l r P e => t.eRP l (sc * r) P e
  rePT := fun l P T g => let o := t.rePT l P T g; (o.1 * (1 / sc), o.2 * sc)
  ptd := fun l r e P T =>
    let o := t.ptd l (sc * r) (1 / sc * e) P T
    ⟨o.dedP_T * sc, o.drdP_T * (1 / sc), o.dedT_P * sc, o.drdT_P * (1 / sc)⟩
  fill := fun l fl s =>
    match t.pref with
    | .DT => let o := t.fill l fl { s with rho := sc * s.rho }
             { o with rho := s.rho, sie := sc * o.sie }
    | .DE => let o := t.fill l fl { s with rho := sc * s.rho, sie := 1 / sc * s.sie }
             { o with rho := s.rho, sie := s.sie }
    | .other => s
  ref := fun l => let o := t.ref l; { o with rho := o.rho * (1 / sc), sie := o.sie * sc }
  rhoMin := 1 / sc * t.rhoMin
  rhoMax := 1 / sc * t.rhoMax
  tMin := t.tMin
  pMin := t.pMin
  pMaxT := t.pMaxT
  rhoPmin := fun T => 1 / sc * t.rhoPmin T
  abar := fun l r T => 1 / sc * t.abar l (sc * r) T
  zbar := fun l r T => t.zbar l (sc * r) T
  pref := t.pref

/-- `scaled_eos.hpp:192-223` array members with scratch: the factors are pushed onto the transform
(`modifier_vector_macros.hpp:60-84`) and the wrapped array call runs on the caller's arrays. -/
def scaledV (sc : K) (t : VEos K Λ) : VEos K Λ where
  s := scaled sc t.s
  v2 := fun k tr n a b ls out =>
    match k with
    | .tRE => t.v2 .tRE ⟨tr.x.apply sc, tr.y.apply (1 / sc), tr.f⟩ n a b ls out
    | .pRT => t.v2 .pRT ⟨tr.x.apply sc, tr.y, tr.f⟩ n a b ls out
    | .pRE => t.v2 .pRE ⟨tr.x.apply sc, tr.y.apply (1 / sc), tr.f⟩ n a b ls out
    | .cvRT => t.v2 .cvRT ⟨tr.x.apply sc, tr.y, tr.f⟩ n a b ls out
    | .cvRE => t.v2 .cvRE ⟨tr.x.apply sc, tr.y.apply (1 / sc), tr.f⟩ n a b ls out
    | .bRT => t.v2 .bRT ⟨tr.x.apply sc, tr.y, tr.f⟩ n a b ls out
    | .bRE => t.v2 .bRE ⟨tr.x.apply sc, tr.y.apply (1 / sc), tr.f⟩ n a b ls out
    | .gRT => t.v2 .gRT ⟨tr.x.apply sc, tr.y, tr.f⟩ n a b ls out
    | .gRE => t.v2 .gRE ⟨tr.x.apply sc, tr.y.apply (1 / sc), tr.f⟩ n a b ls out
    | .eRT => t.v2 .eRT ⟨tr.x, tr.y, tr.f.apply sc⟩ n a b ls out
    | .sRT => t.v2 .sRT ⟨tr.x.apply sc, tr.y, tr.f.apply sc⟩ n a b ls out
    | .sRE => t.v2 .sRE ⟨tr.x.apply sc, tr.y.apply (1 / sc), tr.f.apply sc⟩ n a b ls out
  v1 := fun tr n a ls out => t.v1 ⟨tr.x.apply sc, tr.y, tr.f⟩ n a ls out

/-! ## `eos_unitsystem.hpp` -/

/-- The data members of `UnitSystem` (`eos_unitsystem.hpp:62-81`). -/
structure Units (K : Type*) where
  rho : K
  sie : K
  temp : K

namespace Units
/-- `:65` `press_unit_`. -/
def press (u : Units K) : K := u.rho * u.sie
/-- `:66` `entropy_unit_`. -/
def entropy (u : Units K) : K := u.sie / u.temp
/-- `:71` `inv_dpde_unit_`. -/
def invDpde (u : Units K) : K := u.sie / u.press
/-- `:73` `inv_dvdt_unit_`. -/
def invDvdt (u : Units K) : K := u.rho * u.temp
/-- `:78` `cv_unit_`. -/
def cv (u : Units K) : K := u.sie / u.temp
/-- `:79` `inv_cv_unit_`. -/
def invCv (u : Units K) : K := u.temp / u.sie
/-- `:82-90` the constructor from time, mass, length and temperature units. -/
def ofLengthTime (time mass length temp : K) : Units K :=
  ⟨(length * length * length) / mass, (time * time) / (length * length), temp⟩
end Units

/-- `eos_unitsystem.hpp:47-307`: `class UnitSystem`, scalar members. -/
def unitSystem (σ : K) (u : Units K) (t : Eos K Λ) : Eos K Λ where
  q := fun k l r y =>
    match k with
    | .tRE => 1 / u.temp * t.q .tRE l (r * u.rho) (y * u.sie)
    | .eRT => 1 / u.sie * t.q .eRT l (r * u.rho) (y * u.temp)
    | .pRE => 1 / u.press * t.q .pRE l (r * u.rho) (y * u.sie)
    | .sRE => 1 / u.entropy * t.q .sRE l (r * u.rho) (y * u.sie)
    | .cvRE => u.invCv * t.q .cvRE l (r * u.rho) (y * u.sie)
    | .bRE => 1 / u.press * t.q .bRE l (r * u.rho) (y * u.sie)
    | .gRE => t.q .gRE l (r * u.rho) (y * u.sie)
    | .pRT => 1 / u.press * t.q .pRT l (r * u.rho) (y * u.temp)
    | .sRT => 1 / u.entropy * t.q .sRT l (r * u.rho) (y * u.temp)
    | .cvRT => u.invCv * t.q .cvRT l (r * u.rho) (y * u.temp)
    | .bRT => 1 / u.press * t.q .bRT l (r * u.rho) (y * u.temp)
    | .gRT => t.q .gRT l (r * u.rho) (y * u.temp)
  minE := fun l r => 1 / u.sie * t.minE l (r * u.rho)
  eRP := fun l r P e => t.eRP l (u.rho * r) (u.press * P) (e * u.sie) * (1 / u.sie)
  rePT := fun l P T g =>
    let o := t.rePT l (P * u.press) (T * u.temp) (g.1 * u.rho, g.2 * u.sie)
    (o.1 * (1 / u.rho), o.2 * (1 / u.sie))
  ptd := fun l r e P T =>
    let o := t.ptd l (r * u.rho) (e * u.sie) (P * u.press) (T * u.temp)
    ⟨o.dedP_T * ratio σ u.press u.sie, o.drdP_T * ratio σ u.press u.rho,
     o.dedT_P * ratio σ u.temp u.sie, o.drdT_P * ratio σ u.temp u.rho⟩
  fill := fun l fl s =>
    let o := t.fill l fl ⟨s.rho * u.rho, s.temp * u.temp, s.sie * u.sie, s.press * u.press,
      s.cv * u.cv, s.bmod * u.press⟩
    ⟨o.rho * (1 / u.rho), o.temp * (1 / u.temp), o.sie * (1 / u.sie), o.press * (1 / u.press),
     o.cv * u.invCv, o.bmod * (1 / u.press)⟩
  ref := fun l =>
    let o := t.ref l
    ⟨o.rho * (1 / u.rho), o.temp * (1 / u.temp), o.sie * (1 / u.sie), o.press * (1 / u.press),
     o.cv * u.invCv, o.bmod * (1 / u.press), o.dpde * u.invDpde, o.dvdt * u.invDvdt⟩
  rhoMin := 1 / u.rho * t.rhoMin
  rhoMax := 1 / u.rho * t.rhoMax
  tMin := 1 / u.temp * t.tMin
  pMin := 1 / u.press * t.pMin
  pMaxT := fun T => 1 / u.press * t.pMaxT (u.temp * T)
  rhoPmin := fun T => 1 / u.rho * t.rhoPmin (T * u.temp)
  abar := fun l r T => t.abar l (r * u.rho) (T * u.temp)
  zbar := fun l r T => t.zbar l (r * u.rho) (T * u.temp)
  pref := t.pref

/-- `eos_unitsystem.hpp:309-357` array members with scratch. -/
def unitSystemV (σ : K) (u : Units K) (t : VEos K Λ) : VEos K Λ where
  s := unitSystem σ u t.s
  v2 := fun k tr n a b ls out =>
    match k with
    | .tRE => t.v2 .tRE ⟨tr.x.apply u.rho, tr.y.apply u.sie, tr.f.apply (1 / u.temp)⟩ n a b ls out
    | .pRT => t.v2 .pRT ⟨tr.x.apply u.rho, tr.y.apply u.temp, tr.f.apply (1 / u.press)⟩ n a b ls out
    | .pRE => t.v2 .pRE ⟨tr.x.apply u.rho, tr.y.apply u.sie, tr.f.apply (1 / u.press)⟩ n a b ls out
    | .cvRT => t.v2 .cvRT ⟨tr.x.apply u.rho, tr.y.apply u.temp, tr.f.apply u.invCv⟩ n a b ls out
    | .cvRE => t.v2 .cvRE ⟨tr.x.apply u.rho, tr.y.apply u.sie, tr.f.apply u.invCv⟩ n a b ls out
    | .bRT => t.v2 .bRT ⟨tr.x.apply u.rho, tr.y.apply u.temp, tr.f.apply (1 / u.press)⟩ n a b ls out
    | .bRE => t.v2 .bRE ⟨tr.x.apply u.rho, tr.y.apply u.sie, tr.f.apply (1 / u.press)⟩ n a b ls out
    | .gRT => t.v2 .gRT ⟨tr.x.apply u.rho, tr.y.apply u.temp, tr.f⟩ n a b ls out
    | .gRE => t.v2 .gRE ⟨tr.x.apply u.rho, tr.y.apply u.sie, tr.f⟩ n a b ls out
    | .eRT => t.v2 .eRT ⟨tr.x.apply u.rho, tr.y.apply u.temp, tr.f.apply (1 / u.sie)⟩ n a b ls out
    | .sRT => t.v2 .sRT ⟨tr.x.apply u.rho, tr.y.apply u.temp, tr.f.apply (1 / u.entropy)⟩ n a b ls out
    | .sRE => t.v2 .sRE ⟨tr.x.apply u.rho, tr.y.apply u.sie, tr.f.apply (1 / u.entropy)⟩ n a b ls out
  -- `:322-323` the output factor is `sie_unit_`, not its inverse
  v1 := fun tr n a ls out => t.v1 ⟨tr.x.apply u.rho, tr.y, tr.f.apply u.sie⟩ n a ls out

/-! ## `floored_energy.hpp` -/

/-- `floored_energy.hpp:36-142`, `:380-400`: `class FlooredEnergy`, scalar members.  The floor is
computed with the default `lambda` (`l0`).  `FillEos` (`:143-153`) is modelled only for the branch
where energy is an output: the other branch passes `std::max(...)` (a const reference) for a
`Real &` parameter and does not compile when instantiated; here it is modelled as if the maximum
were a temporary. -/
def floored (l0 : Λ) (t : Eos K Λ) : Eos K Λ where
  q := fun k l r y =>
    match k with
    | .tRE => t.q .tRE l r (max y (t.minE l0 r))
    | .pRE => t.q .pRE l r (max y (t.minE l0 r))
    | .sRE => t.q .sRE l r (max y (t.minE l0 r))
    | .cvRE => t.q .cvRE l r (max y (t.minE l0 r))
    | .bRE => t.q .bRE l r (max y (t.minE l0 r))
    | .gRE => t.q .gRE l r (max y (t.minE l0 r))
    | .eRT => t.q .eRT l r y
    | .pRT => t.q .pRT l r y
    | .sRT => t.q .sRT l r y
    | .cvRT => t.q .cvRT l r y
    | .bRT => t.q .bRT l r y
    | .gRT => t.q .gRT l r y
  minE := t.minE
  eRP := t.eRP
  rePT := t.rePT
  ptd := fun l r e P T => t.ptd l r (max e (t.minE l0 r)) P T
  fill := fun l fl s =>
    if fl.sie then t.fill l fl s
    else { t.fill l fl { s with sie := max s.sie (t.minE l0 s.rho) } with sie := s.sie }
  ref := t.ref
  rhoMin := t.rhoMin
  rhoMax := t.rhoMax
  tMin := t.tMin
  pMin := t.pMin
  pMaxT := t.pMaxT
  rhoPmin := t.rhoPmin
  abar := t.abar
  zbar := t.zbar
  pref := t.pref

/-- `floored_energy.hpp:155-355` array members with scratch: the floor array is filled by the
wrapped *no-scratch* call (`loop1`), then `choose_max_sie`. -/
def flooredV (l0 : Λ) (t : VEos K Λ) : VEos K Λ where
  s := floored l0 t.s
  v2 := fun k tr n a b ls out =>
    if k.byEnergy then
      t.v2 k tr n a (mapN n (fun i v => max (b i) v) (loop1 t.s n a ls b)) ls out
    else t.v2 k tr n a b ls out
  v1 := fun tr n a ls out => t.v1 tr n a ls out

/-! ## `ramps_eos.hpp` -/

/-- Data members of `BilinearRampEOS` (`ramps_eos.hpp:540-545`). -/
structure Ramp (K : Type*) where
  r0 : K
  a : K
  b : K
  c : K
  rmid : K
  pmid : K

/-- `ramps_eos.hpp:86-91` the constructor. -/
def Ramp.mk' (r0 a b c : K) : Ramp K :=
  let rmid := r0 * (a - b * c) / (a - b)
  ⟨r0, a, b, c, rmid, a * (rmid / r0 - 1)⟩

/-- `ramps_eos.hpp:96-104` `CheckParams`. -/
def Ramp.Ok (p : Ramp K) : Prop := 0 < p.r0 ∧ 0 < p.a ∧ 0 ≤ p.b ∧ p.a ≠ p.b

/-- `ramps_eos.hpp:116-123` `get_ramp_pressure`. -/
def Ramp.pressure (σ : K) (p : Ramp K) (rho : K) : K :=
  if rho < p.r0 then 0
  else if rho < p.rmid then p.a * (ratio σ rho p.r0 - 1)
  else p.b * (ratio σ rho p.r0 - p.c)

/-- `ramps_eos.hpp:125-130` `get_ramp_density`. -/
def Ramp.density (σ : K) (p : Ramp K) (P : K) : K :=
  if P < p.pmid then p.r0 * (ratio σ P p.a + 1) else p.r0 * (ratio σ P p.b + p.c)

/-- `ramps_eos.hpp:132-136` `get_ramp_dpdrho`. -/
def Ramp.dpdrho (σ : K) (p : Ramp K) (rho : K) : K :=
  if rho < p.rmid then ratio σ p.a p.r0 else ratio σ p.b p.r0

/-- `ramps_eos.hpp:43-77` the algebraic part of `pAlpha2BilinearRampParams`: given the reference
density and the two densities `rmid`, `r1` returned by the root finds, the constants `(r0,a,b,c)`. -/
def pAlphaParams (σ rho0 alpha0 Pe Pc rmid r1 : K) : K × K × K × K :=
  let r0 := ratio σ rho0 alpha0
  (r0, ratio σ (r0 * Pe) (rmid - r0), ratio σ (r0 * (Pc - Pe)) (r1 - rmid),
   ratio σ (Pc * rmid - Pe * r1) (r0 * (Pc - Pe)))

/-- `ramps_eos.hpp:79-283`, `:521-533`: `class BilinearRampEOS`, scalar members.
`baseERP`/`basePtd` stand for the inherited base-class `InternalEnergyFromDensityPressure` and
`PTDerivativesFromPreferred` (iterations on the ramped EOS, modelled elsewhere). -/
def ramped (σ : K) (p : Ramp K) (baseERP : Λ → K → K → K → K)
    (basePtd : Λ → K → K → K → K → PTDer K) (t : Eos K Λ) : Eos K Λ where
  q := fun k l r y =>
    match k with
    | .pRE => if t.q .pRE l r y < p.pressure σ r then p.pressure σ r else t.q .pRE l r y
    | .pRT => if t.q .pRT l r y < p.pressure σ r then p.pressure σ r else t.q .pRT l r y
    | .bRE => if t.q .pRE l r y < p.pressure σ r then r * p.dpdrho σ r else t.q .bRE l r y
    | .bRT => if t.q .pRT l r y < p.pressure σ r then r * p.dpdrho σ r else t.q .bRT l r y
    | .tRE => t.q .tRE l r y
    | .eRT => t.q .eRT l r y
    | .sRE => t.q .sRE l r y
    | .cvRE => t.q .cvRE l r y
    | .gRE => t.q .gRE l r y
    | .sRT => t.q .sRT l r y
    | .cvRT => t.q .cvRT l r y
    | .gRT => t.q .gRT l r y
  minE := t.minE
  eRP := baseERP
  rePT := t.rePT
  ptd := basePtd
  fill := fun l fl s =>
    let pRE := fun r y => if t.q .pRE l r y < p.pressure σ r then p.pressure σ r else t.q .pRE l r y
    let pRT := fun r y => if t.q .pRT l r y < p.pressure σ r then p.pressure σ r else t.q .pRT l r y
    -- `:229-237` pressure first
    let s1 : Thermo K :=
      if fl.press then
        if !fl.sie then { s with press := pRE s.rho s.sie }
        else if !fl.temp then { s with press := pRT s.rho s.temp }
        else s
      else s
    -- `:239` inner call with the pressure bit cleared
    let o := t.fill l { fl with press := false } s1
    -- `:241-246`
    let rhoRamp := if fl.rho then p.density σ o.press else o.rho
    let rho := if rhoRamp < o.rho then rhoRamp else o.rho
    -- `:248` always written, whatever `output` says
    { o with
      rho := rho
      bmod := if t.q .pRE l rho o.sie < p.pressure σ rho then rho * p.dpdrho σ rho
              else t.q .bRE l rho o.sie }
  ref := t.ref
  rhoMin := t.rhoMin
  rhoMax := t.rhoMax
  tMin := t.tMin
  pMin := t.pMin
  pMaxT := t.pMaxT
  rhoPmin := t.rhoPmin
  abar := t.abar
  zbar := t.zbar
  pref := t.pref

/-- `ramps_eos.hpp:285-488` array members with scratch: the ramp is compared at the caller's
(untransformed) densities after the wrapped array call. -/
def rampedV (σ : K) (p : Ramp K) (baseERP : Λ → K → K → K → K)
    (basePtd : Λ → K → K → K → K → PTDer K) (t : VEos K Λ) : VEos K Λ where
  s := ramped σ p baseERP basePtd t.s
  v2 := fun k tr n a b ls out =>
    match k with
    | .pRT => mapN n (fun i v => max v (p.pressure σ (a i))) (t.v2 .pRT tr n a b ls out)
    | .pRE => mapN n (fun i v => max v (p.pressure σ (a i))) (t.v2 .pRE tr n a b ls out)
    | .bRT =>
      let ps := t.v2 .pRT tr n a b ls out
      mapN n (fun i v => if ps i < p.pressure σ (a i) then a i * p.dpdrho σ (a i) else v)
        (t.v2 .bRT tr n a b ls out)
    | .bRE =>
      let ps := t.v2 .pRE tr n a b ls out
      mapN n (fun i v => if ps i < p.pressure σ (a i) then a i * p.dpdrho σ (a i) else v)
        (t.v2 .bRE tr n a b ls out)
    | .tRE => t.v2 .tRE tr n a b ls out
    | .eRT => t.v2 .eRT tr n a b ls out
    | .sRE => t.v2 .sRE tr n a b ls out
    | .cvRE => t.v2 .cvRE tr n a b ls out
    | .gRE => t.v2 .gRE tr n a b ls out
    | .sRT => t.v2 .sRT tr n a b ls out
    | .cvRT => t.v2 .cvRT tr n a b ls out
    | .gRT => t.v2 .gRT tr n a b ls out
  v1 := fun tr n a ls out => t.v1 tr n a ls out

/-! ## `relativistic_eos.hpp` -/

/-- `relativistic_eos.hpp:36-211`: `class RelativisticEOS`, with `cl2 = cl*cl` (`:53`).  It declares
no array members, so its array calls are those of the base class. -/
def relativistic (σ cl : K) (t : Eos K Λ) : Eos K Λ where
  q := fun k l r y =>
    match k with
    | .bRE =>
      max 0 (ratio σ (t.q .bRE l r y) |cl * cl + y + ratio σ (t.q .pRE l r y) r|)
    | .bRT =>
      max 0 (ratio σ (t.q .bRT l r y) |cl * cl + t.q .eRT l r y + ratio σ (t.q .pRT l r y) r|)
    | .tRE => t.q .tRE l r y
    | .eRT => t.q .eRT l r y
    | .pRT => t.q .pRT l r y
    | .pRE => t.q .pRE l r y
    | .sRT => t.q .sRT l r y
    | .sRE => t.q .sRE l r y
    | .cvRT => t.q .cvRT l r y
    | .cvRE => t.q .cvRE l r y
    | .gRT => t.q .gRT l r y
    | .gRE => t.q .gRE l r y
  minE := t.minE
  eRP := t.eRP
  rePT := t.rePT
  ptd := t.ptd
  fill := t.fill
  ref := t.ref
  rhoMin := t.rhoMin
  rhoMax := t.rhoMax
  tMin := t.tMin
  pMin := t.pMin
  pMaxT := t.pMaxT
  rhoPmin := t.rhoPmin
  abar := t.abar
  zbar := t.zbar
  pref := t.pref

/-! ## `zsplit_eos.hpp` -/

/-- `zsplit_eos.hpp:34` `enum class ZSplitComponent`. -/
inductive ZComp where
  | electrons
  | ions
deriving DecidableEq

/-- `zsplit_eos.hpp:292-301` `GetScale_`; `z` is the ionisation read from the lambda, clamped to
`max(0, z)` as in `:286-291`. -/
def zScale (σ : K) (c : ZComp) (z : K) : K :=
  match c with
  | .electrons => ratio σ (max 0 z) (max 0 z + 1)
  | .ions => ratio σ 1 (max 0 z + 1)

/-- `zsplit_eos.hpp:302-310` `GetInvScale_`. -/
def zInvScale (σ : K) (c : ZComp) (z : K) : K :=
  match c with
  | .electrons => ratio σ (max 0 z + 1) (max 0 z)
  | .ions => max 0 z + 1

/-- `zsplit_eos.hpp:36-283`: `class ZSplit`.  `zOf` reads the mean ionisation state from the lambda;
`l0` is the default lambda (used by `ValuesAtReferenceState`, `:235`).  `FillEos` (`:198-227`) calls
the wrapped `FillEos` without the bulk-modulus argument, which does not compile for any EOS in the
library; it is not modelled (left as the identity).  It declares no array members. -/
def zsplit (σ : K) (c : ZComp) (zOf : Λ → K) (l0 : Λ) (t : Eos K Λ) : Eos K Λ where
  q := fun k l r y =>
    match k with
    | .tRE => t.q .tRE l r (y * zInvScale σ c (zOf l))
    | .eRT => zScale σ c (zOf l) * t.q .eRT l r y
    | .pRT => zScale σ c (zOf l) * t.q .pRT l r y
    | .pRE => zScale σ c (zOf l) * t.q .pRE l r (zInvScale σ c (zOf l) * y)
    | .sRT => zScale σ c (zOf l) * t.q .sRT l r y
    | .sRE => zScale σ c (zOf l) * t.q .sRE l r (zInvScale σ c (zOf l) * y)
    | .cvRT => zScale σ c (zOf l) * t.q .cvRT l r y
    | .cvRE => zScale σ c (zOf l) * t.q .cvRE l r (zInvScale σ c (zOf l) * y)
    | .bRT => zScale σ c (zOf l) * t.q .bRT l r y
    | .bRE => zScale σ c (zOf l) * t.q .bRE l r (zInvScale σ c (zOf l) * y)
    | .gRT => t.q .gRT l r y
    | .gRE => t.q .gRE l r (zInvScale σ c (zOf l) * y)
  minE := fun l r => zScale σ c (zOf l) * t.minE l r
  -- `:172-181` the pressure is passed through unscaled
  eRP := fun l r P e => t.eRP l r P (e * zInvScale σ c (zOf l)) * zScale σ c (zOf l)
  rePT := fun l P T g =>
    let o := t.rePT l (zInvScale σ c (zOf l) * P) T g
    (o.1, o.2 * zScale σ c (zOf l))
  ptd := fun l r e P T =>
    let o := t.ptd l r (e * zInvScale σ c (zOf l)) (P * zInvScale σ c (zOf l)) T
    ⟨o.dedP_T, o.drdP_T * zInvScale σ c (zOf l), o.dedT_P * zScale σ c (zOf l), o.drdT_P⟩
  fill := fun _ _ s => s
  ref := fun l =>
    let o := t.ref l0
    { o with
      sie := o.sie * zScale σ c (zOf l)
      press := o.press * zScale σ c (zOf l)
      cv := o.cv * zScale σ c (zOf l)
      bmod := o.bmod * zScale σ c (zOf l) }
  rhoMin := t.rhoMin
  rhoMax := t.rhoMax
  tMin := t.tMin
  pMin := t.pMin
  pMaxT := t.pMaxT
  rhoPmin := t.rhoPmin
  abar := t.abar
  zbar := t.zbar
  pref := t.pref

end Verif.Mods
