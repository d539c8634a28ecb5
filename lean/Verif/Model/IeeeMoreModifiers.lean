import Verif.Model.IeeeModifiers
import Verif.Model.IeeeRobust

/-! # `FlooredEnergy`, `BilinearRampEOS`, `RelativisticEOS` and `UnitSystem` on machine numbers

Every operation of the source is one rounded operation, evaluated left to right. `lambda` is passed on unchanged and left out. -/

namespace Verif

namespace Ieee

open Classical

/-- The lookups by density and energy (in the order of floored_energy.hpp:53-103). -/
inductive ByE where
  | temperature
  | pressure
  | entropy
  | cv
  | bulk
  | gruneisen

/-- The lookups by density and temperature (in the order of floored_energy.hpp:60-128). -/
inductive ByT where
  | energy
  | pressure
  | entropy
  | cv
  | bulk
  | gruneisen

/-- The scalar lookups of an equation of state and its `FillEos` (floored_energy.hpp:53-158); the state that `FillEos` works on is
`(rho, temp, energy, press, cv, bmod)`, the output flags being fixed. -/
structure LEos where
  byE : ByE → Ext → Ext → Ext
  byT : ByT → Ext → Ext → Ext
  minE : Ext → Ext
  fill : Ext × Ext × Ext × Ext × Ext × Ext → Ext × Ext × Ext × Ext × Ext × Ext

/-- `floored_energy.hpp:53-128`: every lookup by energy is made at `std::max(sie, min_sie)`; `FillEos` (:141-158) is not modelled here. -/
noncomputable def floored (t : LEos) : LEos where
  byE q rho sie := t.byE q rho (stdMax sie (t.minE rho))
  byT := t.byT
  minE := t.minE
  fill := t.fill

/-- The data members of `BilinearRampEOS` (ramps_eos.hpp:540-545), finite. -/
structure MRamp where
  r0 : ℝ
  a : ℝ
  b : ℝ
  c : ℝ
  rmid : Ext
  pmid : Ext

/-- `ramps_eos.hpp:86-91` the constructor: `rmid_(r0 * (a - b * c) / (a - b)), Pmid_(a * (rmid_ / r0 - 1.0))`. -/
noncomputable def MRamp.make (rnd : ℝ → ℝ) (Ω : ℝ) (r0 a b c : ℝ) : MRamp :=
  let rmid := div rnd Ω (mul rnd Ω (.fin r0) (sub rnd Ω (.fin a) (mul rnd Ω (.fin b) (.fin c)))) (sub rnd Ω (.fin a) (.fin b))
  ⟨r0, a, b, c, rmid, mul rnd Ω (.fin a) (sub rnd Ω (div rnd Ω rmid (.fin r0)) (.fin 1))⟩

/-- `ramps_eos.hpp:116-123` `get_ramp_pressure`. -/
noncomputable def MRamp.pressure (rnd : ℝ → ℝ) (Ω : ℝ) (p : MRamp) (rho : Ext) : Ext :=
  let r := ratio rnd Ω rho (.fin p.r0)
  if lt rho (.fin p.r0) then .fin 0
  else if lt rho p.rmid then mul rnd Ω (.fin p.a) (sub rnd Ω r (.fin 1))
  else mul rnd Ω (.fin p.b) (sub rnd Ω r (.fin p.c))

/-- `ramps_eos.hpp:125-130` `get_ramp_density`. -/
noncomputable def MRamp.density (rnd : ℝ → ℝ) (Ω : ℝ) (p : MRamp) (P : Ext) : Ext :=
  if lt P p.pmid then mul rnd Ω (.fin p.r0) (add rnd Ω (ratio rnd Ω P (.fin p.a)) (.fin 1))
  else mul rnd Ω (.fin p.r0) (add rnd Ω (ratio rnd Ω P (.fin p.b)) (.fin p.c))

/-- `ramps_eos.hpp:132-136` `get_ramp_dpdrho`. -/
noncomputable def MRamp.dpdrho (rnd : ℝ → ℝ) (Ω : ℝ) (p : MRamp) (rho : Ext) : Ext :=
  if lt rho p.rmid then ratio rnd Ω (.fin p.a) (.fin p.r0) else ratio rnd Ω (.fin p.b) (.fin p.r0)

/-- `ramps_eos.hpp:138-217`: pressures are `p_eos < p_ramp ? p_ramp : p_eos`, bulk moduli `rho * get_ramp_dpdrho(rho)` below the ramp;
everything else is passed on. `FillEos` (:221-251) is not modelled here. -/
noncomputable def rampOn (rnd : ℝ → ℝ) (Ω : ℝ) (p : MRamp) (t : LEos) : LEos where
  byE q rho sie :=
    let pr := p.pressure rnd Ω rho
    let pe := t.byE .pressure rho sie
    match q with
    | .pressure => if lt pe pr then pr else pe
    | .bulk => if lt pe pr then mul rnd Ω rho (p.dpdrho rnd Ω rho) else t.byE .bulk rho sie
    | q => t.byE q rho sie
  byT q rho temp :=
    let pr := p.pressure rnd Ω rho
    let pe := t.byT .pressure rho temp
    match q with
    | .pressure => if lt pe pr then pr else pe
    | .bulk => if lt pe pr then mul rnd Ω rho (p.dpdrho rnd Ω rho) else t.byT .bulk rho temp
    | q => t.byT q rho temp
  minE := t.minE
  fill := t.fill

/-- `std::abs` (used in relativistic_eos.hpp:106,142). -/
noncomputable def absM : Ext → Ext
  | .nan => .nan
  | .inf _ => .inf false
  | .fin x => .fin |x|

/-- `relativistic_eos.hpp:102-107,136-143`: the bulk modulus is `std::max(0.0, ratio(bmod, std::abs(h)))` with
`h = cl2_ + sie + ratio(P, rho)` and `cl2_ = cl * cl` (:52); everything else is passed on. -/
noncomputable def relativisticOn (rnd : ℝ → ℝ) (Ω : ℝ) (cl : Ext) (t : LEos) : LEos where
  byE q rho sie :=
    match q with
    | .bulk =>
      let h := add rnd Ω (add rnd Ω (mul rnd Ω cl cl) sie) (ratio rnd Ω (t.byE .pressure rho sie) rho)
      stdMax (.fin 0) (ratio rnd Ω (t.byE .bulk rho sie) (absM h))
    | q => t.byE q rho sie
  byT q rho temp :=
    match q with
    | .bulk =>
      let sie := t.byT .energy rho temp
      let h := add rnd Ω (add rnd Ω (mul rnd Ω cl cl) sie) (ratio rnd Ω (t.byT .pressure rho temp) rho)
      stdMax (.fin 0) (ratio rnd Ω (t.byT .bulk rho temp) (absM h))
    | q => t.byT q rho temp
  minE := t.minE
  fill := t.fill

/-- `eos_unitsystem.hpp:63-82` the constructor: units of density, energy and temperature; the others are computed from them. -/
structure MUnits where
  rho : Ext
  sie : Ext
  temp : Ext

/-- `press_unit_(rho_unit * sie_unit)`, also `bmod_unit_` (eos_unitsystem.hpp:66,80). -/
noncomputable def MUnits.press (rnd : ℝ → ℝ) (Ω : ℝ) (u : MUnits) : Ext := mul rnd Ω u.rho u.sie

/-- `entropy_unit_(sie_unit / temp_unit)`, also `cv_unit_` (eos_unitsystem.hpp:67,80). -/
noncomputable def MUnits.entropy (rnd : ℝ → ℝ) (Ω : ℝ) (u : MUnits) : Ext := div rnd Ω u.sie u.temp

/-- `inv_x_unit_(1 / x_unit)` (eos_unitsystem.hpp:68-71,81). -/
noncomputable def invUnit (rnd : ℝ → ℝ) (Ω : ℝ) (x : Ext) : Ext := div rnd Ω (.fin 1) x

/-- `inv_cv_unit_(temp_unit / sie_unit)` (eos_unitsystem.hpp:81). -/
noncomputable def MUnits.invCv (rnd : ℝ → ℝ) (Ω : ℝ) (u : MUnits) : Ext := div rnd Ω u.temp u.sie

/-- `eos_unitsystem.hpp:113-218,255-278`: arguments times their units, results times the inverse units. -/
noncomputable def inUnits (rnd : ℝ → ℝ) (Ω : ℝ) (u : MUnits) (t : LEos) : LEos where
  byE q rho sie :=
    let y := t.byE q (mul rnd Ω rho u.rho) (mul rnd Ω sie u.sie)
    match q with
    | .temperature => mul rnd Ω (invUnit rnd Ω u.temp) y
    | .pressure => mul rnd Ω (invUnit rnd Ω (u.press rnd Ω)) y
    | .entropy => mul rnd Ω (invUnit rnd Ω (u.entropy rnd Ω)) y
    | .cv => mul rnd Ω (u.invCv rnd Ω) y
    | .bulk => mul rnd Ω (invUnit rnd Ω (u.press rnd Ω)) y
    | .gruneisen => y
  byT q rho temp :=
    let y := t.byT q (mul rnd Ω rho u.rho) (mul rnd Ω temp u.temp)
    match q with
    | .energy => mul rnd Ω (invUnit rnd Ω u.sie) y
    | .pressure => mul rnd Ω (invUnit rnd Ω (u.press rnd Ω)) y
    | .entropy => mul rnd Ω (invUnit rnd Ω (u.entropy rnd Ω)) y
    | .cv => mul rnd Ω (u.invCv rnd Ω) y
    | .bulk => mul rnd Ω (invUnit rnd Ω (u.press rnd Ω)) y
    | .gruneisen => y
  minE rho := mul rnd Ω (invUnit rnd Ω u.sie) (t.minE (mul rnd Ω rho u.rho))
  fill := fun (rho, temp, energy, press, cv, bmod) =>
    let (rho', temp', energy', press', cv', bmod') := t.fill (mul rnd Ω rho u.rho, mul rnd Ω temp u.temp, mul rnd Ω energy u.sie,
      mul rnd Ω press (u.press rnd Ω), mul rnd Ω cv (u.entropy rnd Ω), mul rnd Ω bmod (u.press rnd Ω))
    (mul rnd Ω rho' (invUnit rnd Ω u.rho), mul rnd Ω temp' (invUnit rnd Ω u.temp), mul rnd Ω energy' (invUnit rnd Ω u.sie),
      mul rnd Ω press' (invUnit rnd Ω (u.press rnd Ω)), mul rnd Ω cv' (u.invCv rnd Ω),
      mul rnd Ω bmod' (invUnit rnd Ω (u.press rnd Ω)))

end Ieee

end Verif
