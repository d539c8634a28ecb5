import Verif.Spec.Ieee

/-! # `ScaledEOS` and `ShiftedEOS` on machine numbers -/

namespace Verif

namespace Ieee

/-- `-x`. -/
def neg : Ext → Ext
  | .nan => .nan
  | .inf s => .inf (!s)
  | .fin x => .fin (-x)

/-- Subtraction. -/
noncomputable def sub (rnd : ℝ → ℝ) (Ω : ℝ) (x y : Ext) : Ext := add rnd Ω x (neg y)

/-- The part of an equation of state that the two modifiers wrap here: lookups on machine numbers, in their order in
shifted_eos.hpp:65-105 (`lambda` is passed on unchanged and left out). -/
structure MEos where
  temperature : Ext → Ext → Ext
  energy : Ext → Ext → Ext
  pressureT : Ext → Ext → Ext
  pressureE : Ext → Ext → Ext
  minEnergy : Ext → Ext
  densityEnergy : Ext → Ext → Ext × Ext
  minDensity : Ext
  maxDensity : Ext

/-- `shifted_eos.hpp:65-116,397-403`: the energy argument is `sie - shift_`, an energy result is `energy + shift_`; the density
bounds are passed on (SG_ADD_MODIFIER_INTROSPECTION_METHODS). -/
noncomputable def shifted (rnd : ℝ → ℝ) (Ω : ℝ) (shift : Ext) (t : MEos) : MEos where
  temperature rho sie := t.temperature rho (sub rnd Ω sie shift)
  energy rho temp := add rnd Ω (t.energy rho temp) shift
  pressureT rho temp := t.pressureT rho temp
  pressureE rho sie := t.pressureE rho (sub rnd Ω sie shift)
  minEnergy rho := add rnd Ω (t.minEnergy rho) shift
  densityEnergy press temp :=
    let r := t.densityEnergy press temp
    (r.1, add rnd Ω r.2 shift)
  minDensity := t.minDensity
  maxDensity := t.maxDensity

/-- `scaled_eos.hpp:53-54` the constructor: `inv_scale_(1. / scale)`. -/
noncomputable def invScale (rnd : ℝ → ℝ) (Ω : ℝ) (scale : Ext) : Ext := div rnd Ω (.fin 1) scale

/-- `scaled_eos.hpp:69-120,244-262`: density arguments times `scale_`, energy arguments times `inv_scale_`, energy results times
`scale_` (not the minimum energy; the energy lookup, :76-81, passes the density unscaled), density results and bounds times `inv_scale_`. -/
noncomputable def scaled (rnd : ℝ → ℝ) (Ω : ℝ) (scale : Ext) (t : MEos) : MEos where
  temperature rho sie := t.temperature (mul rnd Ω scale rho) (mul rnd Ω (invScale rnd Ω scale) sie)
  energy rho temp := mul rnd Ω scale (t.energy rho temp)
  pressureT rho temp := t.pressureT (mul rnd Ω scale rho) temp
  pressureE rho sie := t.pressureE (mul rnd Ω scale rho) (mul rnd Ω (invScale rnd Ω scale) sie)
  minEnergy rho := t.minEnergy (mul rnd Ω scale rho)
  densityEnergy press temp :=
    let r := t.densityEnergy press temp
    (mul rnd Ω r.1 (invScale rnd Ω scale), mul rnd Ω r.2 scale)
  minDensity := mul rnd Ω (invScale rnd Ω scale) t.minDensity
  maxDensity := mul rnd Ω (invScale rnd Ω scale) t.maxDensity

end Ieee

end Verif
