import Verif.Model.IeeeStiff

/-! # `JWL` on machine numbers

Every operation of the source is one rounded operation, evaluated left to right; no contraction into fused operations. The guarded
exponential `robust::safe_arg_exp` is an arbitrary function of machine numbers. The density search is left out (its equation is not). -/

namespace Verif

namespace Ieee

open Classical

/-- The members of a `JWL` (eos_jwl.hpp:138). -/
structure Jwl where
  A : Ext
  B : Ext
  R1 : Ext
  R2 : Ext
  w : Ext
  rho0 : Ext
  Cv : Ext
  c1 : Ext
  c2 : Ext

namespace Jwl

variable (rnd : ℝ → ℝ) (Ω : ℝ) (E : Ext → Ext) (g : Jwl)

/-- `eos_jwl.hpp:148-151` ReferencePressure. -/
noncomputable def refPressure (rho : Ext) : Ext :=
  let x := ratio rnd Ω g.rho0 rho
  add rnd Ω (mul rnd Ω g.A (E (mul rnd Ω (neg g.R1) x))) (mul rnd Ω g.B (E (mul rnd Ω (neg g.R2) x)))

/-- `eos_jwl.hpp:152-155` ReferenceEnergy. -/
noncomputable def refEnergy (rho : Ext) : Ext :=
  let x := ratio rnd Ω g.rho0 rho
  add rnd Ω (mul rnd Ω g.c1 (E (mul rnd Ω (neg g.R1) x))) (mul rnd Ω g.c2 (E (mul rnd Ω (neg g.R2) x)))

/-- `eos_jwl.hpp:156-160` InternalEnergyFromDensityTemperature. -/
noncomputable def energy (rho temp : Ext) : Ext := add rnd Ω (refEnergy rnd Ω E g rho) (mul rnd Ω g.Cv temp)

/-- `eos_jwl.hpp:161-165` PressureFromDensityInternalEnergy. -/
noncomputable def pressureE (rho sie : Ext) : Ext :=
  add rnd Ω (refPressure rnd Ω E g rho) (mul rnd Ω (mul rnd Ω g.w rho) (sub rnd Ω sie (refEnergy rnd Ω E g rho)))

/-- `eos_jwl.hpp:172-176` TemperatureFromDensityInternalEnergy. -/
noncomputable def temperature (rho sie : Ext) : Ext := ratio rnd Ω (sub rnd Ω sie (refEnergy rnd Ω E g rho)) g.Cv

/-- `eos_jwl.hpp:199-204` PressureFromDensityTemperature. -/
noncomputable def pressureT (rho temp : Ext) : Ext := pressureE rnd Ω E g rho (energy rnd Ω E g rho temp)

/-- `eos_jwl.hpp:238` the pressure whose density `DensityEnergyFromPressureTemperature` searches: `_Cv * temp * r * _w + ReferencePressure(r)`. -/
noncomputable def searched (temp r : Ext) : Ext :=
  add rnd Ω (mul rnd Ω (mul rnd Ω (mul rnd Ω g.Cv temp) r) g.w) (refPressure rnd Ω E g r)

end Jwl

end Ieee

end Verif
