import Verif.Model.IeeeStiff

/-! # `SAP_Polynomial` on machine numbers

Every operation of the source is one rounded operation, evaluated left to right; no contraction into fused operations. The lookups by
temperature are stubs that return 0 and are left out (see `Model/Eos/Misc`). -/

namespace Verif

namespace Ieee

open Classical

/-- The parameters of a `SAP_Polynomial` (eos_sap_polynomial.hpp:40-47). -/
structure Sap where
  rho0 : Ext
  a0 : Ext
  a1 : Ext
  a2c : Ext
  a2e : Ext
  a3 : Ext
  b0 : Ext
  b1 : Ext
  b2c : Ext
  b2e : Ext
  b3 : Ext

namespace Sap

variable (rnd : ℝ → ℝ) (Ω : ℝ) (g : Sap)

/-- `eos_sap_polynomial.hpp:50-53` CheckParams: what it requires of the reference density (the mean atomic mass and number left out). -/
def accepted : Prop := le (.fin 0) g.rho0

/-- `eos_sap_polynomial.hpp:153-157` MuFromDensity: `rho / _rho0 - 1`. -/
noncomputable def mu (rho : Ext) : Ext := sub rnd Ω (div rnd Ω rho g.rho0) (.fin 1)

/-- `eos_sap_polynomial.hpp:81-82`, `:84-85`, `:136`, `:138`: `c0 + c1 * mu + c2 * mu * mu + c3 * mu * mu * mu`. -/
noncomputable def cubic (c0 c1 c2 c3 m : Ext) : Ext :=
  add rnd Ω
    (add rnd Ω (add rnd Ω c0 (mul rnd Ω c1 m)) (mul rnd Ω (mul rnd Ω c2 m) m))
    (mul rnd Ω (mul rnd Ω (mul rnd Ω c3 m) m) m)

/-- `eos_sap_polynomial.hpp:146-150`: `c1 + 2 * c2 * mu + 3 * c3 * mu * mu`. -/
noncomputable def slope (c1 c2 c3 m : Ext) : Ext :=
  add rnd Ω
    (add rnd Ω c1 (mul rnd Ω (mul rnd Ω (.fin 2) c2) m))
    (mul rnd Ω (mul rnd Ω (mul rnd Ω (.fin 3) c3) m) m)

/-- `eos_sap_polynomial.hpp:75-87` PressureFromDensityInternalEnergy. -/
noncomputable def pressure (rho sie : Ext) : Ext :=
  let m := mu rnd Ω g rho
  if le (.fin 0) m then
    add rnd Ω (cubic rnd Ω g.a0 g.a1 g.a2c g.a3 m) (mul rnd Ω sie (cubic rnd Ω g.b0 g.b1 g.b2c g.b3 m))
  else
    add rnd Ω (cubic rnd Ω g.a0 g.a1 g.a2e g.a3 m) (mul rnd Ω sie (cubic rnd Ω g.b0 g.b1 g.b2e g.b3 m))

/-- `eos_sap_polynomial.hpp:130-139` GruneisenParamFromDensityInternalEnergy. -/
noncomputable def gruneisen (rho _sie : Ext) : Ext :=
  let m := mu rnd Ω g rho
  if le (.fin 0) m then cubic rnd Ω g.b0 g.b1 g.b2c g.b3 m else cubic rnd Ω g.b0 g.b1 g.b2e g.b3 m

/-- `eos_sap_polynomial.hpp:140-151` BulkModulusFromDensityInternalEnergy. -/
noncomputable def bulkModulus (rho sie : Ext) : Ext :=
  let m := mu rnd Ω g rho
  if le (.fin 0) m then
    mul rnd Ω (add rnd Ω (.fin 1) m)
      (add rnd Ω (slope rnd Ω g.a1 g.a2c g.a3 m) (mul rnd Ω sie (slope rnd Ω g.b1 g.b2c g.b3 m)))
  else
    mul rnd Ω (add rnd Ω (.fin 1) m)
      (add rnd Ω (slope rnd Ω g.a1 g.a2e g.a3 m) (mul rnd Ω sie (slope rnd Ω g.b1 g.b2e g.b3 m)))

end Sap

end Ieee

end Verif
