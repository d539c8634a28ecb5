import Verif.Spec.Ieee

/-! # `IdealGas` on machine numbers

Every operation of the source is one rounded operation, evaluated left to right; no contraction into fused operations. -/

namespace Verif

namespace Ieee

open Classical

/-- `eos_ideal.hpp:32` `MYMAX(0.0, x)`: `0.0 > x ? 0.0 : x`. -/
noncomputable def max0 (x : Ext) : Ext := if lt x (.fin 0) then .fin 0 else x

/-- The members `_Cv` and `_gm1` of an `IdealGas` (eos_ideal.hpp:221). -/
structure Ideal where
  gm1 : Ext
  Cv : Ext

namespace Ideal

variable (rnd : ℝ → ℝ) (Ω : ℝ) (g : Ideal)

/-- `eos_ideal.hpp:60-64` TemperatureFromDensityInternalEnergy. -/
noncomputable def temperature (_rho sie : Ext) : Ext := max0 (div rnd Ω sie g.Cv)

/-- `eos_ideal.hpp:78-82` InternalEnergyFromDensityTemperature. -/
noncomputable def energy (_rho temp : Ext) : Ext := max0 (mul rnd Ω g.Cv temp)

/-- `eos_ideal.hpp:84-88` PressureFromDensityTemperature: `_gm1 * rho * _Cv * temperature`. -/
noncomputable def pressureT (rho temp : Ext) : Ext :=
  max0 (mul rnd Ω (mul rnd Ω (mul rnd Ω g.gm1 rho) g.Cv) temp)

/-- `eos_ideal.hpp:90-94` PressureFromDensityInternalEnergy: `_gm1 * rho * sie`. -/
noncomputable def pressureE (rho sie : Ext) : Ext := max0 (mul rnd Ω (mul rnd Ω g.gm1 rho) sie)

/-- `eos_ideal.hpp:128-132` BulkModulusFromDensityTemperature: `(_gm1 + 1) * _gm1 * rho * _Cv * temperature`. -/
noncomputable def bulkModulusT (rho temp : Ext) : Ext :=
  max0 (mul rnd Ω (mul rnd Ω (mul rnd Ω (mul rnd Ω (add rnd Ω g.gm1 (.fin 1)) g.gm1) rho) g.Cv) temp)

/-- `eos_ideal.hpp:134-138` BulkModulusFromDensityInternalEnergy: `(_gm1 + 1) * _gm1 * rho * sie`. -/
noncomputable def bulkModulusE (rho sie : Ext) : Ext :=
  max0 (mul rnd Ω (mul rnd Ω (mul rnd Ω (add rnd Ω g.gm1 (.fin 1)) g.gm1) rho) sie)

/-- `eos_ideal.hpp:202-207` DensityEnergyFromPressureTemperature; the density and the energy. -/
noncomputable def densityEnergy (press temp : Ext) : Ext × Ext :=
  let sie := max0 (mul rnd Ω g.Cv temp)
  (max0 (div rnd Ω press (mul rnd Ω g.gm1 sie)), sie)

/-- `eos_ideal.hpp:209-214` InternalEnergyFromDensityPressure (no floor). -/
noncomputable def energyP (rho press : Ext) : Ext := div rnd Ω press (mul rnd Ω g.gm1 rho)

/-- `eos_ideal.hpp:43` `_rho0(_P0 / (_gm1 * _Cv * _T0))`. -/
noncomputable def rho0 (P0 T0 : Ext) : Ext := div rnd Ω P0 (mul rnd Ω (mul rnd Ω g.gm1 g.Cv) T0)

/-- `eos_ideal.hpp:43` `_sie0(_Cv * _T0)`. -/
noncomputable def sie0 (T0 : Ext) : Ext := mul rnd Ω g.Cv T0

/-- `eos_ideal.hpp:44` `_bmod0((_gm1 + 1) * _gm1 * _rho0 * _Cv * _T0)`. -/
noncomputable def bmod0 (P0 T0 : Ext) : Ext :=
  mul rnd Ω (mul rnd Ω (mul rnd Ω (mul rnd Ω (add rnd Ω g.gm1 (.fin 1)) g.gm1) (rho0 rnd Ω g P0 T0)) g.Cv) T0

/-- `eos_ideal.hpp:44` `_dpde0(_gm1 * _rho0)`. -/
noncomputable def dpde0 (P0 T0 : Ext) : Ext := mul rnd Ω g.gm1 (rho0 rnd Ω g P0 T0)

/-- `eos_ideal.hpp:45` `_dvdt0(1. / (_rho0 * _T0))`. -/
noncomputable def dvdt0 (P0 T0 : Ext) : Ext := div rnd Ω (.fin 1) (mul rnd Ω (rho0 rnd Ω g P0 T0) T0)

end Ideal

end Ieee

end Verif
