import Verif.Model.IeeeRobust
import Verif.Model.IeeeModifiers

/-! # `StiffGas` and `NobleAbel` on machine numbers

Every operation of the source is one rounded operation, evaluated left to right; no contraction into fused operations. The entropies
(logarithms) are left out. -/

namespace Verif

namespace Ieee

open Classical

/-- The members `_Cv, _gm1, _Pinf, _qq` of a `StiffGas` (eos_stiff.hpp:191). -/
structure Stiff where
  gm1 : Ext
  Cv : Ext
  Pinf : Ext
  qq : Ext

namespace Stiff

variable (rnd : ℝ → ℝ) (Ω : ℝ) (g : Stiff)

/-- `eos_stiff.hpp:64-68` TemperatureFromDensityInternalEnergy:
`std::max(SMALL, ratio(rho * (sie - _qq) - _Pinf, rho * _Cv))`. -/
noncomputable def temperature (rho sie : Ext) : Ext :=
  stdMax (.fin small) (ratio rnd Ω (sub rnd Ω (mul rnd Ω rho (sub rnd Ω sie g.qq)) g.Pinf) (mul rnd Ω rho g.Cv))

/-- `eos_stiff.hpp:75-79` InternalEnergyFromDensityTemperature: `std::max(_qq, ratio(rho * _Cv * temperature + _Pinf, rho) + _qq)`. -/
noncomputable def energy (rho temp : Ext) : Ext :=
  stdMax g.qq (add rnd Ω (ratio rnd Ω (add rnd Ω (mul rnd Ω (mul rnd Ω rho g.Cv) temp) g.Pinf) rho) g.qq)

/-- `eos_stiff.hpp:81-85` PressureFromDensityTemperature: `std::max(-_Pinf, _gm1 * rho * _Cv * temperature - _Pinf)`. -/
noncomputable def pressureT (rho temp : Ext) : Ext :=
  stdMax (neg g.Pinf) (sub rnd Ω (mul rnd Ω (mul rnd Ω (mul rnd Ω g.gm1 rho) g.Cv) temp) g.Pinf)

/-- `eos_stiff.hpp:87-91` PressureFromDensityInternalEnergy:
`std::max(-_Pinf, _gm1 * rho * (sie - _qq) - (_gm1 + 1.0) * _Pinf)`. -/
noncomputable def pressureE (rho sie : Ext) : Ext :=
  stdMax (neg g.Pinf) (sub rnd Ω (mul rnd Ω (mul rnd Ω g.gm1 rho) (sub rnd Ω sie g.qq))
    (mul rnd Ω (add rnd Ω g.gm1 (.fin 1)) g.Pinf))

/-- `eos_stiff.hpp:123-127` BulkModulusFromDensityTemperature: `std::max(SMALL, _gm1 * (_gm1 + 1.0) * rho * _Cv * temperature)`. -/
noncomputable def bulkModulusT (rho temp : Ext) : Ext :=
  stdMax (.fin small)
    (mul rnd Ω (mul rnd Ω (mul rnd Ω (mul rnd Ω g.gm1 (add rnd Ω g.gm1 (.fin 1))) rho) g.Cv) temp)

/-- `eos_stiff.hpp:129-133` BulkModulusFromDensityInternalEnergy:
`std::max(SMALL, _gm1 * (_gm1 + 1.0) * (rho * (sie - _qq) - _Pinf))`. -/
noncomputable def bulkModulusE (rho sie : Ext) : Ext :=
  stdMax (.fin small) (mul rnd Ω (mul rnd Ω g.gm1 (add rnd Ω g.gm1 (.fin 1)))
    (sub rnd Ω (mul rnd Ω rho (sub rnd Ω sie g.qq)) g.Pinf))

/-- `eos_stiff.hpp:179-185` DensityEnergyFromPressureTemperature; the density and the energy. -/
noncomputable def densityEnergy (press temp : Ext) : Ext × Ext :=
  (stdMax (.fin small) (ratio rnd Ω (add rnd Ω press g.Pinf) (mul rnd Ω (mul rnd Ω g.gm1 g.Cv) temp)),
   stdMax g.qq (add rnd Ω (mul rnd Ω (mul rnd Ω
     (ratio rnd Ω (add rnd Ω press (mul rnd Ω (add rnd Ω g.gm1 (.fin 1)) g.Pinf)) (add rnd Ω press g.Pinf)) g.Cv) temp) g.qq))

end Stiff

/-- The members `_Cv, _gm1, _bb, _qq` of a `NobleAbel` gas (eos_noble_abel.hpp:204). -/
structure Noble where
  gm1 : Ext
  Cv : Ext
  bb : Ext
  qq : Ext

namespace Noble

variable (rnd : ℝ → ℝ) (Ω : ℝ) (g : Noble)

/-- The denominator `1.0 - _bb * rho` of eos_noble_abel.hpp:82-95,133-159. -/
noncomputable def free (rho : Ext) : Ext := sub rnd Ω (.fin 1) (mul rnd Ω g.bb rho)

/-- `eos_noble_abel.hpp:64-68` TemperatureFromDensityInternalEnergy: `std::max(SMALL, (sie - _qq) / _Cv)`. -/
noncomputable def temperature (_rho sie : Ext) : Ext := stdMax (.fin small) (div rnd Ω (sub rnd Ω sie g.qq) g.Cv)

/-- `eos_noble_abel.hpp:76-80` InternalEnergyFromDensityTemperature: `std::max(_qq, _Cv * temperature + _qq)`. -/
noncomputable def energy (_rho temp : Ext) : Ext := stdMax g.qq (add rnd Ω (mul rnd Ω g.Cv temp) g.qq)

/-- `eos_noble_abel.hpp:82-87` PressureFromDensityTemperature:
`std::max(SMALL, ratio(_gm1 * rho * _Cv * temperature, 1.0 - _bb * rho))`. -/
noncomputable def pressureT (rho temp : Ext) : Ext :=
  stdMax (.fin small) (ratio rnd Ω (mul rnd Ω (mul rnd Ω (mul rnd Ω g.gm1 rho) g.Cv) temp) (free rnd Ω g rho))

/-- `eos_noble_abel.hpp:89-94` PressureFromDensityInternalEnergy:
`std::max(SMALL, ratio(_gm1 * rho * (sie - _qq), 1.0 - _bb * rho))`. -/
noncomputable def pressureE (rho sie : Ext) : Ext :=
  stdMax (.fin small) (ratio rnd Ω (mul rnd Ω (mul rnd Ω g.gm1 rho) (sub rnd Ω sie g.qq)) (free rnd Ω g rho))

/-- `eos_noble_abel.hpp:133-139` BulkModulusFromDensityTemperature. -/
noncomputable def bulkModulusT (rho temp : Ext) : Ext :=
  stdMax (.fin small) (ratio rnd Ω
    (mul rnd Ω (mul rnd Ω (mul rnd Ω (mul rnd Ω g.gm1 (add rnd Ω g.gm1 (.fin 1))) rho) g.Cv) temp)
    (mul rnd Ω (free rnd Ω g rho) (free rnd Ω g rho)))

/-- `eos_noble_abel.hpp:141-147` BulkModulusFromDensityInternalEnergy. -/
noncomputable def bulkModulusE (rho sie : Ext) : Ext :=
  stdMax (.fin small) (ratio rnd Ω
    (mul rnd Ω (mul rnd Ω (mul rnd Ω g.gm1 (add rnd Ω g.gm1 (.fin 1))) rho) (sub rnd Ω sie g.qq))
    (mul rnd Ω (free rnd Ω g rho) (free rnd Ω g rho)))

/-- `eos_noble_abel.hpp:149-159` GruneisenParamFromDensityTemperature and …InternalEnergy: `ratio(_gm1, 1.0 - _bb * rho)`. -/
noncomputable def gruneisen (rho : Ext) : Ext := ratio rnd Ω g.gm1 (free rnd Ω g rho)

/-- `eos_noble_abel.hpp:193-198` DensityEnergyFromPressureTemperature; the density and the energy. -/
noncomputable def densityEnergy (press temp : Ext) : Ext × Ext :=
  (stdMax (.fin small) (ratio rnd Ω press
     (add rnd Ω (mul rnd Ω (mul rnd Ω g.gm1 g.Cv) temp) (mul rnd Ω g.bb press))),
   stdMax g.qq (add rnd Ω (mul rnd Ω g.Cv temp) g.qq))

end Noble

end Ieee

end Verif
