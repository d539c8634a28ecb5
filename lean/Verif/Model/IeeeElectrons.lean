import Verif.Model.IeeeIdeal
import Verif.Model.IeeeRootFind

/-! # `IdealElectrons` on machine numbers

Every operation of the source is one rounded operation, evaluated left to right; no contraction into fused operations. The ionization
state is the number found in the lambda; a missing lambda, the entropies (logarithms) and `FillEos` are left out. -/

namespace Verif

namespace Ieee

open Classical

/-- The members `_gm1` and `_Cvbase` of an `IdealElectrons` (eos_electrons.hpp:222-232). -/
structure Electrons where
  gm1 : Ext
  base : Ext

namespace Electrons

variable (rnd : ℝ → ℝ) (Ω : ℝ) (g : Electrons)

/-- `eos_electrons.hpp:222`: `_gm1 = (5. / 3.) - 1`. -/
noncomputable def gammaMinusOne : Ext := sub rnd Ω (div rnd Ω (.fin 5) (.fin 3)) (.fin 1)

/-- `eos_electrons.hpp:57-58,63-66`: `_Cvbase(robust::ratio(kb, _gm1 * _AZbar.Abar * mp))`. -/
noncomputable def heatBase (gm1 Abar : Ext) : Ext :=
  ratio rnd Ω (lit rnd (13806505 / 10 ^ 23)) (mul rnd Ω (mul rnd Ω gm1 Abar) (lit rnd (167262171 / 10 ^ 32)))

/-- `eos_electrons.hpp:210-215` `_Cv`: `_Cvbase * std::max(Z, 0.0)`. -/
noncomputable def cv (Z : Ext) : Ext := mul rnd Ω g.base (stdMax Z (.fin 0))

/-- `eos_electrons.hpp:75-79` TemperatureFromDensityInternalEnergy: `std::max(0.0, sie / _Cv)`. -/
noncomputable def temperature (_rho sie Z : Ext) : Ext := stdMax (.fin 0) (div rnd Ω sie (cv rnd Ω g Z))

/-- `eos_electrons.hpp:81-85` InternalEnergyFromDensityTemperature. -/
noncomputable def energy (_rho temp Z : Ext) : Ext := stdMax (.fin 0) (mul rnd Ω (cv rnd Ω g Z) temp)

/-- `eos_electrons.hpp:87-91` PressureFromDensityTemperature: `_gm1 * rho * _Cv * temperature`. -/
noncomputable def pressureT (rho temp Z : Ext) : Ext :=
  stdMax (.fin 0) (mul rnd Ω (mul rnd Ω (mul rnd Ω g.gm1 rho) (cv rnd Ω g Z)) temp)

/-- `eos_electrons.hpp:93-97` PressureFromDensityInternalEnergy. -/
noncomputable def pressureE (rho sie _Z : Ext) : Ext := stdMax (.fin 0) (mul rnd Ω (mul rnd Ω g.gm1 rho) sie)

/-- `eos_electrons.hpp:134-138` BulkModulusFromDensityTemperature: `(_gm1 + 1) * _gm1 * rho * _Cv * temperature`. -/
noncomputable def bulkModulusT (rho temp Z : Ext) : Ext :=
  stdMax (.fin 0) (mul rnd Ω (mul rnd Ω (mul rnd Ω (mul rnd Ω (add rnd Ω g.gm1 (.fin 1)) g.gm1) rho) (cv rnd Ω g Z)) temp)

/-- `eos_electrons.hpp:140-144` BulkModulusFromDensityInternalEnergy. -/
noncomputable def bulkModulusE (rho sie _Z : Ext) : Ext :=
  stdMax (.fin 0) (mul rnd Ω (mul rnd Ω (mul rnd Ω (add rnd Ω g.gm1 (.fin 1)) g.gm1) rho) sie)

/-- `eos_electrons.hpp:159-165` DensityEnergyFromPressureTemperature; the density and the energy. -/
noncomputable def densityEnergy (press temp Z : Ext) : Ext × Ext :=
  let sie := stdMax (.fin 0) (mul rnd Ω (cv rnd Ω g Z) temp)
  (stdMax (.fin 0) (div rnd Ω press (mul rnd Ω g.gm1 sie)), sie)

end Electrons

end Ieee

end Verif
