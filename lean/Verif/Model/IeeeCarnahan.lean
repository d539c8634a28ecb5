import Verif.Model.IeeeStiff
import Verif.Model.IeeeRootFind

/-! # `CarnahanStarling` on machine numbers

Every operation of the source is one rounded operation, evaluated left to right; no contraction into fused operations. The entropies
(logarithms) and `FillEos` are left out. -/

namespace Verif

namespace Ieee

open Classical RootFind

/-- The members `_Cv, _gm1, _bb, _qq` of a `CarnahanStarling` gas (eos_carnahan_starling.hpp:280). -/
structure Carnahan where
  gm1 : Ext
  Cv : Ext
  bb : Ext
  qq : Ext

namespace Carnahan

variable (rnd : ℝ → ℝ) (Ω : ℝ) (g : Carnahan)

/-- `math_utils.hpp:32-50` `pow<3>(x) = x * pow<2>(x)`, `pow<2>(x) = x * x`. -/
noncomputable def pow3 (x : Ext) : Ext := mul rnd Ω x (mul rnd Ω x x)

/-- `math_utils.hpp:32-50` `pow<4>(x) = pow<2>(x) * pow<2>(x)`. -/
noncomputable def pow4 (x : Ext) : Ext := mul rnd Ω (mul rnd Ω x x) (mul rnd Ω x x)

/-- `eos_carnahan_starling.hpp:80-86` ZedFromDensity: `1.0 + ratio(eta * (4.0 - 2.0 * eta), pow<3>(1.0 - eta))`, `eta = _bb * rho`. -/
noncomputable def zed (rho : Ext) : Ext :=
  let eta := mul rnd Ω g.bb rho
  add rnd Ω (.fin 1) (ratio rnd Ω (mul rnd Ω eta (sub rnd Ω (.fin 4) (mul rnd Ω (.fin 2) eta))) (pow3 rnd Ω (sub rnd Ω (.fin 1) eta)))

/-- `eos_carnahan_starling.hpp:88-92` PartialRhoZedFromDensity: `1.0 + ratio(eta * (8.0 - 2.0 * eta), pow<4>(1.0 - eta))`. -/
noncomputable def dzed (rho : Ext) : Ext :=
  let eta := mul rnd Ω g.bb rho
  add rnd Ω (.fin 1) (ratio rnd Ω (mul rnd Ω eta (sub rnd Ω (.fin 8) (mul rnd Ω (.fin 2) eta))) (pow4 rnd Ω (sub rnd Ω (.fin 1) eta)))

/-- `eos_carnahan_starling.hpp:68-72` TemperatureFromDensityInternalEnergy: `std::max(SMALL, (sie - _qq) / _Cv)`. -/
noncomputable def temperature (_rho sie : Ext) : Ext := stdMax (.fin small) (div rnd Ω (sub rnd Ω sie g.qq) g.Cv)

/-- `eos_carnahan_starling.hpp:144-148` InternalEnergyFromDensityTemperature: `std::max(_qq, _Cv * temperature + _qq)`. -/
noncomputable def energy (_rho temp : Ext) : Ext := stdMax g.qq (add rnd Ω (mul rnd Ω g.Cv temp) g.qq)

/-- `eos_carnahan_starling.hpp:150-155` PressureFromDensityTemperature: `std::max(SMALL, zed * rho * temperature * _Cv * _gm1)`. -/
noncomputable def pressureT (rho temp : Ext) : Ext :=
  stdMax (.fin small) (mul rnd Ω (mul rnd Ω (mul rnd Ω (mul rnd Ω (zed rnd Ω g rho) rho) temp) g.Cv) g.gm1)

/-- `eos_carnahan_starling.hpp:157-162` PressureFromDensityInternalEnergy: `std::max(SMALL, zed * rho * (sie - _qq) * _gm1)`. -/
noncomputable def pressureE (rho sie : Ext) : Ext :=
  stdMax (.fin small) (mul rnd Ω (mul rnd Ω (mul rnd Ω (zed rnd Ω g rho) rho) (sub rnd Ω sie g.qq)) g.gm1)

/-- The bracket of eos_carnahan_starling.hpp:207-208, 216-217:
`PartialRhoZedFromDensity(rho) + ZedFromDensity(rho) * ZedFromDensity(rho) * _gm1`. -/
noncomputable def stiffness (rho : Ext) : Ext :=
  add rnd Ω (dzed rnd Ω g rho) (mul rnd Ω (mul rnd Ω (zed rnd Ω g rho) (zed rnd Ω g rho)) g.gm1)

/-- `eos_carnahan_starling.hpp:202-209` BulkModulusFromDensityTemperature: `std::max(SMALL, rho * _Cv * temperature * _gm1 * (…))`. -/
noncomputable def bulkModulusT (rho temp : Ext) : Ext :=
  stdMax (.fin small)
    (mul rnd Ω (mul rnd Ω (mul rnd Ω (mul rnd Ω rho g.Cv) temp) g.gm1) (stiffness rnd Ω g rho))

/-- `eos_carnahan_starling.hpp:211-218` BulkModulusFromDensityInternalEnergy: `std::max(SMALL, rho * (sie - _qq) * _gm1 * (…))`. -/
noncomputable def bulkModulusE (rho sie : Ext) : Ext :=
  stdMax (.fin small)
    (mul rnd Ω (mul rnd Ω (mul rnd Ω rho (sub rnd Ω sie g.qq)) g.gm1) (stiffness rnd Ω g rho))

/-- `eos_carnahan_starling.hpp:220-231` GruneisenParamFromDensityTemperature and …InternalEnergy: `ZedFromDensity(rho) * _gm1`. -/
noncomputable def gruneisen (rho : Ext) : Ext := mul rnd Ω (zed rnd Ω g rho) g.gm1

/-- `eos_carnahan_starling.hpp:116-122`: the residual `term1 - term2` of the density search. -/
noncomputable def residual (press temp x : Ext) : Ext :=
  let eta := mul rnd Ω g.bb x
  let one : Ext := .fin 1
  sub rnd Ω
    (mul rnd Ω x (add rnd Ω one (mul rnd Ω eta (add rnd Ω one (mul rnd Ω eta (sub rnd Ω one eta))))))
    (ratio rnd Ω (mul rnd Ω press (pow3 rnd Ω (sub rnd Ω one eta))) (mul rnd Ω (mul rnd Ω g.Cv g.gm1) temp))

/-- `eos_carnahan_starling.hpp:94-142` DensityFromPressureTemperature; `none`: the abort of `:137`. The tolerances are the literal
`1.0e-9`. -/
noncomputable def density (press temp guess : Ext) : Option Ext :=
  if le temp (.fin ((2 : ℝ) ^ (-1022 : ℤ))) then some (.fin 0)
  else if le g.bb (.fin ((2 : ℝ) ^ (-1022 : ℤ))) then some (ratio rnd Ω press (mul rnd Ω (mul rnd Ω g.Cv g.gm1) temp))
  else
    match regulaFalsiE rnd Ω 1001 (residual rnd Ω g press temp) (.fin 0) guess (.fin 0) (div rnd Ω (.fin 1) g.bb)
        (lit rnd (1 / 10 ^ 9)) (lit rnd (1 / 10 ^ 9)) with
    | some ⟨.success, some x⟩ => some (stdMax (.fin 0) x)
    | _ => none

end Carnahan

end Ieee

end Verif
