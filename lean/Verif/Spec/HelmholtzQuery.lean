import Verif.Model.EosIface

/-! # What the queries of one EOS object have to do with each other -/

namespace Verif.Spec

open Verif.Mods

/-- The query by density and temperature for the same quantity as a query by density and energy. -/
def byTemperature : Q → Option Q
  | .pRE => some .pRT
  | .sRE => some .sRT
  | .cvRE => some .cvRT
  | .bRE => some .bRT
  | .gRE => some .gRT
  | _ => none

/-- `w` is what `FillEos` should make of `v`: `ask q x y` is the answer to the query `q`.  The inputs are left alone; each output
asked for is the answer of the query at the density and the temperature of `w`; each output not asked for is left alone. -/
structure FillsEos {K : Type*} (ask : Q → K → K → Option K) (out : Flags) (v w : Thermo K) : Prop where
  rho : w.rho = v.rho
  temp : if out.temp = true then ask .tRE v.rho v.sie = some w.temp else w.temp = v.temp
  sie : if out.sie = true then ask .eRT w.rho w.temp = some w.sie else w.sie = v.sie
  press : if out.press = true then ask .pRT w.rho w.temp = some w.press else w.press = v.press
  cv : if out.cv = true then ask .cvRT w.rho w.temp = some w.cv else w.cv = v.cv
  bmod : if out.bmod = true then ask .bRT w.rho w.temp = some w.bmod else w.bmod = v.bmod

end Verif.Spec
