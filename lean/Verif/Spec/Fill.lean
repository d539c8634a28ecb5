import Verif.Model.EosIface

/-! # What `FillEos` promises

`fl` is the set of requested outputs, everything else is an input; `s` is the state passed in, `o` the
state after the call. -/

namespace Verif.Spec

open Verif.Mods

variable {K : Type*}

/-- No quantity flagged as input is modified. -/
def InputsKept (fl : Flags) (s o : Thermo K) : Prop :=
  (fl.rho = false → o.rho = s.rho) ∧ (fl.temp = false → o.temp = s.temp) ∧
  (fl.sie = false → o.sie = s.sie) ∧ (fl.press = false → o.press = s.press) ∧
  (fl.cv = false → o.cv = s.cv) ∧ (fl.bmod = false → o.bmod = s.bmod)

/-- The requested derived outputs are the direct queries at the resulting density and energy. -/
def OutputsMatch (q : Q → K → K → K) (fl : Flags) (o : Thermo K) : Prop :=
  (fl.press = true → o.press = q .pRE o.rho o.sie) ∧ (fl.temp = true → o.temp = q .tRE o.rho o.sie) ∧
  (fl.cv = true → o.cv = q .cvRE o.rho o.sie) ∧ (fl.bmod = true → o.bmod = q .bRE o.rho o.sie)

/-- The resulting density and energy have the pressure and temperature that were passed in (for those
that are inputs). -/
def StateMatch (q : Q → K → K → K) (fl : Flags) (s o : Thermo K) : Prop :=
  (fl.press = false → q .pRE o.rho o.sie = s.press) ∧ (fl.temp = false → q .tRE o.rho o.sie = s.temp)

end Verif.Spec
