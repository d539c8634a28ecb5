import Verif.Model.EosIface

/-! # The two pressure inversions of the EOS interface -/

namespace Verif.Spec

open Verif.Mods

variable {K Λ : Type*}

/-- `DensityEnergyFromPressureTemperature` returns a density and an energy at which the EOS has the
requested pressure and temperature (the energy is that of the returned density and temperature). -/
def PTInverts (t : Eos K Λ) (l : Λ) (P T : K) (guess : K × K) : Prop :=
  t.q .pRT l (t.rePT l P T guess).1 T = P ∧
    t.q .eRT l (t.rePT l P T guess).1 T = (t.rePT l P T guess).2

/-- `InternalEnergyFromDensityPressure` returns an energy at which the EOS has the requested
pressure. -/
def PInverts (t : Eos K Λ) (l : Λ) (r P guess : K) : Prop :=
  t.q .pRE l r (t.eRP l r P guess) = P

end Verif.Spec
