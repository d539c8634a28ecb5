import Verif.Model.IeeeIdeal
import Verif.Model.IeeeModifiers

/-! # Constructors and `CheckParams`: which parameters an EOS object can be made with

Parameters are machine numbers, so not-a-number and the infinities are among them. `debug` is whether the program was compiled
without `NDEBUG`: `PORTABLE_REQUIRE` tests only then, `PORTABLE_ALWAYS_REQUIRE` and `PORTABLE_ALWAYS_THROW_OR_ABORT` always
(ports-of-call; not part of this repository). A failed test stops the program. -/

namespace Verif

namespace Ctor

open Ieee

/-- `eos_base.hpp:271-283` `MeanAtomicProperties`. -/
structure Atom where
  abar : Ext
  zbar : Ext

/-- `eos_base.hpp:284-287` `CheckParams` of the mean atomic properties. -/
def Atom.check (a : Atom) : Prop := lt (.fin 0) a.abar ∧ lt (.fin 0) a.zbar

/-- `eos_base.hpp:275-276` the default mean atomic properties. -/
def Atom.hydrogen : Atom := ⟨.fin 1, .fin 1⟩

/-- An EOS object: the analytic equations of state and the modifiers, with the parameters their constructors take. Parameters that
no test looks at are kept too (eos_ideal.hpp:49-56; eos_stiff.hpp:52-61; eos_noble_abel.hpp:52-61; eos_carnahan_starling.hpp:55-65;
eos_gruneisen.hpp:40-66; eos_jwl.hpp:42-51; eos_davis.hpp:44-52,215-221; eos_sap_polynomial.hpp:40-47; eos_mgusup.hpp:40-46;
eos_powermg.hpp:40-52; eos_vinet.hpp:42-50; eos_electrons.hpp:63-66; shifted_eos.hpp:53-55; scaled_eos.hpp:53-56; ramps_eos.hpp:86-91;
relativistic_eos.hpp:50-56; eos_unitsystem.hpp:60-81; zsplit_eos.hpp:55; floored_energy.hpp:49). Simplification: the series
coefficients of `Vinet` are left out (no test looks at them), of `PowerMG` only the first is kept; whether the maximum density of
`Gruneisen` was given or computed makes no difference to what is tested. -/
inductive Obj where
  | ideal (gm1 Cv entT0 entRho0 : Ext) (az : Atom)
  | stiff (gm1 Cv Pinf q qp T0 P0 : Ext) (az : Atom)
  | noble (gm1 Cv b q qp T0 P0 : Ext) (az : Atom)
  | carnahan (gm1 Cv b q qp T0 P0 : Ext) (az : Atom)
  | gruneisen (C0 s1 s2 s3 G0 b rho0 T0 P0 Cv rhoMax : Ext) (az : Atom)
  | jwl (A B R1 R2 w rho0 Cv : Ext) (az : Atom)
  | reactants (rho0 e0 P0 T0 A B C G0 Z alpha Cv0 : Ext) (az : Atom)
  | products (a b k n vc pc Cv : Ext) (az : Atom)
  | sap (rho0 a0 a1 a2c a2e a3 b0 b1 b2c b2e b3 : Ext) (az : Atom)
  | usup (rho0 T0 Cs s G0 Cv0 E0 S0 : Ext) (az : Atom)
  | power (rho0 T0 G0 Cv0 E0 S0 Pmin K0 : Ext) (az : Atom)
  | vinet (rho0 T0 B0 BP0 A0 Cv0 E0 S0 : Ext) (az : Atom)
  | electrons (az : Atom)
  | shifted (t : Obj) (shift : Ext)
  | scaled (t : Obj) (scale : Ext)
  | ramp (t : Obj) (r0 a b c : Ext)
  | relativistic (t : Obj) (cl : Ext)
  | units (t : Obj) (rho sie temp : Ext)
  | zsplit (t : Obj) (electrons : Bool)
  | floored (t : Obj)

section
variable (rnd : ℝ → ℝ) (Ω small : ℝ) (debug : Bool)

/-- `std::abs`. (used in scaled_eos.hpp:60-61) -/
noncomputable def absE : Ext → Ext
  | .nan => .nan
  | .inf _ => .inf false
  | .fin x => .fin |x|

/-- `a != b` is true when either is NaN. (used in ramps_eos.hpp:100) -/
def ne : Ext → Ext → Prop
  | .fin x, .fin y => x ≠ y
  | .inf s, .inf t => s ≠ t
  | _, _ => True

/-- `ramps_eos.hpp:88` `rmid_(r0 * (a - b * c) / (a - b))`. -/
noncomputable def rmid (r0 a b c : Ext) : Ext :=
  div rnd Ω (mul rnd Ω r0 (sub rnd Ω a (mul rnd Ω b c))) (sub rnd Ω a b)

/-- `ramps_eos.hpp:88` `Pmid_(a * (rmid_ / r0 - 1.0))`. -/
noncomputable def pmid (r0 a b c : Ext) : Ext :=
  mul rnd Ω a (sub rnd Ω (div rnd Ω (rmid rnd Ω r0 a b c) r0) (.fin 1))

/-- `CheckParams`: true if it returns, false if it stops the program. The tests of the form `if (x < 0) stop` are `¬ x < 0`.
`small` is `robust::SMALL()`. (eos_ideal.hpp:65-76; eos_stiff.hpp:69-74; eos_noble_abel.hpp:69-75; eos_carnahan_starling.hpp:73-79;
eos_gruneisen.hpp:70-78; eos_jwl.hpp:52-57; eos_davis.hpp:55-62,223-227; eos_sap_polynomial.hpp:50-53; eos_mgusup.hpp:176-196;
eos_powermg.hpp:195-210; eos_vinet.hpp:176-197; eos_electrons.hpp:70-73; shifted_eos.hpp:58-61; scaled_eos.hpp:59-66; ramps_eos.hpp:96-104;
relativistic_eos.hpp:59-65; eos_unitsystem.hpp:96-101; zsplit_eos.hpp:57). `FlooredEnergy` has no `CheckParams` (a call does not
compile, see `hasCheck`). -/
def check : Obj → Prop
  | .ideal gm1 Cv eT eR az => le (.fin 0) Cv ∧ le (.fin 0) gm1 ∧ le (.fin 0) eT ∧ le (.fin 0) eR ∧ az.check
  | .stiff gm1 Cv _ _ _ _ _ az => le (.fin 0) Cv ∧ le (.fin 0) gm1 ∧ az.check
  | .noble gm1 Cv b _ _ _ _ az => lt (.fin 0) Cv ∧ le (.fin 0) gm1 ∧ le (.fin 0) b ∧ az.check
  | .carnahan gm1 Cv b _ _ _ _ az => lt (.fin 0) Cv ∧ lt (.fin 0) gm1 ∧ le (.fin 0) b ∧ az.check
  | .gruneisen C0 _ _ _ _ _ rho0 T0 _ Cv rhoMax az =>
      le (.fin 0) T0 ∧ le (.fin 0) rho0 ∧ le (.fin 0) C0 ∧ le (.fin 0) Cv ∧ lt rho0 rhoMax ∧ az.check
  | .jwl _ _ _ _ w rho0 Cv az => lt (.fin 0) w ∧ lt (.fin 0) rho0 ∧ lt (.fin 0) Cv ∧ az.check
  | .reactants rho0 _ _ T0 _ B _ _ _ alpha _ az =>
      (debug = true → lt (.fin small) rho0 ∧ le (.fin 0) T0 ∧ lt (.fin small) B ∧ le (.fin 0) alpha) ∧ az.check
  | .products _ _ _ n _ _ Cv az => (debug = true → lt (.fin small) n ∧ lt (.fin small) Cv) ∧ az.check
  | .sap rho0 _ _ _ _ _ _ _ _ _ _ az => le (.fin 0) rho0 ∧ az.check
  | .usup rho0 T0 Cs s G0 Cv0 _ _ az =>
      ¬ lt rho0 (.fin 0) ∧ ¬ lt T0 (.fin 0) ∧ ¬ lt Cs (.fin 0) ∧ ¬ lt s (.fin 0) ∧ ¬ lt G0 (.fin 0) ∧ ¬ lt Cv0 (.fin 0) ∧ az.check
  | .power rho0 T0 _ Cv0 _ _ _ K0 az =>
      ¬ lt rho0 (.fin 0) ∧ ¬ lt T0 (.fin 0) ∧ ¬ lt Cv0 (.fin 0) ∧ ¬ lt K0 (.fin 0) ∧ az.check
  | .vinet rho0 T0 B0 BP0 A0 Cv0 _ _ az =>
      ¬ lt rho0 (.fin 0) ∧ ¬ lt T0 (.fin 0) ∧ ¬ lt B0 (.fin 0) ∧ ¬ lt BP0 (.fin 1) ∧ ¬ lt A0 (.fin 0) ∧ ¬ lt Cv0 (.fin 0) ∧ az.check
  | .electrons az => az.check
  | .shifted t shift => shift ≠ .nan ∧ check t
  | .scaled t scale => lt (.fin 0) (absE scale) ∧ lt (.fin 0) (absE (invScale rnd Ω scale)) ∧ scale ≠ .nan ∧
      invScale rnd Ω scale ≠ .nan ∧ check t
  | .ramp t r0 a b c => lt (.fin 0) r0 ∧ lt (.fin 0) a ∧ le (.fin 0) b ∧ ne a b ∧ rmid rnd Ω r0 a b c ≠ .nan ∧
      pmid rnd Ω r0 a b c ≠ .nan ∧ check t
  | .relativistic t cl => lt (.fin 0) cl ∧ lt (.fin 0) (mul rnd Ω cl cl) ∧ cl ≠ .nan ∧ mul rnd Ω cl cl ≠ .nan ∧ check t
  | .units t rho sie temp => lt (.fin 0) rho ∧ lt (.fin 0) sie ∧ lt (.fin 0) temp ∧ check t
  | .zsplit t _ => check t
  | .floored _ => True

/-- Whether a call of `CheckParams` compiles: `FlooredEnergy` does not have the function, nor does the base class, and the other
modifiers call that of the EOS they wrap. (floored_energy.hpp:27-421; eos_base.hpp:340-821) -/
def hasCheck : Obj → Bool
  | .floored _ => false
  | .shifted t _ => hasCheck t
  | .scaled t _ => hasCheck t
  | .ramp t _ _ _ _ => hasCheck t
  | .relativistic t _ => hasCheck t
  | .units t _ _ _ => hasCheck t
  | .zsplit t _ => hasCheck t
  | _ => true

/-- The constructor (with those of the wrapped EOS before it) returns. `Gruneisen`'s do not call `CheckParams`, nor do those of
`ZSplit` and `FlooredEnergy`; that of `JWL` has two tests of its own. (eos_ideal.hpp:46,55; eos_stiff.hpp:49,60; eos_noble_abel.hpp:49,60;
eos_carnahan_starling.hpp:52,64; eos_gruneisen.hpp:40-66; eos_jwl.hpp:48-50; eos_davis.hpp:51,220; eos_sap_polynomial.hpp:46;
eos_mgusup.hpp:45; eos_powermg.hpp:46; eos_vinet.hpp:48; eos_electrons.hpp:65; shifted_eos.hpp:54; scaled_eos.hpp:55; ramps_eos.hpp:89-90;
relativistic_eos.hpp:55; eos_unitsystem.hpp:80; zsplit_eos.hpp:55; floored_energy.hpp:49) -/
def constructed : Obj → Prop
  | .gruneisen .. => True
  | .jwl A B R1 R2 w rho0 Cv az =>
      (debug = true → lt (.fin 0) R1 ∧ lt (.fin 0) R2) ∧ check rnd Ω small debug (.jwl A B R1 R2 w rho0 Cv az)
  | .zsplit t _ => constructed t
  | .floored t => constructed t
  | .shifted t s => constructed t ∧ check rnd Ω small debug (.shifted t s)
  | .scaled t s => constructed t ∧ check rnd Ω small debug (.scaled t s)
  | .ramp t r0 a b c => constructed t ∧ check rnd Ω small debug (.ramp t r0 a b c)
  | .relativistic t cl => constructed t ∧ check rnd Ω small debug (.relativistic t cl)
  | .units t r e T => constructed t ∧ check rnd Ω small debug (.units t r e T)
  | o => check rnd Ω small debug o

end

/-- `eos_ideal.hpp:42-47` the short constructor: entropy reference temperature and density are those of the reference state. -/
noncomputable def idealShort (rnd : ℝ → ℝ) (Ω : ℝ) (P0 T0 gm1 Cv : Ext) (az : Atom) : Obj :=
  .ideal gm1 Cv T0 (Ieee.Ideal.rho0 rnd Ω ⟨gm1, Cv⟩ P0 T0) az

end Ctor

end Verif
