import Verif.Model.CheckParams
import Verif.Model.IeeeRobust

/-! # Which parameters make a usable equation of state

"Usable" is said in terms of real numbers and does not mention the tests of the code. -/

namespace Verif

namespace Ctor

open Ieee

/-- A machine number above zero: a positive number or plus infinity. -/
def AboveZero (v : Ext) : Prop := v = .inf false ∨ ∃ x : ℝ, 0 < x ∧ v = .fin x

/-- A machine number that is zero or above. -/
def FromZero (v : Ext) : Prop := v = .inf false ∨ ∃ x : ℝ, 0 ≤ x ∧ v = .fin x

/-- A machine number that is zero or above, or not a number. -/
def FromZeroOrNaN (v : Ext) : Prop := v = .nan ∨ FromZero v

/-- A finite number of type `double`. -/
def Finite (v : Ext) : Prop := ∃ x : ℝ, |x| ≤ maxDouble ∧ v = .fin x

/-- A finite positive number of type `double`. -/
def FinitePos (v : Ext) : Prop := ∃ x : ℝ, 0 < x ∧ x ≤ maxDouble ∧ v = .fin x

/-- A finite number of type `double`, zero or above. -/
def FiniteNonneg (v : Ext) : Prop := ∃ x : ℝ, 0 ≤ x ∧ x ≤ maxDouble ∧ v = .fin x

/-- The atomic properties are positive numbers. -/
def Atom.Ready (a : Atom) : Prop := FinitePos a.abar ∧ FinitePos a.zbar

/-- The parameters are finite, and positive wherever the EOS divides by them, takes their logarithm or needs their sign. For the
modifiers: the shift is a number, the scale a number other than zero, the ramp has positive density and slope, slopes that differ
and a computed middle that is a number; the speed of light and its square, and the units, are positive numbers. -/
def Ready (rnd : ℝ → ℝ) : Obj → Prop
  | .ideal gm1 Cv eT eR az => FinitePos gm1 ∧ FinitePos Cv ∧ FinitePos eT ∧ FinitePos eR ∧ az.Ready
  | .stiff gm1 Cv Pinf q qp T0 P0 az =>
      FinitePos gm1 ∧ FinitePos Cv ∧ FiniteNonneg Pinf ∧ Finite q ∧ Finite qp ∧ FinitePos T0 ∧ FinitePos P0 ∧ az.Ready
  | .noble gm1 Cv b q qp T0 P0 az =>
      FinitePos gm1 ∧ FinitePos Cv ∧ FiniteNonneg b ∧ Finite q ∧ Finite qp ∧ FinitePos T0 ∧ FinitePos P0 ∧ az.Ready
  | .carnahan gm1 Cv b q qp T0 P0 az =>
      FinitePos gm1 ∧ FinitePos Cv ∧ FiniteNonneg b ∧ Finite q ∧ Finite qp ∧ FinitePos T0 ∧ FinitePos P0 ∧ az.Ready
  | .gruneisen C0 s1 s2 s3 G0 b rho0 T0 P0 Cv rhoMax az =>
      FinitePos C0 ∧ Finite s1 ∧ Finite s2 ∧ Finite s3 ∧ Finite G0 ∧ Finite b ∧ FinitePos rho0 ∧ FiniteNonneg T0 ∧ Finite P0 ∧
        FinitePos Cv ∧ FinitePos rhoMax ∧ lt rho0 rhoMax ∧ az.Ready
  | .jwl A B R1 R2 w rho0 Cv az =>
      Finite A ∧ Finite B ∧ FinitePos R1 ∧ FinitePos R2 ∧ FinitePos w ∧ FinitePos rho0 ∧ FinitePos Cv ∧ az.Ready
  | .reactants rho0 e0 P0 T0 A B C G0 Z alpha Cv0 az =>
      FinitePos rho0 ∧ lt (.fin small) rho0 ∧ Finite e0 ∧ Finite P0 ∧ FiniteNonneg T0 ∧ Finite A ∧ FinitePos B ∧ lt (.fin small) B ∧
        Finite C ∧ Finite G0 ∧ Finite Z ∧ FiniteNonneg alpha ∧ FinitePos Cv0 ∧ az.Ready
  | .products a b k n vc pc Cv az =>
      Finite a ∧ Finite b ∧ Finite k ∧ FinitePos n ∧ lt (.fin small) n ∧ FinitePos vc ∧ FinitePos pc ∧ FinitePos Cv ∧
        lt (.fin small) Cv ∧ az.Ready
  | .sap rho0 a0 a1 a2c a2e a3 b0 b1 b2c b2e b3 az =>
      FinitePos rho0 ∧ Finite a0 ∧ Finite a1 ∧ Finite a2c ∧ Finite a2e ∧ Finite a3 ∧ Finite b0 ∧ Finite b1 ∧ Finite b2c ∧
        Finite b2e ∧ Finite b3 ∧ az.Ready
  | .usup rho0 T0 Cs s G0 Cv0 E0 S0 az =>
      FinitePos rho0 ∧ FiniteNonneg T0 ∧ FinitePos Cs ∧ FinitePos s ∧ FiniteNonneg G0 ∧ FinitePos Cv0 ∧ Finite E0 ∧ Finite S0 ∧ az.Ready
  | .power rho0 T0 G0 Cv0 E0 S0 Pmin K0 az =>
      FinitePos rho0 ∧ FiniteNonneg T0 ∧ Finite G0 ∧ FinitePos Cv0 ∧ Finite E0 ∧ Finite S0 ∧ Finite Pmin ∧ FiniteNonneg K0 ∧ az.Ready
  | .vinet rho0 T0 B0 BP0 A0 Cv0 E0 S0 az =>
      FinitePos rho0 ∧ FiniteNonneg T0 ∧ FinitePos B0 ∧ FinitePos BP0 ∧ lt (.fin 1) BP0 ∧ FiniteNonneg A0 ∧ FinitePos Cv0 ∧
        Finite E0 ∧ Finite S0 ∧ az.Ready
  | .electrons az => az.Ready
  | .shifted t shift => Finite shift ∧ Ready rnd t
  | .scaled t scale => (∃ x : ℝ, x ≠ 0 ∧ |x| ≤ maxDouble ∧ scale = .fin x) ∧ Ready rnd t
  | .ramp t r0 a b c => FinitePos r0 ∧ FinitePos a ∧ FiniteNonneg b ∧ Finite c ∧ a ≠ b ∧ Finite (rmid rnd maxDouble r0 a b c) ∧
      Finite (pmid rnd maxDouble r0 a b c) ∧ Ready rnd t
  | .relativistic t cl => FinitePos cl ∧ FinitePos (mul rnd maxDouble cl cl) ∧ Ready rnd t
  | .units t rho sie temp => FinitePos rho ∧ FinitePos sie ∧ FinitePos temp ∧ Ready rnd t
  | .zsplit t _ => Ready rnd t
  | .floored t => Ready rnd t

/-- `Inside u o`: the object `u` is wrapped, directly or through further modifiers, by the object `o`. -/
inductive Inside : Obj → Obj → Prop
  | shifted (t s) : Inside t (.shifted t s)
  | scaled (t s) : Inside t (.scaled t s)
  | ramp (t r a b c) : Inside t (.ramp t r a b c)
  | relativistic (t c) : Inside t (.relativistic t c)
  | units (t r e T) : Inside t (.units t r e T)
  | zsplit (t e) : Inside t (.zsplit t e)
  | floored (t) : Inside t (.floored t)
  | trans {u v o} : Inside u v → Inside v o → Inside u o

/-- The outermost part of the object is one of the modifiers whose constructor runs a check. -/
def CheckingModifier : Obj → Prop
  | .shifted .. => True
  | .scaled .. => True
  | .ramp .. => True
  | .relativistic .. => True
  | .units .. => True
  | _ => False

end Ctor

end Verif
