import Verif.Model.EosIface

/-! # Array calls are element-wise scalar calls -/

namespace Verif.Spec

open Verif.Mods

variable {K Λ : Type*}

/-- Slot `i < n` of the result is the scalar answer at inputs `i`, other slots keep their content;
for every query and for the minimum energy, for arbitrary input arrays, lambdas and previous output. -/
def Elementwise [One K] (v : VEos K Λ) : Prop :=
  (∀ k n a b ls out i, v.v2 k .none n a b ls out i
    = if i < n then v.s.q k (ls i) (a i) (b i) else out i) ∧
  (∀ n a ls out i, v.v1 .none n a ls out i = if i < n then v.s.minE (ls i) (a i) else out i)

/-- The two-input array calls evaluate the scalar answer at scaled inputs and scale the result, as the
`Transform` argument prescribes (`eos_base.hpp:263-265`: factors for `x`, `y` and `f`). -/
def ScalesQueries [Mul K] (v : VEos K Λ) : Prop :=
  ∀ k tr n a b ls out i, v.v2 k tr n a b ls out i
    = if i < n then tr.f.value * v.s.q k (ls i) (tr.x.value * a i) (tr.y.value * b i) else out i

/-- The same for the minimum energy. -/
def ScalesMinE [Mul K] (v : VEos K Λ) : Prop :=
  ∀ tr n a ls out i, v.v1 tr n a ls out i
    = if i < n then tr.f.value * v.s.minE (ls i) (tr.x.value * a i) else out i

end Verif.Spec
