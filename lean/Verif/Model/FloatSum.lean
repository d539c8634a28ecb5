import Verif.Model.Loops
import Mathlib.Data.Real.Basic

/-! # `sum_neumaier` with every addition and subtraction rounded -/

namespace Verif

namespace Rounding

/-- `mixed_cell_models.hpp:287-305` `sum_neumaier`, with `rnd` the rounding of the machine's `+` and `-`; one statement of the
C++ body per line. The absolute values and the comparison are exact in floating point, and unary operators `op` return their
rounded result. Simplification: no overflow, so no infinities or NaNs. -/
noncomputable def sumNeumaierFl (rnd : ℝ → ℝ) (data : Nat → ℝ) (n : Nat) (offset : Nat := 0) (iskip : Int := -1)
    (op : ℝ → ℝ := id) : ℝ :=
  let r := forN n (fun (s : ℝ × ℝ) i =>
    if iskip ≥ 0 ∧ (i : Int) = iskip then s
    else
      let x := op (data (i + offset))
      let t := rnd (s.1 + x)
      if |s.1| ≥ |x| then (t, rnd (s.2 + rnd (rnd (s.1 - t) + x)))
      else (t, rnd (s.2 + rnd (rnd (x - t) + s.1)))) (0, 0)
  rnd (r.1 + r.2)

end Rounding

end Verif
