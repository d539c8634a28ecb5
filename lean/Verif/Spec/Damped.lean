import Mathlib.Data.Real.Basic

/-! # Specification: a value halved some number of times -/

namespace Verif

/-- `w` is `v` after any number of multiplications `m · c` by `c = 1/2` or `c = 1`. -/
inductive Damped {K : Type} (m : K → ℝ → K) (v : K) : K → Prop
  | refl : Damped m v v
  | step {w : K} {c : ℝ} : Damped m v w → c = 1 / 2 ∨ c = 1 → Damped m v (m w c)

end Verif
