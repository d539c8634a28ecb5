import Verif.Spec.Ieee

/-! # What is assumed of the C library's `log` and `exp`, and machine numbers -/

namespace Verif.Ieee

open Rounding

/-- A finite `double` that is not negative, with its value. -/
def Mass (v : Ext) (x : ℝ) : Prop := v = .fin x ∧ 0 ≤ x ∧ IsFloat 53 (-1074) x

/-- The C library's `log` and `exp`: `log 0 = -inf`, the logarithm of a positive number is a number, `exp` of a number (infinities
included) is `+inf` or a finite `double` that is not negative, and the exact values at `log 1`, `exp 0` and the infinities. No
accuracy and no monotonicity is assumed. -/
structure Libm (log exp : Ext → Ext) : Prop where
  log_zero : log (.fin 0) = .inf true
  log_pos : ∀ x : ℝ, 0 < x → ∃ y, log (.fin x) = .fin y
  log_one : log (.fin 1) = .fin 0
  exp_num : ∀ v, v ≠ .nan → exp v = .inf false ∨ ∃ x, Mass (exp v) x ∧ x ≤ maxDouble
  exp_zero : exp (.fin 0) = .fin 1
  exp_neg_inf : exp (.inf true) = .fin 0
  exp_nan : exp .nan = .nan

end Verif.Ieee
