import Mathlib.Data.Real.Basic
import Mathlib.Algebra.Order.Field.Power

/-! # What it means to compute with binary floating-point numbers

The numbers of a format with `p` significant bits and smallest exponent `emin` (subnormal numbers included; for
`double`, `p = 53` and `emin = -1074`), and rounding to nearest with any rule for ties. Overflow is not described: there is no
largest exponent. -/

namespace Verif

namespace Rounding

/-- `x` is a number of the format: `m · 2^e` with a significand of at most `p` bits. -/
def IsFloat (p : ℕ) (emin : ℤ) (x : ℝ) : Prop :=
  ∃ m e : ℤ, |m| < 2 ^ p ∧ emin ≤ e ∧ x = (m : ℝ) * (2 : ℝ) ^ e

/-- `rnd` rounds every real number to a number of the format at least as close as every other. -/
structure ToNearest (p : ℕ) (emin : ℤ) (rnd : ℝ → ℝ) : Prop where
  isFloat : ∀ x, IsFloat p emin (rnd x)
  nearest : ∀ x y, IsFloat p emin y → |x - rnd x| ≤ |x - y|

/-- The unit round-off `2^{-p}`. -/
noncomputable def unitRoundoff (p : ℕ) : ℝ := 1 / 2 ^ p

end Rounding

end Verif
