import Verif.Spec.Ieee

/-! # Agreement up to a number of rounding errors -/

namespace Verif

namespace Ieee

/-- Two positive numbers agree up to `k` roundings of double precision: their ratio is between `(1 - 2^{-53})^k` and its inverse. -/
def Within (k : ℕ) (x y : ℝ) : Prop :=
  (1 - 1 / 2 ^ 53) ^ k * x ≤ y ∧ (1 - 1 / 2 ^ 53) ^ k * y ≤ x

/-- A machine number is finite and agrees with `x` up to `k` roundings. -/
def Approx (k : ℕ) (x : ℝ) (v : Ext) : Prop := ∃ y, v = .fin y ∧ Within k x y

/-- A positive number in the range of `double`, at least a factor 2 away from underflow and from overflow. -/
def InRange (x : ℝ) : Prop := (2 : ℝ) ^ (-1021 : ℤ) ≤ x ∧ x ≤ maxDouble / 2

/-- A machine number that is not negative (NaN is not). -/
def NonNeg (v : Ext) : Prop := le (.fin 0) v

end Ieee

end Verif
