import Verif.Model.Robust
import Mathlib.Tactic.Ring
import Mathlib.Tactic.FieldSimp
import Mathlib.Tactic.Linarith
import Mathlib.Tactic.Positivity
import Mathlib.Tactic.NormNum

/-! Helper lemmas about `Verif.Robust`. -/

set_option linter.unusedSectionVars false

namespace Verif.Robust

variable {K : Type*} [Field K] [LinearOrder K] [IsStrictOrderedRing K]

theorem sgn_of_nonneg {v : K} (h : 0 ≤ v) : sgn v = 1 := by
  simp [sgn, h, not_lt.mpr h]

theorem sgn_of_neg {v : K} (h : v < 0) : sgn v = -1 := by
  simp [sgn, h, not_le.mpr h]

/-- The denominator of `ratio` in terms of `|b|`. -/
theorem den_eq {σ : K} (b : K) : b + sgn b * σ = sgn b * (|b| + σ) := by
  rcases le_or_gt 0 b with h | h
  · rw [sgn_of_nonneg h, abs_of_nonneg h]; ring
  · rw [sgn_of_neg h, abs_of_neg h]; ring

theorem sgn_ne_zero (b : K) : sgn b ≠ 0 := by
  rcases le_or_gt 0 b with h | h
  · rw [sgn_of_nonneg h]; exact one_ne_zero
  · rw [sgn_of_neg h]; exact neg_ne_zero.mpr one_ne_zero

theorem sgn_mul_abs (b : K) : sgn b * |b| = b := by
  rcases le_or_gt 0 b with h | h
  · rw [sgn_of_nonneg h, abs_of_nonneg h]; ring
  · rw [sgn_of_neg h, abs_of_neg h]; ring

theorem abs_sgn (b : K) : |sgn b| = 1 := by
  rcases le_or_gt 0 b with h | h
  · rw [sgn_of_nonneg h]; simp
  · rw [sgn_of_neg h]; simp

theorem den_ne_zero {σ : K} (hσ : 0 < σ) (b : K) : b + sgn b * σ ≠ 0 := by
  rw [den_eq]
  exact mul_ne_zero (sgn_ne_zero b) (by positivity)

theorem ratio_pos_den {σ : K} (a : K) {b : K} (hb : 0 ≤ b) : ratio σ a b = a / (b + σ) := by
  simp [ratio, sgn_of_nonneg hb]

theorem ratio_neg_den {σ : K} (a : K) {b : K} (hb : b < 0) : ratio σ a b = a / (b - σ) := by
  simp [ratio, sgn_of_neg hb, sub_eq_add_neg]

theorem ratio_formula {σ : K} (a : K) {b : K} (hb : b ≠ 0) (hσ : 0 < σ) :
    ratio σ a b = a / b * (|b| / (|b| + σ)) := by
  have h1 : (|b| + σ) ≠ 0 := by positivity
  have h2 := sgn_ne_zero b
  unfold ratio
  rw [den_eq]
  conv_rhs => rw [← sgn_mul_abs b]
  have h3 : |b| ≠ 0 := abs_ne_zero.mpr hb
  rw [sgn_mul_abs]
  conv_rhs => rw [show a / b = a / (sgn b * |b|) by rw [sgn_mul_abs]]
  field_simp

omit [IsStrictOrderedRing K] in
theorem powNat_eq (x : K) (n : Nat) : powNat x n = x ^ n := by
  fun_induction powNat x n with
  | case1 => simp
  | case2 => simp
  | case3 n h ih => rw [ih, ← pow_succ']
  | case4 n h ih =>
    rw [ih, ← pow_add]
    congr 1; omega

end Verif.Robust
