import Verif.Lemmas.IeeeMono

/-! # Errors relative to a bound, for expressions of either sign -/

namespace Verif

open Ieee Rounding

namespace Ieee

variable {rnd : ℝ → ℝ}

/-- The machine number is finite and off from `x` by at most `k` roundings of numbers up to `M`; `M` bounds `x` too. -/
def Near (k : ℕ) (M x : ℝ) (v : Ext) : Prop := |x| ≤ M ∧ ∃ y, v = .fin y ∧ |y - x| ≤ ((1 + 2 * u) ^ k - 1) * M

theorem fac_ge (k : ℕ) : 1 ≤ (1 + 2 * u) ^ k := one_le_pow₀ (by linarith [u_pos])

theorem fac_mono {k l : ℕ} (h : k ≤ l) : (1 + 2 * u) ^ k ≤ (1 + 2 * u) ^ l := pow_le_pow_right₀ (by linarith [u_pos]) h

theorem fac_le {k : ℕ} (h : k ≤ 31) : (1 + 2 * u) ^ k ≤ 2 := by
  refine (fac_mono h).trans ?_
  unfold u
  norm_num

theorem Near.mono {k l : ℕ} (hkl : k ≤ l) {M x : ℝ} {v : Ext} (h : Near k M x v) : Near l M x v := by
  obtain ⟨h1, y, h2, h3⟩ := h
  refine ⟨h1, y, h2, h3.trans ?_⟩
  exact mul_le_mul_of_nonneg_right (by linarith [fac_mono hkl]) ((abs_nonneg x).trans h1)

theorem Near.exact {M x : ℝ} (h : |x| ≤ M) : Near 0 M x (.fin x) := ⟨h, x, rfl, by simp⟩

/-- What rounding a number that is near does. -/
theorem near_round (h : Dbl rnd) {k : ℕ} (hk : k ≤ 30) {M x y : ℝ} (hM : (2 : ℝ) ^ (-1000 : ℤ) ≤ M) (hM' : M ≤ 2 ^ (1000 : ℤ)) (hx : |x| ≤ M)
    (hy : |y - x| ≤ ((1 + 2 * u) ^ k - 1) * M) : Near (k + 1) M x (ofReal rnd maxDouble y) := by
  have hu := u_pos
  have hM0 : 0 < M := lt_of_lt_of_le (zpow_pos (by norm_num) _) hM
  have he : (2 : ℝ) ^ (-1075 : ℤ) ≤ u * M := by
    have : (2 : ℝ) ^ (-1075 : ℤ) ≤ u * 2 ^ (-1000 : ℤ) := by
      unfold u
      rw [show (1 : ℝ) / 2 ^ 53 = 2 ^ (-53 : ℤ) by norm_num, ← zpow_add₀ (by norm_num)]
      exact zpow_le_zpow_right₀ (by norm_num) (by norm_num)
    exact this.trans (mul_le_mul_of_nonneg_left hM hu.le)
  have hy' : |y| ≤ (1 + 2 * u) ^ k * M := by
    have : |y| ≤ |y - x| + |x| := by
      have := abs_add_le (y - x) x
      simpa using this
    linarith
  have h1 : |rnd y - y| ≤ 2 * u * ((1 + 2 * u) ^ k * M) := by
    have a := rnd_abs h y
    have b := mul_le_mul_of_nonneg_left hy' hu.le
    have c : u * M ≤ u * ((1 + 2 * u) ^ k * M) :=
      mul_le_mul_of_nonneg_left (le_mul_of_one_le_left hM0.le (fac_ge k)) hu.le
    linarith
  have h2 : |rnd y - x| ≤ ((1 + 2 * u) ^ (k + 1) - 1) * M := by
    have : |rnd y - x| ≤ |rnd y - y| + |y - x| := abs_sub_le _ _ _
    rw [pow_succ]
    linarith
  have h3 : |rnd y| ≤ maxDouble := by
    have a : |rnd y| ≤ |rnd y - x| + |x| := by
      have := abs_add_le (rnd y - x) x
      simpa using this
    have b : (1 + 2 * u) ^ (k + 1) * M ≤ 2 * M := mul_le_mul_of_nonneg_right (fac_le (by omega)) hM0.le
    have c : (2 : ℝ) * 2 ^ (1000 : ℤ) ≤ maxDouble := by
      unfold maxDouble
      rw [show (2 : ℝ) ^ (1000 : ℤ) = 2 ^ 29 * 2 ^ 971 by rw [← pow_add]; rfl, ← mul_assoc]
      exact mul_le_mul_of_nonneg_right (by norm_num) (by positivity)
    linarith
  exact ⟨hx, rnd y, ofReal_fin h3, h2⟩

theorem Near.mul (h : Dbl rnd) {k l : ℕ} (hk : k + l ≤ 30) {M N x z : ℝ} {v v' : Ext} (hv : Near k M x v) (hv' : Near l N z v')
    (hM : (2 : ℝ) ^ (-1000 : ℤ) ≤ M * N) (hM' : M * N ≤ 2 ^ (1000 : ℤ)) : Near (k + l + 1) (M * N) (x * z) (mul rnd maxDouble v v') := by
  obtain ⟨h1, y, rfl, h2⟩ := hv
  obtain ⟨h3, t, rfl, h4⟩ := hv'
  have hM0 : 0 ≤ M := (abs_nonneg x).trans h1
  have hN0 : 0 ≤ N := (abs_nonneg z).trans h3
  refine near_round h hk hM hM' ?_ ?_
  · rw [abs_mul]
    exact mul_le_mul h1 h3 (abs_nonneg _) hM0
  · have e : y * t - x * z = (y - x) * t + x * (t - z) := by ring
    have ht : |t| ≤ (1 + 2 * u) ^ l * N := by
      have : |t| ≤ |t - z| + |z| := by
        have := abs_add_le (t - z) z
        simpa using this
      linarith
    have a1 : |(y - x) * t| ≤ ((1 + 2 * u) ^ k - 1) * M * ((1 + 2 * u) ^ l * N) := by
      rw [abs_mul]
      exact mul_le_mul h2 ht (abs_nonneg _) ((abs_nonneg _).trans h2)
    have a2 : |x * (t - z)| ≤ M * (((1 + 2 * u) ^ l - 1) * N) := by
      rw [abs_mul]
      exact mul_le_mul h1 h4 (abs_nonneg _) hM0
    rw [e]
    refine (abs_add_le _ _).trans ?_
    rw [pow_add]
    nlinarith [a1, a2]

theorem Near.add (h : Dbl rnd) {k : ℕ} (hk : k ≤ 30) {M N x z : ℝ} {v v' : Ext} (hv : Near k M x v) (hv' : Near k N z v')
    (hM : (2 : ℝ) ^ (-1000 : ℤ) ≤ M + N) (hM' : M + N ≤ 2 ^ (1000 : ℤ)) : Near (k + 1) (M + N) (x + z) (add rnd maxDouble v v') := by
  obtain ⟨h1, y, rfl, h2⟩ := hv
  obtain ⟨h3, t, rfl, h4⟩ := hv'
  refine near_round h hk hM hM' ((abs_add_le _ _).trans (add_le_add h1 h3)) ?_
  have e : y + t - (x + z) = (y - x) + (t - z) := by ring
  rw [e]
  refine (abs_add_le _ _).trans ?_
  linarith

/-- The error in plain terms. -/
theorem Near.close {k : ℕ} (hk : k ≤ 15) {M x : ℝ} {v : Ext} (hv : Near k M x v) : ∃ y, v = .fin y ∧ |y - x| ≤ M / 2 ^ 48 := by
  obtain ⟨h1, y, rfl, h2⟩ := hv
  refine ⟨y, rfl, h2.trans ?_⟩
  have hM0 : 0 ≤ M := (abs_nonneg x).trans h1
  have : (1 + 2 * u) ^ k - 1 ≤ 1 / 2 ^ 48 := by
    refine (sub_le_sub_right (fac_mono hk) 1).trans ?_
    unfold u
    norm_num
  calc _ ≤ 1 / 2 ^ 48 * M := mul_le_mul_of_nonneg_right this hM0
    _ = M / 2 ^ 48 := by ring

end Ieee

end Verif
