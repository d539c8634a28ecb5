import Verif.Lemmas.FloatSum
import Verif.Lemmas.MixUtils

/-! # C133: rounding errors of the compensated summation

The residuals, the normalisation of the volume fractions and the reconstruction of the left-out volume fraction are sums by
`sum_neumaier`. C18 says that in exact arithmetic it is the sum. Here every operation is rounded (`Spec/Rounding`). -/

namespace Verif

open Rounding

/-- C133: whatever the data, the result differs from the exact sum of the terms (those at `offset, …, offset + n - 1`, without the
skipped one) by one rounding of that sum and a term of second order in the round-off. -/
theorem C133_sum_error {p : ℕ} {emin : ℤ} {rnd : ℝ → ℝ} (hr : ToNearest p emin rnd) (hp : 1 ≤ p) (data : Nat → ℝ)
    (n offset : Nat) (iskip : Int) (op : ℝ → ℝ)
    (hf : ∀ i < n, (i : Int) ≠ iskip → IsFloat p emin (op (data (i + offset)))) :
    |sumNeumaierFl rnd data n offset iskip op
        - ∑ i ∈ (Finset.range n).filter (fun i : Nat => (i : Int) ≠ iskip), op (data (i + offset))| ≤
      1 / 2 ^ p * |∑ i ∈ (Finset.range n).filter (fun i : Nat => (i : Int) ≠ iskip), op (data (i + offset))| +
      n * (1 / 2 ^ p) * ((1 + 1 / 2 ^ p) ^ n - 1) * (1 + 1 / 2 ^ p) ^ (n + 1) *
        ∑ i ∈ (Finset.range n).filter (fun i : Nat => (i : Int) ≠ iskip), |op (data (i + offset))| := by
  obtain ⟨s, c, h1, h2⟩ := sumNeumaierFl_inv hr hp data n offset iskip op hf
  rw [h1]
  exact h2.result hr hp

/-- Bernoulli: `(1 + u)^n (1 - n u) ≤ 1`. -/
theorem Rounding.one_add_pow_le {u : ℝ} {n : ℕ} (hu : 0 < u) (h4 : 4 * (n * u) ≤ 1) : (1 + u) ^ n * (1 - n * u) ≤ 1 := by
  rcases Nat.eq_zero_or_pos n with rfl | hn
  · simp
  have hn1 : (1 : ℝ) ≤ n := by exact_mod_cast hn
  have hu1 : u ≤ 1 / 4 := by nlinarith
  have h1 : 1 + (n : ℝ) * (-u) ≤ (1 + -u) ^ n := one_add_mul_le_pow (by linarith) n
  have h2 : (1 + u) ^ n * (1 + -u) ^ n ≤ 1 := by
    rw [← mul_pow]
    refine pow_le_one₀ ?_ ?_ <;> nlinarith
  have h3 : (1 + u) ^ n * (1 - n * u) ≤ (1 + u) ^ n * (1 + -u) ^ n :=
    mul_le_mul_of_nonneg_left (by linarith) (by positivity)
  linarith

/-- C133, with up to `2^p / 4` terms: the error is at most `u |Σ x| + 3 n² u² Σ |x|`, `u = 2^{-p}`. -/
theorem C133_sum_error_simple {p : ℕ} {emin : ℤ} {rnd : ℝ → ℝ} (hr : ToNearest p emin rnd) (hp : 1 ≤ p) (data : Nat → ℝ)
    (n offset : Nat) (iskip : Int) (op : ℝ → ℝ) (hn : 4 * n ≤ 2 ^ p)
    (hf : ∀ i < n, (i : Int) ≠ iskip → IsFloat p emin (op (data (i + offset)))) :
    |sumNeumaierFl rnd data n offset iskip op
        - ∑ i ∈ (Finset.range n).filter (fun i : Nat => (i : Int) ≠ iskip), op (data (i + offset))| ≤
      1 / 2 ^ p * |∑ i ∈ (Finset.range n).filter (fun i : Nat => (i : Int) ≠ iskip), op (data (i + offset))| +
      3 * (n * (1 / 2 ^ p)) ^ 2 *
        ∑ i ∈ (Finset.range n).filter (fun i : Nat => (i : Int) ≠ iskip), |op (data (i + offset))| := by
  refine (C133_sum_error hr hp data n offset iskip op hf).trans ?_
  set A := ∑ i ∈ (Finset.range n).filter (fun i : Nat => (i : Int) ≠ iskip), |op (data (i + offset))| with hA
  have hA0 : 0 ≤ A := Finset.sum_nonneg fun i _ => abs_nonneg _
  set u : ℝ := 1 / 2 ^ p with hu
  have hu0 : 0 < u := by positivity
  have h4 : 4 * ((n : ℝ) * u) ≤ 1 := by
    have : (4 : ℝ) * n ≤ 2 ^ p := by exact_mod_cast hn
    rw [hu, mul_one_div, mul_div_assoc', div_le_one (by positivity)]
    exact this
  have hb := one_add_pow_le hu0 h4
  gcongr ?_ + ?_ * A
  · exact le_rfl
  rcases Nat.eq_zero_or_pos n with rfl | hn0
  · simp
  have hn1 : (1 : ℝ) ≤ n := by exact_mod_cast hn0
  have hnu0 : 0 < (n : ℝ) * u := by positivity
  have hu1 : u ≤ 1 / 4 := by nlinarith
  set q := (1 + u) ^ n with hq
  have hq1 : 1 ≤ q := one_le_pow₀ (by linarith)
  have h5 : q * (3 / 4) ≤ 1 := by nlinarith
  have h6 : q - 1 ≤ 4 / 3 * (n * u) := by nlinarith
  have h7 : q * (1 + u) ≤ 5 / 3 := by nlinarith
  rw [pow_succ, ← hq]
  calc n * u * (q - 1) * (q * (1 + u)) ≤ n * u * (4 / 3 * (n * u)) * (5 / 3) := by
        have h8 : 0 ≤ q - 1 := by linarith
        gcongr
    _ ≤ 3 * (n * u) ^ 2 := by nlinarith [sq_nonneg ((n : ℝ) * u)]

/-- C133 for `double` (53 bits, subnormals included): up to a million terms without cancellation, as for volume fractions or
squared residuals, are summed to a relative error of `2^{-52}`. -/
theorem C133_nonneg_double {rnd : ℝ → ℝ} (hr : ToNearest 53 (-1074) rnd) (data : Nat → ℝ) (n offset : Nat) (iskip : Int)
    (op : ℝ → ℝ) (hn : n ≤ 1000000)
    (hf : ∀ i < n, (i : Int) ≠ iskip → IsFloat 53 (-1074) (op (data (i + offset))))
    (h0 : ∀ i < n, (i : Int) ≠ iskip → 0 ≤ op (data (i + offset))) :
    |sumNeumaierFl rnd data n offset iskip op
        - ∑ i ∈ (Finset.range n).filter (fun i : Nat => (i : Int) ≠ iskip), op (data (i + offset))| ≤
      1 / 2 ^ 52 * ∑ i ∈ (Finset.range n).filter (fun i : Nat => (i : Int) ≠ iskip), op (data (i + offset)) := by
  have h1 := C133_sum_error_simple hr (by norm_num) data n offset iskip op (by norm_num; omega) hf
  have e : ∑ i ∈ (Finset.range n).filter (fun i : Nat => (i : Int) ≠ iskip), |op (data (i + offset))| =
      ∑ i ∈ (Finset.range n).filter (fun i : Nat => (i : Int) ≠ iskip), op (data (i + offset)) :=
    Finset.sum_congr rfl fun i hi => abs_of_nonneg
      (h0 i (Finset.mem_range.mp (Finset.mem_filter.mp hi).1) (Finset.mem_filter.mp hi).2)
  have hS : 0 ≤ ∑ i ∈ (Finset.range n).filter (fun i : Nat => (i : Int) ≠ iskip), op (data (i + offset)) := by
    rw [← e]
    exact Finset.sum_nonneg fun i _ => abs_nonneg _
  rw [e, abs_of_nonneg hS] at h1
  refine h1.trans ?_
  rw [← add_mul]
  refine mul_le_mul_of_nonneg_right ?_ hS
  have hn' : (n : ℝ) ≤ 1000000 := by exact_mod_cast hn
  have h2 : (n : ℝ) * (1 / 2 ^ 53) ≤ 1000000 * (1 / 2 ^ 53) := mul_le_mul_of_nonneg_right hn' (by positivity)
  have h3 : ((n : ℝ) * (1 / 2 ^ 53)) ^ 2 ≤ (1000000 * (1 / 2 ^ 53)) ^ 2 := pow_le_pow_left₀ (by positivity) h2 2
  have h4 : (1 : ℝ) / 2 ^ 53 + 3 * (1000000 * (1 / 2 ^ 53)) ^ 2 ≤ 1 / 2 ^ 52 := by norm_num
  linarith

/-- C133: terms on a common grid `2^e` (integers, say) whose absolute values add up to at most `2^p · 2^e` are summed exactly. -/
theorem C133_exact_on_grid {p : ℕ} {emin : ℤ} {rnd : ℝ → ℝ} (hr : ToNearest p emin rnd) (hp : 1 ≤ p) (data : Nat → ℝ)
    (n offset : Nat) (iskip : Int) (op : ℝ → ℝ) {e : ℤ} (he : emin ≤ e)
    (hf : ∀ i < n, (i : Int) ≠ iskip → ∃ k : ℤ, op (data (i + offset)) = k * (2 : ℝ) ^ e)
    (hb : (∑ i ∈ (Finset.range n).filter (fun i : Nat => (i : Int) ≠ iskip), |op (data (i + offset))|) ≤ 2 ^ p * 2 ^ e) :
    sumNeumaierFl rnd data n offset iskip op =
      ∑ i ∈ (Finset.range n).filter (fun i : Nat => (i : Int) ≠ iskip), op (data (i + offset)) :=
  sumNeumaierFl_exact hr hp data n offset iskip op he hf hb

/-- C133: the distance of the rounded sum from what the exact-arithmetic models of the solvers use. -/
theorem C133_error_against_exact_model {p : ℕ} {emin : ℤ} {rnd : ℝ → ℝ} (hr : ToNearest p emin rnd) (hp : 1 ≤ p)
    (data : Nat → ℝ) (n : Nat) (hn : 4 * n ≤ 2 ^ p) (hf : ∀ i < n, IsFloat p emin (data i)) :
    |sumNeumaierFl rnd data n - PTE.sumNeumaier data n| ≤
      1 / 2 ^ p * |∑ i ∈ Finset.range n, data i| + 3 * (n * (1 / 2 ^ p)) ^ 2 * ∑ i ∈ Finset.range n, |data i| := by
  have hfilt : (Finset.range n).filter (fun i : Nat => (i : Int) ≠ -1) = Finset.range n :=
    Finset.filter_true_of_mem (fun i _ => by omega)
  have h1 := C133_sum_error_simple hr hp data n 0 (-1) id hn (fun i hi _ => hf i hi)
  rw [hfilt] at h1
  rw [PTE.sumNeumaier_all]
  simpa using h1

/-- The hypotheses are met: a rounding to nearest exists; and for `1, 2^60, 1, -2^60` in double precision, whose plain
left-to-right sum is `0`, the compensated sum is within `2^{-38}` of the exact `2`. -/
example : ∃ rnd, ToNearest 53 (-1074) rnd ∧
    |sumNeumaierFl rnd (fun i => if i = 1 then 2 ^ 60 else if i = 3 then -2 ^ 60 else 1) 4 - 2| ≤ 1 / 2 ^ 38 := by
  obtain ⟨rnd, hr⟩ := exists_toNearest (p := 53) (emin := -1074) (by norm_num)
  refine ⟨rnd, hr, ?_⟩
  have hf : ∀ i < 4, IsFloat 53 (-1074)
      ((fun i => if i = 1 then 2 ^ 60 else if i = 3 then -2 ^ 60 else 1 : Nat → ℝ) i) := by
    intro i hi
    dsimp only
    split_ifs
    · exact ⟨1, 60, by norm_num, by norm_num, by norm_num⟩
    · exact ⟨-1, 60, by norm_num, by norm_num, by norm_num⟩
    · exact ⟨1, 0, by norm_num, by norm_num, by norm_num⟩
  have h1 := C133_sum_error_simple hr (by norm_num) (fun i => if i = 1 then 2 ^ 60 else if i = 3 then -2 ^ 60 else 1) 4 0 (-1)
    id (by norm_num) (fun i hi _ => hf i hi)
  have hfilt : (Finset.range 4).filter (fun i : Nat => (i : Int) ≠ -1) = Finset.range 4 :=
    Finset.filter_true_of_mem (fun i _ => by omega)
  rw [hfilt] at h1
  simp only [Finset.sum_range_succ, Finset.sum_range_zero] at h1
  norm_num at h1 ⊢
  refine h1.trans ?_
  norm_num

end Verif
