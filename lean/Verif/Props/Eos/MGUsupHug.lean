import Verif.Props.Eos.MGUsup
import Mathlib.Analysis.Calculus.MeanValue
import Mathlib.Analysis.Calculus.Deriv.MeanValue
import Mathlib.Analysis.SpecialFunctions.ExpDeriv
import Mathlib.MeasureTheory.Integral.IntervalIntegral.FundThmCalculus
import Mathlib.Analysis.Complex.Exponential

set_option linter.unusedSectionVars false

/-! # C45: the Hugoniot temperature of MGUsup -/

namespace Verif.MG.Usup

open Verif.Mods Verif.Robust Verif.Base Verif.Spec Verif.Gases
open Filter Topology Set

/-- Partial sums of the exponential series: `E_N(z) = sum_{k ≤ N} z^k / k!`. -/
noncomputable def expSum (N : ℕ) (z : ℝ) : ℝ := ∑ k ∈ Finset.range (N + 1), z ^ k / k.factorial

/-- `S_N(f) = sum_{k=1}^{N} g^k (f^k - 1) / (k k!)`. -/
noncomputable def logSum (g : ℝ) (N : ℕ) (f : ℝ) : ℝ :=
  ∑ k ∈ Finset.range N, g ^ (k + 1) * (f ^ (k + 1) - 1) / ((k + 1 : ℕ) * (k + 1).factorial)

theorem hasDerivAt_expSum (N : ℕ) (z : ℝ) : HasDerivAt (expSum (N + 1)) (expSum N z) z := by
  have h : HasDerivAt (fun z : ℝ => ∑ k ∈ Finset.range (N + 1 + 1), z ^ k / (k.factorial : ℝ))
      (∑ k ∈ Finset.range (N + 1 + 1), (k : ℝ) * z ^ (k - 1) / (k.factorial : ℝ)) z := by
    refine HasDerivAt.fun_sum (fun k _ => ?_)
    have := (hasDerivAt_pow k z).div_const (k.factorial : ℝ)
    exact this
  refine HasDerivAt.change h (fun _ => rfl) ?_
  rw [Finset.sum_range_succ', expSum]
  simp only [Nat.cast_zero, zero_mul, zero_div, add_zero]
  refine Finset.sum_congr rfl (fun k _ => ?_)
  rw [Nat.factorial_succ, Nat.add_sub_cancel]
  have : ((k + 1 : ℕ) : ℝ) ≠ 0 := by positivity
  have h2 : (k.factorial : ℝ) ≠ 0 := by positivity
  push_cast at *
  field_simp

theorem expSum_succ (N : ℕ) (z : ℝ) : expSum (N + 1) z = expSum N z + z ^ (N + 1) / (N + 1).factorial :=
  Finset.sum_range_succ _ _

/-- The remainder of the exponential series. -/
theorem one_sub_expSum_le (N : ℕ) (z : ℝ) (hz : 0 ≤ z) :
    0 ≤ 1 - Real.exp (-z) * expSum N z ∧ 1 - Real.exp (-z) * expSum N z ≤ z ^ (N + 1) / (N + 1).factorial := by
  constructor
  · have h := Real.sum_le_exp_of_nonneg hz (N + 1)
    have : Real.exp (-z) * expSum N z ≤ Real.exp (-z) * Real.exp z := mul_le_mul_of_nonneg_left h (Real.exp_pos _).le
    rw [← Real.exp_add, neg_add_cancel, Real.exp_zero] at this
    linarith
  · have hd : ∀ x, HasDerivAt (fun z => z ^ (N + 1) / (N + 1).factorial - (1 - Real.exp (-z) * expSum N z))
        (x ^ N / N.factorial * (1 - Real.exp (-x))) x := by
      intro x
      have h1 := (hasDerivAt_pow (N + 1) x).div_const ((N + 1).factorial : ℝ)
      have h2 := ((hasDerivAt_id x).neg).exp
      have h3 : HasDerivAt (expSum N) (expSum N x - x ^ N / N.factorial) x := by
        cases N with
        | zero =>
          refine HasDerivAt.change (hasDerivAt_const x (1 : ℝ)) (fun y => by simp [expSum]) (by simp [expSum])
        | succ N =>
          have := hasDerivAt_expSum N x
          rw [expSum_succ]
          refine HasDerivAt.change this (fun _ => rfl) (by ring)
      refine HasDerivAt.change (h1.sub ((h2.mul h3).const_sub 1)) (fun y => rfl) ?_
      have h4 : (N.factorial : ℝ) ≠ 0 := by positivity
      have h5 : ((N : ℝ) + 1) ≠ 0 := by positivity
      rw [Nat.factorial_succ]
      simp only [id, Nat.add_sub_cancel]
      push_cast
      simp only [Pi.neg_apply, id]
      field_simp
      ring
    have hm : MonotoneOn (fun z => z ^ (N + 1) / (N + 1).factorial - (1 - Real.exp (-z) * expSum N z)) (Ici 0) := by
      refine monotoneOn_of_deriv_nonneg (convex_Ici 0) (fun x _ => (hd x).continuousAt.continuousWithinAt)
        (fun x _ => (hd x).differentiableAt.differentiableWithinAt) (fun x hx => ?_)
      rw [interior_Ici] at hx
      have hx : 0 < x := hx
      rw [(hd x).deriv]
      have : Real.exp (-x) ≤ 1 := Real.exp_le_one_iff.mpr (by linarith)
      have h6 : 0 ≤ 1 - Real.exp (-x) := by linarith
      positivity
    have := hm (self_mem_Ici) hz hz
    have h0 : expSum N 0 = 1 := by
      simp [expSum, Finset.sum_range_succ']
    simp only [ne_eq, Nat.add_eq_zero_iff, one_ne_zero, and_false, not_false_eq_true, zero_pow, zero_div, neg_zero, Real.exp_zero,
      h0, mul_one, sub_self] at this
    linarith

/-- What the loop returns: a partial sum with between two and 21 terms; if fewer than 21, the last term is below `1e-16` of the
sum. -/
theorem hugLoop_eq (σ g s x : ℝ) : ∀ (k i : ℕ) (sk lk sum : ℝ),
    sk = g ^ (i + 1) * ((1 - s * x) ^ (i + 1) - 1) / ((i + 1 : ℕ) * (i + 1).factorial) →
    lk = s * g ^ (i + 1) / ((i + 1 : ℕ) * (i + 1).factorial) → sum = logSum g (i + 1) (1 - s * x) →
    ∃ N, i + 1 ≤ N ∧ N ≤ i + 1 + k ∧ (0 < k → i + 2 ≤ N) ∧ hugLoop σ g (1 - s * x) x k i sk lk sum = logSum g N (1 - s * x) ∧
      (N < i + 1 + k → ∃ t, t = logSum g N (1 - s * x) - logSum g (N - 1) (1 - s * x) ∧
        ratio σ (t * t) (logSum g N (1 - s * x) * logSum g N (1 - s * x)) < 1 / 10 ^ 16 * (1 / 10 ^ 16)) := by
  intro k
  induction k with
  | zero => exact fun i sk lk sum _ _ h => ⟨i + 1, le_rfl, le_rfl, fun h => absurd h (lt_irrefl 0), h, fun h => by omega⟩
  | succ k ih =>
    intro i sk lk sum h1 h2 h3
    have e1 : (sk * (1 - s * x) - lk * x) * (i + 1) * (g / (i + 2) / (i + 2)) =
        g ^ (i + 2) * ((1 - s * x) ^ (i + 2) - 1) / ((i + 2 : ℕ) * (i + 2).factorial) := by
      rw [h1, h2, Nat.factorial_succ (i + 1)]
      have a1 : ((i : ℝ) + 1) ≠ 0 := by positivity
      have a2 : ((i : ℝ) + 2) ≠ 0 := by positivity
      have a3 : ((i + 1).factorial : ℝ) ≠ 0 := by positivity
      push_cast
      have a4 : ((i : ℝ) + 1 + 1) = i + 2 := by ring
      rw [a4]
      field_simp
      ring
    have e2 : g / (i + 2) / (i + 2) * (i + 1) * lk = s * g ^ (i + 2) / ((i + 2 : ℕ) * (i + 2).factorial) := by
      rw [h2, Nat.factorial_succ (i + 1)]
      have a1 : ((i : ℝ) + 1) ≠ 0 := by positivity
      have a2 : ((i : ℝ) + 2) ≠ 0 := by positivity
      have a3 : ((i + 1).factorial : ℝ) ≠ 0 := by positivity
      push_cast
      have a4 : ((i : ℝ) + 1 + 1) = i + 2 := by ring
      rw [a4]
      field_simp
      ring
    have e3 : sum + g ^ (i + 2) * ((1 - s * x) ^ (i + 2) - 1) / ((i + 2 : ℕ) * (i + 2).factorial) = logSum g (i + 2) (1 - s * x) := by
      rw [h3, logSum, logSum, Finset.sum_range_succ _ (i + 1)]
    simp only [hugLoop, e1, e2]
    rw [e3]
    split_ifs with h
    · refine ⟨i + 2, by omega, by omega, fun _ => by omega, rfl, fun _ => ⟨_, ?_, h⟩⟩
      rw [← e3, h3]
      simp
    · obtain ⟨N, b1, b2, _, b3, b4⟩ := ih (i + 1) _ _ _ rfl rfl rfl
      exact ⟨N, by omega, by omega, fun _ => by omega, b3, fun hN => b4 (by omega)⟩

/-- The closed form with the series truncated after `N` terms. -/
noncomputable def thN (p : Usup) (N : ℕ) (x : ℝ) : ℝ :=
  (p.T0 - p.pf * ((p.G0 / p.s - 3) + Real.exp (-(p.G0 / p.s)) * ((p.G0 / p.s) * (p.G0 / p.s) - 4 * (p.G0 / p.s) + 2)
      * (Real.log (1 - p.s * x) + logSum (p.G0 / p.s) N (1 - p.s * x)))) * Real.exp (p.G0 * x)
    - p.pf / (1 - p.s * x) * ((4 - p.G0 / p.s) - 1 / (1 - p.s * x))

theorem hugTe_eq (p : Usup) (n : Num ℝ) (x : ℝ) (hs : p.s ≠ 0) (hx : ¬ x * x < 1 / 10 ^ 8) :
    ∃ N, 2 ≤ N ∧ N ≤ 21 ∧ p.hugTe (Num.exact n) x = p.thN N x ∧
      (N < 21 → logSum (p.G0 / p.s) N (1 - p.s * x) ≠ 0 → |logSum (p.G0 / p.s) N (1 - p.s * x) - logSum (p.G0 / p.s) (N - 1) (1 - p.s * x)| ≤
        1 / 10 ^ 16 * |logSum (p.G0 / p.s) N (1 - p.s * x)|) := by
  have hg : p.G0 / p.s * p.s = p.G0 := by field_simp
  obtain ⟨N, h1, h2, h2', h3, h4⟩ := hugLoop_eq 0 (p.G0 / p.s) p.s x 20 0 (-p.G0 * x) p.G0 (-p.G0 * x)
    (by simp; linear_combination (-x) * hg) (by simp; linear_combination hg.symm)
    (by simp [logSum]; linear_combination (-x) * hg)
  refine ⟨N, h2' (by norm_num), by omega, ?_, fun h hz => ?_⟩
  · simp only [hugTe, if_neg hx]
    simp only [Num.exact, ratio_zero_small, h3, thN]
  · obtain ⟨t, ht, h5⟩ := h4 (by omega)
    rw [ratio_zero_small] at h5
    rw [← ht]
    have h6 : 0 < logSum (p.G0 / p.s) N (1 - p.s * x) * logSum (p.G0 / p.s) N (1 - p.s * x) := mul_self_pos.mpr hz
    have : t * t < (1 / 10 ^ 16 * |logSum (p.G0 / p.s) N (1 - p.s * x)|) ^ 2 := by
      rw [div_lt_iff₀ h6] at h5
      rw [mul_pow, sq_abs]
      refine lt_of_lt_of_eq h5 ?_
      ring
    exact (abs_lt_of_sq_lt_sq (by rw [pow_two]; exact this) (by positivity)).le

theorem hasDerivAt_logSum (g : ℝ) (N : ℕ) (f : ℝ) (hf : f ≠ 0) : HasDerivAt (logSum g N) ((expSum N (g * f) - 1) / f) f := by
  have h : HasDerivAt (logSum g N) (∑ k ∈ Finset.range N,
      g ^ (k + 1) * ((k + 1 : ℕ) * f ^ (k + 1 - 1)) / ((k + 1 : ℕ) * (k + 1).factorial)) f := by
    refine HasDerivAt.fun_sum (fun k _ => ?_)
    exact (((hasDerivAt_pow (k + 1) f).sub_const 1).const_mul (g ^ (k + 1))).div_const _
  refine HasDerivAt.change h (fun _ => rfl) ?_
  rw [expSum, Finset.sum_range_succ']
  simp only [pow_zero, Nat.factorial_zero, Nat.cast_one, div_one, add_sub_cancel_right]
  rw [Finset.sum_div]
  refine Finset.sum_congr rfl (fun k _ => ?_)
  have a1 : ((k + 1 : ℕ) : ℝ) ≠ 0 := by positivity
  have a3 : ((k + 1).factorial : ℝ) ≠ 0 := by positivity
  rw [Nat.add_sub_cancel, mul_pow]
  field_simp
  ring

/-- `g^2 - 4 g + 2` for `g = G0/s`. -/
noncomputable def c2 (p : Usup) : ℝ := (p.G0 / p.s) * (p.G0 / p.s) - 4 * (p.G0 / p.s) + 2

/-- The truncated closed form satisfies the differential equation up to the remainder of the exponential series. -/
theorem hasDerivAt_thN (p : Usup) (N : ℕ) (x : ℝ) (hs : p.s ≠ 0) (hc : p.Cv0 ≠ 0) (hf : 0 < 1 - p.s * x) :
    HasDerivAt (p.thN N) (p.odeRhs x (p.thN N x) - p.pf * p.s * p.c2 / (1 - p.s * x)
      * (1 - Real.exp (-(p.G0 / p.s * (1 - p.s * x))) * expSum N (p.G0 / p.s * (1 - p.s * x)))) x := by
  have hF : HasDerivAt (fun x => 1 - p.s * x) (-p.s) x :=
    HasDerivAt.change (((hasDerivAt_id x).const_mul p.s).const_sub 1) (fun _ => rfl) (by simp)
  have hlog := hF.log hf.ne'
  have hS := HasDerivAt.comp (h₂ := logSum (p.G0 / p.s) N) x (hasDerivAt_logSum (p.G0 / p.s) N _ hf.ne') hF
  have hS : HasDerivAt (fun x => logSum (p.G0 / p.s) N (1 - p.s * x)) _ x := hS
  have hexp : HasDerivAt (fun x => Real.exp (p.G0 * x)) _ x := ((hasDerivAt_id x).const_mul p.G0).exp
  have h1 := (((((hlog.fun_add hS).const_mul (Real.exp (-(p.G0 / p.s)) * ((p.G0 / p.s) * (p.G0 / p.s) - 4 * (p.G0 / p.s) + 2))
    ).const_add (p.G0 / p.s - 3)).const_mul p.pf).const_sub p.T0).fun_mul hexp
  have h2 := ((hasDerivAt_const x p.pf).fun_div hF hf.ne').fun_mul
    (((hasDerivAt_const x (1 : ℝ)).fun_div hF hf.ne').const_sub (4 - p.G0 / p.s))
  refine HasDerivAt.change (h1.fun_sub h2) (fun y => rfl) ?_
  have he : Real.exp (-(p.G0 / p.s * (1 - p.s * x))) = Real.exp (-(p.G0 / p.s)) * Real.exp (p.G0 * x) := by
    rw [← Real.exp_add]; congr 1; field_simp; ring
  have hg : p.G0 = p.G0 / p.s * p.s := by field_simp
  have hsrc : p.Cs ^ 2 * p.s * x ^ 2 / (p.Cv0 * (1 - p.s * x) ^ 3) = 2 * p.pf * p.s * (1 - (1 - p.s * x)) ^ 2 / (1 - p.s * x) ^ 3 := by
    rw [pf]
    have h9 : 1 - (1 - p.s * x) = p.s * x := by ring
    rw [h9]
    generalize 1 - p.s * x = f at *
    have := hf.ne'
    field_simp
  simp only [odeRhs, hsrc, thN, he, c2, id]
  generalize Real.exp (-(p.G0 / p.s)) = a
  generalize Real.exp (p.G0 * x) = b
  generalize Real.log (1 - p.s * x) = l
  generalize logSum (p.G0 / p.s) N (1 - p.s * x) = S
  generalize expSum N (p.G0 / p.s * (1 - p.s * x)) = E
  generalize p.pf = q
  generalize p.G0 / p.s = g at *
  rw [hg]
  generalize 1 - p.s * x = f at *
  have := hf.ne'
  field_simp
  ring

/-- C45: the error of the computed Hugoniot temperature. For compression `x` outside the small-compression branch the computed
value is within the stated bound of the exact Hugoniot temperature, that is of any solution of the differential equation that the
first law demands starting from `T0`; `N` is the number of series terms the loop summed, at most 21, and at least so many that
the last of them is below `1e-16` of the sum or `N = 21`. -/
theorem C45_mgusup_hugoniot_temperature_error (p : Usup) (n : Num ℝ) (θ : ℝ → ℝ) (x : ℝ) (hx : ¬ x * x < 1 / 10 ^ 8)
    (hs : 0 < p.s) (hG : 0 ≤ p.G0) (hc : 0 < p.Cv0) (hf : 0 < 1 - p.s * x) (h0 : θ 0 = p.T0)
    (hθ : ∀ y ∈ uIcc 0 x, HasDerivAt θ (p.odeRhs y (θ y)) y) :
    ∃ N, 2 ≤ N ∧ N ≤ 21 ∧
      (N < 21 → logSum (p.G0 / p.s) N (1 - p.s * x) ≠ 0 →
        |logSum (p.G0 / p.s) N (1 - p.s * x) - logSum (p.G0 / p.s) (N - 1) (1 - p.s * x)| ≤
          1 / 10 ^ 16 * |logSum (p.G0 / p.s) N (1 - p.s * x)|) ∧
      |p.hugTe (Num.exact n) x - θ x| ≤ |x| * Real.exp (p.G0 * max x 0) * (p.pf * p.s * |p.c2|
        * ((p.G0 / p.s) ^ (N + 1) * max 1 (1 - p.s * x) ^ N / (N + 1).factorial)) := by
  obtain ⟨N, hN1, hN2, hv, hterm⟩ := p.hugTe_eq n x hs.ne' hx
  refine ⟨N, hN1, hN2, hterm, ?_⟩
  rw [hv]
  have hpf : 0 ≤ p.pf := by rw [pf]; exact div_nonneg (mul_self_nonneg _) (by positivity)
  have hg : 0 ≤ p.G0 / p.s := by positivity
  -- 1 - s y stays positive and bounded on the segment
  have hseg : ∀ y ∈ uIcc 0 x, 0 < 1 - p.s * y ∧ 1 - p.s * y ≤ max 1 (1 - p.s * x) ∧ -p.G0 * y ≤ max (-p.G0 * x) 0 := by
    intro y hy
    rw [mem_uIcc] at hy
    rcases hy with ⟨h1, h2⟩ | ⟨h1, h2⟩
    · refine ⟨by nlinarith, le_max_of_le_left (by nlinarith), le_max_of_le_right (by nlinarith)⟩
    · refine ⟨by nlinarith, le_max_of_le_right (by nlinarith), le_max_of_le_left (by nlinarith)⟩
  set B := Real.exp (max (-p.G0 * x) 0) * (p.pf * p.s * |p.c2|
        * ((p.G0 / p.s) ^ (N + 1) * max 1 (1 - p.s * x) ^ N / (N + 1).factorial)) with hB
  have hd : ∀ y ∈ uIcc 0 x, HasDerivWithinAt (fun y => Real.exp (-p.G0 * y) * (p.thN N y - θ y))
      (Real.exp (-p.G0 * y) * -(p.pf * p.s * p.c2 / (1 - p.s * y)
      * (1 - Real.exp (-(p.G0 / p.s * (1 - p.s * y))) * expSum N (p.G0 / p.s * (1 - p.s * y))))) (uIcc 0 x) y := by
    intro y hy
    have h1 := p.hasDerivAt_thN N y hs.ne' hc.ne' (hseg y hy).1
    have h2 : HasDerivAt (fun x => Real.exp (-p.G0 * x)) _ y := ((hasDerivAt_id y).const_mul (-p.G0)).exp
    have h3 := h2.fun_mul (h1.fun_sub (hθ y hy))
    refine (HasDerivAt.change h3 (fun _ => rfl) ?_).hasDerivWithinAt
    simp only [odeRhs, id]
    ring
  have hbound : ∀ y ∈ uIcc 0 x, ‖Real.exp (-p.G0 * y) * -(p.pf * p.s * p.c2 / (1 - p.s * y)
      * (1 - Real.exp (-(p.G0 / p.s * (1 - p.s * y))) * expSum N (p.G0 / p.s * (1 - p.s * y))))‖ ≤ B := by
    intro y hy
    obtain ⟨h1, h2, h3⟩ := hseg y hy
    have hz : 0 ≤ p.G0 / p.s * (1 - p.s * y) := mul_nonneg hg h1.le
    obtain ⟨r1, r2⟩ := one_sub_expSum_le N _ hz
    rw [norm_mul, norm_neg, Real.norm_eq_abs, Real.norm_eq_abs, abs_mul, abs_of_nonneg r1, abs_div, abs_mul, abs_mul,
      abs_of_pos h1, abs_of_nonneg hpf, abs_of_pos hs, abs_of_pos (Real.exp_pos _), hB]
    refine mul_le_mul (Real.exp_le_exp.mpr h3) ?_ (by positivity) (Real.exp_pos _).le
    rw [div_mul_eq_mul_div, mul_div_assoc]
    refine mul_le_mul_of_nonneg_left ?_ (by positivity)
    rw [div_le_iff₀ h1]
    refine r2.trans ?_
    rw [mul_pow, pow_succ (1 - p.s * y)]
    have h4 : (1 - p.s * y) ^ N ≤ max 1 (1 - p.s * x) ^ N := pow_le_pow_left₀ h1.le h2 N
    have h5 : (p.G0 / p.s) ^ (N + 1) * ((1 - p.s * y) ^ N * (1 - p.s * y)) ≤
        (p.G0 / p.s) ^ (N + 1) * (max 1 (1 - p.s * x) ^ N * (1 - p.s * y)) := by gcongr
    rw [div_mul_eq_mul_div, mul_assoc]
    gcongr
  have := (convex_uIcc 0 x).norm_image_sub_le_of_norm_hasDerivWithin_le hd hbound left_mem_uIcc right_mem_uIcc
  have h00 : p.thN N 0 = p.T0 := by
    simp only [thN, logSum, mul_zero, sub_zero, Real.log_one, Real.exp_zero, one_pow, sub_self, zero_div, Finset.sum_const_zero,
      add_zero]
    ring
  rw [h00, h0, sub_self, mul_zero, sub_zero, sub_zero, norm_mul, Real.norm_eq_abs, Real.norm_eq_abs, Real.norm_eq_abs,
    abs_of_pos (Real.exp_pos _)] at this
  have h7 : |p.thN N x - θ x| = Real.exp (p.G0 * x) * (Real.exp (-p.G0 * x) * |p.thN N x - θ x|) := by
    rw [← mul_assoc, ← Real.exp_add]
    simp
  rw [h7]
  refine (mul_le_mul_of_nonneg_left this (Real.exp_pos _).le).trans (le_of_eq ?_)
  have h8 : Real.exp (p.G0 * x) * Real.exp (max (-p.G0 * x) 0) = Real.exp (p.G0 * max x 0) := by
    rw [← Real.exp_add]
    congr 1
    rcases le_total x 0 with h | h
    · rw [max_eq_right h, max_eq_left (by nlinarith)]; ring
    · rw [max_eq_left h, max_eq_right (by nlinarith)]; ring
  rw [hB, ← h8]
  ring

/-- The exact Hugoniot temperature exists: the differential equation has a solution wherever `1 - s x` is positive, so the
hypotheses of the theorem above can be met for every material. -/
theorem C45_mgusup_hugoniot_temperature_exists (p : Usup) : ∃ θ : ℝ → ℝ, θ 0 = p.T0 ∧
    ∀ y, (∀ z ∈ uIcc 0 y, 0 < 1 - p.s * z) → HasDerivAt θ (p.odeRhs y (θ y)) y := by
  set f : ℝ → ℝ := fun t => Real.exp (-p.G0 * t) * (p.Cs ^ 2 * p.s * t ^ 2 / (p.Cv0 * (1 - p.s * t) ^ 3)) with hf
  refine ⟨fun y => Real.exp (p.G0 * y) * (p.T0 + ∫ t in (0 : ℝ)..y, f t), by simp, fun y hy => ?_⟩
  have hcont : ∀ z ∈ uIcc 0 y, ContinuousAt f z := by
    intro z hz
    by_cases hc : p.Cv0 = 0
    · simp only [hf, hc, zero_mul, div_zero, mul_zero]
      exact continuousAt_const
    · have := (hy z hz).ne'
      refine ContinuousAt.mul (by fun_prop) (ContinuousAt.div (by fun_prop) (by fun_prop) ?_)
      exact mul_ne_zero hc (pow_ne_zero 3 this)
  have hmeas : Measurable f := by
    have : Measurable fun t : ℝ => p.Cv0 * (1 - p.s * t) ^ 3 := by fun_prop
    rw [hf]; fun_prop
  have hint : IntervalIntegrable f MeasureTheory.volume 0 y :=
    ContinuousOn.intervalIntegrable (fun z hz => (hcont z hz).continuousWithinAt)
  have h1 := intervalIntegral.integral_hasDerivAt_right hint hmeas.stronglyMeasurable.stronglyMeasurableAtFilter
    (hcont y right_mem_uIcc)
  have h2 : HasDerivAt (fun x => Real.exp (p.G0 * x)) _ y := ((hasDerivAt_id y).const_mul p.G0).exp
  refine HasDerivAt.change (h2.fun_mul (h1.const_add p.T0)) (fun _ => rfl) ?_
  simp only [odeRhs, id]
  have h3 : Real.exp (p.G0 * y) * f y = p.Cs ^ 2 * p.s * y ^ 2 / (p.Cv0 * (1 - p.s * y) ^ 3) := by
    simp only [hf]
    rw [← mul_assoc, ← Real.exp_add]
    simp
  rw [h3]
  ring

/-- A concrete material and compression meeting the hypotheses of the error theorem, with the solution the theorem above gives. -/
example (n : Num ℝ) : let p : Usup := ⟨3, 1, 1, 3 / 2, 2, 1, 0, 10, 1, 1⟩
    ∃ θ : ℝ → ℝ, ∃ N, N ≤ 21 ∧ |p.hugTe (Num.exact n) (1 / 4) - θ (1 / 4)| ≤
      |1 / 4| * Real.exp (p.G0 * max (1 / 4) 0) * (p.pf * p.s * |p.c2|
        * ((p.G0 / p.s) ^ (N + 1) * max 1 (1 - p.s * (1 / 4)) ^ N / (N + 1).factorial)) := by
  intro p
  obtain ⟨θ, h0, hθ⟩ := p.C45_mgusup_hugoniot_temperature_exists
  obtain ⟨N, -, h1, -, h2⟩ := p.C45_mgusup_hugoniot_temperature_error n θ (1 / 4) (by norm_num) (by norm_num [p]) (by norm_num [p])
    (by norm_num [p]) (by norm_num [p]) h0 (fun y hy => hθ y (fun z hz => by
      rw [uIcc_of_le (by norm_num)] at hy
      rw [uIcc_of_le hy.1] at hz
      have h1 := hz.1
      have h2 := hz.2.trans hy.2
      simp only [p]
      linarith))
  exact ⟨θ, N, h1, h2⟩

/-! The small-compression branch -/

/-- The correction that the small-compression branch adds to `T0 exp(G0 x)`. -/
noncomputable def smallCorr (p : Usup) (x : ℝ) : ℝ :=
  p.pf * (2 * Real.log (1 - p.s * x) - p.s * x / ((1 - p.s * x) * (1 - p.s * x)) * (3 * p.s * x - 2))

theorem hasDerivAt_smallCorr (p : Usup) (x : ℝ) (hs : p.s ≠ 0) (hc : p.Cv0 ≠ 0) (hf : 1 - p.s * x ≠ 0) :
    HasDerivAt p.smallCorr (-(p.Cs ^ 2 * p.s * x ^ 2 / (p.Cv0 * (1 - p.s * x) ^ 3))) x := by
  have hF : HasDerivAt (fun x => 1 - p.s * x) (-p.s) x :=
    HasDerivAt.change (((hasDerivAt_id x).const_mul p.s).const_sub 1) (fun _ => rfl) (by simp)
  have h1 := (hF.log hf).const_mul 2
  have h2 : HasDerivAt (fun x => p.s * x) p.s x := HasDerivAt.change ((hasDerivAt_id x).const_mul p.s) (fun _ => rfl) (by simp)
  have h2' : HasDerivAt (fun x => 3 * p.s * x - 2) (3 * p.s) x :=
    HasDerivAt.change (((hasDerivAt_id x).const_mul (3 * p.s)).sub_const 2) (fun _ => rfl) (by simp)
  have h3 := (h2.fun_div (hF.fun_mul hF) (mul_ne_zero hf hf)).fun_mul h2'
  refine HasDerivAt.change ((h1.fun_sub h3).const_mul p.pf) (fun _ => rfl) ?_
  have h9 : p.s * x = 1 - (1 - p.s * x) := by ring
  have h10 : 3 * p.s * x = 3 * (1 - (1 - p.s * x)) := by ring
  have h11 : p.Cs ^ 2 * p.s * x ^ 2 = p.Cs ^ 2 * (1 - (1 - p.s * x)) ^ 2 / p.s := by rw [← h9]; field_simp
  rw [pf, h10, h11, h9]
  generalize 1 - p.s * x = f at *
  simp only [show 1 - (1 - f) = f by ring]
  field_simp
  ring

theorem hugTe_small (p : Usup) (n : Num ℝ) (x : ℝ) (hx : x * x < 1 / 10 ^ 8) :
    p.hugTe n x = p.T0 * Real.exp (p.G0 * x) + p.smallCorr x := by
  simp only [hugTe, if_pos hx, smallCorr]

theorem hasDerivAt_hugTe_small (p : Usup) (n : Num ℝ) (x : ℝ) (hs : p.s ≠ 0) (hc : p.Cv0 ≠ 0) (hf : 1 - p.s * x ≠ 0)
    (hx : x * x < 1 / 10 ^ 8) : HasDerivAt (p.hugTe n)
      (p.G0 * (p.T0 * Real.exp (p.G0 * x)) - p.Cs ^ 2 * p.s * x ^ 2 / (p.Cv0 * (1 - p.s * x) ^ 3)) x := by
  have hexp : HasDerivAt (fun x => Real.exp (p.G0 * x)) _ x := ((hasDerivAt_id x).const_mul p.G0).exp
  have hop : {y : ℝ | y * y < 1 / 10 ^ 8} ∈ 𝓝 x := (isOpen_lt (by fun_prop) continuous_const).mem_nhds hx
  refine HasDerivAt.changeOn hop ((hexp.const_mul p.T0).fun_add (p.hasDerivAt_smallCorr x hs hc hf))
    (fun y hy => p.hugTe_small n y hy) ?_
  simp only [id]
  ring

/-- `src` below is the shock heating rate `Cs^2 s x^2 / (Cv (1 - s x)^3)`; the correction has the sign opposite to the
compression, and its size is at most `|x|` times the rate on the compression side. -/
theorem smallCorr_sign (p : Usup) (x : ℝ) (hs : 0 < p.s) (hc : 0 < p.Cv0) (hC : p.Cs ≠ 0) (hf : 0 < 1 - p.s * x) :
    (0 < x → p.smallCorr x < 0 ∧ -(x * (p.Cs ^ 2 * p.s * x ^ 2 / (p.Cv0 * (1 - p.s * x) ^ 3))) ≤ p.smallCorr x) ∧
    (x < 0 → 0 < p.smallCorr x) := by
  have h0 : p.smallCorr 0 = 0 := by simp [smallCorr]
  have hd : ∀ y, 1 - p.s * y ≠ 0 → HasDerivAt p.smallCorr _ y := fun y hy => p.hasDerivAt_smallCorr y hs.ne' hc.ne' hy
  constructor
  · intro hx
    have hpos : ∀ y ∈ Icc 0 x, 0 < 1 - p.s * y := fun y hy => by nlinarith [hy.1, hy.2]
    obtain ⟨c, hc1, hc2⟩ := exists_hasDerivAt_eq_slope p.smallCorr _ hx
      (fun y hy => (hd y (hpos y hy).ne').continuousAt.continuousWithinAt) (fun y hy => hd y (hpos y (Ioo_subset_Icc_self hy)).ne')
    rw [h0, sub_zero, sub_zero, eq_div_iff hx.ne'] at hc2
    have h1 := hpos c (Ioo_subset_Icc_self hc1)
    have hc0 := hc1.1
    have h2 : 0 < p.Cs ^ 2 * p.s * c ^ 2 / (p.Cv0 * (1 - p.s * c) ^ 3) := by positivity
    refine ⟨by rw [← hc2]; nlinarith, ?_⟩
    rw [← hc2]
    have h3 : p.Cs ^ 2 * p.s * c ^ 2 / (p.Cv0 * (1 - p.s * c) ^ 3) ≤ p.Cs ^ 2 * p.s * x ^ 2 / (p.Cv0 * (1 - p.s * x) ^ 3) := by
      have h4 : 1 - p.s * x ≤ 1 - p.s * c := by nlinarith [hc1.2]
      have h5 : c ≤ x := hc1.2.le
      gcongr
    nlinarith
  · intro hx
    have hpos : ∀ y ∈ Icc x 0, 0 < 1 - p.s * y := fun y hy => by nlinarith [hy.1, hy.2]
    obtain ⟨c, hc1, hc2⟩ := exists_hasDerivAt_eq_slope p.smallCorr _ hx
      (fun y hy => (hd y (hpos y hy).ne').continuousAt.continuousWithinAt) (fun y hy => hd y (hpos y (Ioo_subset_Icc_self hy)).ne')
    rw [h0, zero_sub, zero_sub, eq_div_iff (by linarith)] at hc2
    have h1 := hpos c (Ioo_subset_Icc_self hc1)
    have hc0 : c ≠ 0 := hc1.2.ne
    have h2 : 0 < p.Cs ^ 2 * p.s * c ^ 2 / (p.Cv0 * (1 - p.s * c) ^ 3) := by positivity
    nlinarith

/-- C45 is violated for small compressions and expansions: when `0 < |eta| < 1e-4` energy and pressure do not satisfy the first
law, because the shock heating is added with the wrong sign. -/
theorem C45_mgusup_first_law_small_violated (p : Usup) (n : Num ℝ) (r T : ℝ) (h0 : 0 < p.rho0) (hr : 0 < r) (hc : 0 < p.Cv0)
    (hs : 0 < p.s) (hC : p.Cs ≠ 0) (hG : 0 ≤ p.G0) (hG' : p.G0 < 10 ^ 4) (hf : 0 < 1 - p.s * (1 - p.rho0 / r)) (hne : r ≠ p.rho0)
    (hx : |1 - p.rho0 / r| < 1 / 10 ^ 4) : ¬ EnergyRho (p.q (Num.exact n)) r T := by
  have hx2 : (1 - p.rho0 / r) * (1 - p.rho0 / r) < 1 / 10 ^ 8 := by
    have := sq_lt_sq' (abs_lt.mp hx).1 (abs_lt.mp hx).2
    norm_num at this ⊢
    nlinarith
  have hx0 : 1 - p.rho0 / r ≠ 0 := by
    rw [sub_ne_zero]; intro h; rw [eq_div_iff hr.ne', one_mul] at h; exact hne h
  rw [p.C45_mgusup_first_law_partial n r T _ h0.ne' hr.ne' hc.ne' hf.ne'
    (p.hasDerivAt_hugTe_small (Num.exact n) _ hs.ne' hc.ne' hf.ne' hx2)]
  rw [hugT, p.eta_eq n r, p.hugTe_small _ _ hx2, odeRhs]
  generalize 1 - p.rho0 / r = x at *
  obtain ⟨h1, h2⟩ := p.smallCorr_sign x hs hc hC hf
  have hsrc : 0 < p.Cs ^ 2 * p.s * x ^ 2 / (p.Cv0 * (1 - p.s * x) ^ 3) := by positivity
  intro h
  have h3 : 2 * (p.Cs ^ 2 * p.s * x ^ 2 / (p.Cv0 * (1 - p.s * x) ^ 3)) + p.G0 * p.smallCorr x = 0 := by linear_combination -h
  rcases lt_or_gt_of_ne hx0 with h4 | h4
  · have := h2 h4
    nlinarith
  · have h5 := (h1 h4).2
    have h6 : p.G0 * x < 1 := by
      have := (abs_lt.mp hx).2
      calc p.G0 * x ≤ p.G0 * (1 / 10 ^ 4) := by nlinarith
        _ < 1 := by linarith
    generalize p.Cs ^ 2 * p.s * x ^ 2 / (p.Cv0 * (1 - p.s * x) ^ 3) = a at *
    have h7 : p.G0 * (-(x * a)) ≤ p.G0 * p.smallCorr x := mul_le_mul_of_nonneg_left h5 hG
    nlinarith

/-- C45 is violated: behind a weak compression the exact Hugoniot is hotter than the isentrope `T0 exp(G0 eta)`, the computed one
is colder. -/
theorem C45_mgusup_weak_shock_cools_violated (p : Usup) (n : Num ℝ) (θ : ℝ → ℝ) (x : ℝ) (hx0 : 0 < x) (hx : x < 1 / 10 ^ 4)
    (hs : 0 < p.s) (hc : 0 < p.Cv0) (hC : p.Cs ≠ 0) (hf : 0 < 1 - p.s * x) (h0 : θ 0 = p.T0)
    (hθ : ∀ y ∈ Icc 0 x, HasDerivAt θ (p.odeRhs y (θ y)) y) :
    p.hugTe n x < p.T0 * Real.exp (p.G0 * x) ∧ p.T0 * Real.exp (p.G0 * x) < θ x := by
  constructor
  · rw [p.hugTe_small n x (by norm_num at hx ⊢; nlinarith)]
    linarith [((p.smallCorr_sign x hs hc hC hf).1 hx0).1]
  · have hd : ∀ y ∈ Icc 0 x, HasDerivAt (fun y => Real.exp (-p.G0 * y) * θ y)
        (Real.exp (-p.G0 * y) * (p.Cs ^ 2 * p.s * y ^ 2 / (p.Cv0 * (1 - p.s * y) ^ 3))) y := by
      intro y hy
      have h2 : HasDerivAt (fun x => Real.exp (-p.G0 * x)) _ y := ((hasDerivAt_id y).const_mul (-p.G0)).exp
      refine HasDerivAt.change (h2.fun_mul (hθ y hy)) (fun _ => rfl) ?_
      simp only [odeRhs, id]
      ring
    obtain ⟨c, hc1, hc2⟩ := exists_hasDerivAt_eq_slope (fun y => Real.exp (-p.G0 * y) * θ y) _ hx0
      (fun y hy => (hd y hy).continuousAt.continuousWithinAt) (fun y hy => hd y (Ioo_subset_Icc_self hy))
    rw [eq_div_iff (by linarith)] at hc2
    simp only [mul_zero, Real.exp_zero, one_mul, sub_zero, h0] at hc2
    have hp : 0 < 1 - p.s * c := by nlinarith [hc1.1, hc1.2]
    have hc0 := hc1.1
    have h2 : 0 < Real.exp (-p.G0 * c) * (p.Cs ^ 2 * p.s * c ^ 2 / (p.Cv0 * (1 - p.s * c) ^ 3)) * x := by positivity
    rw [hc2] at h2
    have h3 : p.T0 < Real.exp (-p.G0 * x) * θ x := by linarith
    have h4 := mul_lt_mul_of_pos_right h3 (Real.exp_pos (p.G0 * x))
    have h5 : Real.exp (-p.G0 * x) * θ x * Real.exp (p.G0 * x) = θ x := by
      rw [mul_right_comm, ← Real.exp_add]; simp
    rwa [h5] at h4

end Verif.MG.Usup
