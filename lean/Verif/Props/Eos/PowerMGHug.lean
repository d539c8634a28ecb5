import Verif.Props.Eos.PowerMG
import Mathlib.Analysis.Calculus.Deriv.MeanValue
import Mathlib.MeasureTheory.Integral.IntervalIntegral.FundThmCalculus

set_option linter.unusedSectionVars false

/-! # C46: the Hugoniot temperature of PowerMG -/

namespace Verif.MG.Power

open Verif.Mods Verif.Robust Verif.Base Verif.Spec Verif.Gases
open Filter Topology Set

/-- `gamma_i` truncated at total order `n`: `(i+1)! sum_{j=0}^{n-i} z^j / (i+2+j)!`. -/
noncomputable def gam (n i : ℕ) (z : ℝ) : ℝ :=
  ∑ j ∈ Finset.range (n - i + 1), (i + 1).factorial * z ^ j / (i + 2 + j).factorial

/-- Its last term. -/
noncomputable def gamLast (n i : ℕ) (z : ℝ) : ℝ := (i + 1).factorial * z ^ (n - i) / (n + 2).factorial

theorem gam_step (n i : ℕ) (h : i + 1 ≤ n) (z : ℝ) : gam n i z = z / ((i : ℝ) + 2) * gam n (i + 1) z + 1 / ((i : ℝ) + 2) := by
  have h1 : n - i = n - (i + 1) + 1 := by omega
  have a2 : ((i : ℝ) + 2) ≠ 0 := by positivity
  rw [gam, gam, h1, Finset.sum_range_succ', Finset.mul_sum]
  congr 1
  · refine Finset.sum_congr rfl (fun j _ => ?_)
    rw [Nat.factorial_succ (i + 1), show i + 2 + (j + 1) = i + 1 + 2 + j by ring]
    have : ((i + 1 + 2 + j).factorial : ℝ) ≠ 0 := by positivity
    push_cast
    have h3 : ((i : ℝ) + 1 + 1) = i + 2 := by ring
    rw [h3]
    field_simp
    ring
  · rw [add_zero, Nat.factorial_succ (i + 1)]
    have : ((i + 1).factorial : ℝ) ≠ 0 := by positivity
    push_cast
    have h3 : ((i : ℝ) + 1 + 1) = i + 2 := by ring
    rw [h3, pow_zero]
    field_simp

theorem gamLast_step (n i : ℕ) (h : i + 1 ≤ n) (z : ℝ) : gamLast n i z = z / ((i : ℝ) + 2) * gamLast n (i + 1) z := by
  have h1 : n - i = n - (i + 1) + 1 := by omega
  have a2 : ((i : ℝ) + 2) ≠ 0 := by positivity
  rw [gamLast, gamLast, h1, Nat.factorial_succ (i + 1)]
  have : ((n + 2).factorial : ℝ) ≠ 0 := by positivity
  push_cast
  have h3 : ((i : ℝ) + 1 + 1) = i + 2 := by ring
  rw [h3]
  field_simp
  ring

theorem gam_nonneg (n i : ℕ) (z : ℝ) (hz : 0 ≤ z) : 0 ≤ gam n i z := by
  rw [gam]; exact Finset.sum_nonneg (fun j _ => by positivity)

/-- The Hugoniot temperature series truncated at total order `n`. -/
noncomputable def series (p : Power) (n : ℕ) (x : ℝ) : ℝ :=
  ∑ i ∈ Finset.range p.M, (i + 1 : ℕ) * p.K (i + 1) * x ^ (i + 3) * gam n (i + 1) (p.G0 * x)

theorem hugTLoop_eq (p : Power) (x : ℝ) (n : ℕ) : ∀ (i : ℕ) (sum : ℝ), i + 1 ≤ n →
    hugTLoop p x i (gam n (i + 1) (p.G0 * x)) sum =
      x ^ i * sum + ∑ k ∈ Finset.range i, (k + 1 : ℕ) * p.K (k + 1) * x ^ k * gam n (k + 1) (p.G0 * x)
  | 0, sum, _ => by simp [hugTLoop]
  | i + 1, sum, h => by
    have h1 : p.G0 * x / ((i + 1 : ℕ) + 2) * gam n (i + 1 + 1) (p.G0 * x) + 1 / ((i + 1 : ℕ) + 2) = gam n (i + 1) (p.G0 * x) :=
      (gam_step n (i + 1) h _).symm
    rw [hugTLoop]
    rw [h1, hugTLoop_eq p x n i _ (by omega), Finset.sum_range_succ]
    ring

/-- What the series loop returns: a partial sum of some order `n`; it stopped because the remaining error is small, or at the cap. -/
theorem snLoop_eq (z : ℝ) (M : ℕ) : ∀ (k N : ℕ), 200 ≤ k + (M + 2 + N) →
    ∃ n, M + N ≤ n ∧ snLoop (Real.exp z - 1) z k (M + 2 + N) (gamLast (M + N) M z) (gam (M + N) M z) = gam n M z ∧
      ((Real.exp z - 1) * gamLast n M z ≤ gam n M z * (1 / 10 ^ 15) ∨ 200 ≤ n + 2) := by
  intro k
  induction k with
  | zero => exact fun N h => ⟨M + N, le_rfl, rfl, Or.inr (by omega)⟩
  | succ k ih =>
    intro N h
    rw [snLoop]
    split_ifs with h1
    · have e1 : gamLast (M + N) M z * z / ((M + 2 + N + 1 : ℕ) : ℝ) = gamLast (M + (N + 1)) M z := by
        rw [gamLast, gamLast, show M + N - M = N by omega, show M + (N + 1) - M = N + 1 by omega,
          show M + (N + 1) + 2 = (M + N + 2) + 1 by ring, Nat.factorial_succ (M + N + 2)]
        have a1 : ((M + N + 2).factorial : ℝ) ≠ 0 := by positivity
        have a2 : ((M + 2 + N + 1 : ℕ) : ℝ) ≠ 0 := by positivity
        rw [show M + 2 + N + 1 = M + N + 2 + 1 by ring] at *
        push_cast at *
        field_simp
        ring
      have e2 : gam (M + N) M z + gamLast (M + N) M z * z / ((M + 2 + N + 1 : ℕ) : ℝ) = gam (M + (N + 1)) M z := by
        rw [e1, gam, gam, show M + N - M = N by omega, show M + (N + 1) - M = N + 1 by omega, Finset.sum_range_succ _ (N + 1),
          gamLast, show M + (N + 1) - M = N + 1 by omega, show M + (N + 1) + 2 = M + 2 + (N + 1) by ring]
      rw [e2, e1, show M + 2 + N + 1 = M + 2 + (N + 1) by ring]
      obtain ⟨n, b1, b2, b3⟩ := ih (N + 1) (by omega)
      exact ⟨n, by omega, b2, b3⟩
    · refine ⟨M + N, le_rfl, rfl, ?_⟩
      rw [not_and_or, not_lt, not_lt] at h1
      rcases h1 with h1 | h1
      · exact Or.inl h1
      · exact Or.inr (by omega)

theorem sn_eq (p : Power) (z : ℝ) : ∃ n, p.M ≤ n ∧ p.sn z = gam n p.M z ∧
    ((Real.exp z - 1) * gamLast n p.M z ≤ gam n p.M z * (1 / 10 ^ 15) ∨ 200 ≤ n + 2) := by
  obtain ⟨n, h1, h2, h3⟩ := snLoop_eq z p.M 200 0 (by omega)
  refine ⟨n, by omega, ?_, h3⟩
  rw [← h2, sn]
  have h4 : (1 : ℝ) / ((p.M + 2 : ℕ) : ℝ) = gamLast (p.M + 0) p.M z := by
    rw [gamLast, show p.M + 0 - p.M = 0 by omega, pow_zero, add_zero, Nat.factorial_succ (p.M + 1)]
    have a1 : ((p.M + 1).factorial : ℝ) ≠ 0 := by positivity
    have a2 : ((p.M + 2 : ℕ) : ℝ) ≠ 0 := by positivity
    push_cast at *
    have h3 : ((p.M : ℝ) + 1 + 1) = p.M + 2 := by ring
    rw [h3]
    field_simp
  have h5 : gam (p.M + 0) p.M z = gamLast (p.M + 0) p.M z := by
    rw [gam, gamLast, show p.M + 0 - p.M = 0 by omega]; simp
  rw [h5, h4]

/-- The computed Hugoniot temperature is the truncated series. -/
theorem hugTe_eq (p : Power) (x : ℝ) : ∃ n, p.M ≤ n ∧
    p.hugTe x = p.T0 * Real.exp (x * p.G0) + p.K 0 / p.Cv0 / 2 / p.rho0 * p.series n x ∧
    ((Real.exp (p.G0 * x) - 1) * gamLast n p.M (p.G0 * x) ≤ gam n p.M (p.G0 * x) * (1 / 10 ^ 15) ∨ 200 ≤ n + 2) := by
  obtain ⟨n, h1, h2, h3⟩ := p.sn_eq (p.G0 * x)
  refine ⟨n, h1, ?_, h3⟩
  rw [hugTe]
  rw [h2, series]
  cases hM : p.M with
  | zero => simp [hugTLoop]
  | succ M =>
    rw [Nat.add_sub_cancel, hugTLoop_eq p x n M _ (by omega), Finset.sum_range_succ]
    have : x * x * x * (∑ k ∈ Finset.range M, (k + 1 : ℕ) * p.K (k + 1) * x ^ k * gam n (k + 1) (p.G0 * x)) =
        ∑ i ∈ Finset.range M, (i + 1 : ℕ) * p.K (i + 1) * x ^ (i + 3) * gam n (i + 1) (p.G0 * x) := by
      rw [Finset.mul_sum]; exact Finset.sum_congr rfl (fun i _ => by ring)
    linear_combination (p.K 0 / p.Cv0 / 2 / p.rho0) * this

theorem hasDerivAt_gam (n i : ℕ) (h : i ≤ n) (g x : ℝ) : HasDerivAt (fun x => x ^ (i + 2) * gam n i (g * x))
    (x ^ (i + 1) + g * (x ^ (i + 2) * gam n i (g * x) - x ^ (i + 2) * gamLast n i (g * x))) x := by
  have h1 : HasDerivAt (fun x : ℝ => ∑ j ∈ Finset.range (n - i + 1), ((i + 1).factorial * g ^ j / (i + 2 + j).factorial) * x ^ (i + 2 + j))
      (∑ j ∈ Finset.range (n - i + 1), ((i + 1).factorial * g ^ j / (i + 2 + j).factorial) * (((i + 2 + j : ℕ) : ℝ) * x ^ (i + 2 + j - 1))) x :=
    HasDerivAt.fun_sum (fun j _ => (hasDerivAt_pow (i + 2 + j) x).const_mul _)
  refine HasDerivAt.change h1 (fun y => ?_) ?_
  · rw [gam, Finset.mul_sum]
    refine Finset.sum_congr rfl (fun j _ => ?_)
    rw [mul_pow, pow_add y (i + 2) j]
    ring
  · have e : ∀ j, ((i + 1).factorial * g ^ j / (i + 2 + j).factorial : ℝ) * (((i + 2 + j : ℕ) : ℝ) * x ^ (i + 2 + j - 1)) =
        (i + 1).factorial * g ^ j / (i + 1 + j).factorial * x ^ (i + 1 + j) := by
      intro j
      rw [show i + 2 + j - 1 = i + 1 + j by omega, show i + 2 + j = (i + 1 + j) + 1 by ring, Nat.factorial_succ (i + 1 + j)]
      have a1 : ((i + 1 + j).factorial : ℝ) ≠ 0 := by positivity
      have a2 : ((i + 1 + j + 1 : ℕ) : ℝ) ≠ 0 := by positivity
      push_cast at *
      field_simp
    simp only [e]
    rw [Finset.sum_range_succ', gam, Finset.sum_range_succ, gamLast]
    have a1 : ((i + 1).factorial : ℝ) ≠ 0 := by positivity
    have e2 : (i + 1).factorial * g ^ 0 / (i + 1 + 0).factorial * x ^ (i + 1 + 0) = x ^ (i + 1) := by
      rw [add_zero, pow_zero, mul_one, div_self a1, one_mul]
    rw [e2, show i + 2 + (n - i) = n + 2 by omega, add_comm]
    congr 1
    rw [← mul_sub, add_sub_cancel_right, Finset.mul_sum, Finset.mul_sum]
    refine Finset.sum_congr rfl (fun j _ => ?_)
    rw [show i + 1 + (j + 1) = i + 2 + j by ring, mul_pow, pow_add x (i + 2) j]
    ring

/-- What the first law demands of the Hugoniot temperature in compression:
`T_H' = G0 T_H + K0 / (2 rho0 Cv) sum_i i K_i x^(i+1)`. -/
noncomputable def odeRhs (p : Power) (x t : ℝ) : ℝ := p.G0 * t + p.K 0 / p.Cv0 / 2 / p.rho0 * (x * polyD p.K p.M x)

/-- That this is what the first law demands (for an EOS whose Hugoniot temperature were `th`). -/
theorem C46_powermg_first_law_compression_iff (p : Power) (n : Num ℝ) (r T D' : ℝ) (h0 : 0 < p.rho0) (hr : p.rho0 < r) (hc : p.Cv0 ≠ 0)
    (hD' : HasDerivAt p.hugTe D' (1 - p.rho0 / r)) :
    EnergyRho (p.q (Num.exact n)) r T ↔ D' = p.odeRhs (1 - p.rho0 / r) (p.hugT (Num.exact n) r) := by
  have hr0 : 0 < r := h0.trans hr
  have hx : 0 < 1 - p.rho0 / r := by
    have := (div_lt_one hr0).mpr hr
    linarith
  have hcont : ContinuousAt (fun y => 1 - p.rho0 / y) r := by
    have := hr0.ne'
    fun_prop (disch := assumption)
  have hev : ∀ᶠ y in 𝓝 r, p.hugT (Num.exact n) y = p.hugTe (1 - p.rho0 / y) := by
    filter_upwards [continuousAt_const.eventually_lt hcont hx] with y hy
    simp only [hugT, p.eta_eq, if_neg (not_le.mpr hy)]
  rw [p.firstLaw_iff n r T _ _ _ _ h0.ne' hr0.ne' hc (p.hasDerivAt_ref_comp _ hx) rfl hev hD']
  rw [ref, if_neg (not_le.mpr hx), hugPe_eq, odeRhs]
  generalize 1 - p.rho0 / r = x at *
  have : (x * (p.K 0 * (1 + poly p.K p.M x + polyD p.K p.M x)) - p.K 0 * x * (1 + poly p.K p.M x)) / (2 * p.rho0 * p.Cv0) =
      p.K 0 / p.Cv0 / 2 / p.rho0 * (x * polyD p.K p.M x) := by
    have := h0.ne'
    field_simp
    ring
  rw [this]

/-- The truncated Hugoniot temperature. -/
noncomputable def thN (p : Power) (n : ℕ) (x : ℝ) : ℝ := p.T0 * Real.exp (x * p.G0) + p.K 0 / p.Cv0 / 2 / p.rho0 * p.series n x

theorem hasDerivAt_thN (p : Power) (n : ℕ) (hn : p.M ≤ n) (x : ℝ) : HasDerivAt (p.thN n) (p.odeRhs x (p.thN n x)
    - p.G0 * (p.K 0 / p.Cv0 / 2 / p.rho0) * ∑ i ∈ Finset.range p.M, (i + 1 : ℕ) * p.K (i + 1) * (x ^ (i + 3) * gamLast n (i + 1) (p.G0 * x))) x := by
  have h1 : HasDerivAt (p.series n) (∑ i ∈ Finset.range p.M, (i + 1 : ℕ) * p.K (i + 1) * (x ^ (i + 2) + p.G0 *
      (x ^ (i + 3) * gam n (i + 1) (p.G0 * x) - x ^ (i + 3) * gamLast n (i + 1) (p.G0 * x)))) x := by
    have : HasDerivAt (fun x => ∑ i ∈ Finset.range p.M, (i + 1 : ℕ) * p.K (i + 1) * (x ^ (i + 3) * gam n (i + 1) (p.G0 * x))) _ x :=
      HasDerivAt.fun_sum (fun i hi => (hasDerivAt_gam n (i + 1) (by rw [Finset.mem_range] at hi; omega) p.G0 x).const_mul
        ((i + 1 : ℕ) * p.K (i + 1)))
    refine HasDerivAt.change this (fun y => ?_) rfl
    rw [series]
    exact Finset.sum_congr rfl (fun i _ => by ring)
  refine HasDerivAt.change ((p.hasDerivAt_isentrope x).fun_add (h1.const_mul (p.K 0 / p.Cv0 / 2 / p.rho0))) (fun _ => rfl) ?_
  rw [odeRhs, thN, series, polyD]
  have : ∑ i ∈ Finset.range p.M, ((i + 1 : ℕ) : ℝ) * p.K (i + 1) * (x ^ (i + 2) + p.G0 *
      (x ^ (i + 3) * gam n (i + 1) (p.G0 * x) - x ^ (i + 3) * gamLast n (i + 1) (p.G0 * x))) =
      x * ∑ i ∈ Finset.range p.M, ((i + 1 : ℕ) : ℝ) * p.K (i + 1) * x ^ (i + 1)
      + p.G0 * ∑ i ∈ Finset.range p.M, ((i + 1 : ℕ) : ℝ) * p.K (i + 1) * x ^ (i + 3) * gam n (i + 1) (p.G0 * x)
      - p.G0 * ∑ i ∈ Finset.range p.M, ((i + 1 : ℕ) : ℝ) * p.K (i + 1) * (x ^ (i + 3) * gamLast n (i + 1) (p.G0 * x)) := by
    rw [Finset.mul_sum, Finset.mul_sum, Finset.mul_sum, ← Finset.sum_add_distrib, ← Finset.sum_sub_distrib]
    exact Finset.sum_congr rfl (fun i _ => by ring)
  rw [this]
  ring

/-- The stopping test bounds the relative error of every `gamma_i`. -/
theorem gamLast_le (n M : ℕ) (z ε : ℝ) (hz : 0 ≤ z) (hε : 0 ≤ ε) (hM : M ≤ n)
    (h : (Real.exp z - 1) * gamLast n M z ≤ gam n M z * ε) :
    ∀ d i, i + d = M → (Real.exp z - 1) * gamLast n i z ≤ gam n i z * ε := by
  intro d
  induction d with
  | zero => intro i hi; rw [add_zero] at hi; rwa [hi]
  | succ d ih =>
    intro i hi
    have h1 := ih (i + 1) (by omega)
    rw [gamLast_step n i (by omega), gam_step n i (by omega)]
    have h2 : 0 ≤ z / ((i : ℝ) + 2) := by positivity
    have h3 : 0 ≤ 1 / ((i : ℝ) + 2) * ε := by positivity
    have h4 := mul_le_mul_of_nonneg_left h1 h2
    linarith

theorem gamLast_nonneg (n i : ℕ) (z : ℝ) (hz : 0 ≤ z) : 0 ≤ gamLast n i z := by rw [gamLast]; positivity

theorem gamLast_mono (n i : ℕ) {z z' : ℝ} (hz : 0 ≤ z) (h : z ≤ z') : gamLast n i z ≤ gamLast n i z' := by
  rw [gamLast, gamLast]; gcongr

/-- C46: the computed Hugoniot temperature in compression is accurate to `1e-15` of the magnitude of the shock-heating terms: it is
that close to any solution of the differential equation the first law demands that starts at `T0`; unless the series loop hit its
cap of 200. (If all coefficients are nonnegative the bound is `1e-15` times the computed shock heating itself.) -/
theorem C46_powermg_hugoniot_temperature_error (p : Power) (θ : ℝ → ℝ) (x : ℝ) (hx : 0 < x)
    (hG : 0 < p.G0) (hc : 0 < p.Cv0) (h0 : 0 < p.rho0) (hK : 0 ≤ p.K 0) (hθ0 : θ 0 = p.T0)
    (hθ : ∀ y ∈ Icc 0 x, HasDerivAt θ (p.odeRhs y (θ y)) y) :
    ∃ n, p.M ≤ n ∧ p.hugTe x = p.thN n x ∧ (200 ≤ n + 2 ∨
      |p.hugTe x - θ x| ≤ 1 / 10 ^ 15 * (p.K 0 / p.Cv0 / 2 / p.rho0
        * ∑ i ∈ Finset.range p.M, (i + 1 : ℕ) * |p.K (i + 1)| * x ^ (i + 3) * gam n (i + 1) (p.G0 * x))) := by
  obtain ⟨n, hn, hv, hstop⟩ := p.hugTe_eq x
  refine ⟨n, hn, hv, ?_⟩
  rcases hstop with hstop | hstop
  swap
  · exact Or.inl hstop
  refine Or.inr ?_
  have hv : p.hugTe x = p.thN n x := hv
  rw [hv]
  set C := p.K 0 / p.Cv0 / 2 / p.rho0 with hC
  have hC0 : 0 ≤ C := by positivity
  have hz : 0 ≤ p.G0 * x := by positivity
  set D := C * ∑ i ∈ Finset.range p.M, (i + 1 : ℕ) * |p.K (i + 1)| * (x ^ (i + 3) * gamLast n (i + 1) (p.G0 * x)) with hD
  -- the residual on the segment
  set ρ : ℝ → ℝ := fun y => p.G0 * C * ∑ i ∈ Finset.range p.M, (i + 1 : ℕ) * p.K (i + 1) * (y ^ (i + 3) * gamLast n (i + 1) (p.G0 * y)) with hρ
  have hρD : ∀ y ∈ Icc 0 x, |ρ y| ≤ p.G0 * D := by
    intro y hy
    rw [hρ, hD]
    dsimp only
    rw [abs_mul, abs_of_nonneg (mul_nonneg hG.le hC0), mul_assoc]
    refine mul_le_mul_of_nonneg_left (mul_le_mul_of_nonneg_left ((Finset.abs_sum_le_sum_abs _ _).trans (Finset.sum_le_sum fun i _ => ?_)) hC0) hG.le
    have hy0 := hy.1
    have hyz : 0 ≤ p.G0 * y := mul_nonneg hG.le hy0
    have h1 := gamLast_nonneg n (i + 1) _ hyz
    rw [abs_mul, abs_mul, abs_of_nonneg (by positivity : (0 : ℝ) ≤ ((i + 1 : ℕ) : ℝ)),
      abs_of_nonneg (mul_nonneg (pow_nonneg hy0 _) h1)]
    refine mul_le_mul_of_nonneg_left (mul_le_mul (pow_le_pow_left₀ hy0 hy.2 _) (gamLast_mono n (i + 1) hyz ?_) h1 (by positivity)) (by positivity)
    exact mul_le_mul_of_nonneg_left hy.2 hG.le
  have hd : ∀ y ∈ Icc 0 x, HasDerivAt (fun y => Real.exp (-p.G0 * y) * (θ y - p.thN n y)) (Real.exp (-p.G0 * y) * ρ y) y := by
    intro y hy
    have h2 : HasDerivAt (fun x => Real.exp (-p.G0 * x)) _ y := ((hasDerivAt_id y).const_mul (-p.G0)).exp
    refine HasDerivAt.change (h2.fun_mul ((hθ y hy).fun_sub (p.hasDerivAt_thN n hn y))) (fun _ => rfl) ?_
    simp only [odeRhs, id, hρ, ← hC]
    ring
  have hb : ∀ y, HasDerivAt (fun y => D * (1 - Real.exp (-p.G0 * y))) (Real.exp (-p.G0 * y) * (p.G0 * D)) y := by
    intro y
    have h2 : HasDerivAt (fun x => Real.exp (-p.G0 * x)) _ y := ((hasDerivAt_id y).const_mul (-p.G0)).exp
    refine HasDerivAt.change ((h2.const_sub 1).const_mul D) (fun _ => rfl) ?_
    simp only [id]; ring
  have hmono : ∀ s : ℝ, |s| = 1 → MonotoneOn (fun y => D * (1 - Real.exp (-p.G0 * y)) + s * (Real.exp (-p.G0 * y) * (θ y - p.thN n y))) (Icc 0 x) := by
    intro s hs
    have hdd : ∀ y ∈ Icc 0 x, HasDerivAt (fun y => D * (1 - Real.exp (-p.G0 * y)) + s * (Real.exp (-p.G0 * y) * (θ y - p.thN n y)))
        (Real.exp (-p.G0 * y) * (p.G0 * D) + s * (Real.exp (-p.G0 * y) * ρ y)) y := fun y hy => (hb y).fun_add ((hd y hy).const_mul s)
    refine monotoneOn_of_deriv_nonneg (convex_Icc 0 x) (fun y hy => (hdd y hy).continuousAt.continuousWithinAt)
      (fun y hy => (hdd y (interior_subset hy)).differentiableAt.differentiableWithinAt) (fun y hy => ?_)
    rw [(hdd y (interior_subset hy)).deriv]
    have h1 := hρD y (interior_subset hy)
    have h2 : |s * ρ y| ≤ p.G0 * D := by rw [abs_mul, hs, one_mul]; exact h1
    have h3 := (abs_le.mp h2).1
    have h4 := Real.exp_pos (-p.G0 * y)
    have : Real.exp (-p.G0 * y) * (p.G0 * D) + s * (Real.exp (-p.G0 * y) * ρ y) = Real.exp (-p.G0 * y) * (p.G0 * D + s * ρ y) := by ring
    rw [this]
    exact mul_nonneg h4.le (by linarith)
  have hth0 : p.thN n 0 = p.T0 := by
    have : p.series n 0 = 0 := Finset.sum_eq_zero (fun i _ => by simp)
    simp [thN, this]
  have m1 := hmono 1 (by simp) (left_mem_Icc.mpr hx.le) (right_mem_Icc.mpr hx.le) hx.le
  have m2 := hmono (-1) (by simp) (left_mem_Icc.mpr hx.le) (right_mem_Icc.mpr hx.le) hx.le
  simp only [mul_zero, Real.exp_zero, sub_self, hθ0, hth0, add_zero] at m1 m2
  have h5 : Real.exp (-p.G0 * x) * Real.exp (p.G0 * x) = 1 := by rw [← Real.exp_add]; simp
  have h6 : |θ x - p.thN n x| ≤ D * (Real.exp (p.G0 * x) - 1) := by
    have hp := Real.exp_pos (p.G0 * x)
    rw [abs_le]
    constructor
    · have := mul_nonneg m1 hp.le
      have e : (D * (1 - Real.exp (-p.G0 * x)) + 1 * (Real.exp (-p.G0 * x) * (θ x - p.thN n x))) * Real.exp (p.G0 * x) =
        D * (Real.exp (p.G0 * x) - 1) + (θ x - p.thN n x) := by
        linear_combination (θ x - p.thN n x - D) * h5
      rw [e] at this
      linarith
    · have := mul_nonneg m2 hp.le
      have e : (D * (1 - Real.exp (-p.G0 * x)) + -1 * (Real.exp (-p.G0 * x) * (θ x - p.thN n x))) * Real.exp (p.G0 * x) =
        D * (Real.exp (p.G0 * x) - 1) - (θ x - p.thN n x) := by
        linear_combination (-(θ x - p.thN n x) - D) * h5
      rw [e] at this
      linarith
  rw [abs_sub_comm]
  refine h6.trans ?_
  rw [hD, mul_assoc, mul_left_comm (1 / 10 ^ 15 : ℝ)]
  refine mul_le_mul_of_nonneg_left ?_ hC0
  rw [Finset.sum_mul, Finset.mul_sum]
  refine Finset.sum_le_sum (fun i hi => ?_)
  have h7 := gamLast_le n p.M (p.G0 * x) (1 / 10 ^ 15) hz (by positivity) hn hstop (p.M - (i + 1)) (i + 1)
    (by rw [Finset.mem_range] at hi; omega)
  have h8 : 0 ≤ ((i + 1 : ℕ) : ℝ) * |p.K (i + 1)| * x ^ (i + 3) := by positivity
  calc _ = ((i + 1 : ℕ) : ℝ) * |p.K (i + 1)| * x ^ (i + 3) * ((Real.exp (p.G0 * x) - 1) * gamLast n (i + 1) (p.G0 * x)) := by ring
    _ ≤ _ := mul_le_mul_of_nonneg_left h7 h8
    _ = _ := by ring

/-- The exact Hugoniot temperature exists for every material, so the hypotheses of the theorem above can be met. -/
theorem C46_powermg_hugoniot_temperature_exists (p : Power) : ∃ θ : ℝ → ℝ, θ 0 = p.T0 ∧ ∀ y, HasDerivAt θ (p.odeRhs y (θ y)) y := by
  set f : ℝ → ℝ := fun t => Real.exp (-p.G0 * t) * (p.K 0 / p.Cv0 / 2 / p.rho0 * (t * polyD p.K p.M t)) with hf
  refine ⟨fun y => Real.exp (p.G0 * y) * (p.T0 + ∫ t in (0 : ℝ)..y, f t), by simp, fun y => ?_⟩
  have hcont : Continuous f := by
    have : Continuous (polyD p.K p.M) := continuous_finset_sum _ (fun i _ => by fun_prop)
    rw [hf]; fun_prop
  have h1 := intervalIntegral.integral_hasDerivAt_right (hcont.intervalIntegrable 0 y)
    hcont.stronglyMeasurable.stronglyMeasurableAtFilter hcont.continuousAt
  have h2 : HasDerivAt (fun x => Real.exp (p.G0 * x)) _ y := ((hasDerivAt_id y).const_mul p.G0).exp
  refine HasDerivAt.change (h2.fun_mul (h1.const_add p.T0)) (fun _ => rfl) ?_
  simp only [odeRhs, id]
  have h3 : Real.exp (p.G0 * y) * f y = p.K 0 / p.Cv0 / 2 / p.rho0 * (y * polyD p.K p.M y) := by
    simp only [hf]
    rw [← mul_assoc, ← Real.exp_add]
    simp
  rw [h3]
  ring

/-- C46: with nonnegative coefficients the error is at most `1e-15` of the computed shock heating (unless the loop hit its cap). -/
theorem C46_powermg_hugoniot_temperature_relative (p : Power) (θ : ℝ → ℝ) (x : ℝ) (hx : 0 < x)
    (hG : 0 < p.G0) (hc : 0 < p.Cv0) (h0 : 0 < p.rho0) (hK : ∀ i, 0 ≤ p.K i) (hθ0 : θ 0 = p.T0)
    (hθ : ∀ y ∈ Icc 0 x, HasDerivAt θ (p.odeRhs y (θ y)) y) :
    (∃ n, 198 ≤ n ∧ p.hugTe x = p.thN n x) ∨ |p.hugTe x - θ x| ≤ 1 / 10 ^ 15 * (p.hugTe x - p.T0 * Real.exp (x * p.G0)) := by
  obtain ⟨n, _, h2, h3 | h3⟩ := p.C46_powermg_hugoniot_temperature_error θ x hx hG hc h0 (hK 0) hθ0 hθ
  · exact Or.inl ⟨n, by omega, h2⟩
  · refine Or.inr (h3.trans (le_of_eq ?_))
    rw [h2, thN, series, add_sub_cancel_left]
    congr 2
    exact Finset.sum_congr rfl (fun i _ => by rw [abs_of_nonneg (hK (i + 1))])

/-- C46 is violated for a negative Gruneisen parameter (which the constructor accepts): in compression the series is cut after its first
term, and energy and pressure satisfy the first law only where the neglected term happens to vanish. -/
theorem C46_powermg_negative_gruneisen_violated (p : Power) (n : Num ℝ) (r T : ℝ) (h0 : 0 < p.rho0) (hr : p.rho0 < r) (hc : 0 < p.Cv0)
    (hG : p.G0 < 0) (hK : p.K 0 ≠ 0) :
    EnergyRho (p.q (Num.exact n)) r T ↔ ∑ i ∈ Finset.range p.M, (i + 1 : ℕ) * p.K (i + 1)
      * ((i + 2).factorial * p.G0 ^ (p.M - (i + 1)) / (p.M + 2).factorial) = 0 := by
  have hr0 : 0 < r := h0.trans hr
  have hx : 0 < 1 - p.rho0 / r := by
    have := (div_lt_one hr0).mpr hr
    linarith
  have hone : ∀ y, 0 < y → p.hugTe y = p.thN p.M y := by
    intro y hy
    have hz : p.G0 * y < 0 := mul_neg_of_neg_of_pos hG hy
    have h1 : p.sn (p.G0 * y) = gam p.M p.M (p.G0 * y) := by
      have h4 : (1 : ℝ) / ((p.M + 2 : ℕ) : ℝ) = gam p.M p.M (p.G0 * y) := by
        rw [gam, Nat.sub_self, zero_add, Finset.sum_range_one, pow_zero, add_zero, Nat.factorial_succ (p.M + 1)]
        have a1 : ((p.M + 1).factorial : ℝ) ≠ 0 := by positivity
        have a2 : ((p.M + 2 : ℕ) : ℝ) ≠ 0 := by positivity
        push_cast at *
        have h3 : ((p.M : ℝ) + 1 + 1) = p.M + 2 := by ring
        rw [h3]
        field_simp
      rw [← h4, sn, snLoop, if_neg]
      intro h
      have h5 : Real.exp (p.G0 * y) - 1 < 0 := by
        have := Real.exp_lt_one_iff.mpr hz
        linarith
      have h6 : (0 : ℝ) < 1 / ((p.M + 2 : ℕ) : ℝ) := by positivity
      have h7 := h.1
      have h8 : (Real.exp (p.G0 * y) - 1) * (1 / ((p.M + 2 : ℕ) : ℝ)) < 0 := mul_neg_of_neg_of_pos h5 h6
      have h9 : 0 < 1 / ((p.M + 2 : ℕ) : ℝ) * (1 / 10 ^ 15) := by positivity
      linarith
    rw [hugTe, h1, thN, series]
    cases hM : p.M with
    | zero => simp [hugTLoop]
    | succ M =>
      rw [Nat.add_sub_cancel, hugTLoop_eq p y (M + 1) M _ (by omega), Finset.sum_range_succ]
      have : y * y * y * (∑ k ∈ Finset.range M, (k + 1 : ℕ) * p.K (k + 1) * y ^ k * gam (M + 1) (k + 1) (p.G0 * y)) =
          ∑ i ∈ Finset.range M, (i + 1 : ℕ) * p.K (i + 1) * y ^ (i + 3) * gam (M + 1) (i + 1) (p.G0 * y) := by
        rw [Finset.mul_sum]; exact Finset.sum_congr rfl (fun i _ => by ring)
      linear_combination (p.K 0 / p.Cv0 / 2 / p.rho0) * this
  have hd : HasDerivAt p.hugTe _ (1 - p.rho0 / r) :=
    HasDerivAt.changeOn (Ioi_mem_nhds hx) (p.hasDerivAt_thN p.M le_rfl (1 - p.rho0 / r)) (fun y hy => hone y hy) rfl
  rw [p.C46_powermg_first_law_compression_iff n r T _ h0 hr hc.ne' hd]
  have hT : p.hugT (Num.exact n) r = p.thN p.M (1 - p.rho0 / r) := by
    simp only [hugT, p.eta_eq, if_neg (not_le.mpr hx), hone _ hx]
  rw [hT]
  generalize 1 - p.rho0 / r = x at *
  have hC : p.G0 * (p.K 0 / p.Cv0 / 2 / p.rho0) * x ^ (p.M + 2) ≠ 0 := by
    have := h0.ne'
    have := hc.ne'
    have := hG.ne
    have := hx.ne'
    positivity
  rw [sub_eq_self]
  have hs : p.G0 * (p.K 0 / p.Cv0 / 2 / p.rho0) * ∑ i ∈ Finset.range p.M, ((i + 1 : ℕ) : ℝ) * p.K (i + 1) * (x ^ (i + 3) * gamLast p.M (i + 1) (p.G0 * x))
      = p.G0 * (p.K 0 / p.Cv0 / 2 / p.rho0) * x ^ (p.M + 2) * ∑ i ∈ Finset.range p.M, ((i + 1 : ℕ) : ℝ) * p.K (i + 1)
        * ((i + 2).factorial * p.G0 ^ (p.M - (i + 1)) / (p.M + 2).factorial) := by
    rw [mul_assoc (p.G0 * (p.K 0 / p.Cv0 / 2 / p.rho0)), Finset.mul_sum (a := x ^ (p.M + 2))]
    congr 1
    refine Finset.sum_congr rfl (fun i hi => ?_)
    rw [Finset.mem_range] at hi
    have h1 : x ^ (p.M + 2) = x ^ (i + 3) * x ^ (p.M - (i + 1)) := by rw [← pow_add]; congr 1; omega
    rw [gamLast, mul_pow, h1]
    ring
  rw [hs, mul_eq_zero, or_iff_right hC]

/-- A concrete material with a negative Gruneisen parameter whose neglected term does not vanish. -/
example : let p := make 2 300 (-1) 1 0 1 0 (fun i => if i = 0 then 10 else if i = 1 then 1 else 0) 1 1
    p.M = 1 ∧ ∑ i ∈ Finset.range p.M, (i + 1 : ℕ) * p.K (i + 1) * ((i + 2).factorial * p.G0 ^ (p.M - (i + 1)) / (p.M + 2).factorial) ≠ 0 := by
  intro p
  have hM : p.M = 1 := by simp [p, make, lastIdx]
  refine ⟨hM, ?_⟩
  rw [hM]
  simp [p, make, Nat.factorial]

end Verif.MG.Power
