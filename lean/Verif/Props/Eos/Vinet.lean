import Verif.Model.Eos.Vinet
import Verif.Props.Eos.Ideal
import Verif.Spec.Fill
import Mathlib.Analysis.SpecialFunctions.Pow.Deriv

set_option linter.unusedSectionVars false
set_option linter.dupNamespace false

/-! # C47, C51, C74: Vinet -/

namespace Verif.VinetEos.Vinet

open Verif.Mods Verif.Robust Verif.Base Verif.Spec Verif.Gases
open Filter Topology Set

variable {Λ : Type*}

theorem horner_eq (c : Nat → ℝ) (y : ℝ) : ∀ (i : Nat) (s : ℝ), horner c y i s = y ^ i * s + ∑ k ∈ Finset.range i, c k * y ^ k
  | 0, s => by simp [horner]
  | i + 1, s => by rw [horner, horner_eq c y i, Finset.sum_range_succ]; ring

/-- The loop leaves the entries above its range alone and solves the recursion below. -/
theorem vipLoop_spec (eta : ℝ) : ∀ (i : Nat) (a : Nat → ℝ),
    (∀ j, i + 1 < j → vipLoop eta i a j = a j) ∧
    (∀ j, 2 ≤ j → j ≤ i + 1 → vipLoop eta i a j = a j - (j : ℝ) / eta * vipLoop eta i a (j + 1))
  | 0, a => ⟨fun _ _ => rfl, fun j h1 h2 => by omega⟩
  | i + 1, a => by
    obtain ⟨h1, h2⟩ := vipLoop_spec eta i (Function.update a (i + 2) (a (i + 2) - (i + 2 : ℕ) / eta * a (i + 3)))
    simp only [vipLoop]
    constructor
    · intro j hj
      rw [h1 j (by omega), Function.update_of_ne (by omega)]
    · intro j hj hj'
      rcases Nat.lt_or_ge j (i + 2) with h | h
      · rw [h2 j hj (by omega), Function.update_of_ne (by omega)]
      · have : j = i + 2 := by omega
        subst this
        rw [h1 _ (by omega), h1 _ (by omega), Function.update_self, Function.update_of_ne (by omega)]

/-- The coefficient `d_n` of the pressure (`d_0 = 1`, `d_1 = 0`). -/
noncomputable def dn (p : Vinet) (n : Nat) : ℝ := if n = 0 then 1 else if n = 1 then 0 else p.d (n - 2)

theorem vip_rec (p : Vinet) (k : Nat) (hk : k < 40) : p.vip (k + 2) = p.dn k - ((k : ℝ) + 2) / p.eta0 * p.vip (k + 3) := by
  have h := (vipLoop_spec p.eta0 40 p.vip0).2 (k + 2) (Nat.le_add_left 2 k) (Nat.le_of_lt_succ (Nat.succ_lt_succ (Nat.succ_lt_succ hk)))
  have e : p.vip0 (k + 2) = p.dn k := by
    simp only [vip0, dn]
    rcases k with _ | _ | k
    · simp
    · simp
    · simp
  have e2 : (((k + 2 : ℕ)) : ℝ) = (k : ℝ) + 2 := by push_cast; rfl
  rw [e, e2] at h
  rw [vip]
  exact h

theorem vip_top (p : Vinet) : p.vip 42 = p.dn 40 := by
  rw [vip, (vipLoop_spec p.eta0 40 p.vip0).1 42 (by omega)]
  simp [vip0, dn]

attribute [local irreducible] vip

/-- `D(y) = 1 + sum_{n=2}^{40} d_n y^n`. -/
noncomputable def D (p : Vinet) (y : ℝ) : ℝ := 1 + ∑ i ∈ Finset.range 39, p.d i * y ^ (i + 2)

/-- `D'(y)`. -/
noncomputable def D' (p : Vinet) (y : ℝ) : ℝ := ∑ i ∈ Finset.range 39, p.d i * ((i + 2 : ℕ) * y ^ (i + 1))

/-- `F(y) = sum_{n=0}^{40} f_n y^n`. -/
noncomputable def F (p : Vinet) (y : ℝ) : ℝ := ∑ n ∈ Finset.range 41, p.vip (n + 2) * y ^ n

/-- `F'(y)`. -/
noncomputable def F' (p : Vinet) (y : ℝ) : ℝ := ∑ n ∈ Finset.range 41, p.vip (n + 2) * (n * y ^ (n - 1))

theorem D_eq_sum (p : Vinet) (y : ℝ) : p.D y = ∑ n ∈ Finset.range 41, p.dn n * y ^ n := by
  rw [Finset.sum_range_succ', Finset.sum_range_succ', D]
  simp only [dn]
  simp
  ring

theorem hasDerivAt_D (p : Vinet) (y : ℝ) : HasDerivAt p.D (p.D' y) y :=
  (HasDerivAt.fun_sum (fun i _ => (hasDerivAt_pow (i + 2) y).const_mul (p.d i))).const_add 1

theorem hasDerivAt_F (p : Vinet) (y : ℝ) : HasDerivAt p.F (p.F' y) y :=
  HasDerivAt.fun_sum (fun i _ => (hasDerivAt_pow i y).const_mul (p.vip (i + 2)))

/-- The recursion makes `F` the solution of `eta y F + F + y F' - f_0 = eta y D`. -/
theorem F_ode (p : Vinet) (h : p.eta0 ≠ 0) (y : ℝ) :
    p.eta0 * y * p.F y + p.F y + y * p.F' y - p.vip 2 = p.eta0 * y * p.D y := by
  have h1 : p.F y + y * p.F' y = ∑ n ∈ Finset.range 41, p.vip (n + 2) * (((n : ℝ) + 1) * y ^ n) := by
    rw [F, F', Finset.mul_sum, ← Finset.sum_add_distrib]
    refine Finset.sum_congr rfl (fun n _ => ?_)
    rcases n with _ | n
    · simp
    · rw [Nat.add_sub_cancel]; push_cast; ring
  have h2 : ∑ n ∈ Finset.range 41, p.vip (n + 2) * (((n : ℝ) + 1) * y ^ n) =
      y * ∑ n ∈ Finset.range 40, ((n : ℝ) + 2) * p.vip (n + 3) * y ^ n + p.vip 2 := by
    rw [Finset.sum_range_succ', Finset.mul_sum]
    congr 1
    · refine Finset.sum_congr rfl (fun n _ => ?_)
      push_cast; ring
    · simp
  have h3 : p.eta0 * p.F y = p.eta0 * p.D y - ∑ n ∈ Finset.range 40, ((n : ℝ) + 2) * p.vip (n + 3) * y ^ n := by
    rw [D_eq_sum, F, Finset.sum_range_succ, Finset.sum_range_succ _ 40, vip_top, mul_add, mul_add, Finset.mul_sum, Finset.mul_sum]
    have : ∑ n ∈ Finset.range 40, p.eta0 * (p.vip (n + 2) * y ^ n) =
        ∑ n ∈ Finset.range 40, p.eta0 * (p.dn n * y ^ n) - ∑ n ∈ Finset.range 40, ((n : ℝ) + 2) * p.vip (n + 3) * y ^ n := by
      rw [← Finset.sum_sub_distrib]
      refine Finset.sum_congr rfl (fun n hn => ?_)
      rw [vip_rec p n (Finset.mem_range.mp hn)]
      field_simp
    rw [this]
    ring
  linear_combination h1 + h2 + y * h3

/-- `1 - (rho0/rho)^(1/3)`. -/
noncomputable def yv (p : Vinet) (r : ℝ) : ℝ := 1 - (p.rho0 / r) ^ ((1 : ℝ) / 3)

/-- The reference isotherm's energy part, as a function of `y`. -/
noncomputable def Ec (p : Vinet) (y : ℝ) : ℝ :=
  9 * (p.B0 / (p.eta0 * p.eta0 * p.rho0)) * (p.vip 2 - Real.exp (p.eta0 * y) * (p.vip 2 - p.eta0 * y * p.F y))

/-- The reference isotherm's pressure, as a function of `y`: the Vinet form `3 B0 x^-2 y exp(eta y) D(y)` with `x = 1 - y`. -/
noncomputable def Pc (p : Vinet) (y : ℝ) : ℝ := 3 * p.B0 * (1 / ((1 - y) * (1 - y))) * y * Real.exp (p.eta0 * y) * p.D y

theorem sums (p : Vinet) (y : ℝ) :
    1 + horner p.d y 39 0 * (y * y) = p.D y ∧ horner (fun i => p.d i * (i + 2 : ℕ)) y 39 0 * y = p.D' y ∧
    horner (fun i => p.vip (i + 2)) y 2 (horner (fun i => p.vip (i + 4)) y 39 0) = p.F y := by
  simp only [horner_eq, mul_zero, zero_add]
  refine ⟨?_, ?_, ?_⟩
  · rw [D, Finset.sum_mul]
    congr 1
    exact Finset.sum_congr rfl (fun i _ => by ring)
  · rw [D', Finset.sum_mul]
    exact Finset.sum_congr rfl (fun i _ => by ring)
  · rw [F, Finset.sum_range_succ' _ 40, Finset.sum_range_succ' _ 39, Finset.sum_range_succ _ 1, Finset.sum_range_one, Finset.mul_sum]
    have : ∀ k, y ^ 2 * (p.vip (k + 4) * y ^ k) = p.vip (k + 1 + 1 + 2) * y ^ (k + 1 + 1) := fun k => by ring
    simp only [this]
    norm_num
    ring

theorem energy_eq (p : Vinet) (n : Num ℝ) (r T : ℝ) : (p.func (Num.exact n) r T).energy =
    p.Ec (p.yv r) - p.A0 * p.B0 * (p.T0 / p.rho0 - p.T0 / r) + p.Cv0 * (T - p.T0) + p.E0 := by
  simp only [func, Num.exact, ratio_zero_small, (p.sums _).2.2, Ec, yv]

theorem pressure_eq (p : Vinet) (n : Num ℝ) (r T : ℝ) : (p.func (Num.exact n) r T).pressure =
    p.Pc (p.yv r) + p.A0 * p.B0 * (T - p.T0) := by
  simp only [func, Num.exact, ratio_zero_small, (p.sums _).1, Pc, yv, sub_sub_cancel]

theorem dpdrho_eq (p : Vinet) (n : Num ℝ) (r T : ℝ) : (p.func (Num.exact n) r T).dpdrho =
    p.B0 / p.rho0 * (1 - p.yv r) * Real.exp (p.eta0 * p.yv r) *
      ((1 + p.yv r * (p.eta0 * (1 - p.yv r) + 1)) * p.D (p.yv r) + (1 - p.yv r) * p.yv r * p.D' (p.yv r)) := by
  simp only [func, Num.exact, ratio_zero_small, (p.sums _).1, (p.sums _).2.1, yv, sub_sub_cancel]

theorem hasDerivAt_yv (p : Vinet) (r : ℝ) (h0 : 0 < p.rho0) (hr : 0 < r) : HasDerivAt p.yv ((1 - p.yv r) / (3 * r)) r := by
  have hq : 0 < p.rho0 / r := div_pos h0 hr
  have h1 : HasDerivAt (fun r => p.rho0 / r) (-(p.rho0 / r ^ 2)) r := by
    have := (hasDerivAt_const r p.rho0).fun_div (hasDerivAt_id r) hr.ne'
    refine HasDerivAt.change this (fun _ => rfl) ?_
    simp only [id]; ring
  have h2 := ((h1.rpow_const (p := (1 : ℝ) / 3) (Or.inl hq.ne'))).const_sub 1
  refine HasDerivAt.change h2 (fun _ => rfl) ?_
  rw [Real.rpow_sub_one hq.ne', yv, sub_sub_cancel]
  have := hr.ne'
  have := h0.ne'
  field_simp

/-- `x^3 = rho0/rho`. -/
theorem cube (p : Vinet) (r : ℝ) (h0 : 0 < p.rho0) (hr : 0 < r) : (1 - p.yv r) ^ 3 = p.rho0 / r ∧ 0 < 1 - p.yv r := by
  have hq : 0 < p.rho0 / r := div_pos h0 hr
  rw [yv, sub_sub_cancel]
  refine ⟨?_, by positivity⟩
  rw [← Real.rpow_natCast, ← Real.rpow_mul hq.le]
  norm_num

theorem hasDerivAt_Ec (p : Vinet) (h : p.eta0 ≠ 0) (h0 : p.rho0 ≠ 0) (y : ℝ) :
    HasDerivAt p.Ec (9 * p.B0 / p.rho0 * y * Real.exp (p.eta0 * y) * p.D y) y := by
  have hy : HasDerivAt (fun y => p.eta0 * y) p.eta0 y := HasDerivAt.change (hasDerivAt_affine p.eta0 0 y) (fun z => by ring) rfl
  have h1 := ((hy.exp).fun_mul ((hy.fun_mul (p.hasDerivAt_F y)).const_sub (p.vip 2))).const_sub (p.vip 2)
  refine HasDerivAt.change (h1.const_mul (9 * (p.B0 / (p.eta0 * p.eta0 * p.rho0)))) (fun _ => rfl) ?_
  have := p.F_ode h y
  generalize p.F y = f at *
  generalize p.F' y = f' at *
  generalize p.D y = d at *
  generalize p.vip 2 = c at *
  generalize Real.exp (p.eta0 * y) = e at *
  field_simp
  linear_combination (e * p.B0) * this

theorem hasDerivAt_Pc (p : Vinet) (y : ℝ) (hy : 1 - y ≠ 0) : HasDerivAt p.Pc (3 * p.B0 * Real.exp (p.eta0 * y) / (1 - y) ^ 3 *
    ((1 + y * (p.eta0 * (1 - y) + 1)) * p.D y + (1 - y) * y * p.D' y)) y := by
  have he : HasDerivAt (fun y => p.eta0 * y) p.eta0 y := HasDerivAt.change (hasDerivAt_affine p.eta0 0 y) (fun z => by ring) rfl
  have h1 : HasDerivAt (fun y : ℝ => 1 - y) (-1) y := (hasDerivAt_id y).const_sub 1
  have h2 := (hasDerivAt_const y (1 : ℝ)).fun_div (h1.fun_mul h1) (mul_ne_zero hy hy)
  have h3 := (((h2.const_mul (3 * p.B0)).fun_mul (hasDerivAt_id y)).fun_mul he.exp).fun_mul (p.hasDerivAt_D y)
  refine HasDerivAt.change h3 (fun _ => rfl) ?_
  simp only [id]
  generalize p.D y = d
  generalize p.D' y = d'
  generalize Real.exp (p.eta0 * y) = e
  have hy2 : y = 1 - (1 - y) := by ring
  generalize 1 - y = x at *
  subst hy2
  field_simp
  ring

/-- `dP/drho` at constant temperature is the third output of the central function. -/
theorem hasDerivAt_pressure (p : Vinet) (n : Num ℝ) (r T : ℝ) (h0 : 0 < p.rho0) (hr : 0 < r) :
    HasDerivAt (fun x => (p.func (Num.exact n) x T).pressure) (p.func (Num.exact n) r T).dpdrho r := by
  obtain ⟨hc, hx⟩ := p.cube r h0 hr
  have h1 := HasDerivAt.comp (h₂ := p.Pc) r (p.hasDerivAt_Pc _ hx.ne') (p.hasDerivAt_yv r h0 hr)
  refine HasDerivAt.change (h1.add_const (p.A0 * p.B0 * (T - p.T0))) (fun y => p.pressure_eq n y T) ?_
  rw [p.dpdrho_eq]
  have h2 : p.rho0 = (1 - p.yv r) ^ 3 * r := by rw [hc]; field_simp
  rw [h2]
  generalize (1 + p.yv r * (p.eta0 * (1 - p.yv r) + 1)) * p.D (p.yv r) + (1 - p.yv r) * p.yv r * p.D' (p.yv r) = g
  generalize Real.exp (p.eta0 * p.yv r) = e
  generalize 1 - p.yv r = x at *
  have := hx.ne'
  have := hr.ne'
  field_simp

/-- `de/drho` at constant temperature. -/
theorem hasDerivAt_energy (p : Vinet) (n : Num ℝ) (r T : ℝ) (h0 : 0 < p.rho0) (hr : 0 < r) (h : p.eta0 ≠ 0) :
    HasDerivAt (fun x => (p.func (Num.exact n) x T).energy) ((p.Pc (p.yv r) - p.T0 * (p.A0 * p.B0)) / r ^ 2) r := by
  obtain ⟨hc, hx⟩ := p.cube r h0 hr
  have h1 := HasDerivAt.comp (h₂ := p.Ec) r (p.hasDerivAt_Ec h h0.ne' _) (p.hasDerivAt_yv r h0 hr)
  have h2 : HasDerivAt (fun r => p.T0 / r) (-(p.T0 / r ^ 2)) r := by
    have := (hasDerivAt_const r p.T0).fun_div (hasDerivAt_id r) hr.ne'
    refine HasDerivAt.change this (fun _ => rfl) ?_
    simp only [id]; ring
  have h3 := ((h1.sub ((h2.const_sub (p.T0 / p.rho0)).const_mul (p.A0 * p.B0))).add_const (p.Cv0 * (T - p.T0))).add_const p.E0
  refine HasDerivAt.change h3 (fun y => p.energy_eq n y T) ?_
  have h2 : p.rho0 = (1 - p.yv r) ^ 3 * r := by rw [hc]; field_simp
  rw [Pc, h2]
  generalize Real.exp (p.eta0 * p.yv r) = e
  generalize p.D (p.yv r) = d
  have hy : p.yv r = 1 - (1 - p.yv r) := by ring
  generalize 1 - p.yv r = x at *
  rw [hy]
  have := hx.ne'
  have := hr.ne'
  field_simp
  ring

/-- C47: temperature and energy invert each other at every state, and each by-energy query is its by-temperature twin. -/
theorem C47_vinet_round_trip (p : Vinet) (n : Num ℝ) (hc : p.Cv0 ≠ 0) (r x : ℝ) :
    RoundTripT (p.q (Num.exact n)) r x ∧ RoundTripE (p.q (Num.exact n)) r x ∧ Twins (p.q (Num.exact n)) r x := by
  have h1 : ∀ x, p.temp (Num.exact n) r (p.func (Num.exact n) r x).energy = x := by
    intro x
    simp only [temp, p.energy_eq n]
    simp only [Num.exact, ratio_zero_small]
    field_simp
    ring
  refine ⟨h1 x, ?_, ?_, ?_, rfl, ?_, rfl⟩
  · show (p.func (Num.exact n) r (p.temp (Num.exact n) r x)).energy = x
    simp only [temp, p.energy_eq n]
    simp only [Num.exact, ratio_zero_small]
    field_simp
    ring
  · simp only [Twin, q, h1]
  · simp only [Twin, q, h1]
  · simp only [Twin, q, h1]

/-- C47: the pressure on the reference isotherm is the Vinet form with the user's coefficients: with `x = (rho0/rho)^(1/3)` and
`y = 1 - x`, `P(rho, T) = 3 B0 x^-2 y exp(3/2 (B0' - 1) y) (1 + sum_{n=2}^{40} d_n y^n) + A0 B0 (T - T0)`. -/
theorem C47_vinet_pressure (p : Vinet) (n : Num ℝ) (r T : ℝ) :
    let x := (p.rho0 / r) ^ ((1 : ℝ) / 3)
    p.q (Num.exact n) .pRT r T = 3 * p.B0 * (1 / (x * x)) * (1 - x) * Real.exp (3 / 2 * (p.BP0 - 1) * (1 - x))
      * (1 + ∑ i ∈ Finset.range 39, p.d i * (1 - x) ^ (i + 2)) + p.A0 * p.B0 * (T - p.T0) := by
  intro x
  show (p.func (Num.exact n) r T).pressure = _
  rw [p.pressure_eq, Pc, D, yv, sub_sub_cancel, eta0]

theorem hasDerivAt_PT (p : Vinet) (n : Num ℝ) (r T : ℝ) : HasDerivAt (fun t => p.q (Num.exact n) .pRT r t) (p.A0 * p.B0) T := by
  refine HasDerivAt.change (hasDerivAt_affine (p.A0 * p.B0) (p.Pc (p.yv r) - p.A0 * p.B0 * p.T0) T) (fun t => ?_) rfl
  show (p.func (Num.exact n) r t).pressure = _
  rw [p.pressure_eq]; ring

/-- C47: energy and pressure satisfy the first law exactly, whatever the coefficients. -/
theorem C47_vinet_first_law (p : Vinet) (n : Num ℝ) (r T : ℝ) (h0 : 0 < p.rho0) (hr : 0 < r) (h : 1 < p.BP0) :
    EnergyRho (p.q (Num.exact n)) r T := by
  have he : p.eta0 ≠ 0 := by rw [eta0]; intro h2; linarith
  refine ⟨_, p.hasDerivAt_PT n r T, ?_⟩
  refine HasDerivAt.change (p.hasDerivAt_energy n r T h0 hr he) (fun _ => rfl) ?_
  show _ = ((p.func (Num.exact n) r T).pressure - T * (p.A0 * p.B0)) / r ^ 2
  rw [p.pressure_eq]; ring

/-- C47: heat capacity and Gruneisen parameter are the derivatives they are named after. -/
theorem C47_vinet_heat_gruneisen (p : Vinet) (n : Num ℝ) (hc : p.Cv0 ≠ 0) (r x : ℝ) (hr : r ≠ 0) :
    HeatCapacity (p.q (Num.exact n)) r x ∧ Gruneisen (p.q (Num.exact n)) r x := by
  constructor
  · refine HasDerivAt.change (hasDerivAt_affine p.Cv0 (p.Ec (p.yv r) - p.A0 * p.B0 * (p.T0 / p.rho0 - p.T0 / r) - p.Cv0 * p.T0 + p.E0) x)
      (fun t => ?_) rfl
    show (p.func (Num.exact n) r t).energy = _
    rw [p.energy_eq]; ring
  · refine HasDerivAt.change (hasDerivAt_affine (p.A0 * p.B0 / p.Cv0)
      (p.Pc (p.yv r) - p.A0 * p.B0 / p.Cv0 * (p.func (Num.exact n) r p.T0).energy) x) (fun e => ?_) ?_
    · show (p.func (Num.exact n) r (p.temp (Num.exact n) r e)).pressure = _
      rw [p.pressure_eq, temp]
      generalize (p.func (Num.exact n) r p.T0).energy = E
      simp only [Num.exact, ratio_zero_small]
      field_simp
      ring
    · simp only [q, Num.exact, ratio_zero_small]
      field_simp

/-- C47: for positive temperatures the entropy satisfies the first law in temperature and density. -/
theorem C47_vinet_entropy (p : Vinet) (n : Num ℝ) (r T : ℝ) (hr : r ≠ 0) (hT : 0 < T) (hT0 : p.T0 ≠ 0) :
    EntropyT (p.q (Num.exact n)) r T ∧ EntropyRho (p.q (Num.exact n)) r T := by
  have hs : ∀ r t, 0 ≤ t → p.q (Num.exact n) .sRT r t =
      p.A0 * p.B0 * (1 / r - 1 / p.rho0) + p.Cv0 * Real.log (t / p.T0) + p.S0 := by
    intro r t ht
    simp only [q, func, if_neg (not_lt.mpr ht)]
    simp only [Num.exact, ratio_zero_small]
  constructor
  · have h := (((((hasDerivAt_id T).div_const p.T0).log (div_ne_zero hT.ne' hT0)).const_mul p.Cv0).const_add
      (p.A0 * p.B0 * (1 / r - 1 / p.rho0))).add_const p.S0
    refine HasDerivAt.changeOn (Ioi_mem_nhds hT) h (fun t ht => hs r t (le_of_lt ht)) ?_
    simp only [q, id]
    field_simp
  · refine ⟨_, p.hasDerivAt_PT n r T, ?_⟩
    have h2 : HasDerivAt (fun r : ℝ => 1 / r) (-(1 / r ^ 2)) r := by
      have := (hasDerivAt_const r (1 : ℝ)).fun_div (hasDerivAt_id r) hr
      refine HasDerivAt.change this (fun _ => rfl) ?_
      simp only [id]; ring
    have h := (((h2.sub_const (1 / p.rho0)).const_mul (p.A0 * p.B0)).add_const (p.Cv0 * Real.log (T / p.T0))).add_const p.S0
    refine HasDerivAt.change h (fun y => hs y T hT.le) ?_
    ring

/-- C47: the isothermal bulk modulus is `rho dP/drho` at constant temperature, and the thermal expansion coefficient is
`(dP/dT) / (rho dP/drho)`. -/
theorem C47_vinet_isothermal (p : Vinet) (n : Num ℝ) (r T : ℝ) (h0 : 0 < p.rho0) (hr : 0 < r) :
    ∃ Pr PT, HasDerivAt (fun x => p.q (Num.exact n) .pRT x T) Pr r ∧ HasDerivAt (fun t => p.q (Num.exact n) .pRT r t) PT T ∧
      p.tbulk (Num.exact n) r T = r * Pr ∧ p.texp (Num.exact n) r T = PT / (r * Pr) := by
  refine ⟨_, _, p.hasDerivAt_pressure n r T h0 hr, p.hasDerivAt_PT n r T, ?_, ?_⟩
  · rw [tbulk]; ring
  · rw [texp]
    generalize (p.func (Num.exact n) r T).dpdrho = d
    have : (p.func (Num.exact n) r T).dpdt = p.A0 * p.B0 := rfl
    rw [this]
    simp only [Num.exact, ratio_zero_small]
    rw [mul_comm d r]

/-- The isentropic slope of the pressure at a temperature. -/
noncomputable def isen (p : Vinet) (n : Num ℝ) (r T : ℝ) : ℝ :=
  (p.func (Num.exact n) r T).dpdrho + T * ((p.A0 * p.B0) ^ 2 / (r ^ 2 * p.Cv0))

theorem bulkT_eq (p : Vinet) (n : Num ℝ) (r T : ℝ) : p.bulkT (Num.exact n) r T = r * max 0 (p.isen n r T) := by
  have h : (p.func (Num.exact n) r T).soundspeed = Real.sqrt (max 0 (p.isen n r T)) := by
    rw [isen]
    simp only [func, Num.exact, ratio_zero_small]
    ring_nf
  rw [bulkT, h, Real.mul_self_sqrt (le_max_left _ _), mul_comm]

/-- C47: the bulk modulus (by temperature and by energy) is `rho` times the isentropic derivative of the pressure when that is
nonnegative, and zero otherwise. -/
theorem C47_vinet_bulk (p : Vinet) (n : Num ℝ) (r T : ℝ) (h0 : 0 < p.rho0) (hr : 0 < r) (h : 1 < p.BP0) (hc : p.Cv0 ≠ 0) :
    ∃ Pr Pe, HasDerivAt (fun x => p.q (Num.exact n) .pRE x (p.q (Num.exact n) .eRT r T)) Pr r ∧
      HasDerivAt (fun x => p.q (Num.exact n) .pRE r x) Pe (p.q (Num.exact n) .eRT r T) ∧
      p.q (Num.exact n) .bRT r T = r * max 0 (Pr + p.q (Num.exact n) .pRT r T / r ^ 2 * Pe) ∧
      p.q (Num.exact n) .bRE r (p.q (Num.exact n) .eRT r T) = r * max 0 (Pr + p.q (Num.exact n) .pRT r T / r ^ 2 * Pe) ∧
      (0 ≤ Pr + p.q (Num.exact n) .pRT r T / r ^ 2 * Pe → IsentropicBulk (p.q (Num.exact n)) r (p.q (Num.exact n) .eRT r T)) ∧
      p.isen n r T = Pr + p.q (Num.exact n) .pRT r T / r ^ 2 * Pe := by
  have he : p.eta0 ≠ 0 := by rw [eta0]; intro h2; linarith
  obtain ⟨-, -, htw⟩ := p.C47_vinet_round_trip n hc r T
  have htP : p.q (Num.exact n) .pRT r T = p.q (Num.exact n) .pRE r (p.q (Num.exact n) .eRT r T) := htw.1
  have htB : p.q (Num.exact n) .bRT r T = p.q (Num.exact n) .bRE r (p.q (Num.exact n) .eRT r T) := htw.2.2.2.1
  have hP := p.hasDerivAt_pressure n r T h0 hr
  have hE := p.hasDerivAt_energy n r p.T0 h0 hr he
  generalize hEE : p.q (Num.exact n) .eRT r T = E at *
  have hpre : ∀ x, p.q (Num.exact n) .pRE x E = (p.func (Num.exact n) x T).pressure
      + p.A0 * p.B0 * ((E - (p.func (Num.exact n) x p.T0).energy) / p.Cv0 + p.T0 - T) := by
    intro x
    show (p.func (Num.exact n) x (p.temp (Num.exact n) x E)).pressure = _
    rw [p.pressure_eq, p.pressure_eq, temp]
    generalize (p.func (Num.exact n) x p.T0).energy = e
    simp only [Num.exact, ratio_zero_small]
    ring
  have hPr := HasDerivAt.change (hP.add (((((hE.const_sub E).div_const p.Cv0).add_const p.T0).sub_const T).const_mul (p.A0 * p.B0)))
    hpre rfl
  have hPe := (p.C47_vinet_heat_gruneisen n hc r E hr.ne').2
  have key : p.isen n r T = (p.func (Num.exact n) r T).dpdrho + p.A0 * p.B0 * (-((p.Pc (p.yv r) - p.T0 * (p.A0 * p.B0)) / r ^ 2) / p.Cv0)
      + p.q (Num.exact n) .pRT r T / r ^ 2 * (r * p.q (Num.exact n) .gRE r E) := by
    have e1 : p.q (Num.exact n) .pRT r T = p.Pc (p.yv r) + p.A0 * p.B0 * (T - p.T0) := p.pressure_eq n r T
    have e2 : p.q (Num.exact n) .gRE r E = p.A0 * p.B0 / (p.Cv0 * r) := by simp only [q, Num.exact, ratio_zero_small]
    rw [isen, e1, e2]
    field_simp
    ring
  have hB : p.q (Num.exact n) .bRT r T = r * max 0 (p.isen n r T) := p.bulkT_eq n r T
  refine ⟨_, _, hPr, hPe, by rw [hB, key], by rw [← htB, hB, key], fun hnn => ⟨_, _, hPr, hPe, ?_⟩, key⟩
  rw [← htB, hB, key, ← htP, max_eq_right hnn]

/-- C47: at every state with positive density and temperature and a nonnegative isothermal bulk modulus (mechanical stability), Vinet
satisfies every thermodynamic law. -/
theorem C47_vinet_consistent (p : Vinet) (n : Num ℝ) (r T : ℝ) (h0 : 0 < p.rho0) (hr : 0 < r) (hT : 0 < T) (hT0 : p.T0 ≠ 0)
    (h : 1 < p.BP0) (hc : 0 < p.Cv0) (hi : 0 ≤ p.tbulk (Num.exact n) r T) : Consistent (p.q (Num.exact n)) r T := by
  obtain ⟨h1, -, h3⟩ := p.C47_vinet_round_trip n hc.ne' r T
  obtain ⟨h5, h6⟩ := p.C47_vinet_entropy n r T hr.ne' hT hT0
  refine ⟨h1, h3, (p.C47_vinet_heat_gruneisen n hc.ne' r T hr.ne').1, p.C47_vinet_first_law n r T h0 hr h, h5, h6,
    (p.C47_vinet_heat_gruneisen n hc.ne' r _ hr.ne').2, ?_⟩
  have hd : 0 ≤ (p.func (Num.exact n) r T).dpdrho := by
    rw [tbulk] at hi
    exact nonneg_of_mul_nonneg_left hi hr
  have hpos : 0 ≤ p.isen n r T := by rw [isen]; positivity
  rcases hpos.eq_or_lt with hz | hz
  · -- the slope vanishes: so does the bulk modulus
    obtain ⟨Pr, Pe, a1, a2, a3, a4, a5, a6⟩ := p.C47_vinet_bulk n r T h0 hr h hc.ne'
    exact a5 (by rw [← a6, ← hz])
  · obtain ⟨Pr, Pe, a1, a2, a3, a4, a5, a6⟩ := p.C47_vinet_bulk n r T h0 hr h hc.ne'
    exact a5 (by rw [← a6]; exact hpos)

/-- C47 is violated where the isentropic derivative of the pressure is negative (in strong expansion): zero is reported. -/
theorem C47_vinet_bulk_clamped_violated (p : Vinet) (n : Num ℝ) (r T : ℝ) (h0 : 0 < p.rho0) (hr : 0 < r) (h : 1 < p.BP0)
    (hc : p.Cv0 ≠ 0) (hi : (p.func (Num.exact n) r T).dpdrho + T * ((p.A0 * p.B0) ^ 2 / (r ^ 2 * p.Cv0)) < 0) :
    p.q (Num.exact n) .bRT r T = 0 ∧ ¬ IsentropicBulk (p.q (Num.exact n)) r (p.q (Num.exact n) .eRT r T) := by
  obtain ⟨Pr, Pe, a1, a2, a3, a4, a5, a6⟩ := p.C47_vinet_bulk n r T h0 hr h hc
  have hi : p.isen n r T < 0 := hi
  rw [← a6, max_eq_left hi.le, mul_zero] at a3 a4
  refine ⟨a3, ?_⟩
  rintro ⟨Pr', Pe', b1, b2, b3⟩
  have htP : p.q (Num.exact n) .pRT r T = p.q (Num.exact n) .pRE r (p.q (Num.exact n) .eRT r T) :=
    (p.C47_vinet_round_trip n hc r T).2.2.1
  rw [a4, b1.unique a1, b2.unique a2, ← htP, ← a6] at b3
  have := mul_neg_of_pos_of_neg hr hi
  linarith

/-- C47 non-vacuity: at the reference state the isothermal bulk modulus is `B0`. -/
theorem tbulk_ref (p : Vinet) (n : Num ℝ) (T : ℝ) (h0 : 0 < p.rho0) : p.tbulk (Num.exact n) p.rho0 T = p.B0 := by
  have hy : p.yv p.rho0 = 0 := by rw [yv, div_self h0.ne', Real.one_rpow, sub_self]
  rw [tbulk, dpdrho_eq, hy, D, D']
  have := h0.ne'
  simp
  field_simp

example (n : Num ℝ) : Consistent (q ⟨2, 300, 10, 5, 1 / 10, 3, 0, 1, fun i => if i = 0 then 7 else 0, 1, 1⟩ (Num.exact n)) 2 300 := by
  refine C47_vinet_consistent _ n 2 300 (by norm_num) (by norm_num) (by norm_num) (by norm_num) (by norm_num) (by norm_num) ?_
  have := tbulk_ref ⟨2, 300, 10, 5, 1 / 10, 3, 0, 1, fun i => if i = 0 then 7 else 0, 1, 1⟩ n 300 (by norm_num)
  simp only at this
  rw [this]; norm_num

/-- C74: the reference state is a state of the EOS, and the reported `dV/dT` is the derivative of the specific volume with respect to
temperature at constant pressure, `-(dP/dT) / (dP/dV)`. -/
theorem C74_vinet_reference (p : Vinet) (n : Num ℝ) (dv : ℝ → ℝ → ℝ) (l0 l : Λ) (h0 : 0 < p.rho0) (hc : p.Cv0 ≠ 0) (hB : p.B0 ≠ 0) :
    RefDirect (p.eos (Num.exact n) dv l0) l ∧
    ∃ Pr PT, HasDerivAt (fun x => (p.eos (Num.exact n) dv l0).q .pRT l x p.T0) Pr p.rho0 ∧
      HasDerivAt (fun t => (p.eos (Num.exact n) dv l0).q .pRT l p.rho0 t) PT p.T0 ∧
      ((p.eos (Num.exact n) dv l0).ref l).dvdt = -PT / (-p.rho0 ^ 2 * Pr) := by
  have hy : p.yv p.rho0 = 0 := by rw [yv, div_self h0.ne', Real.one_rpow, sub_self]
  refine ⟨⟨rfl, ?_, rfl, rfl, ?_⟩, ?_⟩
  · show (p.func (Num.exact n) p.rho0 p.T0).energy = p.E0
    rw [energy_eq, hy, Ec]
    simp
  · show p.rho0 * ratio _ (p.A0 * p.B0) (p.Cv0 * p.rho0) = ratio _ (p.A0 * p.B0) p.Cv0
    simp only [Num.exact, ratio_zero_small]
    field_simp
  · refine ⟨_, _, p.hasDerivAt_pressure n p.rho0 p.T0 h0 h0, p.hasDerivAt_PT n p.rho0 p.T0, ?_⟩
    have hb := p.tbulk_ref n p.T0 h0
    rw [tbulk] at hb
    have hd : (p.func (Num.exact n) p.rho0 p.T0).dpdrho = p.B0 / p.rho0 := by rw [eq_div_iff h0.ne', hb]
    rw [hd]
    show ratio _ p.A0 p.rho0 = _
    simp only [Num.exact, ratio_zero_small]
    have := h0.ne'
    field_simp

/-- C51 for Vinet: the call aborts exactly when the density, or both temperature and energy, are requested; otherwise, unless both
temperature and energy are inputs, every input is kept, and the outputs are the direct queries at the resulting state. -/
theorem C51_vinet_partial (p : Vinet) (n : Num ℝ) (hc : p.Cv0 ≠ 0) (fl : Flags) (s : Thermo ℝ) :
    (p.fill (Num.exact n) fl s = none ↔ fl.rho = true ∨ (fl.temp = true ∧ fl.sie = true)) ∧
    ∀ o, p.fill (Num.exact n) fl s = some o →
      OutputsMatch (p.q (Num.exact n)) fl o ∧ (fl.temp = true ∨ fl.sie = true → InputsKept fl s o) ∧
      o.temp = p.q (Num.exact n) .tRE o.rho o.sie := by
  have h1 : ∀ r x, p.temp (Num.exact n) r (p.func (Num.exact n) r x).energy = x := fun r x => (p.C47_vinet_round_trip n hc r x).1
  obtain ⟨a, b, c, d, e, f⟩ := fl
  cases a <;> cases b <;> cases c <;> cases d <;> cases e <;> cases f <;>
    simp [fill, InputsKept, OutputsMatch, q, h1, bulkT, show ∀ r T, (p.func (Num.exact n) r T).dedt = p.Cv0 from fun _ _ => rfl]

/-- C51 is violated for Vinet: with density, temperature and energy all inputs the temperature is overwritten. -/
theorem C51_vinet_overwrites_temperature_violated (p : Vinet) (n : Num ℝ) (fl : Flags) (hr : fl.rho = false) (ht : fl.temp = false)
    (he : fl.sie = false) (s : Thermo ℝ) : ∃ o, p.fill n fl s = some o ∧ o.temp = p.q n .tRE s.rho s.sie := by
  obtain ⟨a, b, c, d, e, f⟩ := fl
  simp only at hr ht he
  subst hr ht he
  cases d <;> cases e <;> cases f <;> simp [fill, q]

end Verif.VinetEos.Vinet
