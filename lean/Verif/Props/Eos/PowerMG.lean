import Verif.Props.Eos.MGUsup
import Mathlib.Analysis.SpecialFunctions.ExpDeriv
import Mathlib.Algebra.BigOperators.Intervals

set_option linter.unusedSectionVars false

/-! # C46, C74: PowerMG -/

namespace Verif.MG.Power

open Verif.Mods Verif.Robust Verif.Base Verif.Spec Verif.Gases
open Filter Topology Set

variable {Λ : Type*}

theorem eta_eq (p : Power) (n : Num ℝ) (r : ℝ) : p.eta (Num.exact n) r = 1 - p.rho0 / r := by
  simp only [eta, Num.exact, ratio_zero_small]

/-- The reference polynomial `sum_{i=1}^{M} K_i x^i`. -/
noncomputable def poly (K : Nat → ℝ) (M : Nat) (x : ℝ) : ℝ := ∑ i ∈ Finset.range M, K (i + 1) * x ^ (i + 1)

/-- `x` times its derivative, `sum_{i=1}^{M} i K_i x^i`. -/
noncomputable def polyD (K : Nat → ℝ) (M : Nat) (x : ℝ) : ℝ := ∑ i ∈ Finset.range M, (i + 1 : ℕ) * K (i + 1) * x ^ (i + 1)

theorem hornerP_eq (K : Nat → ℝ) (x : ℝ) : ∀ (i : Nat) (v : ℝ), x * hornerP K x i v = x ^ (i + 1) * v + poly K i x
  | 0, v => by simp [hornerP, poly]
  | i + 1, v => by
    rw [hornerP, hornerP_eq K x i, poly, poly, Finset.sum_range_succ]
    ring

theorem hornerB_eq (K : Nat → ℝ) (x : ℝ) : ∀ (i : Nat) (v : ℝ), hornerB K x i v = x ^ i * v + polyD K i x
  | 0, v => by simp [hornerB, polyD]
  | i + 1, v => by
    rw [hornerB, hornerB_eq K x i, polyD, polyD, Finset.sum_range_succ]
    ring

theorem hugPe_eq (p : Power) (x : ℝ) : p.hugPe x = p.K 0 * x * (1 + poly p.K p.M x) := by
  rw [hugPe, hornerP_eq]; ring

theorem hasDerivAt_poly (K : Nat → ℝ) (M : Nat) (x : ℝ) : ∃ D, HasDerivAt (poly K M) D x ∧ x * D = polyD K M x := by
  refine ⟨∑ i ∈ Finset.range M, K (i + 1) * ((i + 1 : ℕ) * x ^ (i + 1 - 1)), ?_, ?_⟩
  · exact HasDerivAt.fun_sum (fun i _ => (hasDerivAt_pow (i + 1) x).const_mul _)
  · rw [Finset.mul_sum, polyD]
    refine Finset.sum_congr rfl (fun i _ => ?_)
    rw [Nat.add_sub_cancel]; ring

/-! ## The constructor -/

theorem lastIdx_spec (K : Nat → ℝ) : ∀ n, (0 < n → lastIdx K n < n) ∧ (∀ i, lastIdx K n < i → i < n → K i = 0)
  | 0 => ⟨fun h => absurd h (lt_irrefl 0), fun i _ h => absurd h (Nat.not_lt_zero i)⟩
  | n + 1 => by
    obtain ⟨h1, h2⟩ := lastIdx_spec K n
    rw [lastIdx]
    split_ifs with h
    · exact ⟨fun _ => Nat.lt_succ_self n, fun i h3 h4 => by omega⟩
    · refine ⟨fun _ => ?_, fun i h3 h4 => ?_⟩
      · rcases Nat.eq_zero_or_pos n with rfl | h5
        · simp [lastIdx]
        · exact (h1 h5).trans (Nat.lt_succ_self n)
      · rcases Nat.lt_succ_iff_lt_or_eq.mp h4 with h5 | h5
        · exact h2 i h3 h5
        · rw [h5]; exact not_not.mp h

/-- Leaving out the trailing zero coefficients changes nothing. -/
theorem poly_lastIdx (K : Nat → ℝ) (n : Nat) (x : ℝ) : poly K (lastIdx K (n + 1)) x = poly K n x ∧
    polyD K (lastIdx K (n + 1)) x = polyD K n x := by
  obtain ⟨h1, h2⟩ := lastIdx_spec K (n + 1)
  have h1 := Nat.lt_succ_iff.mp (h1 (Nat.succ_pos n))
  constructor
  · refine Finset.sum_subset (Finset.range_subset_range.mpr h1) (fun i hi hi' => ?_)
    rw [Finset.mem_range] at hi hi'
    rw [h2 (i + 1) (by omega) (by omega), zero_mul]
  · refine Finset.sum_subset (Finset.range_subset_range.mpr h1) (fun i hi hi' => ?_)
    rw [Finset.mem_range] at hi hi'
    rw [h2 (i + 1) (by omega) (by omega), mul_zero, zero_mul]

/-- C46: in compression the pressure, by temperature and by energy, is the polynomial `K0 eta (1 + sum_{i=1}^{40} K_i eta^i)` in all
forty coefficients the user passed, plus the thermal part; in expansion it is `K0 eta` down to the minimum pressure. -/
theorem C46_powermg_pressure (n : Num ℝ) (rho0 T0 G0 Cv0 E0 S0 Pmin abar zbar r : ℝ) (K : Nat → ℝ) :
    let p := make rho0 T0 G0 Cv0 E0 S0 Pmin K abar zbar
    let x := 1 - rho0 / r
    let PH := if 0 < x then K 0 * x * (1 + ∑ i ∈ Finset.range 40, K (i + 1) * x ^ (i + 1))
      else if x < p.Pmin / K 0 then p.Pmin else K 0 * x
    (∀ T, p.q (Num.exact n) .pRT r T = PH + G0 * rho0 * Cv0 * (T - p.hugT (Num.exact n) r)) ∧
    (∀ e, p.q (Num.exact n) .pRE r e = PH + G0 * rho0 * (e - (E0 + x / (2 * rho0) * PH))) ∧
    (0 < K 0 → p.Pmin < 0) := by
  intro p x PH
  have hx : p.eta (Num.exact n) r = x := p.eta_eq n r
  have hP : p.hugP (Num.exact n) r = PH := by
    simp only [hugP, hx, PH]
    rcases lt_or_ge 0 x with h | h
    · rw [if_neg (not_le.mpr h), if_pos h, hugPe_eq]
      have : poly p.K p.M x = poly K 40 x := (poly_lastIdx K 40 x).1
      rw [this, poly]
      rfl
    · rw [if_pos h, if_neg (not_lt.mpr h)]
      rfl
  refine ⟨fun T => ?_, fun e => ?_, fun h => ?_⟩
  · simp only [q, hP]; rfl
  · have h2 : ratio (Num.exact n).σ x (2 * p.rho0) = x / (2 * rho0) := by simp only [Num.exact, ratio_zero_small]; rfl
    simp only [q, hugE, hP, hx, h2]
    simp only [p, make]
    ring
  · simp only [p, make]
    split_ifs with h2
    · linarith
    · linarith

/-! ## Queries -/

/-- C46: temperature and energy invert each other wherever the temperature is nonnegative, at every density; below that the
reported temperature is `1e-12` (never negative); the pressures agree, and so do heat capacity and Gruneisen parameter. -/
theorem C46_powermg_round_trip (p : Power) (n : Num ℝ) (hc : p.Cv0 ≠ 0) (r x : ℝ) :
    (0 ≤ x → RoundTripT (p.q n) r x) ∧ (x < 0 → p.q n .tRE r (p.q n .eRT r x) = 1 / 10 ^ 12) ∧
    (p.q n .eRT r 0 ≤ x → 0 < p.Cv0 → RoundTripE (p.q n) r x) ∧ 0 ≤ p.q n .tRE r x ∧
    Twin (p.q n) .pRT .pRE r x ∧ Twin (p.q n) .cvRT .cvRE r x ∧ Twin (p.q n) .gRT .gRE r x := by
  have hk : (p.energy n r x - p.hugE n r) / p.Cv0 + p.hugT n r = x := by
    simp only [energy]; field_simp; ring
  refine ⟨fun h => ?_, fun h => ?_, fun h hc' => ?_, ?_, ?_, rfl, rfl⟩
  · simp only [RoundTripT, q, temp, hk, if_neg (not_lt.mpr h)]
  · simp only [q, temp, hk, if_pos h]
  · have h2 : 0 ≤ (x - p.hugE n r) / p.Cv0 + p.hugT n r := by
      simp only [q, energy] at h
      rw [div_add' _ _ _ hc]
      refine div_nonneg ?_ hc'.le
      linarith
    simp only [RoundTripE, q, temp, if_neg (not_lt.mpr h2), energy]
    field_simp
    ring
  · simp only [q, temp]
    split_ifs with h
    · positivity
    · exact not_lt.mp h
  · simp only [Twin, q, energy]; ring

/-- C46: by-temperature and by-energy entropies agree for nonnegative temperature when the entropy is nonnegative; when it is
negative (the by-temperature query reports it) the by-energy query reports `1e-12`. -/
theorem C46_powermg_entropy_twin_partial (p : Power) (n : Num ℝ) (hc : p.Cv0 ≠ 0) (r T : ℝ) (hT : 0 ≤ T) :
    (0 ≤ p.q n .sRT r T → Twin (p.q n) .sRT .sRE r T) ∧
    (p.q n .sRT r T < 0 → p.q n .sRE r (p.q n .eRT r T) = 1 / 10 ^ 12 ∧ ¬ Twin (p.q n) .sRT .sRE r T) := by
  have h := (p.C46_powermg_round_trip n hc r T).1 hT
  have h : p.temp n r (p.energy n r T) = T := h
  constructor
  · intro hs
    have hs : 0 ≤ p.S0 - p.G0 * p.Cv0 * p.eta n r + p.Cv0 * Real.log (T / p.T0) := hs
    simp only [Twin, q, sE, h, sT, if_neg (not_lt.mpr hs)]
  · intro hs
    have hs' : p.S0 - p.G0 * p.Cv0 * p.eta n r + p.Cv0 * Real.log (T / p.T0) < 0 := hs
    have : p.q n .sRE r (p.q n .eRT r T) = 1 / 10 ^ 12 := by simp only [q, sE, h, if_pos hs']
    refine ⟨this, fun h2 => ?_⟩
    rw [Twin, this] at h2
    rw [h2] at hs
    have : (0 : ℝ) < 1 / 10 ^ 12 := by positivity
    linarith

/-- C46: heat capacity and Gruneisen parameter are the derivatives they are named after. -/
theorem C46_powermg_heat_gruneisen (p : Power) (n : Num ℝ) (r x : ℝ) (hr : r ≠ 0) :
    HeatCapacity (p.q (Num.exact n)) r x ∧ Gruneisen (p.q (Num.exact n)) r x := by
  constructor
  · refine HasDerivAt.change (hasDerivAt_affine p.Cv0 (p.hugE (Num.exact n) r - p.Cv0 * p.hugT (Num.exact n) r) x) (fun y => ?_) rfl
    simp only [q, energy]; ring
  · refine HasDerivAt.change (hasDerivAt_affine (p.rho0 * p.G0) (p.hugP (Num.exact n) r - p.rho0 * p.G0 * p.hugE (Num.exact n) r) x)
      (fun y => ?_) ?_
    · simp only [q]; ring
    · simp only [q, Num.exact, ratio_zero_small]; field_simp

theorem hasDerivAt_eta (p : Power) (n : Num ℝ) (r : ℝ) (hr : r ≠ 0) : HasDerivAt (p.eta (Num.exact n)) (p.rho0 / r ^ 2) r := by
  refine HasDerivAt.change (((hasDerivAt_const r p.rho0).div (hasDerivAt_id r) hr).const_sub 1) (fun y => p.eta_eq n y) ?_
  simp; ring

/-- C46: the entropy satisfies the first law in temperature and density. -/
theorem C46_powermg_entropy (p : Power) (n : Num ℝ) (r T : ℝ) (hr : r ≠ 0) (hT : T ≠ 0) (hT0 : p.T0 ≠ 0) :
    EntropyT (p.q (Num.exact n)) r T ∧ EntropyRho (p.q (Num.exact n)) r T := by
  constructor
  · have h := ((((hasDerivAt_id T).div_const p.T0).log (div_ne_zero hT hT0)).const_mul p.Cv0).const_add
      (p.S0 - p.G0 * p.Cv0 * p.eta (Num.exact n) r)
    refine HasDerivAt.change h (fun y => rfl) ?_
    simp only [q, id]
    field_simp
  · refine ⟨p.G0 * p.rho0 * p.Cv0, ?_, ?_⟩
    · refine HasDerivAt.change (hasDerivAt_affine (p.G0 * p.rho0 * p.Cv0)
        (p.hugP (Num.exact n) r - p.G0 * p.rho0 * p.Cv0 * p.hugT (Num.exact n) r) T) (fun y => ?_) rfl
      simp only [q]; ring
    · refine HasDerivAt.change (((p.hasDerivAt_eta n r hr).const_mul (p.G0 * p.Cv0)).const_sub p.S0 |>.add_const
        (p.Cv0 * Real.log (T / p.T0))) (fun y => rfl) ?_
      ring

/-! ## Bulk moduli -/

/-- The reference pressure as a function of the compression (`hugP` composed with `eta`). -/
noncomputable def ref (p : Power) (x : ℝ) : ℝ := if x ≤ 0 then (if x < p.Pmin / p.K 0 then p.Pmin else p.K 0 * x) else p.hugPe x

theorem hugE_eq (p : Power) (n : Num ℝ) (r : ℝ) : p.hugE (Num.exact n) r =
    p.E0 + (1 - p.rho0 / r) / (2 * p.rho0) * p.hugP (Num.exact n) r := by
  simp only [hugE, eta_eq]
  generalize p.hugP (Num.exact n) r = P
  simp only [Num.exact, ratio_zero_small]

theorem hugP_eq (p : Power) (n : Num ℝ) (r : ℝ) : p.hugP (Num.exact n) r = p.ref (1 - p.rho0 / r) := by
  simp only [hugP, eta_eq]; rfl

/-- With `D` the slope of the reference pressure in the compression, the isentropic bulk modulus is known. -/
theorem bulk_iff (p : Power) (n : Num ℝ) (r e D : ℝ) (h0 : p.rho0 ≠ 0) (hr : r ≠ 0) (hD : HasDerivAt p.ref D (1 - p.rho0 / r)) :
    IsentropicBulk (p.q (Num.exact n)) r e ↔ p.q (Num.exact n) .bRE r e = p.rho0 / r * (D * (1 - p.G0 * (1 - p.rho0 / r) / 2)
      + p.G0 * p.hugP (Num.exact n) r / 2 + p.G0 ^ 2 * p.rho0 * (e - p.hugE (Num.exact n) r)) := by
  have heta := p.hasDerivAt_eta n r hr
  rw [← p.eta_eq n r] at hD
  have hP : HasDerivAt (p.hugP (Num.exact n)) (D * (p.rho0 / r ^ 2)) r := by
    have := HasDerivAt.comp (h₂ := p.ref) r hD heta
    exact HasDerivAt.change this (fun y => by rw [p.hugP_eq]; simp [Function.comp, eta_eq]) rfl
  have hE : HasDerivAt (p.hugE (Num.exact n)) _ r :=
    HasDerivAt.change (((heta.div_const (2 * p.rho0)).fun_mul hP).const_add p.E0)
      (fun y => by rw [p.hugE_eq, p.eta_eq]) rfl
  have hPr : HasDerivAt (fun x => p.q (Num.exact n) .pRE x e) _ r := hP.add ((hE.const_sub e).const_mul (p.rho0 * p.G0))
  have hPe := (p.C46_powermg_heat_gruneisen n r e hr).2
  have key : r * (D * (p.rho0 / r ^ 2) + p.rho0 * p.G0 * -(p.rho0 / r ^ 2 / (2 * p.rho0) * p.hugP (Num.exact n) r
        + p.eta (Num.exact n) r / (2 * p.rho0) * (D * (p.rho0 / r ^ 2)))
      + p.q (Num.exact n) .pRE r e / r ^ 2 * (r * p.q (Num.exact n) .gRE r e)) =
      p.rho0 / r * (D * (1 - p.G0 * (1 - p.rho0 / r) / 2)
      + p.G0 * p.hugP (Num.exact n) r / 2 + p.G0 ^ 2 * p.rho0 * (e - p.hugE (Num.exact n) r)) := by
    rw [p.eta_eq]
    simp only [q]
    generalize p.hugP (Num.exact n) r = P
    generalize p.hugE (Num.exact n) r = E
    simp only [Num.exact, ratio_zero_small]
    field_simp
    ring
  constructor
  · rintro ⟨Pr, Pe, h1, h2, h3⟩
    rw [h3, h1.unique hPr, h2.unique hPe, key]
  · intro h
    exact ⟨_, _, hPr, hPe, by rw [h, key]⟩

theorem hasDerivAt_hugPe (p : Power) (x : ℝ) : HasDerivAt p.hugPe (p.K 0 * (1 + poly p.K p.M x + polyD p.K p.M x)) x := by
  obtain ⟨D, hD, hx⟩ := hasDerivAt_poly p.K p.M x
  have h := (((hasDerivAt_id x).const_mul (p.K 0)).fun_mul (hD.const_add 1))
  refine HasDerivAt.change h (fun y => by rw [hugPe_eq]; rfl) ?_
  rw [← hx]
  simp only [id]
  ring

theorem hasDerivAt_ref_comp (p : Power) (x : ℝ) (hx : 0 < x) :
    HasDerivAt p.ref (p.K 0 * (1 + poly p.K p.M x + polyD p.K p.M x)) x :=
  HasDerivAt.changeOn (Ioi_mem_nhds hx) (p.hasDerivAt_hugPe x) (fun y hy => by rw [ref, if_neg (not_le.mpr hy)]) rfl

theorem hasDerivAt_ref_exp (p : Power) (x : ℝ) (hx : x < 0) (hx' : p.Pmin / p.K 0 < x) : HasDerivAt p.ref (p.K 0) x := by
  refine HasDerivAt.changeOn (Ioo_mem_nhds hx' hx) (hasDerivAt_affine (p.K 0) 0 x) (fun y hy => ?_) rfl
  rw [ref, if_pos hy.2.le, if_neg (not_lt.mpr hy.1.le), add_zero]

theorem hasDerivAt_ref_cut (p : Power) (x : ℝ) (hx : x < 0) (hx' : x < p.Pmin / p.K 0) : HasDerivAt p.ref 0 x := by
  refine HasDerivAt.changeOn (Iio_mem_nhds (lt_min hx hx')) (hasDerivAt_const x p.Pmin) (fun y hy => ?_) rfl
  rw [mem_Iio, lt_min_iff] at hy
  rw [ref, if_pos hy.1.le, if_pos hy.2]

theorem hasDerivAt_ref_zero (p : Power) (hP : p.Pmin / p.K 0 < 0) : HasDerivAt p.ref (p.K 0) 0 := by
  have h1 : HasDerivAt (fun x => p.K 0 * x) (p.K 0) 0 := HasDerivAt.change (hasDerivAt_affine (p.K 0) 0 0) (fun y => by ring) rfl
  have h2 := p.hasDerivAt_hugPe 0
  have h3 : p.K 0 * (1 + poly p.K p.M 0 + polyD p.K p.M 0) = p.K 0 := by simp [poly, polyD]
  rw [h3] at h2
  have h4 := EosMisc.Sap.hasDerivAt_switch (m := 0) (fun _ => h2) (fun _ => h1) (by simp [hugPe])
  refine HasDerivAt.changeOn (Ioi_mem_nhds hP) h4 (fun y hy => ?_) rfl
  have hy : p.Pmin / p.K 0 < y := hy
  rw [ref]
  rcases lt_trichotomy y 0 with h | h | h
  · rw [if_pos h.le, if_neg (not_lt.mpr hy.le), if_neg (not_le.mpr h)]
  · subst h
    rw [if_pos le_rfl, if_neg (not_lt.mpr hy.le), if_pos le_rfl]
    simp [hugPe]
  · rw [if_neg (not_le.mpr h), if_pos h.le]

/-- C46: in compression and at the reference density the by-energy bulk modulus is the isentropic derivative of the pressure. -/
theorem C46_powermg_bulk_energy (p : Power) (n : Num ℝ) (r e : ℝ) (h0 : 0 < p.rho0) (hr : p.rho0 ≤ r) (hP : p.Pmin / p.K 0 < 0) :
    IsentropicBulk (p.q (Num.exact n)) r e := by
  have hr0 : 0 < r := h0.trans_le hr
  rcases hr.eq_or_lt with h | h
  · have hx : 1 - p.rho0 / r = 0 := by rw [← h, div_self h0.ne', sub_self]
    have hd := p.hasDerivAt_ref_zero hP
    rw [← hx] at hd
    rw [p.bulk_iff n r e _ h0.ne' hr0.ne' hd]
    simp only [q, bulkE, p.eta_eq n r, p.hugE_eq n r, p.hugP_eq n r, hx, ref, if_pos (le_refl (0 : ℝ)), if_neg (not_lt.mpr hP.le)]
    simp only [Num.exact, ratio_zero_small]
    ring
  · have hx : 0 < 1 - p.rho0 / r := by
      have := (div_lt_one hr0).mpr h
      linarith
    rw [p.bulk_iff n r e _ h0.ne' hr0.ne' (p.hasDerivAt_ref_comp _ hx)]
    simp only [q, bulkE, compE, p.eta_eq n r, if_neg (not_le.mpr hx)]
    generalize p.hugE (Num.exact n) r = E
    simp only [p.hugP_eq n r, ref, if_neg (not_le.mpr hx), hugPe_eq, hornerB_eq]
    simp only [Num.exact, ratio_zero_small]
    generalize 1 - p.rho0 / r = x at *
    have := hx.ne'
    field_simp
    ring

/-- C46 is violated: in expansion, above the pressure cutoff, the by-energy bulk modulus is the isentropic derivative only if the
reference density happens to be 1 (or the Gruneisen parameter vanishes): the energy on the reference curve lacks its division by
the reference density. -/
theorem C46_powermg_bulk_energy_expansion_violated (p : Power) (n : Num ℝ) (r e : ℝ) (h0 : 0 < p.rho0) (hr : 0 < r) (hrr : r < p.rho0)
    (hK : 0 < p.K 0) (hP : p.Pmin / p.K 0 < 1 - p.rho0 / r) :
    IsentropicBulk (p.q (Num.exact n)) r e ↔ p.rho0 = 1 ∨ p.G0 = 0 := by
  have hx : 1 - p.rho0 / r < 0 := by
    have := (one_lt_div hr).mpr hrr
    linarith
  rw [p.bulk_iff n r e _ h0.ne' hr.ne' (p.hasDerivAt_ref_exp _ hx hP)]
  simp only [q, bulkE, p.eta_eq n r, if_pos hx.le, if_neg (not_lt.mpr hP.le), p.hugE_eq n r, p.hugP_eq n r, ref]
  simp only [Num.exact, ratio_zero_small]
  have hr' := div_ne_zero h0.ne' hr.ne'
  generalize 1 - p.rho0 / r = x at *
  rw [← sub_eq_zero]
  have hid : p.rho0 / r * (p.K 0 + p.G0 * p.G0 * p.rho0 * (e - p.E0 - p.K 0 * x * x / 2)) -
      p.rho0 / r * (p.K 0 * (1 - p.G0 * x / 2) + p.G0 * (p.K 0 * x) / 2 +
        p.G0 ^ 2 * p.rho0 * (e - (p.E0 + x / (2 * p.rho0) * (p.K 0 * x)))) =
      p.rho0 / r * p.K 0 * x ^ 2 / 2 * (p.G0 ^ 2 * (1 - p.rho0)) := by
    field_simp
    ring
  rw [hid]
  have h1 : p.rho0 / r * p.K 0 * x ^ 2 / 2 ≠ 0 :=
    div_ne_zero (mul_ne_zero (mul_ne_zero hr' hK.ne') (pow_ne_zero 2 hx.ne)) (by norm_num)
  rw [mul_eq_zero, or_iff_right h1, mul_eq_zero, pow_eq_zero_iff (by norm_num), sub_eq_zero, or_comm, eq_comm (a := (1 : ℝ))]

/-- What the bulk modulus should be as a function of temperature: `bulk_iff` with the energy of the temperature. -/
theorem bulkT_iff (p : Power) (n : Num ℝ) (r T D : ℝ) (h0 : p.rho0 ≠ 0) (hr : r ≠ 0) (hD : HasDerivAt p.ref D (1 - p.rho0 / r)) :
    (∃ Pr Pe, HasDerivAt (fun x => p.q (Num.exact n) .pRE x (p.q (Num.exact n) .eRT r T)) Pr r ∧
      HasDerivAt (fun x => p.q (Num.exact n) .pRE r x) Pe (p.q (Num.exact n) .eRT r T) ∧
      p.q (Num.exact n) .bRT r T = r * (Pr + p.q (Num.exact n) .pRT r T / r ^ 2 * Pe)) ↔
    p.q (Num.exact n) .bRT r T = p.rho0 / r * (D * (1 - p.G0 * (1 - p.rho0 / r) / 2)
      + p.G0 * p.hugP (Num.exact n) r / 2 + p.G0 ^ 2 * p.rho0 * p.Cv0 * (T - p.hugT (Num.exact n) r)) := by
  have heta := p.hasDerivAt_eta n r hr
  rw [← p.eta_eq n r] at hD
  have hP : HasDerivAt (p.hugP (Num.exact n)) (D * (p.rho0 / r ^ 2)) r := by
    have := HasDerivAt.comp (h₂ := p.ref) r hD heta
    exact HasDerivAt.change this (fun y => by rw [p.hugP_eq]; simp [Function.comp, eta_eq]) rfl
  have hE : HasDerivAt (p.hugE (Num.exact n)) _ r :=
    HasDerivAt.change (((heta.div_const (2 * p.rho0)).fun_mul hP).const_add p.E0)
      (fun y => by rw [p.hugE_eq, p.eta_eq]) rfl
  have hPr : HasDerivAt (fun x => p.q (Num.exact n) .pRE x (p.q (Num.exact n) .eRT r T)) _ r :=
    hP.add ((hE.const_sub _).const_mul (p.rho0 * p.G0))
  have hPe := (p.C46_powermg_heat_gruneisen n r (p.q (Num.exact n) .eRT r T) hr).2
  have key : r * (D * (p.rho0 / r ^ 2) + p.rho0 * p.G0 * -(p.rho0 / r ^ 2 / (2 * p.rho0) * p.hugP (Num.exact n) r
        + p.eta (Num.exact n) r / (2 * p.rho0) * (D * (p.rho0 / r ^ 2)))
      + p.q (Num.exact n) .pRT r T / r ^ 2 * (r * p.q (Num.exact n) .gRE r (p.q (Num.exact n) .eRT r T))) =
      p.rho0 / r * (D * (1 - p.G0 * (1 - p.rho0 / r) / 2)
      + p.G0 * p.hugP (Num.exact n) r / 2 + p.G0 ^ 2 * p.rho0 * p.Cv0 * (T - p.hugT (Num.exact n) r)) := by
    rw [p.eta_eq]
    simp only [q]
    generalize p.hugP (Num.exact n) r = P
    generalize p.hugT (Num.exact n) r = E
    simp only [Num.exact, ratio_zero_small]
    field_simp
    ring
  constructor
  · rintro ⟨Pr, Pe, h1, h2, h3⟩
    rw [h3, h1.unique hPr, h2.unique hPe, key]
  · intro h
    exact ⟨_, _, hPr, hPe, by rw [h, key]⟩

/-- C46: the by-temperature bulk modulus is the isentropic derivative of the pressure in compression, at the reference density and
in expansion down to the pressure cutoff. -/
theorem C46_powermg_bulk_temperature (p : Power) (n : Num ℝ) (r T : ℝ) (h0 : 0 < p.rho0) (hr : 0 < r)
    (hP0 : p.Pmin / p.K 0 < 0) (hP : p.Pmin / p.K 0 < 1 - p.rho0 / r) :
    ∃ Pr Pe, HasDerivAt (fun x => p.q (Num.exact n) .pRE x (p.q (Num.exact n) .eRT r T)) Pr r ∧
      HasDerivAt (fun x => p.q (Num.exact n) .pRE r x) Pe (p.q (Num.exact n) .eRT r T) ∧
      p.q (Num.exact n) .bRT r T = r * (Pr + p.q (Num.exact n) .pRT r T / r ^ 2 * Pe) := by
  rcases lt_trichotomy (1 - p.rho0 / r) 0 with hx | hx | hx
  · rw [p.bulkT_iff n r T _ h0.ne' hr.ne' (p.hasDerivAt_ref_exp _ hx hP)]
    simp only [q, bulkT, hugT, p.eta_eq n r, if_pos hx.le, if_neg (not_lt.mpr hP.le), p.hugP_eq n r, ref]
    simp only [Num.exact, ratio_zero_small]
    rw [mul_comm p.G0 (1 - p.rho0 / r)]
    ring
  · have hd := p.hasDerivAt_ref_zero hP0
    rw [← hx] at hd
    rw [p.bulkT_iff n r T _ h0.ne' hr.ne' hd]
    simp only [q, bulkT, hugT, p.eta_eq n r, hx, if_pos (le_refl (0 : ℝ)), if_neg (not_lt.mpr hP0.le), p.hugP_eq n r, ref]
    simp only [Num.exact, ratio_zero_small, mul_zero, zero_mul]
    ring
  · rw [p.bulkT_iff n r T _ h0.ne' hr.ne' (p.hasDerivAt_ref_comp _ hx)]
    simp only [q, bulkT, compT, hugT, p.eta_eq n r, if_neg (not_le.mpr hx)]
    generalize p.hugTe (1 - p.rho0 / r) = t
    simp only [p.hugP_eq n r, ref, if_neg (not_le.mpr hx), hugPe_eq, hornerB_eq]
    simp only [Num.exact, ratio_zero_small]
    generalize 1 - p.rho0 / r = x at *
    have := hx.ne'
    field_simp
    ring

/-- C46 is violated below the pressure cutoff: the by-temperature bulk modulus is the isentropic derivative only if the Gruneisen
parameter vanishes: it lacks `rho0/rho G0 Pmin / 2`. -/
theorem C46_powermg_bulk_temperature_cutoff_violated (p : Power) (n : Num ℝ) (r T : ℝ) (h0 : 0 < p.rho0) (hr : 0 < r)
    (hP0 : p.Pmin < 0) (hx : 1 - p.rho0 / r < 0) (hP : 1 - p.rho0 / r < p.Pmin / p.K 0) :
    (∃ Pr Pe, HasDerivAt (fun x => p.q (Num.exact n) .pRE x (p.q (Num.exact n) .eRT r T)) Pr r ∧
      HasDerivAt (fun x => p.q (Num.exact n) .pRE r x) Pe (p.q (Num.exact n) .eRT r T) ∧
      p.q (Num.exact n) .bRT r T = r * (Pr + p.q (Num.exact n) .pRT r T / r ^ 2 * Pe)) ↔ p.G0 = 0 := by
  rw [p.bulkT_iff n r T _ h0.ne' hr.ne' (p.hasDerivAt_ref_cut _ hx hP)]
  simp only [q, bulkT, hugT, p.eta_eq n r, if_pos hx.le, if_pos hP, p.hugP_eq n r, ref]
  simp only [Num.exact, ratio_zero_small]
  have hr' := div_ne_zero h0.ne' hr.ne'
  rw [mul_comm p.G0 (1 - p.rho0 / r), mul_right_inj' hr', ← sub_eq_zero]
  generalize Real.exp ((1 - p.rho0 / r) * p.G0) = E
  have hid : p.G0 * p.G0 * p.Cv0 * p.rho0 * (T - p.T0 * E) - (0 * (1 - (1 - p.rho0 / r) * p.G0 / 2) + p.G0 * p.Pmin / 2 +
      p.G0 ^ 2 * p.rho0 * p.Cv0 * (T - p.T0 * E)) = (-p.Pmin / 2) * p.G0 := by ring
  have h2 : -p.Pmin / 2 ≠ 0 := by intro h; linarith
  rw [hid, mul_eq_zero, or_iff_right h2]

/-- C46 is violated below the pressure cutoff: the by-energy bulk modulus is the isentropic derivative only at one density (or for
a vanishing Gruneisen parameter): it is built with the energy of a curve that the energy query does not use. -/
theorem C46_powermg_bulk_energy_cutoff_violated (p : Power) (n : Num ℝ) (r e : ℝ) (h0 : 0 < p.rho0) (hr : 0 < r)
    (hP0 : p.Pmin < 0) (hx : 1 - p.rho0 / r < 0) (hP : 1 - p.rho0 / r < p.Pmin / p.K 0) :
    IsentropicBulk (p.q (Num.exact n)) r e ↔ p.G0 = 0 ∨ p.G0 * (p.Pmin / p.K 0 - (1 - p.rho0 / r)) = 1 := by
  rw [p.bulk_iff n r e _ h0.ne' hr.ne' (p.hasDerivAt_ref_cut _ hx hP)]
  simp only [q, bulkE, p.eta_eq n r, if_pos hx.le, if_pos hP, p.hugE_eq n r, p.hugP_eq n r, ref]
  simp only [Num.exact, ratio_zero_small]
  have hr' := div_ne_zero h0.ne' hr.ne'
  rw [mul_right_inj' hr', ← sub_eq_zero]
  generalize 1 - p.rho0 / r = x at *
  have hid : p.G0 * p.G0 * p.rho0 * (e - p.E0 + p.Pmin / p.rho0 * (p.Pmin / p.K 0 / 2 - x)) -
      (0 * (1 - p.G0 * x / 2) + p.G0 * p.Pmin / 2 + p.G0 ^ 2 * p.rho0 * (e - (p.E0 + x / (2 * p.rho0) * p.Pmin))) =
      p.Pmin / 2 * (p.G0 * (p.G0 * (p.Pmin / p.K 0 - x) - 1)) := by
    generalize p.Pmin / p.K 0 = c
    field_simp
    ring
  have h2 : p.Pmin / 2 ≠ 0 := by intro h; linarith
  rw [hid, mul_eq_zero, or_iff_right h2, mul_eq_zero, sub_eq_zero]

/-- C46: in compression and at the reference density the two bulk moduli agree. -/
theorem C46_powermg_bulk_twin (p : Power) (n : Num ℝ) (r T : ℝ) (h0 : 0 < p.rho0) (hr : p.rho0 ≤ r) (hP : p.Pmin / p.K 0 < 0) :
    Twin (p.q (Num.exact n)) .bRT .bRE r T := by
  have hr0 : 0 < r := h0.trans_le hr
  have hx : p.Pmin / p.K 0 < 1 - p.rho0 / r := by
    have := (div_le_one hr0).mpr hr
    linarith
  obtain ⟨Pr, Pe, h1, h2, h3⟩ := p.C46_powermg_bulk_energy n r (p.q (Num.exact n) .eRT r T) h0 hr hP
  obtain ⟨Pr', Pe', h1', h2', h3'⟩ := p.C46_powermg_bulk_temperature n r T h0 hr0 hP hx
  rw [Twin, h3, h3', h1.unique h1', h2.unique h2']
  congr 3
  simp only [q, energy]
  ring

/-! ## First law -/

/-- What the first law demands of the reference temperature at compression `x`, given the reference pressure and its slope:
`T_H' = G0 T_H + (x P_H' - P_H) / (2 rho0 Cv)`. -/
theorem firstLaw_iff (p : Power) (n : Num ℝ) (r T D t D' : ℝ) (th : ℝ → ℝ) (h0 : p.rho0 ≠ 0) (hr : r ≠ 0) (hc : p.Cv0 ≠ 0)
    (hD : HasDerivAt p.ref D (1 - p.rho0 / r)) (ht : p.hugT (Num.exact n) r = t)
    (hth : ∀ᶠ y in 𝓝 r, p.hugT (Num.exact n) y = th (1 - p.rho0 / y)) (hD' : HasDerivAt th D' (1 - p.rho0 / r)) :
    EnergyRho (p.q (Num.exact n)) r T ↔
      D' = p.G0 * t + ((1 - p.rho0 / r) * D - p.ref (1 - p.rho0 / r)) / (2 * p.rho0 * p.Cv0) := by
  have heta := p.hasDerivAt_eta n r hr
  rw [← p.eta_eq n r] at hD hD'
  have hP : HasDerivAt (p.hugP (Num.exact n)) (D * (p.rho0 / r ^ 2)) r := by
    have := HasDerivAt.comp (h₂ := p.ref) r hD heta
    exact HasDerivAt.change this (fun y => by rw [p.hugP_eq]; simp [Function.comp, eta_eq]) rfl
  have hE : HasDerivAt (p.hugE (Num.exact n)) _ r :=
    HasDerivAt.change (((heta.div_const (2 * p.rho0)).fun_mul hP).const_add p.E0)
      (fun y => by rw [p.hugE_eq, p.eta_eq]) rfl
  have hT : HasDerivAt (p.hugT (Num.exact n)) (D' * (p.rho0 / r ^ 2)) r := by
    have := HasDerivAt.comp (h₂ := th) r hD' heta
    refine this.congr_of_eventuallyEq ?_
    filter_upwards [hth] with y hy
    simp [hy, eta_eq]
  have hPT : HasDerivAt (fun t => p.q (Num.exact n) .pRT r t) (p.G0 * p.rho0 * p.Cv0) T := by
    refine HasDerivAt.change (hasDerivAt_affine (p.G0 * p.rho0 * p.Cv0)
      (p.hugP (Num.exact n) r - p.G0 * p.rho0 * p.Cv0 * p.hugT (Num.exact n) r) T) (fun y => ?_) rfl
    simp only [q]; ring
  have hER : HasDerivAt (fun x => p.q (Num.exact n) .eRT x T) _ r := hE.add ((hT.const_sub T).const_mul p.Cv0)
  have key : ((p.q (Num.exact n) .pRT r T - T * (p.G0 * p.rho0 * p.Cv0)) / r ^ 2 =
      p.rho0 / r ^ 2 / (2 * p.rho0) * p.hugP (Num.exact n) r + p.eta (Num.exact n) r / (2 * p.rho0) * (D * (p.rho0 / r ^ 2))
        + p.Cv0 * -(D' * (p.rho0 / r ^ 2))) ↔
      D' = p.G0 * t + ((1 - p.rho0 / r) * D - p.ref (1 - p.rho0 / r)) / (2 * p.rho0 * p.Cv0) := by
    simp only [q, ht, p.hugP_eq n r, p.eta_eq n r]
    generalize 1 - p.rho0 / r = x at *
    generalize p.ref x = P
    rw [← sub_eq_zero, ← sub_eq_zero (a := D')]
    have hid : (P + p.G0 * p.rho0 * p.Cv0 * (T - t) - T * (p.G0 * p.rho0 * p.Cv0)) / r ^ 2 -
        (p.rho0 / r ^ 2 / (2 * p.rho0) * P + x / (2 * p.rho0) * (D * (p.rho0 / r ^ 2)) + p.Cv0 * -(D' * (p.rho0 / r ^ 2))) =
        p.Cv0 * p.rho0 / r ^ 2 * (D' - (p.G0 * t + (x * D - P) / (2 * p.rho0 * p.Cv0))) := by
      field_simp
      ring
    rw [hid]
    have : p.Cv0 * p.rho0 / r ^ 2 ≠ 0 := div_ne_zero (mul_ne_zero hc h0) (pow_ne_zero 2 hr)
    rw [mul_eq_zero, or_iff_right this]
  constructor
  · rintro ⟨PT, h1, h2⟩
    rw [h1.unique hPT] at h2
    exact key.mp (h2.unique hER)
  · intro h
    exact ⟨_, hPT, HasDerivAt.change hER (fun y => rfl) (key.mpr h).symm⟩

theorem hugT_exp (p : Power) (n : Num ℝ) (r : ℝ) (hx : 1 - p.rho0 / r ≤ 0) :
    p.hugT (Num.exact n) r = p.T0 * Real.exp ((1 - p.rho0 / r) * p.G0) := by
  simp only [hugT, p.eta_eq, if_pos hx]

theorem eventually_expansion (p : Power) (n : Num ℝ) (r : ℝ) (hr : r ≠ 0) (hx : 1 - p.rho0 / r < 0) :
    ∀ᶠ y in 𝓝 r, p.hugT (Num.exact n) y = (fun x => p.T0 * Real.exp (x * p.G0)) (1 - p.rho0 / y) := by
  have hc : ContinuousAt (fun y => 1 - p.rho0 / y) r := by fun_prop (disch := assumption)
  filter_upwards [hc.eventually_lt continuousAt_const hx] with y hy
  exact p.hugT_exp n y hy.le

theorem hasDerivAt_isentrope (p : Power) (x : ℝ) : HasDerivAt (fun x => p.T0 * Real.exp (x * p.G0)) (p.G0 * (p.T0 * Real.exp (x * p.G0))) x := by
  have := (((hasDerivAt_id x).mul_const p.G0).exp).const_mul p.T0
  refine HasDerivAt.change this (fun _ => rfl) ?_
  simp only [id]; ring

/-- C46: in expansion down to the pressure cutoff energy and pressure satisfy the first law exactly. -/
theorem C46_powermg_first_law_expansion (p : Power) (n : Num ℝ) (r T : ℝ) (h0 : 0 < p.rho0) (hr : 0 < r) (hc : p.Cv0 ≠ 0)
    (hx : 1 - p.rho0 / r < 0) (hP : p.Pmin / p.K 0 < 1 - p.rho0 / r) : EnergyRho (p.q (Num.exact n)) r T := by
  rw [p.firstLaw_iff n r T _ _ _ _ h0.ne' hr.ne' hc (p.hasDerivAt_ref_exp _ hx hP) (p.hugT_exp n r hx.le)
    (p.eventually_expansion n r hr.ne' hx) (p.hasDerivAt_isentrope _)]
  simp only [ref, if_pos hx.le, if_neg (not_lt.mpr hP.le)]
  ring

/-- C46 is violated: below the pressure cutoff energy and pressure never satisfy the first law. -/
theorem C46_powermg_first_law_cutoff_violated (p : Power) (n : Num ℝ) (r T : ℝ) (h0 : 0 < p.rho0) (hr : 0 < r) (hc : 0 < p.Cv0)
    (hP0 : p.Pmin < 0) (hx : 1 - p.rho0 / r < 0) (hP : 1 - p.rho0 / r < p.Pmin / p.K 0) :
    ¬ EnergyRho (p.q (Num.exact n)) r T := by
  rw [p.firstLaw_iff n r T _ _ _ _ h0.ne' hr.ne' hc.ne' (p.hasDerivAt_ref_cut _ hx hP) (p.hugT_exp n r hx.le)
    (p.eventually_expansion n r hr.ne' hx) (p.hasDerivAt_isentrope _)]
  simp only [ref, if_pos hx.le, if_pos hP]
  intro h
  have h2 : (0 - p.Pmin) / (2 * p.rho0 * p.Cv0) = 0 := by linear_combination -h
  have : 0 < (0 - p.Pmin) / (2 * p.rho0 * p.Cv0) := div_pos (by linarith) (by positivity)
  linarith

/-! ## Reference state -/

/-- C74 (partial): the reference state is a state of the EOS. -/
theorem C74_powermg_reference (p : Power) (n : Num ℝ) (dv : ℝ → ℝ → ℝ) (l0 l : Λ) (h0 : p.rho0 ≠ 0) (hP : p.Pmin / p.K 0 < 0) :
    RefDirect (p.eos (Num.exact n) dv l0) l := by
  have he : p.eta (Num.exact n) p.rho0 = 0 := by rw [eta_eq, div_self h0, sub_self]
  have hT : p.hugT (Num.exact n) p.rho0 = p.T0 := by simp [hugT, he]
  have hE : p.hugE (Num.exact n) p.rho0 = p.E0 := by rw [hugE_eq, div_self h0]; simp
  refine ⟨rfl, ?_, rfl, ?_, ?_⟩
  · show p.energy (Num.exact n) p.rho0 p.T0 = p.E0
    simp [energy, hT, hE]
  · show p.bulkT (Num.exact n) p.rho0 p.T0 = p.K 0
    simp only [bulkT, he, if_pos (le_refl (0 : ℝ)), if_neg (not_lt.mpr hP.le)]
    simp only [Num.exact, ratio_zero_small, div_self h0]
    simp
  · show p.rho0 * ratio _ (p.G0 * p.rho0) p.rho0 = p.G0 * p.rho0
    simp only [Num.exact, ratio_zero_small]
    field_simp

/-- C74 is violated: the reported `dV/dT` is negative whenever `T0`, `G0` and `rho0` are positive, although the material expands on
heating whenever its isothermal bulk modulus `K0 - G0^2 Cv rho0 T0` is positive. -/
theorem C74_powermg_dvdt_violated (p : Power) (n : Num ℝ) (dv : ℝ → ℝ → ℝ) (l0 l : Λ) (h0 : 0 < p.rho0) (hT : 0 < p.T0)
    (hG : 0 < p.G0) (hc : 0 < p.Cv0) (hP : p.Pmin / p.K 0 < 0) (hB : p.G0 ^ 2 * p.Cv0 * p.rho0 * p.T0 < p.K 0) :
    ((p.eos (Num.exact n) dv l0).ref l).dvdt < 0 ∧
    0 < ratio (Num.exact n).σ (p.Cv0 * p.rho0 * p.G0) (p.tbulk (Num.exact n) p.rho0 p.T0) := by
  constructor
  · show ratio _ (-1) (p.T0 * p.G0 * p.rho0) < 0
    simp only [Num.exact, ratio_zero_small]
    exact div_neg_of_neg_of_pos (by norm_num) (by positivity)
  · have he : p.eta (Num.exact n) p.rho0 = 0 := by rw [eta_eq, div_self h0.ne', sub_self]
    have : p.tbulk (Num.exact n) p.rho0 p.T0 = p.K 0 - p.G0 ^ 2 * p.Cv0 * p.rho0 * p.T0 := by
      simp only [tbulk, bulkT, he, if_pos (le_refl (0 : ℝ)), if_neg (not_lt.mpr hP.le)]
      simp only [Num.exact, ratio_zero_small, div_self h0.ne', mul_zero, Real.exp_zero]
      ring
    rw [this]
    simp only [Num.exact, ratio_zero_small]
    exact div_pos (by positivity) (by linarith)

/-- C46 (partial): the isothermal bulk modulus is the by-temperature bulk modulus less `rho0/rho G0^2 Cv rho0 T`, and is `rho dP/drho`
at constant temperature in expansion down to the cutoff, where the first law holds exactly. -/
theorem C46_powermg_isothermal_bulk_partial (p : Power) (n : Num ℝ) (r T : ℝ) (h0 : 0 < p.rho0) (hr : 0 < r)
    (hx : 1 - p.rho0 / r < 0) (hP : p.Pmin / p.K 0 < 1 - p.rho0 / r) :
    HasDerivAt (fun x => p.q (Num.exact n) .pRT x T) (p.tbulk (Num.exact n) r T / r) r := by
  have heta := p.hasDerivAt_eta n r hr.ne'
  have hD := p.hasDerivAt_ref_exp _ hx hP
  have hI := p.hasDerivAt_isentrope (1 - p.rho0 / r)
  rw [← p.eta_eq n r] at hD hI
  have hPd : HasDerivAt (p.hugP (Num.exact n)) (p.K 0 * (p.rho0 / r ^ 2)) r := by
    have := HasDerivAt.comp (h₂ := p.ref) r hD heta
    exact HasDerivAt.change this (fun y => by rw [p.hugP_eq]; simp [Function.comp, eta_eq]) rfl
  have hT := (HasDerivAt.comp (h₂ := fun x => p.T0 * Real.exp (x * p.G0)) r hI heta).congr_of_eventuallyEq
    (f₁ := p.hugT (Num.exact n)) (by
      filter_upwards [p.eventually_expansion n r hr.ne' hx] with y hy
      simp [hy, eta_eq])
  refine HasDerivAt.change (hPd.add ((hT.const_sub T).const_mul (p.G0 * p.rho0 * p.Cv0))) (fun _ => rfl) ?_
  simp only [tbulk, bulkT, p.eta_eq n r, if_pos hx.le, if_neg (not_lt.mpr hP.le)]
  simp only [Num.exact, ratio_zero_small]
  rw [mul_comm p.G0 (1 - p.rho0 / r)]
  field_simp
  ring

/-- A concrete material meets the hypotheses of the theorems above in compression, in expansion and below the cutoff. -/
example : let p := make 2 300 1 1 0 1 0 (fun i => if i = 0 then 10 else if i = 3 then 1 else 0) 1 1
    0 < p.rho0 ∧ p.Pmin / p.K 0 < 0 ∧ p.rho0 ≤ 3 ∧ (1 - p.rho0 / 1 < 0 ∧ p.Pmin / p.K 0 < 1 - p.rho0 / 1) ∧
      (1 - p.rho0 / (1 / 10 ^ 4) < p.Pmin / p.K 0) ∧ p.Pmin < 0 ∧ 0 < p.Cv0 := by
  norm_num [make]

end Verif.MG.Power
