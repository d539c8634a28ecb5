import Verif.Model.Eos.Misc
import Verif.Props.Eos.Ideal

set_option linter.unusedSectionVars false

/-! # C48, C49, C74: SAP_Polynomial and IdealElectrons -/

namespace Verif.EosMisc

open Verif.Mods Verif.Robust Verif.Base Verif.Spec Verif.Gases
open Filter Topology

variable {Λ : Type*}

/-! ## SAP_Polynomial -/

namespace Sap

/-- The pressure as one polynomial with the quadratic coefficients chosen by the sign of `mu`. -/
theorem hasDerivAt_poly (a0 a1 a2 a3 b0 b1 b2 b3 e m : ℝ) :
    HasDerivAt (fun m => a0 + a1 * m + a2 * m * m + a3 * m * m * m
      + e * (b0 + b1 * m + b2 * m * m + b3 * m * m * m))
      (a1 + 2 * a2 * m + 3 * a3 * m * m + e * (b1 + 2 * b2 * m + 3 * b3 * m * m)) m := by
  have h1 : HasDerivAt (fun m : ℝ => m * m) (2 * m) m := by
    refine HasDerivAt.change ((hasDerivAt_id m).mul (hasDerivAt_id m)) (fun y => rfl) ?_
    simp; ring
  have h2 : HasDerivAt (fun m : ℝ => m * (m * m)) (3 * (m * m)) m := by
    refine HasDerivAt.change ((hasDerivAt_id m).mul h1) (fun y => rfl) ?_
    simp; ring
  have h0 := hasDerivAt_id m
  have ha := ((h0.const_mul a1).add (h1.const_mul a2)).add (h2.const_mul a3)
  have hb := ((((h0.const_mul b1).add (h1.const_mul b2)).add (h2.const_mul b3)).const_add b0).const_mul e
  refine HasDerivAt.change ((ha.const_add a0).add hb) (fun y => ?_) ?_
  · simp [Pi.add_apply]; ring
  · simp; ring

/-- Two functions that agree, with the same derivative, at the switching point can be glued there. -/
theorem hasDerivAt_switch {f g : ℝ → ℝ} {m f' : ℝ} (hf : 0 ≤ m → HasDerivAt f f' m)
    (hg : m ≤ 0 → HasDerivAt g f' m) (h0 : f 0 = g 0) :
    HasDerivAt (fun y => if 0 ≤ y then f y else g y) f' m := by
  rcases lt_trichotomy m 0 with h | h | h
  · refine (hg h.le).congr_of_eventuallyEq ?_
    filter_upwards [gt_mem_nhds h] with y hy
    exact if_neg (not_le.mpr hy)
  · subst h
    have h1 : HasDerivWithinAt (fun y => if 0 ≤ y then f y else g y) f' (Set.Ici 0) 0 :=
      (hf le_rfl).hasDerivWithinAt.congr (fun y hy => if_pos hy) (if_pos le_rfl)
    have h2 : HasDerivWithinAt (fun y => if 0 ≤ y then f y else g y) f' (Set.Iic 0) 0 := by
      refine (hg le_rfl).hasDerivWithinAt.congr (fun y hy => ?_) ?_
      · by_cases hy0 : 0 ≤ y
        · have : y = 0 := le_antisymm hy hy0
          subst this
          rw [if_pos le_rfl, h0]
        · exact if_neg hy0
      · rw [if_pos le_rfl, h0]
    have := h1.union h2
    rwa [Set.Ici_union_Iic, hasDerivWithinAt_univ] at this
  · refine (hf h.le).congr_of_eventuallyEq ?_
    filter_upwards [lt_mem_nhds h] with y hy
    exact if_pos (le_of_lt hy)

/-- C48: the pressure is differentiable in the density at every density, including the switch between
compression and expansion, and the reported bulk modulus is `rho dP/drho` at constant energy. -/
theorem C48_sap_density_derivative (p : Sap) (h0 : p.rho0 ≠ 0) (r e : ℝ) (hr : r ≠ 0) :
    HasDerivAt (fun x => p.q .pRE x e) (p.q .bRE r e / r) r := by
  have hmu : HasDerivAt p.mu (1 / p.rho0) r := by
    refine HasDerivAt.change (hasDerivAt_affine (1 / p.rho0) (-1) r) (fun y => ?_) rfl
    simp only [mu]; ring
  have hP : HasDerivAt (fun m => p.pMu m e) (if 0 ≤ p.mu r then
        p.a1 + 2 * p.a2c * p.mu r + 3 * p.a3 * p.mu r * p.mu r
          + e * (p.b1 + 2 * p.b2c * p.mu r + 3 * p.b3 * p.mu r * p.mu r)
      else p.a1 + 2 * p.a2e * p.mu r + 3 * p.a3 * p.mu r * p.mu r
          + e * (p.b1 + 2 * p.b2e * p.mu r + 3 * p.b3 * p.mu r * p.mu r)) (p.mu r) := by
    refine hasDerivAt_switch (fun h => ?_) (fun h => ?_) (by simp)
    · rw [if_pos h]; exact hasDerivAt_poly _ _ _ _ _ _ _ _ _ _
    · have hd := hasDerivAt_poly p.a0 p.a1 p.a2e p.a3 p.b0 p.b1 p.b2e p.b3 e (p.mu r)
      by_cases h' : 0 ≤ p.mu r
      · rw [if_pos h']
        have hz : p.mu r = 0 := le_antisymm h h'
        rw [hz] at hd ⊢
        simpa using hd
      · rw [if_neg h']; exact hd
  refine HasDerivAt.change (hP.comp r hmu) (fun y => rfl) ?_
  have h1 : 1 + p.mu r = r / p.rho0 := by simp only [mu]; ring
  simp only [q]
  rw [h1]
  split_ifs <;> field_simp

/-- C48: what the Gruneisen query returns is `dP/de` at constant density (without the factor `1/rho`). -/
theorem C48_sap_energy_derivative (p : Sap) (r e : ℝ) :
    HasDerivAt (fun x => p.q .pRE r x) (p.q .gRE r e) e := by
  simp only [q, pMu]
  split_ifs
  · refine HasDerivAt.change (hasDerivAt_affine _ (p.a0 + p.a1 * p.mu r + p.a2c * p.mu r * p.mu r + p.a3 * p.mu r * p.mu r * p.mu r) e)
      (fun y => ?_) rfl
    ring
  · refine HasDerivAt.change (hasDerivAt_affine _ (p.a0 + p.a1 * p.mu r + p.a2e * p.mu r * p.mu r + p.a3 * p.mu r * p.mu r * p.mu r) e)
      (fun y => ?_) rfl
    ring

/-- C48 is violated: the Gruneisen parameter is right only at unit density (or where the pressure does not
depend on the energy). -/
theorem C48_sap_gruneisen_violated (p : Sap) (r e : ℝ) (hr : r ≠ 1) (hb : p.q .gRE r e ≠ 0) :
    ¬ Gruneisen p.q r e := by
  intro h
  have := (C48_sap_energy_derivative p r e).unique h
  apply hr
  have h1 : (r - 1) * p.q .gRE r e = 0 := by linarith
  rcases mul_eq_zero.mp h1 with h | h
  · linarith
  · exact absurd h hb

/-- C48 is violated: the bulk modulus omits the energy term of the isentropic derivative, so it is right
only where pressure or `dP/de` vanishes. -/
theorem C48_sap_bulk_violated (p : Sap) (h0 : p.rho0 ≠ 0) (r e : ℝ) (hr : r ≠ 0) (hb : p.q .gRE r e ≠ 0)
    (hP : p.q .pRE r e ≠ 0) : ¬ IsentropicBulk p.q r e := by
  rintro ⟨Pr, Pe, h1, h2, h3⟩
  have e1 := h1.unique (C48_sap_density_derivative p h0 r e hr)
  have e2 := h2.unique (C48_sap_energy_derivative p r e)
  rw [e1, e2, mul_add, mul_div_cancel₀ _ hr] at h3
  have : r * (p.q .pRE r e / r ^ 2 * p.q .gRE r e) = 0 := by linarith
  have hne : r * (p.q .pRE r e / r ^ 2 * p.q .gRE r e) ≠ 0 := by positivity
  exact hne this

/-- C48 is violated: the temperature queries are stubs; no positive temperature survives the round trip. -/
theorem C48_sap_temperature_violated (p : Sap) (r T : ℝ) (hT : 0 < T) : ¬ RoundTripT p.q r T := by
  intro h
  have : (0 : ℝ) = T := h
  linarith

/-- C74 is violated: the reference state reports zero pressure and bulk modulus at zero energy, where the
EOS has pressure `a0` and (for unit factor) bulk modulus `a1`. -/
theorem C74_sap_reference_violated (p : Sap) (n : Num ℝ) (dv : ℝ → ℝ → ℝ) (h0 : p.rho0 ≠ 0) (l0 l : Λ) :
    let t := p.eos n dv l0
    (t.ref l).press = 0 ∧ t.q .pRE l (t.ref l).rho (t.ref l).sie = p.a0 ∧
    (t.ref l).bmod = 0 ∧ t.q .bRE l (t.ref l).rho (t.ref l).sie = p.a1 := by
  have hm : p.mu p.rho0 = 0 := by simp only [mu]; rw [div_self h0, sub_self]
  refine ⟨rfl, ?_, rfl, ?_⟩
  · show p.pMu (p.mu p.rho0) 0 = p.a0
    rw [hm]; simp [pMu]
  · show p.q .bRE p.rho0 0 = p.a1
    simp only [q]
    rw [hm]; simp

/-- A made-up material with distinct compression and expansion coefficients. -/
def demo : Sap := ⟨2, 1, 3, 5, 7, 1, 2, 1, 1, 2, 1, 1, 1⟩

example : ¬ Gruneisen demo.q 3 1 :=
  C48_sap_gruneisen_violated demo 3 1 (by norm_num) (by norm_num [q, mu, demo])

example : ¬ IsentropicBulk demo.q 3 1 :=
  C48_sap_bulk_violated demo (by norm_num [demo]) 3 1 (by norm_num) (by norm_num [q, mu, demo])
    (by norm_num [q, pMu, mu, demo])

end Sap

/-! ## IdealElectrons -/

namespace Electrons

/-- C49: with ionisation `z` every query is the IdealGas query with heat capacity `z` times the heat
capacity of singly ionised electrons. -/
theorem C49_electrons_are_ideal (p : Electrons) (n : Num ℝ) (z : ℝ) (k : Q) (r x : ℝ) :
    p.q n z k r x = (⟨p.gm1, p.Cvbase * max z 0, p.T0, p.rho0, p.T0, p.P0, p.abar, p.zbar⟩ : Ideal).q n k r x := by
  cases k <;> rfl

/-- C49: positive ionisation makes the electrons a thermodynamically consistent EOS at every state of positive
density and temperature. -/
theorem C49_electrons_consistent (p : Electrons) (hg : 0 < p.gm1) (hc : 0 < p.Cvbase) (hT0 : 0 < p.T0)
    (hr0 : 0 < p.rho0) (n : Num ℝ) (z r T : ℝ) (hz : 0 < z) (hr : 0 < r) (hT : 0 < T) :
    Consistent (p.q (Num.exact n) z) r T := by
  have h : p.q (Num.exact n) z = (⟨p.gm1, p.Cvbase * max z 0, p.T0, p.rho0, p.T0, p.P0, p.abar, p.zbar⟩ : Ideal).q (Num.exact n) := by
    funext k r x
    exact C49_electrons_are_ideal p _ z k r x
  rw [h]
  refine Ideal.C36_ideal_consistent _ ⟨hg, ?_, hT0, hr0⟩ n r T hr hT
  show 0 < p.Cvbase * max z 0
  rw [max_eq_left hz.le]
  positivity

/-- C49: for the EOS the constructor builds, the pressure is that of `rho z / (A m_p)` particles per unit
volume, `P = n_e k_B T`, and the energy density is `n_e k_B T / (gamma - 1)`. -/
theorem C49_electrons_ideal_gas_law (n : Num ℝ) (kb mp T0 P0 abar zbar z r T : ℝ) (hk : 0 < kb) (hm : 0 < mp)
    (ha : 0 < abar) (hz : 0 ≤ z) (hr : 0 ≤ r) (hT : 0 ≤ T) :
    let p := ofAbar 0 kb mp T0 P0 abar zbar
    let ne := r * z / (abar * mp)
    p.q n z .pRT r T = ne * kb * T ∧ r * p.q n z .eRT r T = ne * kb * T / (5 / 3 - 1) := by
  intro p ne
  have hcv : p.cv z = kb / ((5 / 3 - 1) * abar * mp) * z := by
    show ratio 0 kb _ * max z 0 = _
    rw [ratio_zero_small, max_eq_left hz]
  have h23 : (0 : ℝ) < 5 / 3 - 1 := by norm_num
  have hcv0 : 0 ≤ p.cv z := by rw [hcv]; positivity
  constructor
  · show max 0 ((5 / 3 - 1) * r * p.cv z * T) = _
    rw [max_eq_right (by positivity), hcv]
    simp only [ne]
    field_simp
  · show r * max 0 (p.cv z * T) = _
    rw [max_eq_right (by positivity), hcv]
    simp only [ne]
    field_simp

/-- C49: pressure, energy, bulk modulus (by temperature) and heat capacity are proportional to the
ionisation. -/
theorem C49_electrons_scale (p : Electrons) (n : Num ℝ) (z c r T : ℝ) (hc : 0 ≤ c) (k : Q)
    (hk : k ∈ [Q.pRT, .eRT, .bRT, .cvRT]) : p.q n (c * z) k r T = c * p.q n z k r T := by
  have hcv : p.cv (c * z) = c * p.cv z := by
    simp only [cv]
    rw [show max (c * z) 0 = c * max z 0 by rw [mul_max_of_nonneg _ _ hc, mul_zero]]
    ring
  have hm : ∀ x : ℝ, max 0 (c * x) = c * max 0 x := fun x => by rw [mul_max_of_nonneg _ _ hc, mul_zero]
  simp only [List.mem_cons, List.not_mem_nil, or_false] at hk
  rcases hk with rfl | rfl | rfl | rfl
  · simp only [q]; rw [hcv, ← hm]; congr 1; ring
  · simp only [q]; rw [hcv, ← hm]; congr 1; ring
  · simp only [q]; rw [hcv, ← hm]; congr 1; ring
  · simp only [q]; rw [hcv]

/-- C49: neutral matter (or a negative ionisation left by a failed ionisation model) has no electron
pressure, energy, bulk modulus or heat capacity at any density and temperature. -/
theorem C49_electrons_neutral (p : Electrons) (n : Num ℝ) (z r T : ℝ) (hz : z ≤ 0) (k : Q)
    (hk : k ∈ [Q.pRT, .eRT, .bRT, .cvRT, .sRT]) : p.q n z k r T = 0 := by
  have hcv : p.cv z = 0 := by simp only [cv]; rw [max_eq_right hz, mul_zero]
  simp only [List.mem_cons, List.not_mem_nil, or_false] at hk
  rcases hk with rfl | rfl | rfl | rfl | rfl <;> simp [q, hcv]

/-- C49: temperature is recovered from energy for positive ionisation, at any temperature (clamped at 0). -/
theorem C49_electrons_round_trip (p : Electrons) (hc : 0 < p.Cvbase) (n : Num ℝ) (z r x : ℝ) (hz : 0 < z) :
    p.q n z .tRE r (p.q n z .eRT r x) = max 0 x ∧ p.q n z .eRT r (p.q n z .tRE r x) = max 0 x := by
  simp only [C49_electrons_are_ideal]
  refine Ideal.C36_ideal_round_trip _ ?_ n r x
  show 0 < p.Cvbase * max z 0
  rw [max_eq_left hz.le]
  positivity

/-- C49: density and energy from pressure and temperature are a state at that pressure and temperature, for every
positive ionisation, pressure and temperature. -/
theorem C49_electrons_density_energy (p : Electrons) (hg : 0 < p.gm1) (hc : 0 < p.Cvbase) (n : Num ℝ) (z0 z P T : ℝ)
    (hz : 0 < z) (hP : 0 < P) (hT : 0 < T) (g : ℝ × ℝ) :
    let o := (p.eos n z0).rePT z P T g
    0 < o.1 ∧ (p.eos n z0).q .pRT z o.1 T = P ∧ (p.eos n z0).q .eRT z o.1 T = o.2 := by
  have h1 : 0 < p.cv z := by show 0 < p.Cvbase * max z 0; rw [max_eq_left hz.le]; positivity
  have h2 : 0 < p.cv z * T := by positivity
  show 0 < max 0 (P / (p.gm1 * max 0 (p.cv z * T))) ∧
    max 0 (p.gm1 * max 0 (P / (p.gm1 * max 0 (p.cv z * T))) * p.cv z * T) = P ∧ max 0 (p.cv z * T) = max 0 (p.cv z * T)
  rw [max_eq_right h2.le, max_eq_right (by positivity : 0 ≤ P / (p.gm1 * (p.cv z * T)))]
  refine ⟨by positivity, ?_, rfl⟩
  rw [max_eq_right (by positivity)]
  field_simp

example (n : Num ℝ) (g : ℝ × ℝ) : let p : Electrons := ofAbar 0 1.38e-16 1.67e-24 293 1e6 4 2
    (p.eos n 1).q .pRT 2 ((p.eos n 1).rePT 2 1e6 300 g).1 300 = 1e6 :=
  (C49_electrons_density_energy _ (by norm_num [ofAbar]) (by simp only [ofAbar, ratio_zero_small]; norm_num) n 1 2 1e6 300
    (by norm_num) (by norm_num) (by norm_num) g).2.1

/-- C74 is violated: the reported reference pressure (one atmosphere) does not depend on the ionisation while
the pressure at the reported density and temperature does, so it is wrong for all but one ionisation. -/
theorem C74_electrons_pressure_violated (p : Electrons) (hg : 0 < p.gm1) (hc : 0 < p.Cvbase) (hT0 : 0 < p.T0)
    (hr0 : 0 < p.rho0) (n : Num ℝ) (z0 z z' : ℝ) (hz : 0 < z) (hz' : 0 < z') (hne : z ≠ z')
    (h : (p.eos n z0).q .pRT z ((p.eos n z0).ref z).rho ((p.eos n z0).ref z).temp = ((p.eos n z0).ref z).press) :
    (p.eos n z0).q .pRT z' ((p.eos n z0).ref z').rho ((p.eos n z0).ref z').temp ≠ ((p.eos n z0).ref z').press := by
  intro h'
  change max 0 (p.gm1 * p.rho0 * (p.Cvbase * max z 0) * p.T0) = p.P0 at h
  change max 0 (p.gm1 * p.rho0 * (p.Cvbase * max z' 0) * p.T0) = p.P0 at h'
  rw [max_eq_left hz.le, max_eq_right (by positivity)] at h
  rw [max_eq_left hz'.le, max_eq_right (by positivity)] at h'
  have h2 : p.gm1 * p.rho0 * p.Cvbase * p.T0 * (z - z') = 0 := by linarith
  have h3 : p.gm1 * p.rho0 * p.Cvbase * p.T0 ≠ 0 := by positivity
  rcases mul_eq_zero.mp h2 with h | h
  · exact h3 h
  · exact hne (by linarith)

/-- C74 (partial): the remaining reference values are the direct queries. -/
theorem C74_electrons_reference_partial (p : Electrons) (hc : 0 ≤ p.Cvbase) (hT0 : 0 ≤ p.T0) (n : Num ℝ) (z0 z : ℝ) :
    let t := p.eos n z0
    t.q .eRT z (t.ref z).rho (t.ref z).temp = (t.ref z).sie ∧
    t.q .cvRT z (t.ref z).rho (t.ref z).temp = (t.ref z).cv ∧
    t.q .bRT z (t.ref z).rho (t.ref z).temp = (t.ref z).bmod ∧
    (t.ref z).rho * t.q .gRT z (t.ref z).rho (t.ref z).temp = (t.ref z).dpde := by
  refine ⟨?_, rfl, rfl, mul_comm _ _⟩
  refine max_eq_right (mul_nonneg (mul_nonneg hc (le_max_right _ _)) hT0)

/-- Non-vacuity: doubly ionised helium. -/
example (n : Num ℝ) : Consistent ((ofAbar 0 1.38e-16 1.67e-24 293 1e6 4 2).q (Num.exact n) 2) 1 10000 := by
  refine C49_electrons_consistent _ ?_ ?_ ?_ ?_ n 2 1 10000 (by norm_num) (by norm_num) (by norm_num)
  · norm_num [ofAbar]
  · simp only [ofAbar, ratio_zero_small]; norm_num
  · norm_num [ofAbar]
  · norm_num [ofAbar]

end Electrons

end Verif.EosMisc
