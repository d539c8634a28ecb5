import Verif.Model.Eos.MieGruneisen
import Verif.Props.Eos.Ideal
import Verif.Props.Eos.Misc
import Mathlib.Analysis.SpecialFunctions.Pow.Deriv

set_option linter.unusedSectionVars false

/-! # C45, C74: MGUsup -/

namespace Verif.MG.Usup

open Verif.Mods Verif.Robust Verif.Base Verif.Spec Verif.Gases
open Filter Topology

variable {Λ : Type*}

theorem eta_eq (p : Usup) (n : Num ℝ) (r : ℝ) : p.eta (Num.exact n) r = 1 - p.rho0 / r := by
  simp only [eta, Num.exact, ratio_zero_small]

theorem hugP_eq (p : Usup) (n : Num ℝ) (r : ℝ) : p.hugP (Num.exact n) r =
    p.Cs ^ 2 * p.rho0 * ((1 - p.rho0 / r) / (1 - p.s * (1 - p.rho0 / r)) ^ 2) := by
  simp only [hugP, eta_eq]
  simp only [Num.exact, ratio_zero_small]
  ring

theorem hugE_eq (p : Usup) (n : Num ℝ) (r : ℝ) : p.hugE (Num.exact n) r =
    p.E0 + (1 - p.rho0 / r) / (2 * p.rho0) * p.hugP (Num.exact n) r := by
  simp only [hugE, eta_eq]
  generalize p.hugP (Num.exact n) r = P
  simp only [Num.exact, ratio_zero_small]

/-- C45: temperature and energy invert each other wherever the temperature is nonnegative, at every density; below that the
reported temperature is `1e-12` (never negative); the pressures agree, and so do heat capacity and Gruneisen parameter. -/
theorem C45_mgusup_round_trip (p : Usup) (n : Num ℝ) (hc : p.Cv0 ≠ 0) (r x : ℝ) :
    (0 ≤ x → RoundTripT (p.q n) r x) ∧ (x < 0 → p.q n .tRE r (p.q n .eRT r x) = 1 / 10 ^ 12) ∧
    (p.q n .eRT r 0 ≤ x → 0 < p.Cv0 → RoundTripE (p.q n) r x) ∧ 0 ≤ p.q n .tRE r x ∧
    Twin (p.q n) .pRT .pRE r x ∧ Twin (p.q n) .cvRT .cvRE r x ∧ Twin (p.q n) .gRT .gRE r x := by
  have hk : (p.energy n r x - p.hugE n r) / p.Cv0 + p.hugT n r = x := by
    simp only [energy]; field_simp; ring
  refine ⟨fun h => ?_, fun h => ?_, fun h hc' => ?_, ?_, ?_, rfl, rfl⟩
  · simp only [RoundTripT, q, temp, hk, if_neg (not_lt.mpr h)]
  · simp only [q, temp, hk, if_pos h]
  · have h2 : 0 ≤ (x - p.hugE n r) / p.Cv0 + p.hugT n r := by
      simp only [q, energy] at h
      rw [div_add' _ _ _ hc]
      refine div_nonneg ?_ hc'.le
      linarith
    simp only [RoundTripE, q, temp, if_neg (not_lt.mpr h2), energy]
    field_simp
    ring
  · simp only [q, temp]
    split_ifs with h
    · positivity
    · exact not_lt.mp h
  · simp only [Twin, q, energy]; ring

/-- C45: by-temperature and by-energy entropies agree for nonnegative temperature when the entropy is nonnegative. -/
theorem C45_mgusup_entropy_twin (p : Usup) (n : Num ℝ) (hc : p.Cv0 ≠ 0) (r T : ℝ) (hT : 0 ≤ T) (hs : 0 ≤ p.q n .sRT r T) :
    Twin (p.q n) .sRT .sRE r T := by
  have h := (p.C45_mgusup_round_trip n hc r T).1 hT
  have h : p.temp n r (p.energy n r T) = T := h
  have hs : 0 ≤ p.S0 - p.G0 * p.Cv0 * p.eta n r + p.Cv0 * Real.log (T / p.T0) := hs
  simp only [Twin, q, sE, h, sT, if_neg (not_lt.mpr hs)]

/-- C45 is violated for negative entropies (which the by-temperature query reports): by energy, `1e-12` is reported. -/
theorem C45_mgusup_entropy_twin_violated (p : Usup) (n : Num ℝ) (hc : p.Cv0 ≠ 0) (r T : ℝ) (hT : 0 ≤ T) (hs : p.q n .sRT r T < 0) :
    ¬ Twin (p.q n) .sRT .sRE r T ∧ p.q n .sRE r (p.q n .eRT r T) = 1 / 10 ^ 12 := by
  have h := (p.C45_mgusup_round_trip n hc r T).1 hT
  have h : p.temp n r (p.energy n r T) = T := h
  have hs' : p.S0 - p.G0 * p.Cv0 * p.eta n r + p.Cv0 * Real.log (T / p.T0) < 0 := hs
  have : p.q n .sRE r (p.q n .eRT r T) = 1 / 10 ^ 12 := by simp only [q, sE, h, if_pos hs']
  refine ⟨fun h2 => ?_, this⟩
  rw [Twin, this] at h2
  rw [h2] at hs
  have : (0 : ℝ) < 1 / 10 ^ 12 := by positivity
  linarith

/-- C45: heat capacity and Gruneisen parameter are the derivatives they are named after. -/
theorem C45_mgusup_heat_gruneisen (p : Usup) (n : Num ℝ) (r x : ℝ) (hr : r ≠ 0) :
    HeatCapacity (p.q (Num.exact n)) r x ∧ Gruneisen (p.q (Num.exact n)) r x := by
  constructor
  · refine HasDerivAt.change (hasDerivAt_affine p.Cv0 (p.hugE (Num.exact n) r - p.Cv0 * p.hugT (Num.exact n) r) x) (fun y => ?_) rfl
    simp only [q, energy]; ring
  · refine HasDerivAt.change (hasDerivAt_affine (p.rho0 * p.G0) (p.hugP (Num.exact n) r - p.rho0 * p.G0 * p.hugE (Num.exact n) r) x)
      (fun y => ?_) ?_
    · simp only [q]; ring
    · simp only [q, Num.exact, ratio_zero_small]; field_simp

theorem hasDerivAt_eta (p : Usup) (n : Num ℝ) (r : ℝ) (hr : r ≠ 0) : HasDerivAt (p.eta (Num.exact n)) (p.rho0 / r ^ 2) r := by
  refine HasDerivAt.change (((hasDerivAt_const r p.rho0).div (hasDerivAt_id r) hr).const_sub 1) (fun y => p.eta_eq n y) ?_
  simp; ring

/-- C45: the entropy satisfies the first law in temperature and density (whatever the Hugoniot temperature is). -/
theorem C45_mgusup_entropy (p : Usup) (n : Num ℝ) (r T : ℝ) (hr : r ≠ 0) (hT : T ≠ 0) (hT0 : p.T0 ≠ 0) :
    EntropyT (p.q (Num.exact n)) r T ∧ EntropyRho (p.q (Num.exact n)) r T := by
  constructor
  · have h := ((((hasDerivAt_id T).div_const p.T0).log (div_ne_zero hT hT0)).const_mul p.Cv0).const_add
      (p.S0 - p.G0 * p.Cv0 * p.eta (Num.exact n) r)
    refine HasDerivAt.change h (fun y => rfl) ?_
    simp only [q, id]
    field_simp
  · refine ⟨p.G0 * p.rho0 * p.Cv0, ?_, ?_⟩
    · refine HasDerivAt.change (hasDerivAt_affine (p.G0 * p.rho0 * p.Cv0)
        (p.hugP (Num.exact n) r - p.G0 * p.rho0 * p.Cv0 * p.hugT (Num.exact n) r) T) (fun y => ?_) rfl
      simp only [q]; ring
    · refine HasDerivAt.change (((p.hasDerivAt_eta n r hr).const_mul (p.G0 * p.Cv0)).const_sub p.S0 |>.add_const
        (p.Cv0 * Real.log (T / p.T0))) (fun y => rfl) ?_
      ring

theorem hasDerivAt_hugP (p : Usup) (n : Num ℝ) (r : ℝ) (hr : r ≠ 0) (hs : 1 - p.s * (1 - p.rho0 / r) ≠ 0) :
    HasDerivAt (p.hugP (Num.exact n)) (p.rho0 / r ^ 2 * (p.Cs ^ 2 * p.rho0 * (1 + p.s * (1 - p.rho0 / r))
      / (1 - p.s * (1 - p.rho0 / r)) ^ 3)) r := by
  have he : HasDerivAt (fun x => 1 - p.rho0 / x) (p.rho0 / r ^ 2) r :=
    HasDerivAt.change (p.hasDerivAt_eta n r hr) (fun y => (p.eta_eq n y).symm) rfl
  have h := (he.fun_div (((he.const_mul p.s).const_sub 1).fun_pow 2) (pow_ne_zero 2 hs)).const_mul (p.Cs ^ 2 * p.rho0)
  refine HasDerivAt.change h (fun y => p.hugP_eq n y) ?_
  simp only [Nat.cast_ofNat, Nat.reduceSub, pow_one]
  generalize 1 - p.rho0 / r = x at *
  field_simp
  ring

/-- The Rankine-Hugoniot energy, `dE_H/drho`. -/
theorem hasDerivAt_hugE (p : Usup) (n : Num ℝ) (r : ℝ) (h0 : p.rho0 ≠ 0) (hr : r ≠ 0) (hs : 1 - p.s * (1 - p.rho0 / r) ≠ 0) :
    HasDerivAt (p.hugE (Num.exact n)) (p.rho0 / r ^ 2 * (p.Cs ^ 2 * ((1 - p.rho0 / r)) / (1 - p.s * (1 - p.rho0 / r)) ^ 3)) r := by
  have he : HasDerivAt (fun x => 1 - p.rho0 / x) (p.rho0 / r ^ 2) r :=
    HasDerivAt.change (p.hasDerivAt_eta n r hr) (fun y => (p.eta_eq n y).symm) rfl
  have h := ((he.div_const (2 * p.rho0)).fun_mul (p.hasDerivAt_hugP n r hr hs)).const_add p.E0
  refine HasDerivAt.change h (fun y => p.hugE_eq n y) ?_
  rw [p.hugP_eq n r]
  generalize 1 - p.rho0 / r = x at *
  field_simp
  ring

/-- C45: the by-energy bulk modulus is the isentropic derivative of the pressure at every density, including the reference
density, short of the singular compression. -/
theorem C45_mgusup_bulk_energy (p : Usup) (n : Num ℝ) (r e : ℝ) (h0 : p.rho0 ≠ 0) (hr : r ≠ 0)
    (hs : 1 - p.s * (1 - p.rho0 / r) ≠ 0) : IsentropicBulk (p.q (Num.exact n)) r e := by
  have hP := p.hasDerivAt_hugP n r hr hs
  have hE := p.hasDerivAt_hugE n r h0 hr hs
  refine ⟨_, _, hP.add ((hE.const_sub e).const_mul (p.rho0 * p.G0)), (p.C45_mgusup_heat_gruneisen n r e hr).2, ?_⟩
  simp only [q, bulkE, p.hugE_eq n r, p.hugP_eq n r, p.eta_eq n r]
  simp only [Num.exact, ratio_zero_small]
  have hx : r * (1 - (1 - p.rho0 / r)) = p.rho0 := by field_simp; ring
  generalize 1 - p.rho0 / r = x at *
  split_ifs with h
  · subst h
    field_simp
    ring
  · field_simp
    ring

/-- C45: the singular compression is out of reach: at every positive density up to the reported maximum, `1 - s eta` is
positive (for slope `s` not negative), so the by-energy bulk modulus is the isentropic derivative there; for `s > 1` the
singular density is `s rho0 / (s - 1)`, about one percent above the reported maximum. -/
theorem C45_mgusup_maximum_density (p : Usup) (n : Num ℝ) (dv : ℝ → ℝ → ℝ) (l0 l : Λ) (h0 : 0 < p.rho0) (hs : 0 ≤ p.s) :
    let t := p.eos (Num.exact n) dv l0
    (∀ r, 0 < r → r ≤ t.rhoMax → 0 < 1 - p.s * (1 - p.rho0 / r) ∧ ∀ e, IsentropicBulk (t.q · l) r e) ∧
    (1 < p.s → 1 - p.s * (1 - p.rho0 / (100 / 99 * t.rhoMax)) = 0) := by
  have hpos : ∀ r, 0 < r → r ≤ p.rhoMaxOf (Num.exact n) → 0 < 1 - p.s * (1 - p.rho0 / r) := by
    intro r hr hm
    by_cases h1 : 1 < p.s
    · have h2 : p.rhoMaxOf (Num.exact n) = 99 / 100 * (p.s * p.rho0 / (p.s - 1)) := by
        rw [rhoMaxOf, if_pos h1, ratio_zero_small]
      rw [h2] at hm
      have h3 : 0 < p.s * p.rho0 / (p.s - 1) := div_pos (by positivity) (by linarith)
      have h4 : r < p.s * p.rho0 / (p.s - 1) := by linarith
      rw [lt_div_iff₀ (by linarith)] at h4
      have h5 : p.s - 1 < p.s * p.rho0 / r := by rw [lt_div_iff₀ hr]; linarith
      have h6 : p.s * (1 - p.rho0 / r) = p.s - p.s * p.rho0 / r := by ring
      linarith
    · have h5 : 0 < p.rho0 / r := by positivity
      have h6 : p.s * (1 - p.rho0 / r) = p.s - p.s * (p.rho0 / r) := by ring
      rcases hs.eq_or_lt with h | h
      · rw [← h]; norm_num
      · have := mul_pos h h5
        push Not at h1
        linarith
  refine ⟨fun r hr hm => ⟨hpos r hr hm, fun e => ?_⟩, fun h1 => ?_⟩
  · exact p.C45_mgusup_bulk_energy n r e h0.ne' hr.ne' (hpos r hr hm).ne'
  · show 1 - p.s * (1 - p.rho0 / (100 / 99 * p.rhoMaxOf (Num.exact n))) = 0
    rw [rhoMaxOf, if_pos h1, ratio_zero_small]
    have : p.s - 1 ≠ 0 := by intro h; linarith
    have : p.s ≠ 0 := by intro h; linarith
    have := h0.ne'
    field_simp
    ring

/-- C45 is violated: the by-temperature bulk modulus is not the by-energy one. The two differ, wherever the compression is
not zero, by the reference part times `1/eta - 1` and by twice the thermal part (whose sign is wrong). -/
theorem C45_mgusup_bulk_temperature_error (p : Usup) (n : Num ℝ) (r T : ℝ) (h0 : p.rho0 ≠ 0) (hr : r ≠ 0)
    (hs : 1 - p.s * (1 - p.rho0 / r) ≠ 0) (hx : r ≠ p.rho0) :
    p.q (Num.exact n) .bRT r T - p.q (Num.exact n) .bRE r (p.q (Num.exact n) .eRT r T) =
      p.rho0 / r * (p.Cs ^ 2 * p.rho0 * (1 + p.s * (1 - p.rho0 / r) - p.G0 * p.s * (1 - p.rho0 / r) ^ 2)
        / (1 - p.s * (1 - p.rho0 / r)) ^ 3 * (1 / (1 - p.rho0 / r) - 1)
        - 2 * p.G0 ^ 2 * p.Cv0 * p.rho0 * (T - p.hugT (Num.exact n) r)) := by
  have hx' : 1 - p.rho0 / r ≠ 0 := by
    rw [sub_ne_zero]; intro h; rw [eq_div_iff hr, one_mul] at h; exact hx h
  simp only [q, bulkE, bulkT, energy, p.eta_eq n r, if_neg hx', add_sub_cancel_left, p.hugP_eq n r]
  generalize p.hugT (Num.exact n) r = t
  simp only [Num.exact, ratio_zero_small]
  have hr' : p.rho0 / r ≠ 0 := div_ne_zero h0 hr
  generalize 1 - p.rho0 / r = x at *
  field_simp
  ring

/-- C45 violated: in compression the bulk modulus by temperature is not the bulk modulus by energy at the same state (shown on the
Hugoniot), for generic parameters. -/
theorem C45_mgusup_bulk_temperature_violated (p : Usup) (n : Num ℝ) (r : ℝ) (h0 : 0 < p.rho0) (hr : p.rho0 < r)
    (hs : 0 < 1 - p.s * (1 - p.rho0 / r)) (hc : p.Cs ≠ 0)
    (hg : 1 + p.s * (1 - p.rho0 / r) - p.G0 * p.s * (1 - p.rho0 / r) ^ 2 ≠ 0) :
    ¬ Twin (p.q (Num.exact n)) .bRT .bRE r (p.hugT (Num.exact n) r) := by
  intro h
  have hr0 : 0 < r := h0.trans hr
  have := p.C45_mgusup_bulk_temperature_error n r (p.hugT (Num.exact n) r) h0.ne' hr0.ne' hs.ne' hr.ne'
  rw [Twin] at h
  rw [h, sub_self, sub_self, mul_zero, sub_zero] at this
  have hx1 : p.rho0 / r < 1 := (div_lt_one hr0).mpr hr
  have hx0 : 0 < p.rho0 / r := div_pos h0 hr0
  have hx : 1 / (1 - p.rho0 / r) - 1 ≠ 0 := by
    have h3 : 0 < 1 - p.rho0 / r := by linarith
    rw [sub_ne_zero, ne_eq, div_eq_iff h3.ne']
    linarith
  have h4 := hs.ne'
  have h5 := h0.ne'
  have h6 := hx0.ne'
  revert this
  rw [imp_false, eq_comm]
  refine mul_ne_zero h6 (mul_ne_zero (div_ne_zero (mul_ne_zero (mul_ne_zero (pow_ne_zero 2 hc) h5) hg) (pow_ne_zero 3 h4)) hx)

/-- The hypotheses of the theorems above and below hold of a copper-like material (in scaled units) compressed to four
thirds of its reference density. -/
example : let p : Usup := ⟨3, 1, 1, 3 / 2, 2, 1, 0, 10, 1, 1⟩
    p.rho0 ≠ 0 ∧ (4 : ℝ) ≠ 0 ∧ p.Cv0 ≠ 0 ∧ 0 < 1 - p.s * (1 - p.rho0 / 4) ∧ p.rho0 < 4 ∧ p.Cs ≠ 0 ∧
      1 + p.s * (1 - p.rho0 / 4) - p.G0 * p.s * (1 - p.rho0 / 4) ^ 2 ≠ 0 := by
  norm_num

/-- What the first law demands of the Hugoniot temperature at compression `x`: `T_H' = G0 T_H + Cs^2 s x^2 / (Cv (1 - s x)^3)`
(from `T dS = de + P dv` along the Hugoniot and the Rankine-Hugoniot energy). -/
noncomputable def odeRhs (p : Usup) (x t : ℝ) : ℝ := p.G0 * t + p.Cs ^ 2 * p.s * x ^ 2 / (p.Cv0 * (1 - p.s * x) ^ 3)

/-- C45 (partial): energy and pressure satisfy the first law at a state exactly when the computed Hugoniot temperature satisfies
its differential equation there. (Whether it does is the next theorems' subject.) -/
theorem C45_mgusup_first_law_partial (p : Usup) (n : Num ℝ) (r T D : ℝ) (h0 : p.rho0 ≠ 0) (hr : r ≠ 0) (hc : p.Cv0 ≠ 0)
    (hs : 1 - p.s * (1 - p.rho0 / r) ≠ 0) (hD : HasDerivAt (p.hugTe (Num.exact n)) D (1 - p.rho0 / r)) :
    EnergyRho (p.q (Num.exact n)) r T ↔ D = p.odeRhs (1 - p.rho0 / r) (p.hugT (Num.exact n) r) := by
  have hE := p.hasDerivAt_hugE n r h0 hr hs
  have heta := p.hasDerivAt_eta n r hr
  rw [← p.eta_eq n r] at hD
  have hT : HasDerivAt (p.hugT (Num.exact n)) (D * (p.rho0 / r ^ 2)) r := hD.comp r heta
  have hPT : HasDerivAt (fun t => p.q (Num.exact n) .pRT r t) (p.G0 * p.rho0 * p.Cv0) T := by
    refine HasDerivAt.change (hasDerivAt_affine (p.G0 * p.rho0 * p.Cv0)
      (p.hugP (Num.exact n) r - p.G0 * p.rho0 * p.Cv0 * p.hugT (Num.exact n) r) T) (fun y => ?_) rfl
    simp only [q]; ring
  have hER : HasDerivAt (fun x => p.q (Num.exact n) .eRT x T) _ r := hE.add ((hT.const_sub T).const_mul p.Cv0)
  have key : ((p.q (Num.exact n) .pRT r T - T * (p.G0 * p.rho0 * p.Cv0)) / r ^ 2 =
      p.rho0 / r ^ 2 * (p.Cs ^ 2 * (1 - p.rho0 / r) / (1 - p.s * (1 - p.rho0 / r)) ^ 3) + p.Cv0 * -(D * (p.rho0 / r ^ 2))) ↔
      D = p.odeRhs (1 - p.rho0 / r) (p.hugT (Num.exact n) r) := by
    simp only [q, odeRhs, p.hugP_eq n r]
    generalize p.hugT (Num.exact n) r = t
    have hr' : p.rho0 / r ≠ 0 := div_ne_zero h0 hr
    generalize 1 - p.rho0 / r = x at *
    rw [← sub_eq_zero, ← sub_eq_zero (a := D)]
    have hid : (p.Cs ^ 2 * p.rho0 * (x / (1 - p.s * x) ^ 2) + p.G0 * p.rho0 * p.Cv0 * (T - t) - T * (p.G0 * p.rho0 * p.Cv0)) / r ^ 2 -
        (p.rho0 / r ^ 2 * (p.Cs ^ 2 * x / (1 - p.s * x) ^ 3) + p.Cv0 * -(D * (p.rho0 / r ^ 2))) =
        p.Cv0 * p.rho0 / r ^ 2 * (D - (p.G0 * t + p.Cs ^ 2 * p.s * x ^ 2 / (p.Cv0 * (1 - p.s * x) ^ 3))) := by
      have hf : p.s * x = 1 - (1 - p.s * x) := by ring
      have h3 : p.Cs ^ 2 * p.s * x ^ 2 = p.Cs ^ 2 * x * (1 - (1 - p.s * x)) := by rw [← hf]; ring
      rw [h3]
      generalize 1 - p.s * x = f at *
      field_simp
      ring
    rw [hid]
    have : p.Cv0 * p.rho0 / r ^ 2 ≠ 0 := div_ne_zero (mul_ne_zero hc h0) (pow_ne_zero 2 hr)
    rw [mul_eq_zero, or_iff_right this]
  constructor
  · rintro ⟨PT, h1, h2⟩
    rw [h1.unique hPT] at h2
    exact key.mp (h2.unique hER)
  · intro h
    exact ⟨_, hPT, HasDerivAt.change hER (fun y => rfl) (key.mpr h).symm⟩

/-- C45 (partial): the isothermal bulk modulus is `rho dP/drho` at constant temperature wherever the Hugoniot temperature
satisfies its differential equation. -/
theorem C45_mgusup_isothermal_bulk_partial (p : Usup) (n : Num ℝ) (r T : ℝ) (h0 : p.rho0 ≠ 0) (hr : r ≠ 0) (hc : p.Cv0 ≠ 0)
    (hs : 1 - p.s * (1 - p.rho0 / r) ≠ 0)
    (hD : HasDerivAt (p.hugTe (Num.exact n)) (p.odeRhs (1 - p.rho0 / r) (p.hugT (Num.exact n) r)) (1 - p.rho0 / r)) :
    HasDerivAt (fun x => p.q (Num.exact n) .pRT x T) (p.tbulk (Num.exact n) r T / r) r := by
  have hP := p.hasDerivAt_hugP n r hr hs
  have heta := p.hasDerivAt_eta n r hr
  rw [← p.eta_eq n r] at hD
  have hT : HasDerivAt (p.hugT (Num.exact n)) _ r := hD.comp r heta
  refine HasDerivAt.change (hP.add ((hT.const_sub T).const_mul (p.G0 * p.rho0 * p.Cv0))) (fun y => rfl) ?_
  simp only [tbulk, odeRhs, p.eta_eq n r, p.hugP_eq n r]
  generalize p.hugT (Num.exact n) r = t
  simp only [ratio_zero_small]
  have hx : r * (1 - (1 - p.rho0 / r)) = p.rho0 := by field_simp; ring
  generalize 1 - p.rho0 / r = x at *
  split_ifs with h
  · subst h
    field_simp
    ring
  · field_simp
    ring

/-- C74 (partial): the reference state is a state of the EOS. -/
theorem C74_mgusup_reference (p : Usup) (n : Num ℝ) (dv : ℝ → ℝ → ℝ) (l0 l : Λ) (h0 : p.rho0 ≠ 0) :
    RefDirect (p.eos (Num.exact n) dv l0) l := by
  have he : p.eta (Num.exact n) p.rho0 = 0 := by rw [eta_eq, div_self h0, sub_self]
  have hT : p.hugT (Num.exact n) p.rho0 = p.T0 := by
    simp only [hugT, he, hugTe, mul_zero, sub_zero, if_pos (show (0 : ℝ) < 1 / 10 ^ 8 by positivity), Real.exp_zero, Real.log_one]
    ring
  have hE : p.hugE (Num.exact n) p.rho0 = p.E0 := by rw [hugE_eq, div_self h0]; simp
  refine ⟨rfl, ?_, rfl, ?_, ?_⟩
  · show p.energy (Num.exact n) p.rho0 p.T0 = p.E0
    simp [energy, hT, hE]
  · show p.bulkT (Num.exact n) p.rho0 p.T0 = p.Cs * p.Cs * p.rho0
    simp only [bulkT, he, hT, sub_self, if_true]
    simp only [Num.exact, ratio_zero_small, div_self h0]
    ring
  · show p.rho0 * ratio _ (p.G0 * p.rho0) p.rho0 = p.G0 * p.rho0
    simp only [Num.exact, ratio_zero_small]
    field_simp

/-- C74 is violated: the reported `dV/dT` is negative whenever `T0`, `G0` and `rho0` are positive, although the material expands
on heating: with a positive isothermal bulk modulus its thermal expansion coefficient is positive. -/
theorem C74_mgusup_dvdt_violated (p : Usup) (n : Num ℝ) (dv : ℝ → ℝ → ℝ) (l0 l : Λ) (h0 : 0 < p.rho0) (hT : 0 < p.T0)
    (hG : 0 < p.G0) (hc : 0 < p.Cv0) (hB : 0 < p.tbulk (Num.exact n) p.rho0 p.T0) :
    ((p.eos (Num.exact n) dv l0).ref l).dvdt < 0 ∧ 0 < p.texp (Num.exact n) p.rho0 p.T0 := by
  constructor
  · show ratio _ (-1) (p.T0 * p.G0 * p.rho0) < 0
    simp only [Num.exact, ratio_zero_small]
    exact div_neg_of_neg_of_pos (by norm_num) (by positivity)
  · simp only [texp]
    generalize p.tbulk (Num.exact n) p.rho0 p.T0 = b at *
    simp only [Num.exact, ratio_zero_small]
    positivity

end Verif.MG.Usup
