import Verif.Model.Eos.Gruneisen
import Verif.Props.Eos.Ideal
import Verif.Props.Eos.Misc
import Verif.Props.RootFind

set_option linter.unusedSectionVars false
set_option linter.dupNamespace false

/-! # C41, C42, C74: Gruneisen -/

namespace Verif.Grun

open Verif.Mods Verif.Robust Verif.Base Verif.Spec Verif.Gases Verif.RootFind
open Filter Topology

variable {Λ : Type*}

namespace Grun

/-- C41: temperature and energy invert each other and by-temperature queries agree with their by-energy twins at
every density (also above the maximum), temperature and energy. -/
theorem C41_gruneisen_round_trip (p : Grun) (hc : p.Cv ≠ 0) (r x : ℝ) :
    RoundTripT p.q r x ∧ RoundTripE p.q r x ∧ Twin p.q .pRT .pRE r x ∧ Twin p.q .cvRT .cvRE r x ∧
    Twin p.q .bRT .bRE r x ∧ Twin p.q .gRT .gRE r x := by
  have hm : min (min r p.rhoMax) p.rhoMax = min r p.rhoMax := by simp
  refine ⟨?_, ?_, ?_, rfl, ?_, rfl⟩
  · simp only [RoundTripT, q]; field_simp; ring
  · simp only [RoundTripE, q]; field_simp; ring
  · simp only [Twin, q, pressure, hm]
  · simp only [Twin, q, bulk, hm]

/-- C41: every density above the maximum is treated as the maximum density, by every query. -/
theorem C41_gruneisen_clamps (p : Grun) (k : Q) (r x : ℝ) (hr : p.rhoMax ≤ r) :
    p.q k r x = p.q k p.rhoMax x := by
  cases k <;> simp [q, pressure, bulk, gamma, min_eq_right hr]

/-- C41: the heat capacity is the temperature derivative of the energy. -/
theorem C41_gruneisen_heat_capacity (p : Grun) (r T : ℝ) : HeatCapacity p.q r T := by
  refine HasDerivAt.change (hasDerivAt_affine p.Cv (-(p.Cv * p.T0)) T) (fun y => ?_) rfl
  simp only [q]; ring

/-- C41: up to the maximum density the Gruneisen parameter is `(1/rho) dP/de`. -/
theorem C41_gruneisen_gruneisen (p : Grun) (r e : ℝ) (hr : r ≤ p.rhoMax) : Gruneisen p.q r e := by
  have hm : min r p.rhoMax = r := min_eq_left hr
  simp only [Gruneisen, q, pressure, hm]
  split_ifs
  · generalize p.P0 + p.C0 ^ 2 * p.rho0 * (1 - p.rho0 / r) / (1 - p.sPoly (1 - p.rho0 / r)) ^ 2 = A
    refine HasDerivAt.change (hasDerivAt_affine (r * p.gamma r)
      (A - r * p.gamma r * ((A + p.P0) * (1 - p.rho0 / r) / p.rho0 / 2)) e) (fun y => ?_) rfl
    ring
  · refine HasDerivAt.change (hasDerivAt_affine (r * p.gamma r) (p.P0 + p.C0 ^ 2 * (r - p.rho0)) e) (fun y => ?_) rfl
    ring

/-- C41: the two branches of the pressure join at the reference density, where the pressure is
`P0 + G0 rho0 e`; it is continuous there from both sides. -/
theorem C41_gruneisen_continuous_at_reference (p : Grun) (h0 : 0 < p.rho0) (hm : p.rho0 < p.rhoMax) (e : ℝ) :
    p.q .pRE p.rho0 e = p.P0 + p.G0 * p.rho0 * e ∧ ContinuousAt (fun r => p.q .pRE r e) p.rho0 := by
  have hval : p.q .pRE p.rho0 e = p.P0 + p.G0 * p.rho0 * e := by
    have h1 : (1 : ℝ) - p.rho0 / p.rho0 = 0 := by rw [div_self h0.ne', sub_self]
    simp only [q, pressure, gamma, sPoly, min_eq_left hm.le, ge_iff_le, le_refl, if_true, lt_irrefl, if_false, h1]
    rw [mul_div_cancel_right₀ _ h0.ne']
    ring
  refine ⟨hval, ?_⟩
  -- the pressure near `rho0` is one of two functions continuous at `rho0`, equal there
  set F : ℝ → ℝ := fun r => p.P0 + p.C0 ^ 2 * p.rho0 * (1 - p.rho0 / r) / (1 - p.sPoly (1 - p.rho0 / r)) ^ 2
    + (p.G0 * p.rho0 / r + p.b * (1 - p.rho0 / r)) * r
      * (e - (p.P0 + p.C0 ^ 2 * p.rho0 * (1 - p.rho0 / r) / (1 - p.sPoly (1 - p.rho0 / r)) ^ 2 + p.P0)
        * (1 - p.rho0 / r) / p.rho0 / 2) with hF
  set G : ℝ → ℝ := fun r => p.P0 + p.C0 ^ 2 * (r - p.rho0) + p.G0 * r * (e - 0) with hG
  have hFc : ContinuousAt F p.rho0 := by
    have hd : ContinuousAt (fun r : ℝ => p.rho0 / r) p.rho0 := continuousAt_const.div continuousAt_id h0.ne'
    have hs : ContinuousAt (fun r : ℝ => p.sPoly (1 - p.rho0 / r)) p.rho0 := by
      simp only [sPoly]; fun_prop (disch := exact h0.ne')
    have hPH : ContinuousAt (fun r : ℝ => p.C0 ^ 2 * p.rho0 * (1 - p.rho0 / r) / (1 - p.sPoly (1 - p.rho0 / r)) ^ 2) p.rho0 := by
      refine ContinuousAt.div (by fun_prop (disch := exact h0.ne')) ((continuousAt_const.sub hs).pow 2) ?_
      have h1 : (1 : ℝ) - p.rho0 / p.rho0 = 0 := by rw [div_self h0.ne', sub_self]
      rw [h1]; simp [sPoly]
    have hg : ContinuousAt (fun r : ℝ => (p.G0 * p.rho0 / r + p.b * (1 - p.rho0 / r)) * r) p.rho0 := by
      fun_prop (disch := exact h0.ne')
    exact (continuousAt_const.add hPH).add (hg.mul (continuousAt_const.sub
      ((((continuousAt_const.add hPH).add continuousAt_const).mul (continuousAt_const.sub hd)).div_const _ |>.div_const _)))
  have hGc : ContinuousAt G p.rho0 := by simp only [hG]; fun_prop
  have hFv : F p.rho0 = p.q .pRE p.rho0 e := by
    simp only [hF, q, pressure, gamma, min_eq_left hm.le, ge_iff_le, le_refl, if_true, lt_irrefl, if_false]
  have hGv : G p.rho0 = p.q .pRE p.rho0 e := by rw [hval]; simp [hG]
  have hnear : ∀ᶠ r in 𝓝 p.rho0, p.q .pRE r e = F r ∨ p.q .pRE r e = G r := by
    filter_upwards [gt_mem_nhds hm] with r hr
    have hr : min r p.rhoMax = r := min_eq_left (le_of_lt hr)
    simp only [q, pressure, gamma, hr]
    by_cases h : p.rho0 ≤ r
    · left; rw [if_pos h, if_neg (not_lt.mpr h)]
    · right; rw [if_neg h, if_pos (not_le.mp h)]
  rw [ContinuousAt, Metric.tendsto_nhds]
  intro ε hε
  rw [ContinuousAt, Metric.tendsto_nhds] at hFc hGc
  filter_upwards [hFc ε hε, hGc ε hε, hnear] with r h1 h2 h3
  rcases h3 with h3 | h3
  · rw [h3, ← hFv]; exact h1
  · rw [h3, ← hGv]; exact h2

/-- The reference compression curve and its derivative. -/
theorem hasDerivAt_PH (p : Grun) (eta : ℝ) (h : 1 - p.sPoly eta ≠ 0) :
    HasDerivAt (fun x => p.P0 + p.C0 ^ 2 * p.rho0 * x / (1 - p.sPoly x) ^ 2)
      (p.C0 ^ 2 * p.rho0 / (1 - p.sPoly eta) ^ 2 *
        (1 + 2 * eta * (p.s1 + 2 * p.s2 * eta + 3 * p.s3 * eta ^ 2) / (1 - p.sPoly eta))) eta := by
  have hs : HasDerivAt p.sPoly (p.s1 + 2 * p.s2 * eta + 3 * p.s3 * eta ^ 2) eta := by
    refine HasDerivAt.change (((hasDerivAt_id eta).const_mul p.s1).add (((hasDerivAt_pow 2 eta).const_mul p.s2)) |>.add
      ((hasDerivAt_pow 3 eta).const_mul p.s3)) (fun y => by simp [sPoly]) ?_
    simp; ring
  have hd := (hs.const_sub 1).pow 2
  have hn := (hasDerivAt_id eta).const_mul (p.C0 ^ 2 * p.rho0)
  refine HasDerivAt.change ((hn.div hd (pow_ne_zero 2 h)).const_add p.P0) (fun y => by simp) ?_
  simp only [Pi.pow_apply, id]
  generalize p.sPoly eta = S at *
  field_simp
  ring

/-- C41: the bulk modulus is the isentropic derivative of the pressure, in expansion and in compression, at
every positive density below the maximum except the kink at the reference density, as long as the compression is
not the singular one. -/
theorem C41_gruneisen_bulk (p : Grun) (h0 : 0 < p.rho0) (r e : ℝ) (hr : 0 < r) (hm : r < p.rhoMax)
    (hne : r ≠ p.rho0) (hs : p.rho0 < r → 1 - p.sPoly (1 - p.rho0 / r) ≠ 0) : IsentropicBulk p.q r e := by
  have hmr : min r p.rhoMax = r := min_eq_left hm.le
  refine ⟨p.dPdr r e, r * p.gamma r, ?_, ?_, ?_⟩
  · rcases lt_or_gt_of_ne hne with h | h
    · refine HasDerivAt.changeOn (f := fun x => (p.C0 ^ 2 + p.G0 * e) * x + (p.P0 - p.C0 ^ 2 * p.rho0))
        (Iio_mem_nhds (lt_min h hm)) (hasDerivAt_affine _ _ _) (fun y hy => ?_) ?_
      · have h2 : min y p.rhoMax = y := min_eq_left (le_of_lt (lt_of_lt_of_le hy (min_le_right _ _)))
        have hy : y < p.rho0 := lt_of_lt_of_le hy (min_le_left _ _)
        simp only [q, pressure, gamma]
        rw [h2, h2, if_neg (not_le.mpr hy), if_pos hy]
        ring
      · simp only [dPdr, gamma, hmr, if_pos h]
    · have hs := hs h
      have heta : HasDerivAt (fun x => 1 - p.rho0 / x) (p.rho0 / r ^ 2) r := by
        refine HasDerivAt.change (((hasDerivAt_const r p.rho0).div (hasDerivAt_id r) hr.ne').const_sub 1) (fun y => rfl) ?_
        simp; ring
      have hPH := (p.hasDerivAt_PH (1 - p.rho0 / r) hs).comp r heta
      have hEH := (((hPH.add_const p.P0).mul heta).div_const p.rho0).div_const 2
      have hG : HasDerivAt (fun x => (p.G0 * p.rho0 / x + p.b * (1 - p.rho0 / x)) * x) p.b r := by
        refine HasDerivAt.changeOn (f := fun x => p.b * x + (p.G0 - p.b) * p.rho0) (Ioi_mem_nhds hr)
          (hasDerivAt_affine _ _ _) (fun y hy => ?_) rfl
        have hy : 0 < y := hy
        field_simp
        ring
      refine HasDerivAt.changeOn (f := _) (Ioo_mem_nhds h hm) (hPH.add (hG.mul (hEH.const_sub e))) (fun y hy => ?_) ?_
      · have h2 : min y p.rhoMax = y := min_eq_left hy.2.le
        simp only [q, pressure, gamma]
        rw [h2, h2, if_pos hy.1.le, if_neg (not_lt.mpr hy.1.le)]
        rfl
      · simp only [dPdr, gamma, hmr, if_neg (not_lt.mpr h.le), Function.comp]
        simp only [Pi.mul_apply]
        generalize p.s1 + 2 * p.s2 * (1 - p.rho0 / r) + 3 * p.s3 * (1 - p.rho0 / r) ^ 2 = ds
        generalize 1 - p.sPoly (1 - p.rho0 / r) = D at hs ⊢
        have hEta : (p.G0 * p.rho0 / r + p.b * (1 - p.rho0 / r)) + r * ((p.b - p.G0) * (p.rho0 / r ^ 2)) = p.b := by
          field_simp; ring
        generalize (p.G0 * p.rho0 / r + p.b * (1 - p.rho0 / r)) = Γ at *
        linear_combination (-(e - (p.P0 + p.C0 ^ 2 * p.rho0 * (1 - p.rho0 / r) / D ^ 2 + p.P0)
          * (1 - p.rho0 / r) / p.rho0 / 2)) * hEta
  · have := C41_gruneisen_gruneisen p r e hm.le
    simp only [Gruneisen] at this
    rwa [show p.q .gRE r e = p.gamma r by simp only [q, hmr]] at this
  · show p.bulk r e = _
    simp only [bulk, hmr, q]
    split_ifs with h
    · simp only [dPdr, gamma, hmr, if_pos h]
      field_simp
      ring
    · field_simp

/-- C41 is violated at the reference density: the one-sided slopes of the pressure differ by `(b - G0) e - G0 P0 / rho0`,
so the pressure has a kink there unless that vanishes. -/
theorem C41_gruneisen_kink_violated (p : Grun) (h0 : 0 < p.rho0) (hm : p.rho0 < p.rhoMax) (e : ℝ)
    (hk : (p.b - p.G0) * e - p.G0 * p.P0 / p.rho0 ≠ 0) :
    ¬ DifferentiableAt ℝ (fun r => p.q .pRE r e) p.rho0 := by
  intro hd
  obtain ⟨D, hD⟩ : ∃ D, HasDerivAt (fun r => p.q .pRE r e) D p.rho0 := ⟨_, hd.hasDerivAt⟩
  have hval := (C41_gruneisen_continuous_at_reference p h0 hm e).1
  -- left
  have hL : HasDerivWithinAt (fun r => p.q .pRE r e) (p.C0 ^ 2 + p.G0 * e) (Set.Iic p.rho0) p.rho0 := by
    refine (hasDerivAt_affine (p.C0 ^ 2 + p.G0 * e) (p.P0 - p.C0 ^ 2 * p.rho0) p.rho0).hasDerivWithinAt.congr (fun y hy => ?_) ?_
    · rcases eq_or_lt_of_le (show y ≤ p.rho0 from hy) with h | h
      · rw [h, hval]; ring
      · have h2 : min y p.rhoMax = y := min_eq_left (h.le.trans hm.le)
        simp only [q, pressure, gamma]
        rw [h2, h2, if_neg (not_le.mpr h), if_pos h]
        ring
    · rw [hval]; ring
  have e1 : D = p.C0 ^ 2 + p.G0 * e :=
    (uniqueDiffWithinAt_Iic p.rho0).eq_deriv _ hD.hasDerivWithinAt hL
  -- right
  have h1 : (1 : ℝ) - p.rho0 / p.rho0 = 0 := by rw [div_self h0.ne', sub_self]
  have hs0 : p.sPoly 0 = 0 := by simp [sPoly]
  have heta : HasDerivAt (fun x => 1 - p.rho0 / x) (1 / p.rho0) p.rho0 := by
    refine HasDerivAt.change (((hasDerivAt_const p.rho0 p.rho0).div (hasDerivAt_id p.rho0) h0.ne').const_sub 1) (fun y => rfl) ?_
    simp; field_simp
  have hPH0 := p.hasDerivAt_PH (1 - p.rho0 / p.rho0) (by rw [h1, hs0]; norm_num)
  have hPH := hPH0.comp p.rho0 heta
  have hEH := (((hPH.add_const p.P0).mul heta).div_const p.rho0).div_const 2
  have hG : HasDerivAt (fun x => (p.G0 * p.rho0 / x + p.b * (1 - p.rho0 / x)) * x) p.b p.rho0 := by
    refine HasDerivAt.changeOn (f := fun x => p.b * x + (p.G0 - p.b) * p.rho0) (Ioi_mem_nhds h0)
      (hasDerivAt_affine _ _ _) (fun y hy => ?_) rfl
    have hy : 0 < y := hy
    field_simp
    ring
  have hF := hPH.add (hG.mul (hEH.const_sub e))
  have hR : HasDerivWithinAt (fun r => p.q .pRE r e) (p.C0 ^ 2 + p.b * e - p.G0 * p.P0 / p.rho0)
      (Set.Ico p.rho0 p.rhoMax) p.rho0 := by
    have hF' := hF.hasDerivWithinAt (s := Set.Ico p.rho0 p.rhoMax)
    have hkey : ∀ y ∈ Set.Ico p.rho0 p.rhoMax, p.q .pRE y e = _ := fun y hy => by
      have h2 : min y p.rhoMax = y := min_eq_left (le_of_lt hy.2)
      simp only [q, pressure, gamma]
      rw [h2, h2, if_pos hy.1, if_neg (not_lt.mpr hy.1)]
    refine (hF'.congr (f₁ := fun r => p.q .pRE r e) (fun y hy => by rw [hkey y hy]; rfl)
      (by rw [hkey _ ⟨le_rfl, hm⟩]; rfl)).congr_deriv ?_
    simp only [Function.comp, Pi.mul_apply, h1, hs0]
    field_simp
    ring
  have hu : UniqueDiffWithinAt ℝ (Set.Ico p.rho0 p.rhoMax) p.rho0 := uniqueDiffOn_Ico _ _ _ ⟨le_rfl, hm⟩
  have e2 := hu.eq_deriv _ hD.hasDerivWithinAt hR
  apply hk
  rw [e1] at e2
  linarith

/-- C41 is violated above the maximum density: the pressure depends on the energy through the maximum density,
the reported Gruneisen parameter times the actual density does not match. -/
theorem C41_gruneisen_gruneisen_above_max_violated (p : Grun) (r e : ℝ) (hr : p.rhoMax < r)
    (hg : p.gamma p.rhoMax ≠ 0) : ¬ Gruneisen p.q r e := by
  intro h
  have h1 : HasDerivAt (fun x => p.q .pRE r x) (p.rhoMax * p.q .gRE p.rhoMax e) e := by
    refine HasDerivAt.change (C41_gruneisen_gruneisen p p.rhoMax e le_rfl) (fun y => ?_) rfl
    exact C41_gruneisen_clamps p .pRE r y hr.le
  have h2 := h.unique h1
  rw [C41_gruneisen_clamps p .gRE r e hr.le, show p.q .gRE p.rhoMax e = p.gamma p.rhoMax by simp [q]] at h2
  have h3 : (r - p.rhoMax) * p.gamma p.rhoMax = 0 := by linarith
  rcases mul_eq_zero.mp h3 with h | h
  · linarith
  · exact hg h

/-- C41: the reported minimum pressure is a lower bound on the pressure at every nonnegative energy in
expansion, and it is attained at zero density. -/
theorem C41_gruneisen_minimum_pressure (p : Grun) (n : Num ℝ) (dv : ℝ → ℝ → ℝ) (l0 l : Λ) (hG : 0 ≤ p.G0)
    (h0 : 0 < p.rho0) (hm : p.rho0 < p.rhoMax) (r e : ℝ) (hr : 0 ≤ r) (hr' : r < p.rho0) (he : 0 ≤ e) :
    (p.eos n dv l0).pMin = (p.eos n dv l0).q .pRE l 0 0 ∧
    (p.eos n dv l0).pMin ≤ (p.eos n dv l0).q .pRE l r e := by
  refine ⟨rfl, ?_⟩
  show p.pressure 0 0 ≤ p.pressure r e
  have h1 : min r p.rhoMax = r := min_eq_left (hr'.le.trans hm.le)
  have h2 : min 0 p.rhoMax = (0 : ℝ) := min_eq_left (h0.le.trans hm.le)
  simp only [pressure, gamma, h1, h2, ge_iff_le, if_neg (not_le.mpr hr'), if_neg (not_le.mpr h0), if_pos hr', if_pos h0]
  have : 0 ≤ p.G0 * r * e := by positivity
  nlinarith [mul_nonneg (sq_nonneg p.C0) hr]

/-- C42 is violated: what `MaximumPressureAtTemperature` returns is a density. Whenever the pressure still
increases at the maximum density (the generic case), it returns the maximum density itself, whatever the units, and
not the pressure there. -/
theorem C42_maximum_pressure_is_a_density_violated (p : Grun) (n : Num ℝ) (dv : ℝ → ℝ → ℝ) (l0 l : Λ) (T : ℝ)
    (hs : 0 ≤ p.dPdr p.rhoMax (p.Cv * (T - p.T0))) (hne : p.q .pRT p.rhoMax T ≠ p.rhoMax) :
    let t := p.eos n dv l0
    t.pMaxT T = t.rhoMax ∧ t.pMaxT T ≠ t.q .pRT l t.rhoMax T := by
  have h : p.maxStable T = some p.rhoMax := by
    simp only [maxStable]
    rw [if_pos hs]
  constructor
  · show (p.maxStable T).getD 0 = p.rhoMax
    rw [h]; rfl
  · show (p.maxStable T).getD 0 ≠ p.q .pRT p.rhoMax T
    rw [h]; exact hne.symm

/-- C42: whenever `MaxStableDensityAtTemperature` returns without the root finder, it is the maximum density, and the
pressure then is nondecreasing there; otherwise it searched for a zero of the slope between a point where the
slope is nonnegative and one where it is negative. -/
theorem C42_max_stable_density_partial (p : Grun) (T x : ℝ) (h : p.maxStable T = some x) :
    (x = p.rhoMax ∧ 0 ≤ p.dPdr p.rhoMax (p.Cv * (T - p.T0))) ∨
    (p.dPdr p.rhoMax (p.Cv * (T - p.T0)) < 0 ∧ 0 ≤ p.dPdr p.rho0 (p.Cv * (T - p.T0)) ∧
      (p.rho0 ≤ p.rhoMax → p.rhoMax ≤ 10 ^ 4 → p.rho0 ≤ x ∧ x ≤ p.rhoMax ∧ ∃ a b, p.rho0 ≤ a ∧ a ≤ x ∧ x ≤ b ∧ b ≤ p.rhoMax ∧
        p.dPdr a (p.Cv * (T - p.T0)) * p.dPdr b (p.Cv * (T - p.T0)) ≤ 0)) := by
  simp only [maxStable] at h
  split_ifs at h with h1 h2
  · left
    exact ⟨(Option.some.inj h).symm, h1⟩
  · right
    push Not at h1 h2
    refine ⟨h1, h2, fun hm h4 => ?_⟩
    rw [min_eq_left h4] at h
    obtain ⟨st, xr, s, e1, e2, e3, e4, e5, e6, e7, -⟩ := C08_regulaFalsi_keeps_bracket
      (fun r => p.dPdr r (p.Cv * (T - p.T0))) 0 ((p.rho0 + p.rhoMax) / 2) p.rho0 p.rhoMax (1 / 10 ^ 8) (1 / 10 ^ 8)
      (by norm_num) (by norm_num) (by linarith) (by linarith) (Or.inl (by simp only [sub_zero]; nlinarith))
    rw [e1] at h
    cases st with
    | fail => simp at h
    | success =>
      simp only [Option.some.injEq] at h
      subst h
      refine ⟨e3.trans e4, e5.trans e6, s.a, s.b, e3, e4, e5, e6, by simpa using e7⟩

/-- C41 (partial): `DensityEnergyFromPressureTemperature` in expansion: for a requested pressure between the pressure
at zero density and the pressure at the reference density, a call that does not abort returns a density in
`[0, 1.1 rho0]` at the middle of an interval over which the pressure at that temperature crosses the requested one,
with the energy at that density and temperature. How close: `C41_gruneisen_density_accuracy`. -/
theorem C41_gruneisen_density_energy_expansion_partial (p : Grun) (n : Num ℝ) (dv : ℝ → ℝ → ℝ) (l0 l : Λ) (P T x : ℝ)
    (g : ℝ × ℝ) (h0 : 0 < p.rho0) (hlo : p.q .pRT 0 T ≤ P) (hhi : P < p.q .pRT p.rho0 T)
    (h : p.density P T = some x) :
    let o := (p.eos n dv l0).rePT l P T g
    o.1 = x ∧ o.2 = p.q .eRT o.1 T ∧ ∃ a b, 0 ≤ a ∧ a ≤ b ∧ b ≤ 11 / 10 * p.rho0 ∧ o.1 = (a + b) / 2 ∧
      (p.q .pRT a T - P) * (p.q .pRT b T - P) ≤ 0 := by
  have ho : (p.eos n dv l0).rePT l P T g = (x, p.q .eRT x T) := by
    show p.rePT P T g = _
    simp [rePT, h]
  intro o
  have ho' : o = (x, p.q .eRT x T) := ho
  rw [ho']
  refine ⟨rfl, rfl, ?_⟩
  simp only [density, if_pos hhi] at h
  obtain ⟨st, xr, s, e1, e2, e3, e4, e5, e6, e7, -⟩ := C08_regulaFalsi_keeps_bracket
    (fun r => p.q .pRT r T) P p.rho0 0 (11 / 10 * p.rho0) (1 / 10 ^ 8) (1 / 10 ^ 8)
    (by norm_num) (by norm_num) h0.le (by linarith) (Or.inr (Or.inl (by nlinarith)))
  rw [e1] at h
  cases st with
  | fail => simp at h
  | success =>
    simp only [Option.some.injEq] at h
    subst h
    exact ⟨s.a, s.b, e3, e4.trans e5, e6, e2, e7⟩

/-- C41 (partial): the same in compression: for a requested pressure from the reference pressure up to the pressure at
the largest stable density, provided the reference pressure is the smaller. -/
theorem C41_gruneisen_density_energy_compression_partial (p : Grun) (P T x hi : ℝ) (h0 : 0 < p.rho0)
    (hms : p.maxStable T = some hi) (hord : p.rho0 ≤ hi) (hlo : p.q .pRT p.rho0 T ≤ P) (hhi : P ≤ p.q .pRT hi T)
    (hlt : p.q .pRT p.rho0 T < p.q .pRT hi T) (hlow : p.q .pRT (9 / 10 * p.rho0) T ≤ P)
    (h : p.density P T = some x) :
    ∃ a b, 9 / 10 * p.rho0 ≤ a ∧ a ≤ b ∧ b ≤ hi ∧ x = (a + b) / 2 ∧
      (p.q .pRT a T - P) * (p.q .pRT b T - P) ≤ 0 := by
  simp only [density, if_neg (not_lt.mpr hlo), hms] at h
  rw [if_neg (not_lt.mpr hhi)] at h
  have hd : 0 < p.q .pRT hi T - p.q .pRT p.rho0 T := by linarith
  have hg1 : 0 ≤ (hi - p.rho0) / (p.q .pRT hi T - p.q .pRT p.rho0 T) * (P - p.q .pRT p.rho0 T) :=
    mul_nonneg (div_nonneg (by linarith) hd.le) (by linarith)
  have hg2 : (hi - p.rho0) / (p.q .pRT hi T - p.q .pRT p.rho0 T) * (P - p.q .pRT p.rho0 T) ≤ hi - p.rho0 := by
    rw [div_mul_eq_mul_div, div_le_iff₀ hd]
    exact mul_le_mul_of_nonneg_left (by linarith) (by linarith)
  obtain ⟨st, xr, s, e1, e2, e3, e4, e5, e6, e7, -⟩ := C08_regulaFalsi_keeps_bracket
    (fun r => p.q .pRT r T) P (p.rho0 + (hi - p.rho0) / (p.q .pRT hi T - p.q .pRT p.rho0 T) * (P - p.q .pRT p.rho0 T))
    (9 / 10 * p.rho0) hi (1 / 10 ^ 8) (1 / 10 ^ 8) (by norm_num) (by norm_num) (by linarith) (by linarith)
    (Or.inl (by nlinarith))
  rw [e1] at h
  cases st with
  | fail => simp at h
  | success =>
    simp only [Option.some.injEq] at h
    subst h
    exact ⟨s.a, s.b, e3, e4.trans e5, e6, e2, e7⟩

/-- C41, C51: `FillEos` with density and energy as inputs and temperature or pressure requested: keeps its inputs
and returns the direct queries. -/
theorem C41_gruneisen_fill_partial (p : Grun) (fl : Flags) (s : Thermo ℝ) (hr : fl.rho = false) (he : fl.sie = false)
    (htp : fl.temp = true ∨ fl.press = true) :
    ∃ o, p.fill fl s = some o ∧ InputsKept fl s o ∧ OutputsMatch p.q fl o := by
  have hq : ∀ k x, p.q k (min s.rho p.rhoMax) x = p.q k s.rho x := by
    intro k x
    rcases le_total s.rho p.rhoMax with h | h
    · rw [min_eq_left h]
    · rw [min_eq_right h, C41_gruneisen_clamps p k s.rho x h]
  obtain ⟨a, b, c, d, e, f⟩ := fl
  simp only at hr he htp
  subst hr he
  refine ⟨_, by simp only [fill]; rw [if_neg (by rcases htp with h | h <;> simp [h]), if_neg (by simp)], ?_, ?_⟩
  · cases b <;> cases d <;> cases e <;> cases f <;> simp [fillRE, InputsKept]
  · cases b <;> cases d <;> cases e <;> cases f <;> simp [fillRE, OutputsMatch, hq]

/-- C41, C51 are violated: when temperature and pressure are inputs, `FillEos` replaces the density and energy even if
they are inputs too; e.g. asking only for the bulk modulus changes the caller's density. -/
theorem C41_gruneisen_fill_overwrites_violated (p : Grun) (fl : Flags) (s : Thermo ℝ) (x : ℝ) (ht : fl.temp = false)
    (hp : fl.press = false) (hd : p.density s.press s.temp = some x) :
    ∃ o, p.fill fl s = some o ∧ o.rho = x ∧ o.sie = p.q .eRT x s.temp := by
  obtain ⟨a, b, c, d, e, f⟩ := fl
  simp only at ht hp
  subst ht hp
  refine ⟨_, by simp only [fill]; rw [if_pos (by simp), hd], ?_, ?_⟩ <;>
    cases e <;> cases f <;> simp [fillRE]

/-- C41: the minimum energy is the energy at zero temperature, at every density; it is the energy whose temperature is
zero, and energies below it are exactly those with a negative temperature. -/
theorem C41_gruneisen_minimum_energy (p : Grun) (hc : 0 < p.Cv) (n : Num ℝ) (dv : ℝ → ℝ → ℝ) (l0 l : Λ) (r e : ℝ) :
    let t := p.eos n dv l0
    t.minE l r = t.q .eRT l r 0 ∧ t.q .tRE l r (t.minE l r) = 0 ∧ (e < t.minE l r ↔ t.q .tRE l r e < 0) := by
  have h : ∀ r x, p.q .eRT r x = p.Cv * (x - p.T0) := fun r x => rfl
  have h' : ∀ r x, p.q .tRE r x = p.T0 + x / p.Cv := fun r x => rfl
  show p.q .eRT (min r p.rhoMax) 0 = p.q .eRT r 0 ∧ p.q .tRE r (p.q .eRT (min r p.rhoMax) 0) = 0 ∧
    (e < p.q .eRT (min r p.rhoMax) 0 ↔ p.q .tRE r e < 0)
  simp only [h, h']
  refine ⟨trivial, by field_simp; ring, ?_⟩
  have h2 : p.T0 + e / p.Cv < 0 ↔ e / p.Cv < -p.T0 := by constructor <;> intro h <;> linarith
  rw [h2, div_lt_iff₀ hc]
  constructor <;> intro h <;> linarith

/-- C74 (partial): of the Gruneisen reference state, pressure, energy, heat capacity and bulk modulus are the direct
queries at the reported density and temperature. -/
theorem C74_gruneisen_reference_partial (p : Grun) (n : Num ℝ) (dv : ℝ → ℝ → ℝ) (l0 l : Λ) :
    let t := p.eos n dv l0
    t.q .pRT l (t.ref l).rho (t.ref l).temp = (t.ref l).press ∧
    t.q .eRT l (t.ref l).rho (t.ref l).temp = (t.ref l).sie ∧
    t.q .cvRT l (t.ref l).rho (t.ref l).temp = (t.ref l).cv ∧
    t.q .bRT l (t.ref l).rho (t.ref l).temp = (t.ref l).bmod := by
  refine ⟨?_, ?_, rfl, ?_⟩
  · show p.pressure (min p.rho0 p.rhoMax) (p.Cv * (p.T0 - p.T0)) = p.pressure p.rho0 0
    rw [sub_self, mul_zero]; simp [pressure]
  · show p.Cv * (p.T0 - p.T0) = 0
    rw [sub_self, mul_zero]
  · show p.bulk (min p.rho0 p.rhoMax) (p.Cv * (p.T0 - p.T0)) = p.bulk p.rho0 0
    rw [sub_self, mul_zero]; simp [bulk]

/-- C74 is violated: the reported `dp/de` is the reference pressure divided by zero. Whatever that division
produces, it is the same for two materials that differ only in their Gruneisen coefficient, whose true `dp/de` at
the reference state are different: it cannot be right for both. -/
theorem C74_gruneisen_dpde_violated (p : Grun) (h0 : 0 < p.rho0) (hm : p.rho0 < p.rhoMax) (G : ℝ) (hG : G ≠ p.G0)
    (n : Num ℝ) (dv : ℝ → ℝ → ℝ) (l0 l : Λ) :
    let p' := { p with G0 := G }
    ((p.eos n dv l0).ref l).dpde = ((p'.eos n dv l0).ref l).dpde ∧
    HasDerivAt (fun e => p.q .pRE p.rho0 e) (p.rho0 * p.G0) 0 ∧
    HasDerivAt (fun e => p'.q .pRE p.rho0 e) (p.rho0 * G) 0 ∧ p.rho0 * p.G0 ≠ p.rho0 * G := by
  intro p'
  have key : ∀ p : Grun, 0 < p.rho0 → p.rho0 < p.rhoMax → HasDerivAt (fun e => p.q .pRE p.rho0 e) (p.rho0 * p.G0) 0 ∧
      p.q .pRE p.rho0 0 = p.P0 := by
    intro p h0 hm
    refine ⟨?_, ?_⟩
    · refine HasDerivAt.change (C41_gruneisen_gruneisen p p.rho0 0 hm.le) (fun y => rfl) ?_
      simp only [q, gamma, min_eq_left hm.le, lt_irrefl, if_false]
      field_simp
      ring
    · rw [(C41_gruneisen_continuous_at_reference p h0 hm 0).1]; ring
  refine ⟨?_, (key p h0 hm).1, (key p' h0 hm).1, fun h => hG (mul_left_cancel₀ h0.ne' h).symm⟩
  show dv (p.q .pRE p.rho0 0) 0 = dv (p'.q .pRE p'.rho0 0) 0
  rw [(key p h0 hm).2, (key p' h0 hm).2]

/-- Copper-like parameters (CGS). -/
def copper : Grun := ⟨394000, 1.489, 0, 0, 2.02, 0.47, 8.93, 297, 1000000, 3830000, 15, 1, 1⟩

example : IsentropicBulk copper.q 10 1e9 := by
  refine C41_gruneisen_bulk copper (by norm_num [copper]) 10 1e9 (by norm_num) (by norm_num [copper]) (by norm_num [copper]) ?_
  intro _
  norm_num [copper, sPoly]

example : ¬ DifferentiableAt ℝ (fun r => copper.q .pRE r 1e9) copper.rho0 :=
  C41_gruneisen_kink_violated copper (by norm_num [copper]) (by norm_num [copper]) 1e9 (by norm_num [copper])

/-- The maximum-pressure violation is reachable: at room temperature for a material limited to modest compression. -/
example (n : Num ℝ) : (({ copper with rhoMax := 9 }).eos n (· / ·) ()).pMaxT 297 = 9 := by
  refine (C42_maximum_pressure_is_a_density_violated { copper with rhoMax := 9 } n (· / ·) () () 297 ?_ ?_).1
  · norm_num [copper, dPdr, gamma, sPoly]
  · norm_num [copper, q, pressure, gamma, sPoly]

end Grun

end Verif.Grun
