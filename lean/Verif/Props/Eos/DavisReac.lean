import Verif.Model.Eos.Davis
import Verif.Props.Eos.Ideal
import Verif.Props.Eos.Misc
import Verif.Props.RootFind
import Mathlib.Analysis.SpecialFunctions.Pow.Deriv

set_option linter.unusedSectionVars false

/-! # C43, C74: DavisReactants -/

namespace Verif.Davis.Reac

open Verif.Mods Verif.Robust Verif.Base Verif.Spec Verif.Gases Verif.RootFind
open Filter Topology

variable {Λ : Type*}

theorem Ts_pos (p : Reac) (n : Num ℝ) (h0 : 0 < p.rho0) (hT : 0 < p.T0) (r : ℝ) : 0 < p.Ts (Num.exact n) r := by
  simp only [Ts, Num.exact, ratio_zero_small]
  split_ifs with h
  · exact hT
  · push Not at h
    rw [max_eq_left h.le]
    exact mul_pos (mul_pos hT (Real.exp_pos _)) (Real.rpow_pos_of_pos (div_pos h0 h) _)

/-- The dimensionless energy at a temperature. -/
theorem edif_energy (p : Reac) (n : Num ℝ) (h0 : 0 < p.rho0) (hT0 : 0 < p.T0) (hc : p.Cv0 ≠ 0) (ha : 0 ≤ p.alpha) (r T : ℝ) :
    p.edif (Num.exact n) r (p.energy (Num.exact n) r T) = (T / p.Ts (Num.exact n) r) ^ (1 + p.alpha) := by
  have hs := (p.Ts_pos n h0 hT0 r).ne'
  have hα : 1 + p.alpha ≠ 0 := by linarith
  simp only [edif, energy, i1pa]
  generalize p.Ts (Num.exact n) r = s at *
  simp only [Num.exact, ratio_zero_small]
  field_simp
  ring

/-- C43: the temperature of the energy at `T` is `T`, at every density (also nonpositive) and every `T ≥ 0`; by-temperature
queries agree with their by-energy twins. -/
theorem C43_reactants_round_trip (p : Reac) (n : Num ℝ) (h0 : 0 < p.rho0) (hT0 : 0 < p.T0) (hc : p.Cv0 ≠ 0)
    (ha : 0 ≤ p.alpha) (r T : ℝ) (hT : 0 ≤ T) :
    RoundTripT (p.q (Num.exact n)) r T ∧ Twin (p.q (Num.exact n)) .pRT .pRE r T ∧ Twin (p.q (Num.exact n)) .cvRT .cvRE r T ∧
    Twin (p.q (Num.exact n)) .bRT .bRE r T ∧ Twin (p.q (Num.exact n)) .gRT .gRE r T := by
  refine ⟨?_, rfl, rfl, rfl, rfl⟩
  have hs := p.Ts_pos n h0 hT0 r
  have hα : 1 + p.alpha ≠ 0 := by linarith
  simp only [RoundTripT, q, edif_energy p n h0 hT0 hc ha, i1pa]
  rcases hT.eq_or_lt with h | h
  · rw [← h, zero_div, Real.zero_rpow hα, if_pos le_rfl]
  · rw [if_neg (not_le.mpr (Real.rpow_pos_of_pos (div_pos h hs) _)), ← Real.rpow_mul (div_pos h hs).le,
      mul_one_div_cancel hα, Real.rpow_one, mul_div_cancel₀ _ hs.ne']

/-- C43: the energy of the temperature at `e` is `e`, at every density and every energy from the minimum up. -/
theorem C43_reactants_round_trip_energy (p : Reac) (n : Num ℝ) (l0 l : Λ) (h0 : 0 < p.rho0) (hT0 : 0 < p.T0) (hc : 0 < p.Cv0)
    (ha : 0 ≤ p.alpha) (r e : ℝ) (he : (p.eos (Num.exact n) l0).minE l r ≤ e) :
    RoundTripE (p.q (Num.exact n)) r e := by
  have hs := p.Ts_pos n h0 hT0 r
  have hα : 1 + p.alpha ≠ 0 := by linarith
  have hα' : 0 < 1 + p.alpha := by linarith
  have he' : p.Es (Num.exact n) r - p.Cv0 * p.Ts (Num.exact n) r * p.i1pa ≤ e := he
  have hd : 0 ≤ p.edif (Num.exact n) r e := by
    simp only [edif, Num.exact, ratio_zero_small] at *
    simp only [i1pa] at he'
    generalize p.Ts _ r = s at *
    generalize p.Es _ r = E at *
    have : (1 + p.alpha) / (s * p.Cv0) * (e - E) + 1 = (1 + p.alpha) / (s * p.Cv0) * (e - (E - p.Cv0 * s * (1 / (1 + p.alpha)))) := by
      field_simp
      ring
    rw [this]
    exact mul_nonneg (by positivity) (by linarith)
  have hkey : p.Es (Num.exact n) r + p.Cv0 * p.Ts (Num.exact n) r * p.i1pa * (p.edif (Num.exact n) r e - 1) = e := by
    simp only [edif, i1pa]
    generalize p.Ts (Num.exact n) r = s at *
    simp only [Num.exact, ratio_zero_small]
    field_simp
    ring
  simp only [RoundTripE, q, energy]
  generalize hD : p.edif (Num.exact n) r e = D at *
  generalize p.Ts (Num.exact n) r = s at *
  simp only [Num.exact, ratio_zero_small] at *
  split_ifs with h
  · have : D = 0 := le_antisymm h hd
    rw [zero_div, Real.zero_rpow hα]
    rw [this] at hkey
    linarith
  · push Not at h
    rw [mul_div_cancel_left₀ _ hs.ne', ← Real.rpow_mul h.le, i1pa, one_div_mul_cancel hα, Real.rpow_one]
    exact hkey

/-- C43: no query returns a negative temperature; the temperature is zero exactly at or below the minimum energy, the
minimum energy is the energy at zero temperature, and the temperature strictly increases with energy above it. -/
theorem C43_reactants_minimum_energy (p : Reac) (n : Num ℝ) (l0 l : Λ) (h0 : 0 < p.rho0) (hT0 : 0 < p.T0) (hc : 0 < p.Cv0)
    (ha : 0 ≤ p.alpha) (r : ℝ) :
    let t := p.eos (Num.exact n) l0
    t.minE l r = t.q .eRT l r 0 ∧ (∀ e, 0 ≤ t.q .tRE l r e) ∧ (∀ e, t.q .tRE l r e = 0 ↔ e ≤ t.minE l r) ∧
    (∀ e e', t.minE l r ≤ e → e < e' → t.q .tRE l r e < t.q .tRE l r e') := by
  have hs := p.Ts_pos n h0 hT0 r
  have hα : 1 + p.alpha ≠ 0 := by linarith
  have hα' : 0 < 1 + p.alpha := by linarith
  have hD : ∀ e, p.edif (Num.exact n) r e = (1 + p.alpha) / (p.Ts (Num.exact n) r * p.Cv0) *
      (e - (p.Es (Num.exact n) r - p.Cv0 * p.Ts (Num.exact n) r * p.i1pa)) := fun e => by
    simp only [edif, i1pa]
    generalize p.Ts (Num.exact n) r = s at *
    simp only [Num.exact, ratio_zero_small]
    field_simp
    ring
  have hk : 0 < (1 + p.alpha) / (p.Ts (Num.exact n) r * p.Cv0) := by positivity
  have hi : 0 < p.i1pa := by unfold i1pa; positivity
  have hpos : ∀ e, p.edif (Num.exact n) r e ≤ 0 ↔ e ≤ p.Es (Num.exact n) r - p.Cv0 * p.Ts (Num.exact n) r * p.i1pa := fun e => by
    rw [hD]
    constructor
    · intro h; by_contra h2; push Not at h2
      exact absurd (mul_pos hk (sub_pos.mpr h2)) (not_lt.mpr h)
    · intro h; exact mul_nonpos_of_nonneg_of_nonpos hk.le (by linarith)
  intro t
  have hq : ∀ e, t.q .tRE l r e = if p.edif (Num.exact n) r e ≤ 0 then 0 else p.Ts (Num.exact n) r * (p.edif (Num.exact n) r e) ^ p.i1pa :=
    fun _ => rfl
  have hm : t.minE l r = p.Es (Num.exact n) r - p.Cv0 * p.Ts (Num.exact n) r * p.i1pa := rfl
  refine ⟨?_, fun e => ?_, fun e => ?_, fun e e' he hee => ?_⟩
  · rw [hm]
    show _ = p.energy (Num.exact n) r 0
    simp only [energy]
    generalize p.Ts (Num.exact n) r = s at *
    simp only [Num.exact, ratio_zero_small, zero_div, Real.zero_rpow hα]
    ring
  · rw [hq]
    split_ifs with h
    · exact le_rfl
    · push Not at h; positivity
  · rw [hq, hm, ← hpos]
    split_ifs with h
    · simp [h]
    · push Not at h
      have : 0 < p.Ts (Num.exact n) r * p.edif (Num.exact n) r e ^ p.i1pa := by positivity
      exact ⟨fun h2 => absurd h2 this.ne', fun h2 => absurd h2 (not_le.mpr h)⟩
  · rw [hq, hq]
    have he' : ¬ p.edif (Num.exact n) r e' ≤ 0 := by
      rw [hpos, ← hm]; exact not_le.mpr (lt_of_le_of_lt he hee)
    rw [if_neg he']
    push Not at he'
    split_ifs with h
    · positivity
    · push Not at h
      refine mul_lt_mul_of_pos_left (Real.rpow_lt_rpow h.le ?_ hi) hs
      rw [hD, hD]
      exact mul_lt_mul_of_pos_left (by linarith) hk

/-- C43: the heat capacity is the temperature derivative of the energy, at every density and positive temperature. -/
theorem C43_reactants_heat_capacity (p : Reac) (n : Num ℝ) (h0 : 0 < p.rho0) (hT0 : 0 < p.T0) (hc : p.Cv0 ≠ 0)
    (ha : 0 ≤ p.alpha) (r T : ℝ) (hT : 0 < T) : HeatCapacity (p.q (Num.exact n)) r T := by
  have hs := p.Ts_pos n h0 hT0 r
  have hα : 1 + p.alpha ≠ 0 := by linarith
  have hu : 0 < T / p.Ts (Num.exact n) r := div_pos hT hs
  have hcv : p.q (Num.exact n) .cvRT r T = p.Cv0 * (T / p.Ts (Num.exact n) r) ^ p.alpha := by
    simp only [q, cv, edif_energy p n h0 hT0 hc ha, i1pa]
    rw [if_neg (not_le.mpr (Real.rpow_pos_of_pos hu _)), ← Real.rpow_mul hu.le]
    have : (1 + p.alpha) * (-p.alpha * (1 / (1 + p.alpha))) = -p.alpha := by field_simp
    rw [this, Real.rpow_neg hu.le]
    simp only [Num.exact, ratio_zero_small, div_inv_eq_mul]
  rw [HeatCapacity, hcv]
  have h1 := ((hasDerivAt_id T).div_const (p.Ts (Num.exact n) r)).rpow_const (p := 1 + p.alpha) (Or.inl hu.ne')
  refine HasDerivAt.change (((h1.sub_const 1).const_mul (p.Cv0 * p.Ts (Num.exact n) r * p.i1pa)).const_add (p.Es (Num.exact n) r))
    (fun y => ?_) ?_
  · simp only [q, energy, id]
    generalize p.Ts (Num.exact n) r = s at *
    simp only [Num.exact, ratio_zero_small]
  · simp only [id, i1pa, add_sub_cancel_left]
    field_simp

/-- C43: the Gruneisen parameter is `(1/rho) dP/de` at every state. -/
theorem C43_reactants_gruneisen (p : Reac) (n : Num ℝ) (r e : ℝ) : Gruneisen (p.q n) r e := by
  refine HasDerivAt.change (hasDerivAt_affine (p.gamma n r * r) (p.Ps n r - p.gamma n r * r * p.Es n r) e) (fun y => ?_) ?_
  · simp only [q, pressure]; ring
  · simp only [q]; ring

theorem hasDerivAt_y (rho0 r : ℝ) (hr : 0 < r) : HasDerivAt (fun x => 1 - rho0 / x) (rho0 / r ^ 2) r := by
  refine HasDerivAt.change (((hasDerivAt_const r rho0).div (hasDerivAt_id r) hr.ne').const_sub 1) (fun y => rfl) ?_
  simp; ring

/-- The code's own isentrope energy and pressure: `dE_s/drho = (P_s + P0)/rho^2` away from the reference density. -/
theorem hasDerivAt_Es (p : Reac) (n : Num ℝ) (h0 : 0 < p.rho0) (hB : p.B ≠ 0) (r : ℝ) (hr : 0 < r) (hne : r ≠ p.rho0) :
    HasDerivAt (p.Es (Num.exact n)) ((p.Ps (Num.exact n) r + p.P0) / r ^ 2) r := by
  have hy := hasDerivAt_y p.rho0 r hr
  have hv : HasDerivAt (fun x => p.P0 * (1 / p.rho0 - 1 / x)) (p.P0 / r ^ 2) r := by
    refine HasDerivAt.change ((((hasDerivAt_const r (1:ℝ)).div (hasDerivAt_id r) hr.ne').const_sub (1 / p.rho0)).const_mul p.P0)
      (fun y => rfl) ?_
    simp; ring
  have hby := hy.const_mul (4 * p.B)
  rcases lt_or_gt_of_ne hne with h | h
  · have hes := hy.neg.sub ((hby.exp.const_sub 1).div_const (4 * p.B))
    refine HasDerivAt.changeOn (Ioo_mem_nhds hr h) ((hv.const_add p.e0).add (hes.const_mul (p.phat * (1 / p.rho0)))) (fun y hy => ?_) ?_
    · have : ¬ (1 - p.rho0 / y > 0) := by
        rw [gt_iff_lt, sub_pos, div_lt_one hy.1]; exact not_lt.mpr hy.2.le
      simp only [Es, Num.exact, ratio_zero_small, max_eq_left hy.1.le, if_neg (not_le.mpr hy.1), if_neg this]
      rfl
    · simp only [Ps, Num.exact, ratio_zero_small, max_eq_left hr.le, if_neg (not_le.mpr hr), ge_iff_le, if_neg (not_le.mpr h)]
      generalize Real.exp (4 * p.B * (1 - p.rho0 / r)) = E
      field_simp
      ring
  · have hz : HasDerivAt (fun x => x * (1 / p.rho0) - 1) (1 / p.rho0) r := by
      simpa using ((hasDerivAt_id r).mul_const (1 / p.rho0)).sub_const 1
    have hin := ((((hby.const_mul (p.C * (1/5))).const_add 1).fun_mul hby |>.const_mul (1/4)).const_add 1).fun_mul hby |>.const_mul (1/3)
    have hes := (((hy.const_mul (1/2)).fun_mul hby).fun_mul (hin.const_add 1)).add ((hz.fun_pow 3).const_mul (1/3))
    refine HasDerivAt.changeOn (Ioi_mem_nhds h) ((hv.const_add p.e0).add (hes.const_mul (p.phat * (1 / p.rho0)))) (fun y hy => ?_) ?_
    · have hy : p.rho0 < y := hy
      have hy0 : 0 < y := h0.trans hy
      have : 1 - p.rho0 / y > 0 := by
        rw [gt_iff_lt, sub_pos, div_lt_one hy0]; exact hy
      simp only [Es, Num.exact, ratio_zero_small, max_eq_left hy0.le, if_neg (not_le.mpr hy0), if_pos this]
      simp only [Pi.add_apply]
      ring
    · simp only [Ps, Num.exact, ratio_zero_small, max_eq_left hr.le, if_neg (not_le.mpr hr), ge_iff_le, if_pos h.le]
      have hyy : 1 - (1 - p.rho0 / r) = p.rho0 / r := by ring
      rw [hyy]
      simp only [Nat.cast_ofNat, Nat.reduceSub]
      field_simp
      ring

theorem hasDerivAt_Ps (p : Reac) (n : Num ℝ) (h0 : 0 < p.rho0) (r : ℝ) (hr : 0 < r) (hne : r ≠ p.rho0) :
    HasDerivAt (p.Ps (Num.exact n))
      (p.phat * p.rho0 / r ^ 2 * (if p.rho0 < r then
        4 * p.B * (1 + 4 * p.B * (1 - p.rho0 / r) + 1 / 2 * ((4 * p.B * (1 - p.rho0 / r)) ^ 2
          + 1 / 3 * p.C * (4 * p.B * (1 - p.rho0 / r)) ^ 3))
        + 2 * ((1 - p.rho0 / r) / (p.rho0 / r) ^ 4) + 4 * ((1 - p.rho0 / r) ^ 2 / (p.rho0 / r) ^ 5)
      else 4 * p.B * Real.exp (4 * p.B * (1 - p.rho0 / r)))) r := by
  have hy := hasDerivAt_y p.rho0 r hr
  have hby := hy.const_mul (4 * p.B)
  rcases lt_or_gt_of_ne hne with h | h
  · rw [if_neg (not_lt.mpr h.le)]
    refine HasDerivAt.changeOn (Ioo_mem_nhds hr h) ((hby.exp.sub_const 1).const_mul p.phat) (fun y hy => ?_) ?_
    · simp only [Ps, Num.exact, ratio_zero_small, max_eq_left hy.1.le, if_neg (not_le.mpr hy.1), ge_iff_le, if_neg (not_le.mpr hy.2)]
    · ring
  · rw [if_pos h]
    have hp := hby.fun_add ((((hby.fun_pow 2).fun_add (((hby.fun_pow 3).fun_add (((hby.fun_pow 4).const_mul p.C).mul_const (1/4))).const_mul (1/3)))).const_mul (1/2))
    have hq := (hy.fun_pow 2).fun_div ((hy.const_sub 1).fun_pow 4) (by
      rw [sub_sub_cancel]; have := div_pos h0 hr; positivity)
    refine HasDerivAt.changeOn (Ioi_mem_nhds h) ((hp.fun_add hq).const_mul p.phat) (fun y hy => ?_) ?_
    · have hy : p.rho0 < y := hy
      have hy0 : 0 < y := h0.trans hy
      simp only [Ps, Num.exact, ratio_zero_small, max_eq_left hy0.le, if_neg (not_le.mpr hy0), ge_iff_le, if_pos hy.le]
    · simp only [Nat.cast_ofNat, Nat.reduceSub, sub_sub_cancel, pow_one]
      field_simp
      ring

/-- C43: the reference isentrope. The energy on it has `dE_s/drho = (P_s + P0) / rho^2`: with `P0 = 0` the pressure on the
isentrope is minus the volume derivative of the energy, at every positive density but the reference one. (The energy on
the isentrope is the energy at the temperature there, and the pressure there the pressure at that temperature.) -/
theorem C43_reactants_isentrope (p : Reac) (n : Num ℝ) (h0 : 0 < p.rho0) (hT0 : 0 < p.T0) (hB : p.B ≠ 0) (hP : p.P0 = 0) (r : ℝ)
    (hr : 0 < r) (hne : r ≠ p.rho0) :
    HasDerivAt (fun x => p.q (Num.exact n) .eRT x (p.Ts (Num.exact n) x))
      (p.q (Num.exact n) .pRT r (p.Ts (Num.exact n) r) / r ^ 2) r := by
  have key : ∀ x, p.energy (Num.exact n) x (p.Ts (Num.exact n) x) = p.Es (Num.exact n) x := fun x => by
    have hs := (p.Ts_pos n h0 hT0 x).ne'
    simp only [energy]
    generalize p.Ts (Num.exact n) x = s at *
    simp only [Num.exact, ratio_zero_small, div_self hs, Real.one_rpow]
    ring
  refine HasDerivAt.change (p.hasDerivAt_Es n h0 hB r hr hne) (fun y => key y) ?_
  simp only [q, key, pressure, hP]
  ring

/-- C43 is violated when `P0` is not zero: on the code's reference isentrope the energy's volume derivative is not
minus the pressure, it misses it by `P0`. -/
theorem C43_reactants_isentrope_violated (p : Reac) (n : Num ℝ) (h0 : 0 < p.rho0) (hT0 : 0 < p.T0) (hB : p.B ≠ 0) (hP : p.P0 ≠ 0)
    (r : ℝ) (hr : 0 < r) (hne : r ≠ p.rho0) :
    HasDerivAt (fun x => p.q (Num.exact n) .eRT x (p.Ts (Num.exact n) x))
      ((p.q (Num.exact n) .pRT r (p.Ts (Num.exact n) r) + p.P0) / r ^ 2) r ∧
    ¬ HasDerivAt (fun x => p.q (Num.exact n) .eRT x (p.Ts (Num.exact n) x))
      (p.q (Num.exact n) .pRT r (p.Ts (Num.exact n) r) / r ^ 2) r := by
  have key : ∀ x, p.energy (Num.exact n) x (p.Ts (Num.exact n) x) = p.Es (Num.exact n) x := fun x => by
    have hs := (p.Ts_pos n h0 hT0 x).ne'
    simp only [energy]
    generalize p.Ts (Num.exact n) x = s at *
    simp only [Num.exact, ratio_zero_small, div_self hs, Real.one_rpow]
    ring
  have h1 : HasDerivAt (fun x => p.q (Num.exact n) .eRT x (p.Ts (Num.exact n) x))
      ((p.q (Num.exact n) .pRT r (p.Ts (Num.exact n) r) + p.P0) / r ^ 2) r := by
    refine HasDerivAt.change (p.hasDerivAt_Es n h0 hB r hr hne) (fun y => key y) ?_
    simp only [q, key, pressure]
    ring
  refine ⟨h1, fun h2 => hP ?_⟩
  have h3 := h1.unique h2
  have hr2 : r ^ 2 ≠ 0 := by positivity
  rw [div_left_inj' hr2] at h3
  linarith

/-- C43 (partial): what the bulk modulus is. It exceeds the isentropic derivative of the pressure by `Gamma P0`, and in
compression by a further `phat rho0 y / ((1-y)^4 rho)` with `y = 1 - rho0/rho` (`phat = A^2 rho0 / 4B`): a 3 for a 2 in the
derivative of `y^2/(1-y)^4`. -/
theorem C43_reactants_bulk_partial (p : Reac) (n : Num ℝ) (h0 : 0 < p.rho0) (hB : p.B ≠ 0) (r e : ℝ) (hr : 0 < r) (hne : r ≠ p.rho0) :
    ∃ Pr Pe, HasDerivAt (fun x => p.q (Num.exact n) .pRE x e) Pr r ∧ HasDerivAt (fun x => p.q (Num.exact n) .pRE r x) Pe e ∧
    p.q (Num.exact n) .bRE r e = r * (Pr + p.q (Num.exact n) .pRE r e / r ^ 2 * Pe) + p.q (Num.exact n) .gRE r e * p.P0
      + (if p.rho0 < r then p.A ^ 2 * p.rho0 / (4 * p.B) * p.rho0 * ((1 - p.rho0 / r) / (p.rho0 / r) ^ 4) / r else 0) := by
  have hE := p.hasDerivAt_Es n h0 hB r hr hne
  have hP := p.hasDerivAt_Ps n h0 r hr hne
  have hPe := p.C43_reactants_gruneisen (Num.exact n) r e
  have hph : p.A ^ 2 * p.rho0 / (4 * p.B) = p.phat := by unfold phat; field_simp
  rw [hph]
  have hG : HasDerivAt (fun x => p.gamma (Num.exact n) x * x)
      (p.gamma (Num.exact n) r + if p.rho0 < r then p.Z * (p.rho0 / r) else 0) r := by
    rcases lt_or_gt_of_ne hne with h | h
    · rw [if_neg (not_lt.mpr h.le)]
      refine HasDerivAt.changeOn (f := fun x => p.G0 * x + 0) (Ioo_mem_nhds hr h) (hasDerivAt_affine _ _ _) (fun y hy => ?_) ?_
      · simp only [gamma, ge_iff_le, if_neg (not_le.mpr hy.2)]; ring
      · simp only [gamma, ge_iff_le, if_neg (not_le.mpr h)]; ring
    · rw [if_pos h]
      refine HasDerivAt.changeOn (f := fun x => (p.G0 + p.Z) * x + (- p.Z * p.rho0)) (Ioi_mem_nhds h) (hasDerivAt_affine _ _ _) (fun y hy => ?_) ?_
      · have hy : p.rho0 < y := hy
        have hy0 : 0 < y := h0.trans hy
        simp only [gamma, ge_iff_le, if_pos hy.le, Num.exact, ratio_zero_small, max_eq_left hy0.le]
        field_simp
        ring
      · simp only [gamma, ge_iff_le, if_pos h.le, Num.exact, ratio_zero_small, max_eq_left hr.le]
        ring
  refine ⟨_, _, hP.add (hG.mul (hE.const_sub e)), hPe, ?_⟩
  have hmr : max r 0 = r := max_eq_left hr.le
  simp only [q, bulk, pressure, hmr]
  generalize p.Ps (Num.exact n) r = Ps
  generalize p.Es (Num.exact n) r = Es
  generalize p.gamma (Num.exact n) r = g
  simp only [Num.exact, ratio_zero_small, ge_iff_le, sub_sub_cancel]
  generalize p.phat = ph
  rcases lt_or_gt_of_ne hne with h | h
  · simp only [if_neg (not_le.mpr h), if_neg (not_lt.mpr h.le)]
    generalize Real.exp _ = X
    field_simp
    ring
  · simp only [if_pos h.le, if_pos h]
    field_simp
    ring

/-- C43: with `P0 = 0` the bulk modulus is the isentropic derivative of the pressure in expansion. -/
theorem C43_reactants_bulk_expansion (p : Reac) (n : Num ℝ) (hB : p.B ≠ 0) (hP : p.P0 = 0) (r e : ℝ) (hr : 0 < r)
    (h : r < p.rho0) : IsentropicBulk (p.q (Num.exact n)) r e := by
  obtain ⟨Pr, Pe, h1, h2, h3⟩ := p.C43_reactants_bulk_partial n (hr.trans h) hB r e hr h.ne
  refine ⟨Pr, Pe, h1, h2, ?_⟩
  rw [h3, hP, if_neg (not_lt.mpr h.le)]
  ring

/-- C43 is violated in compression: with `P0 = 0` (so that nothing else is wrong) the bulk modulus is never the isentropic
derivative of the pressure, at any density above the reference density and any energy, for any parameters with `A ≠ 0`. -/
theorem C43_reactants_bulk_compression_violated (p : Reac) (n : Num ℝ) (h0 : 0 < p.rho0) (hA : p.A ≠ 0) (hB : p.B ≠ 0)
    (hP : p.P0 = 0) (r e : ℝ) (h : p.rho0 < r) : ¬ IsentropicBulk (p.q (Num.exact n)) r e := by
  have hr : 0 < r := h0.trans h
  obtain ⟨Pr, Pe, h1, h2, h3⟩ := p.C43_reactants_bulk_partial n h0 hB r e hr h.ne'
  rintro ⟨Pr', Pe', h1', h2', h3'⟩
  rw [h1'.unique h1, h2'.unique h2] at h3'
  rw [h3', hP, if_pos h] at h3
  have hy : 1 - p.rho0 / r ≠ 0 := by
    rw [sub_ne_zero]; intro h4; rw [eq_div_iff hr.ne'] at h4; linarith
  have : p.A ^ 2 * p.rho0 / (4 * p.B) * p.rho0 * ((1 - p.rho0 / r) / (p.rho0 / r) ^ 4) / r ≠ 0 := by
    have h5 := hr.ne'
    have h6 := h0.ne'
    positivity
  apply this
  linarith

/-- Temperature on the reference isentrope: `dT_s/drho = (G0 + Z (1 - rho0/rho)) T_s / rho`. -/
theorem hasDerivAt_Ts (p : Reac) (n : Num ℝ) (h0 : 0 < p.rho0) (r : ℝ) (hr : 0 < r) :
    HasDerivAt (p.Ts (Num.exact n)) ((p.G0 + p.Z * (1 - p.rho0 / r)) * p.Ts (Num.exact n) r / r) r := by
  have hq : HasDerivAt (fun x => p.rho0 / x) (-(p.rho0 / r ^ 2)) r := by
    refine HasDerivAt.change ((hasDerivAt_const r p.rho0).div (hasDerivAt_id r) hr.ne') (fun y => rfl) ?_
    simp; ring
  have hp : 0 < p.rho0 / r := div_pos h0 hr
  have h1 := (((hasDerivAt_y p.rho0 r hr).const_mul (-p.Z)).exp.const_mul p.T0).fun_mul
    (hq.rpow_const (p := -p.G0 - p.Z) (Or.inl hp.ne'))
  refine HasDerivAt.changeOn (Ioi_mem_nhds hr) h1 (fun y hy => ?_) ?_
  · have hy : 0 < y := hy
    simp only [Ts, Num.exact, ratio_zero_small, if_neg (not_le.mpr hy), max_eq_left hy.le]
  · simp only [Ts, Num.exact, ratio_zero_small, if_neg (not_le.mpr hr), max_eq_left hr.le]
    rw [Real.rpow_sub_one hp.ne']
    generalize (p.rho0 / r) ^ (-p.G0 - p.Z) = X
    generalize Real.exp _ = E
    field_simp
    ring

/-- What `de/drho` at constant temperature is, from the isentrope. -/
theorem hasDerivAt_energy (p : Reac) (n : Num ℝ) (h0 : 0 < p.rho0) (hT0 : 0 < p.T0) (hB : p.B ≠ 0)
    (r T : ℝ) (hr : 0 < r) (hne : r ≠ p.rho0) (hT : 0 < T) :
    HasDerivAt (fun x => p.q (Num.exact n) .eRT x T) ((p.Ps (Num.exact n) r + p.P0) / r ^ 2 +
      p.Cv0 * p.i1pa * ((p.G0 + p.Z * (1 - p.rho0 / r)) * p.Ts (Num.exact n) r / r) *
        ((T / p.Ts (Num.exact n) r) ^ (1 + p.alpha) - 1 - (1 + p.alpha) * (T / p.Ts (Num.exact n) r) ^ (1 + p.alpha))) r := by
  have hs := p.Ts_pos n h0 hT0 r
  have hu : 0 < T / p.Ts (Num.exact n) r := div_pos hT hs
  have hTs := p.hasDerivAt_Ts n h0 r hr
  have hd := ((hasDerivAt_const r T).fun_div hTs hs.ne').rpow_const (p := 1 + p.alpha) (Or.inl hu.ne')
  have h1 := ((hTs.const_mul p.Cv0).mul_const p.i1pa).fun_mul (hd.sub_const 1)
  refine HasDerivAt.change ((p.hasDerivAt_Es n h0 hB r hr hne).add h1) (fun y => ?_) ?_
  · simp only [q, energy, Pi.add_apply]
    congr 3
    simp only [Num.exact, ratio_zero_small]
  · rw [add_sub_cancel_left]
    have h2 : (T / p.Ts (Num.exact n) r) ^ (1 + p.alpha) = (T / p.Ts (Num.exact n) r) ^ p.alpha * (T / p.Ts (Num.exact n) r) := by
      rw [add_comm, Real.rpow_add_one hu.ne']
    rw [h2]
    generalize (T / p.Ts (Num.exact n) r) ^ p.alpha = X
    generalize p.Ts (Num.exact n) r = s at *
    field_simp
    ring

/-- The temperature derivative of the pressure. -/
theorem hasDerivAt_pT (p : Reac) (n : Num ℝ) (h0 : 0 < p.rho0) (hT0 : 0 < p.T0) (hc : p.Cv0 ≠ 0)
    (ha : 0 ≤ p.alpha) (r T : ℝ) (hT : 0 < T) :
    HasDerivAt (fun t => p.q (Num.exact n) .pRT r t)
      (p.gamma (Num.exact n) r * r * (p.Cv0 * (T / p.Ts (Num.exact n) r) ^ p.alpha)) T := by
  have hs := p.Ts_pos n h0 hT0 r
  have hα : 1 + p.alpha ≠ 0 := by linarith
  have hu : 0 < T / p.Ts (Num.exact n) r := div_pos hT hs
  have h1 := ((hasDerivAt_id T).div_const (p.Ts (Num.exact n) r)).rpow_const (p := 1 + p.alpha) (Or.inl hu.ne')
  refine HasDerivAt.change (((h1.sub_const 1).const_mul (p.gamma (Num.exact n) r * r * (p.Cv0 * p.Ts (Num.exact n) r * p.i1pa))).const_add
    (p.Ps (Num.exact n) r)) (fun y => ?_) ?_
  · simp only [q, energy, pressure, id, add_sub_cancel_left]
    generalize p.Ts (Num.exact n) r = s at *
    generalize p.gamma (Num.exact n) r = g at *
    generalize p.Ps (Num.exact n) r = P at *
    simp only [Num.exact, ratio_zero_small]
    ring
  · simp only [id, i1pa, add_sub_cancel_left]
    field_simp

/-- C43: with `P0 = 0` energy and pressure satisfy the first law above the reference density, at every positive
temperature. -/
theorem C43_reactants_first_law (p : Reac) (n : Num ℝ) (h0 : 0 < p.rho0) (hT0 : 0 < p.T0) (hc : p.Cv0 ≠ 0)
    (ha : 0 ≤ p.alpha) (hB : p.B ≠ 0) (hP : p.P0 = 0) (r T : ℝ) (h : p.rho0 < r) (hT : 0 < T) :
    EnergyRho (p.q (Num.exact n)) r T := by
  have hr : 0 < r := h0.trans h
  have hs := p.Ts_pos n h0 hT0 r
  have hα : 1 + p.alpha ≠ 0 := by linarith
  have hu : 0 < T / p.Ts (Num.exact n) r := div_pos hT hs
  refine ⟨_, p.hasDerivAt_pT n h0 hT0 hc ha r T hT, ?_⟩
  refine HasDerivAt.change (p.hasDerivAt_energy n h0 hT0 hB r T hr h.ne' hT) (fun y => rfl) ?_
  have h2 : (T / p.Ts (Num.exact n) r) ^ (1 + p.alpha) = (T / p.Ts (Num.exact n) r) ^ p.alpha * (T / p.Ts (Num.exact n) r) := by
    rw [add_comm, Real.rpow_add_one hu.ne']
  have hg : p.gamma (Num.exact n) r = p.G0 + p.Z * (1 - p.rho0 / r) := by
    simp only [gamma, ge_iff_le, if_pos h.le, Num.exact, ratio_zero_small, max_eq_left hr.le]
  simp only [q, pressure, energy, add_sub_cancel_left, hP, ← hg]
  have h3 : ratio (Num.exact n).σ T (p.Ts (Num.exact n) r) = T / p.Ts (Num.exact n) r := by
    simp only [Num.exact, ratio_zero_small]
  rw [h3, h2]
  generalize (T / p.Ts (Num.exact n) r) ^ p.alpha = X
  generalize p.Ts (Num.exact n) r = s at *
  generalize p.gamma (Num.exact n) r = g at *
  simp only [i1pa]
  field_simp
  ring

/-- C43 is violated below the reference density when `Z ≠ 0`: the Gruneisen parameter there is the constant `G0`, but the
reference temperature still follows `G0 + Z (1 - rho0/rho)`; with `P0 = 0` the first law then fails at every positive temperature. -/
theorem C43_reactants_first_law_expansion_violated (p : Reac) (n : Num ℝ) (h0 : 0 < p.rho0) (hT0 : 0 < p.T0) (hc : p.Cv0 ≠ 0)
    (ha : 0 ≤ p.alpha) (hB : p.B ≠ 0) (hP : p.P0 = 0) (hZ : p.Z ≠ 0) (r T : ℝ) (hr : 0 < r) (h : r < p.rho0) (hT : 0 < T) :
    ¬ EnergyRho (p.q (Num.exact n)) r T := by
  have hs := p.Ts_pos n h0 hT0 r
  have hα : 1 + p.alpha ≠ 0 := by linarith
  have hα' : 0 < 1 + p.alpha := by linarith
  have hu : 0 < T / p.Ts (Num.exact n) r := div_pos hT hs
  rintro ⟨PT, h1, h2⟩
  have e1 := h1.unique (p.hasDerivAt_pT n h0 hT0 hc ha r T hT)
  have e2 := h2.unique (p.hasDerivAt_energy n h0 hT0 hB r T hr h.ne hT)
  rw [e1] at e2
  have h2 : (T / p.Ts (Num.exact n) r) ^ (1 + p.alpha) = (T / p.Ts (Num.exact n) r) ^ p.alpha * (T / p.Ts (Num.exact n) r) := by
    rw [add_comm, Real.rpow_add_one hu.ne']
  have hg : p.gamma (Num.exact n) r = p.G0 := by
    simp only [gamma, ge_iff_le, if_neg (not_le.mpr h)]
  have h3 : ratio (Num.exact n).σ T (p.Ts (Num.exact n) r) = T / p.Ts (Num.exact n) r := by
    simp only [Num.exact, ratio_zero_small]
  have hX : 0 < (T / p.Ts (Num.exact n) r) ^ p.alpha := Real.rpow_pos_of_pos hu _
  simp only [q, pressure, energy, add_sub_cancel_left, hP, hg, h3, h2] at e2
  generalize (T / p.Ts (Num.exact n) r) ^ p.alpha = X at *
  generalize p.Ts (Num.exact n) r = s at *
  have hy : 1 - p.rho0 / r ≠ 0 := by
    rw [sub_ne_zero]; intro h4; rw [eq_div_iff hr.ne'] at h4; linarith
  have hpos : 0 < 1 + p.alpha * (X * (T / s)) := by positivity
  have : p.Cv0 * p.i1pa * (p.Z * (1 - p.rho0 / r) * s / r) * (1 + p.alpha * (X * (T / s))) = 0 := by
    rw [← sub_eq_zero] at e2
    rw [← e2]
    simp only [i1pa]
    generalize 1 - p.rho0 / r = y
    field_simp
    ring
  have hi : p.i1pa ≠ 0 := by unfold i1pa; positivity
  have h5 := hr.ne'
  have h6 := hs.ne'
  have h7 := hpos.ne'
  have : p.Cv0 * p.i1pa * (p.Z * (1 - p.rho0 / r) * s / r) * (1 + p.alpha * (X * (T / s))) ≠ 0 := by
    refine mul_ne_zero (mul_ne_zero (mul_ne_zero hc hi) ?_) h7
    exact div_ne_zero (mul_ne_zero (mul_ne_zero hZ hy) h6) h5
  contradiction

/-- The function whose root is the density is the pressure at that temperature. -/
theorem pofR_eq (p : Reac) (n : Num ℝ) (T r : ℝ) : p.pofR n T r = p.q n .pRT r T := by
  simp only [pofR, q, pressure, energy]
  ring

/-- C43 (partial): `DensityEnergyFromPressureTemperature`. If the reference density is within `[1e-5, 1e3]` and the
requested pressure lies between the pressures at those densities, a call that does not abort returns a density in that
range at the middle of an interval over which the pressure at that temperature crosses the requested one, with the
energy at that density and temperature. How close: `C43_reactants_density_accuracy`. -/
theorem C43_reactants_density_energy_partial (p : Reac) (n : Num ℝ) (l0 l : Λ) (P T : ℝ) (g : ℝ × ℝ)
    (hg : 1 / 10 ^ 5 ≤ p.rho0 ∧ p.rho0 ≤ 10 ^ 3)
    (hP : (p.q n .pRT (1 / 10 ^ 5) T - P) * (p.q n .pRT (10 ^ 3) T - P) ≤ 0) (x : ℝ)
    (h : p.density n P T = some x) :
    let o := (p.eos n l0).rePT l P T g
    o.1 = x ∧ o.2 = p.q n .eRT o.1 T ∧
    ∃ a b, 1 / 10 ^ 5 ≤ a ∧ a ≤ b ∧ b ≤ 10 ^ 3 ∧ o.1 = (a + b) / 2 ∧
      (p.q n .pRT a T - P) * (p.q n .pRT b T - P) ≤ 0 := by
  have ho : (p.eos n l0).rePT l P T g = (x, p.q n .eRT x T) := by
    show (match p.density n P T with | some x => (x, p.q n .eRT x T) | none => g) = _
    rw [h]
  intro o
  have ho' : o = (x, p.q n .eRT x T) := ho
  rw [ho']
  refine ⟨rfl, rfl, ?_⟩
  have hf : p.pofR n T = fun r => p.q n .pRT r T := funext fun r => p.pofR_eq n T r
  unfold density at h
  rw [hf] at h
  obtain ⟨st, xr, s, h1, h2, h3, h4, h5, h6, h7, -⟩ := C08_regulaFalsi_keeps_bracket (fun r => p.q n .pRT r T) P p.rho0
    (1 / 10 ^ 5) (10 ^ 3) (1 / 10 ^ 8) (1 / 10 ^ 8) (by norm_num) (by norm_num) hg.1 hg.2 (Or.inl hP)
  rw [h1] at h
  cases st with
  | success =>
    simp only [Option.some.injEq] at h
    have hx : 0 ≤ xr := le_trans (by norm_num) (h3.trans h4)
    rw [max_eq_right hx] at h
    subst h
    exact ⟨s.a, s.b, h3, h4.trans h5, h6, h2, h7⟩
  | fail => simp at h

/-- C74: the reference state is a state of the EOS. -/
theorem C74_davis_reactants_reference (p : Reac) (n : Num ℝ) (l0 l : Λ) : RefDirect (p.eos n l0) l := by
  refine ⟨rfl, rfl, rfl, rfl, ?_⟩
  show p.rho0 * p.gamma n p.rho0 = p.gamma n p.rho0 * p.rho0
  ring

/-- PBX-9502 (the parameters of `test_eos_unit.cpp`, in cgs up to round numbers) meets the hypotheses of the theorems above. -/
example : ∃ p : Reac, 0 < p.rho0 ∧ 0 < p.T0 ∧ 0 < p.Cv0 ∧ 0 ≤ p.alpha ∧ p.B ≠ 0 ∧ p.A ≠ 0 ∧ p.P0 = 0 ∧ p.Z ≠ 0 ∧
    1 / 10 ^ 5 ≤ p.rho0 ∧ p.rho0 ≤ 10 ^ 3 :=
  ⟨⟨1895 / 1000, 4115 * 10 ^ 7, 0, 297, 18 / 10 * 10 ^ 5, 46 / 10, 34 / 100, 56 / 100, 1 / 10, 4265 / 10000, 1074 * 10 ^ 4, 1, 1⟩,
    by norm_num, by norm_num, by norm_num, by norm_num, by norm_num, by norm_num, by norm_num, by norm_num, by norm_num, by norm_num⟩

end Verif.Davis.Reac
