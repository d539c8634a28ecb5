import Verif.Model.Eos.Gases
import Verif.Lemmas.Deriv
import Verif.Spec.Inversions
import Verif.Spec.Fill
import Verif.Props.Ramp
import Verif.Props.Fill
import Verif.Tactics

set_option linter.unusedSectionVars false

/-! # C36, C37, C74: IdealGas and StiffGas -/

namespace Verif.Gases

open Verif.Mods Verif.Robust Verif.Base Verif.Spec

variable {Λ : Type*}

/-- The constants with `SMALL` negligible: `b + SMALL` rounds to `b`. -/
abbrev Num.exact (n : Num ℝ) : Num ℝ := { n with σ := 0 }

namespace Ideal

/-- Parameters accepted by the constructor (`CheckParams`), without the degenerate zero values. -/
structure Ok (p : Ideal) : Prop where
  gm1 : 0 < p.gm1
  Cv : 0 < p.Cv
  sT0 : 0 < p.sT0
  sRho0 : 0 < p.sRho0

/-- C36: IdealGas is thermodynamically consistent at every state of positive density and temperature. -/
theorem C36_ideal_consistent (p : Ideal) (hp : p.Ok) (n : Num ℝ) (r T : ℝ) (hr : 0 < r) (hT : 0 < T) :
    Consistent (p.q (Num.exact n)) r T := by
  obtain ⟨hg, hc, hs, hd⟩ := hp
  have hCT : 0 < p.Cv * T := mul_pos hc hT
  have hE : p.q (Num.exact n) .eRT r T = p.Cv * T := max_eq_right hCT.le
  have hTE : p.q (Num.exact n) .tRE r (p.Cv * T) = T := by
    show max 0 (p.Cv * T / p.Cv) = T
    rw [mul_div_cancel_left₀ _ hc.ne', max_eq_right hT.le]
  have hPT : HasDerivAt (fun t => p.q (Num.exact n) .pRT r t) (p.gm1 * r * p.Cv) T := by
    have h := hasDerivAt_max (c := 0) (hasDerivAt_affine (p.gm1 * r * p.Cv) 0 T) (by positivity)
    exact HasDerivAt.change h (fun y => by simp [q]) rfl
  have hPv : p.q (Num.exact n) .pRT r T = p.gm1 * r * p.Cv * T := max_eq_right (by positivity)
  refine ⟨?_, ?_, ?_, ?_, ?_, ?_, ?_, ?_⟩
  · rw [RoundTripT, hE, hTE]
  · refine ⟨?_, ?_, rfl, ?_, rfl⟩
    · rw [Twin, hE]; simp only [q]; congr 1; ring
    · rw [Twin, hE]
      show _ = p.Cv * Real.log (ratio 0 (max 0 (p.Cv * T / p.Cv)) p.sT0) + _
      rw [show max 0 (p.Cv * T / p.Cv) = T from hTE]
      rfl
    · rw [Twin, hE]; simp only [q]; congr 1; ring
  · have h := hasDerivAt_max (c := 0) (hasDerivAt_affine p.Cv 0 T) (by positivity)
    exact HasDerivAt.change h (fun y => by simp [q]) rfl
  · refine ⟨_, hPT, ?_⟩
    rw [hPv]
    exact HasDerivAt.change (hasDerivAt_const r (max 0 (p.Cv * T))) (fun y => rfl) (by ring)
  · have h := ((Real.hasDerivAt_log (show T / p.sT0 ≠ 0 by positivity)).comp T
      ((hasDerivAt_id T).div_const p.sT0)).const_mul p.Cv
    refine HasDerivAt.change (h.add_const (p.gm1 * p.Cv * Real.log (p.sRho0 / r)))
      (fun y => by simp [q, ratio_zero_small]) ?_
    simp only [q]
    field_simp
  · refine ⟨_, hPT, ?_⟩
    have h1 : HasDerivAt (fun x => p.sRho0 / x) (-p.sRho0 / r ^ 2) r := by
      refine HasDerivAt.change ((hasDerivAt_const r p.sRho0).div (hasDerivAt_id r) hr.ne') (fun y => rfl) ?_
      simp
    have h := ((Real.hasDerivAt_log (show p.sRho0 / r ≠ 0 by positivity)).comp r h1).const_mul (p.gm1 * p.Cv)
    refine HasDerivAt.change (h.const_add (p.Cv * Real.log (T / p.sT0)))
      (fun y => by simp [q, ratio_zero_small]) ?_
    field_simp
  · rw [hE]
    have h := hasDerivAt_max (c := 0) (hasDerivAt_affine (p.gm1 * r) 0 (p.Cv * T)) (by positivity)
    refine HasDerivAt.change h (fun y => by simp [q]) ?_
    simp only [q]; ring
  · rw [hE]
    refine ⟨p.gm1 * (p.Cv * T), p.gm1 * r, ?_, ?_, ?_⟩
    · have h := hasDerivAt_max (c := 0) (hasDerivAt_affine (p.gm1 * (p.Cv * T)) 0 r) (by positivity)
      exact HasDerivAt.change h (fun y => by simp [q]; ring_nf) rfl
    · have h := hasDerivAt_max (c := 0) (hasDerivAt_affine (p.gm1 * r) 0 (p.Cv * T)) (by positivity)
      exact HasDerivAt.change h (fun y => by simp [q]) rfl
    · have h1 : p.q (Num.exact n) .bRE r (p.Cv * T) = (p.gm1 + 1) * p.gm1 * r * (p.Cv * T) :=
        max_eq_right (by positivity)
      have h2 : p.q (Num.exact n) .pRE r (p.Cv * T) = p.gm1 * r * (p.Cv * T) := max_eq_right (by positivity)
      rw [h1, h2]
      field_simp
      ring

/-- C36: for every temperature and energy, including negative ones, the two inversions clamp at zero and
otherwise cancel. -/
theorem C36_ideal_round_trip (p : Ideal) (hc : 0 < p.Cv) (n : Num ℝ) (r x : ℝ) :
    p.q n .tRE r (p.q n .eRT r x) = max 0 x ∧ p.q n .eRT r (p.q n .tRE r x) = max 0 x := by
  constructor
  · show max 0 (max 0 (p.Cv * x) / p.Cv) = max 0 x
    rcases le_total 0 x with h | h
    · rw [max_eq_right (mul_nonneg hc.le h), mul_div_cancel_left₀ _ hc.ne']
    · rw [max_eq_left (mul_nonpos_of_nonneg_of_nonpos hc.le h), zero_div, max_eq_left h, max_self]
  · show max 0 (p.Cv * max 0 (x / p.Cv)) = max 0 x
    rcases le_total 0 x with h | h
    · rw [max_eq_right (div_nonneg h hc.le), mul_div_cancel₀ _ hc.ne']
    · rw [max_eq_left (div_nonpos_of_nonpos_of_nonneg h hc.le), mul_zero, max_eq_left h, max_self]

/-- C36: no query of IdealGas returns a negative temperature, energy, pressure or bulk modulus, at any
input. -/
theorem C36_ideal_nonneg (p : Ideal) (n : Num ℝ) (r x : ℝ) :
    0 ≤ p.q n .tRE r x ∧ 0 ≤ p.q n .eRT r x ∧ 0 ≤ p.q n .pRT r x ∧ 0 ≤ p.q n .pRE r x ∧
    0 ≤ p.q n .bRT r x ∧ 0 ≤ p.q n .bRE r x :=
  ⟨le_max_left _ _, le_max_left _ _, le_max_left _ _, le_max_left _ _, le_max_left _ _, le_max_left _ _⟩

/-- C36: the pressure inversions are exact: for nonnegative pressure, positive temperature and density. -/
theorem C36_ideal_inversions (p : Ideal) (hp : p.Ok) (n : Num ℝ) (l0 l : Λ) (r P T : ℝ) (hr : 0 < r)
    (hP : 0 ≤ P) (hT : 0 < T) (g : ℝ × ℝ) (e : ℝ) :
    PTInverts (p.eos n l0) l P T g ∧ PInverts (p.eos n l0) l r P e := by
  obtain ⟨hg, hc, hs, hd⟩ := hp
  have hCT : 0 < p.Cv * T := mul_pos hc hT
  refine ⟨⟨?_, rfl⟩, ?_⟩
  · show max 0 (p.gm1 * max 0 (P / (p.gm1 * max 0 (p.Cv * T))) * p.Cv * T) = P
    rw [max_eq_right hCT.le, max_eq_right (show 0 ≤ P / (p.gm1 * (p.Cv * T)) by positivity)]
    have : p.gm1 * (P / (p.gm1 * (p.Cv * T))) * p.Cv * T = P := by field_simp
    rw [this, max_eq_right hP]
  · show max 0 (p.gm1 * r * (P / (p.gm1 * r))) = P
    rw [mul_div_cancel₀ _ (by positivity), max_eq_right hP]

/-- C36: the four analytic pressure-temperature derivatives are the derivatives of the inversion. -/
theorem C36_ideal_pt_derivatives (p : Ideal) (hp : p.Ok) (n : Num ℝ) (l0 l : Λ) (P T : ℝ) (hP : 0 < P)
    (hT : 0 < T) (g : ℝ × ℝ) :
    let t := p.eos (Num.exact n) l0
    let d := t.ptd l (t.rePT l P T g).1 (t.rePT l P T g).2 P T
    HasDerivAt (fun x => (t.rePT l x T g).1) d.drdP_T P ∧ HasDerivAt (fun x => (t.rePT l x T g).2) d.dedP_T P ∧
    HasDerivAt (fun x => (t.rePT l P x g).1) d.drdT_P T ∧ HasDerivAt (fun x => (t.rePT l P x g).2) d.dedT_P T := by
  obtain ⟨hg, hc, hs, hd⟩ := hp
  have hCT : 0 < p.Cv * T := mul_pos hc hT
  have hmax : max 0 (p.Cv * T) = p.Cv * T := max_eq_right hCT.le
  have hm : HasDerivAt (fun x => max 0 (p.Cv * x)) p.Cv T :=
    HasDerivAt.change (hasDerivAt_max (c := 0) (hasDerivAt_affine p.Cv 0 T) (by positivity))
      (fun y => by simp) rfl
  intro t d
  have hd1 : d.drdP_T = 1 / (p.gm1 * (p.Cv * T)) := by
    show ratio 0 1 (p.gm1 * max 0 (p.Cv * T)) = _
    rw [hmax, ratio_zero_small]
  have hd2 : d.drdT_P = -(P / (p.gm1 * p.Cv * T * T)) := by
    show -ratio 0 P (p.gm1 * p.Cv * T * T) = _
    rw [ratio_zero_small]
  refine ⟨?_, ?_, ?_, hm⟩
  · rw [hd1]
    have h := hasDerivAt_max (c := 0) (hasDerivAt_affine (1 / (p.gm1 * (p.Cv * T))) 0 P) (by positivity)
    refine HasDerivAt.change h (fun y => ?_) rfl
    show max 0 (y / (p.gm1 * max 0 (p.Cv * T))) = _
    rw [hmax]; congr 1; ring
  · exact hasDerivAt_const _ _
  · rw [hd2]
    have h1 := (hasDerivAt_const T P).div (hm.const_mul p.gm1) (by rw [hmax]; positivity)
    have h := hasDerivAt_max (c := 0) h1 (by simp only [Pi.div_apply, hmax]; positivity)
    refine HasDerivAt.change h (fun y => rfl) ?_
    rw [hmax]
    field_simp
    ring

/-- C36, C51 for IdealGas: for every way of naming two of density, temperature, energy and pressure as
inputs and the rest as outputs that the code accepts, `FillEos` succeeds, keeps its inputs, returns the
direct queries, and the state has the pressure and temperature passed in. -/
theorem C36_ideal_fill (p : Ideal) (hp : p.Ok) (n : Num ℝ) (fl : Flags) (s : Thermo ℝ) (hr : 0 < s.rho)
    (hT : 0 < s.temp) (hP : 0 ≤ s.press)
    (hfl : (fl.rho, fl.temp, fl.sie, fl.press) ∈ [(false, true, false, true), (false, false, true, true),
      (false, true, true, false), (true, false, true, false)]) :
    ∃ o, p.fill n fl s = some o ∧ InputsKept fl s o ∧ OutputsMatch (p.q n) fl o ∧ StateMatch (p.q n) fl s o := by
  obtain ⟨hpt, -⟩ := C36_ideal_inversions p hp n () () s.rho s.press s.temp hr hP hT (s.rho, s.sie) 0
  obtain ⟨hg, hc, hs, hd⟩ := hp
  have hCT : 0 < p.Cv * s.temp := mul_pos hc hT
  have hTE : ∀ r, p.q n .tRE r (p.q n .eRT r s.temp) = s.temp := fun r => by
    rw [(C36_ideal_round_trip p hc n r s.temp).1, max_eq_right hT.le]
  obtain ⟨o, ho, hst⟩ := C51_gas_state (p.q n) (fun P T _ => p.rePT P T) (fun r P => P / (p.gm1 * r)) fl s
    (hTE _) (by
      show max 0 (p.gm1 * s.rho * (s.press / (p.gm1 * s.rho))) = s.press
      rw [mul_div_cancel₀ _ (by positivity), max_eq_right hP])
    ⟨by
      show max 0 (p.gm1 * (p.rePT s.press s.temp).1 * max 0 (p.Cv * s.temp)) = s.press
      have h := hpt.1
      change max 0 (p.gm1 * (p.rePT s.press s.temp).1 * p.Cv * s.temp) = s.press at h
      rw [max_eq_right hCT.le, ← mul_assoc]; exact h, hTE 0⟩ hfl
  exact ⟨o, ho, (C51_gas_inputs_kept _ _ _ fl s o ho).1, (C51_gas_inputs_kept _ _ _ fl s o ho).2, hst⟩

/-- C74: the IdealGas reference state is a state of the EOS, and its `dv/dT` is the thermal expansion of
the specific volume at the reference pressure. -/
theorem C74_ideal_reference (p : Ideal) (hp : p.Ok) (hT0 : 0 < p.T0) (hP0 : 0 < p.P0) (n : Num ℝ) (l0 l : Λ) :
    RefDirect (p.eos n l0) l ∧
    HasDerivAt (fun T => 1 / ((p.eos n l0).rePT l p.P0 T (0, 0)).1) ((p.eos n l0).ref l).dvdt p.T0 := by
  obtain ⟨hg, hc, hs, hd⟩ := hp
  have hr0 : 0 < p.rho0 := by unfold rho0; positivity
  refine ⟨⟨?_, ?_, rfl, ?_, ?_⟩, ?_⟩
  · show max 0 (p.gm1 * p.rho0 * p.Cv * p.T0) = p.P0
    have : p.gm1 * p.rho0 * p.Cv * p.T0 = p.P0 := by unfold rho0; field_simp
    rw [this, max_eq_right hP0.le]
  · exact max_eq_right (by positivity)
  · exact max_eq_right (by positivity)
  · show p.rho0 * p.gm1 = p.gm1 * p.rho0
    ring
  · show HasDerivAt (fun T => 1 / max 0 (p.P0 / (p.gm1 * max 0 (p.Cv * T)))) (1 / (p.rho0 * p.T0)) p.T0
    refine HasDerivAt.changeOn (f := fun T => p.gm1 * p.Cv / p.P0 * T + 0) (Ioi_mem_nhds hT0)
      (hasDerivAt_affine _ _ _) ?_ ?_
    · intro y hy
      have hy : 0 < y := hy
      have h1 : max 0 (p.Cv * y) = p.Cv * y := max_eq_right (by positivity)
      simp only [h1]
      rw [max_eq_right (by positivity)]
      field_simp
      ring
    · unfold rho0; field_simp

/-- Non-vacuity: air. -/
example : Consistent ((⟨0.4, 7180000, 293, 0.0012, 293, 1000000, 29, 14⟩ : Ideal).q ⟨0, 0, 0, (0, 0)⟩) 0.0012 300 :=
  C36_ideal_consistent _ ⟨by norm_num, by norm_num, by norm_num, by norm_num⟩ ⟨0, 0, 0, (0, 0)⟩ _ _
    (by norm_num) (by norm_num)

end Ideal

end Verif.Gases
