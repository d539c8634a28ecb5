import Verif.Props.Eos.HelmholtzEos

/-! # C79-C81, continued: what is right about the Coulomb corrections; the ideal-gas inversion -/

namespace Verif.Helm

open Verif.Robust Verif.Spec

set_option linter.unusedSectionVars false
set_option linter.unusedSimpArgs false

/-- C79: multiplying a quantity by the gain keeps reported derivatives derivatives, provided the gain's own derivatives are
right: the chain rule in the code is correct. -/
theorem C79_gain_chain_rule (f : ℝ → ℝ → ℝ → ℝ → D5) (g gR gT : ℝ → ℝ → ℝ) {r T a z : ℝ} (hf : Jet f r T a z)
    (h0 : g r T ≠ 0) (hR : HasDerivAt (fun x => g x T) (gR r T) r) (hT : HasDerivAt (fun t => g r t) (gT r T) T) :
    Jet (fun r T a z => applyGain 0 (g r T) (gT r T) (gR r T) (f r T a z)) r T a z := by
  refine ⟨?_, ?_, ?_, ?_⟩
  · refine HasDerivAt.change (hf.ddr.fun_mul hR) (fun _ => rfl) ?_
    simp only [applyGain, ratio0]; field_simp
  · refine HasDerivAt.change (hf.ddt.fun_mul hT) (fun _ => rfl) ?_
    simp only [applyGain, ratio0]; field_simp
  · refine HasDerivAt.change (hf.dda.mul_const (g r T)) (fun _ => rfl) ?_
    simp only [applyGain]; ring
  · refine HasDerivAt.change (hf.ddz.mul_const (g r T)) (fun _ => rfl) ?_
    simp only [applyGain]; ring

/-- The hypotheses of `C79_gain_chain_rule` are met: `f = rho T`, gain `rho + T` at `(1, 2)`. -/
example : Jet (fun r T _ _ => (⟨r * T, T, r, 0, 0⟩ : D5)) 1 2 1 1 ∧ (1:ℝ) + 2 ≠ 0 ∧
    HasDerivAt (fun x : ℝ => x + 2) 1 1 ∧ HasDerivAt (fun t : ℝ => 1 + t) 1 2 := by
  refine ⟨⟨?_, ?_, hasDerivAt_const _ _, hasDerivAt_const _ _⟩, by norm_num, (hasDerivAt_id _).add_const 2,
    (hasDerivAt_id _).const_add 1⟩
  · simpa using (hasDerivAt_id (1:ℝ)).mul_const (2:ℝ)
  · simpa using (hasDerivAt_id (2:ℝ)).const_mul (1:ℝ)

/-- The filter's second component is its derivative. -/
theorem butterworth_deriv (n : Nat) (f c : ℝ) (hc : c ≠ 0) (hn : 0 < n) :
    HasDerivAt (fun x => (butterworth 0 n x c).1) (butterworth 0 n f c).2 f := by
  have hd : (0:ℝ) < 1 + (f / c) ^ (2 * n) := by
    have : 0 ≤ (f / c) ^ (2 * n) := by rw [pow_mul]; positivity
    linarith
  have h1 := (((hasDerivAt_id f).div_const c).fun_pow (2 * n)).const_add 1
  have h2 := (hasDerivAt_const f (1:ℝ)).fun_div h1 hd.ne'
  refine HasDerivAt.change h2 (fun x => ?_) ?_
  · simp only [butterworth, ratio0, id]
  · simp only [butterworth, ratio0, id]
    have hcn : c ^ (2 * n) ≠ 0 := pow_ne_zero _ hc
    have hpow : (f / c) ^ (2 * n - 1) * (1 / c) = f ^ (2 * n - 1) / c ^ (2 * n) := by
      rw [div_pow, show c ^ (2 * n) = c ^ (2 * n - 1) * c by rw [← pow_succ]; congr 1; omega]
      field_simp
    push_cast
    rw [zero_mul, zero_sub, one_mul, mul_assoc, hpow]
    generalize 1 + (f / c) ^ (2 * n) = w at hd ⊢
    field_simp

/-- C79: what the code computes for the gain's derivatives are the right ones with the roles of density and temperature
exchanged: the true temperature derivative is the reported density derivative times `rho/T`, and conversely (with
`LN10 = ln 10`). -/
theorem C79_gain_derivatives_swapped (r T : ℝ) (hr : 0 < r) (hT : 0 < T) :
    let g := fun r T => gain 0 (Real.log 10) r T
    HasDerivAt (fun t => (g r t).1) ((g r T).2.2 * (r / T)) T ∧
    HasDerivAt (fun x => (g x T).1) ((g r T).2.1 * (T / r)) r := by
  intro g
  have h10 : Real.log 10 ≠ 0 := (Real.log_pos (by norm_num)).ne'
  have lg : ∀ x : ℝ, 0 < x → HasDerivAt log10 (1 / (x * Real.log 10)) x := fun x hx => by
    refine HasDerivAt.change ((Real.hasDerivAt_log hx.ne').div_const (Real.log 10)) (fun _ => rfl) ?_
    field_simp
  constructor
  · have h1 := (butterworth_deriv 12 (log10 T - 9 / 2) 3 (by norm_num) (by norm_num)).comp T ((lg T hT).sub_const (9 / 2))
    refine HasDerivAt.change ((h1.const_mul (butterworth 0 12 (log10 r + 1) 6).1).const_sub 1) (fun _ => rfl) ?_
    simp only [g, gain, ratio0]; field_simp
  · have h1 := (butterworth_deriv 12 (log10 r + 1) 6 (by norm_num) (by norm_num)).comp r ((lg r hr).add_const 1)
    refine HasDerivAt.change ((h1.mul_const (butterworth 0 12 (log10 T - 9 / 2) 3).1).const_sub 1) (fun _ => rfl) ?_
    simp only [g, gain, ratio0]; field_simp

/-- The reported correction is the gain times the fit. -/
theorem coulAt_eq (c : Consts) (r t a z : ℝ) (hr : 0 < r) (ht : 0 < t) (ha : 0 < a) (hN : 0 < c.NA) (hK : 0 < c.KB) :
    coulAt c r t a z =
      ⟨applyGain 0 (gain 0 c.LN10 r t).1 (gain 0 c.LN10 r t).2.1 (gain 0 c.LN10 r t).2.2 (fitAt c r t a z).p,
       applyGain 0 (gain 0 c.LN10 r t).1 (gain 0 c.LN10 r t).2.1 (gain 0 c.LN10 r t).2.2 (fitAt c r t a z).e,
       applyGain 0 (gain 0 c.LN10 r t).1 (gain 0 c.LN10 r t).2.1 (gain 0 c.LN10 r t).2.2 (fitAt c r t a z).s⟩ := by
  have h := C79_weak_branch_unreachable c r t a z hr ht ha hN hK
  unfold plasAt at h
  unfold coulAt coulomb
  simp only at h ⊢
  rw [if_pos h]
  rfl

/-- C79 (what holds of the whole correction): the composition derivatives reported for the Coulomb energy and pressure are
derivatives, at every state; and the reported density and temperature derivatives are off by exactly the fit times the error
in the gain's derivative. -/
theorem C79_correction_derivatives_partial (c : Consts) (r T a z : ℝ) (hr : 0 < r) (hT : 0 < T) (ha : 0 < a) (hz : 0 < z)
    (hN : 0 < c.NA) (hK : 0 < c.KB) (hln : c.LN10 = Real.log 10) (hg : 0 < (plasAt c r T a z).g)
    (hg0 : (gain 0 c.LN10 r T).1 ≠ 0) :
    let g := gain 0 c.LN10 r T
    (HasDerivAt (fun x => (coulAt c r T x z).e.val) (coulAt c r T a z).e.dda a ∧
      HasDerivAt (fun x => (coulAt c r T a x).e.val) (coulAt c r T a z).e.ddz z ∧
      HasDerivAt (fun x => (coulAt c r T x z).p.val) (coulAt c r T a z).p.dda a ∧
      HasDerivAt (fun x => (coulAt c r T a x).p.val) (coulAt c r T a z).p.ddz z) ∧
    (HasDerivAt (fun t => (coulAt c r t a z).e.val)
      ((coulAt c r T a z).e.ddt + (fitAt c r T a z).e.val * (g.2.2 * (r / T) - g.2.1)) T ∧
      HasDerivAt (fun x => (coulAt c x T a z).e.val)
      ((coulAt c r T a z).e.ddr + (fitAt c r T a z).e.val * (g.2.1 * (T / r) - g.2.2)) r ∧
      HasDerivAt (fun t => (coulAt c r t a z).p.val)
      ((coulAt c r T a z).p.ddt + (fitAt c r T a z).p.val * (g.2.2 * (r / T) - g.2.1)) T ∧
      HasDerivAt (fun x => (coulAt c x T a z).p.val)
      ((coulAt c r T a z).p.ddr + (fitAt c r T a z).p.val * (g.2.1 * (T / r) - g.2.2)) r) := by
  intro g
  obtain ⟨je, jp⟩ := C79_fit_energy_pressure c r T a z hr hT ha hz hN hg
  obtain ⟨gt, gr⟩ := C79_gain_derivatives_swapped r T hr hT
  rw [← hln] at gt gr
  have hgT : g.1 ≠ 0 := hg0
  rw [coulAt_eq c r T a z hr hT ha hN hK]
  refine ⟨⟨?_, ?_, ?_, ?_⟩, ?_, ?_, ?_, ?_⟩
  · exact HasDerivAt.changeOn (isOpen_Ioi.mem_nhds ha) (je.dda.mul_const g.1)
      (fun x hx => by rw [coulAt_eq c r T x z hr hT hx hN hK]; rfl) (by simp only [applyGain]; ring)
  · exact HasDerivAt.changeOn (isOpen_Ioi.mem_nhds hz) (je.ddz.mul_const g.1)
      (fun x _ => by rw [coulAt_eq c r T a x hr hT ha hN hK]; rfl) (by simp only [applyGain]; ring)
  · exact HasDerivAt.changeOn (isOpen_Ioi.mem_nhds ha) (jp.dda.mul_const g.1)
      (fun x hx => by rw [coulAt_eq c r T x z hr hT hx hN hK]; rfl) (by simp only [applyGain]; ring)
  · exact HasDerivAt.changeOn (isOpen_Ioi.mem_nhds hz) (jp.ddz.mul_const g.1)
      (fun x _ => by rw [coulAt_eq c r T a x hr hT ha hN hK]; rfl) (by simp only [applyGain]; ring)
  · refine HasDerivAt.changeOn (isOpen_Ioi.mem_nhds hT) (je.ddt.fun_mul gt)
      (fun x hx => by rw [coulAt_eq c r x a z hr hx ha hN hK]; rfl) ?_
    simp only [applyGain, ratio0, g] at hgT ⊢; field_simp; ring
  · refine HasDerivAt.changeOn (isOpen_Ioi.mem_nhds hr) (je.ddr.fun_mul gr)
      (fun x hx => by rw [coulAt_eq c x T a z hx hT ha hN hK]; rfl) ?_
    simp only [applyGain, ratio0, g] at hgT ⊢; field_simp; ring
  · refine HasDerivAt.changeOn (isOpen_Ioi.mem_nhds hT) (jp.ddt.fun_mul gt)
      (fun x hx => by rw [coulAt_eq c r x a z hr hx ha hN hK]; rfl) ?_
    simp only [applyGain, ratio0, g] at hgT ⊢; field_simp; ring
  · refine HasDerivAt.changeOn (isOpen_Ioi.mem_nhds hr) (jp.ddr.fun_mul gr)
      (fun x hx => by rw [coulAt_eq c x T a z hx hT ha hN hK]; rfl) ?_
    simp only [applyGain, ratio0, g] at hgT ⊢; field_simp; ring

/-! ## C81: switching contributions on and off -/

/-- C81: switching the Coulomb corrections on changes the pressure by a third of the density times the change of the energy
(the virial relation of the correction), at every state, composition and table. -/
theorem C81_coulomb_virial (ε : ℝ) (m : Model) (l : Lam) (r T : ℝ) (hr : 0 < r) (hT : 0 < T) (ha : 0 < l.abar)
    (hN : 0 < m.c.NA) (hK : 0 < m.c.KB) (hgas : m.opt.gas = true) (hd : m.opt.degenerate = true) :
    let on := { m with opt := { m.opt with coul := true } }
    let off := { m with opt := { m.opt with coul := false } }
    (atRT 0 ε on l r T).p - (atRT 0 ε off l r T).p =
      r / 3 * ((atRT 0 ε on l r T).e - (atRT 0 ε off l r T).e) := by
  obtain ⟨⟨rd, gs, cl, io, dg, nw⟩, A, c, tb⟩ := m
  simp only at hgas hd hN hK
  subst hgas hd
  intro on off
  have hc := coulAt_eq c r T l.abar l.zbar hr hT ha hN hK
  have e1 : (atRT 0 ε on l r T).p - (atRT 0 ε off l r T).p = (coulAt c r T l.abar l.zbar).p.val := by
    show (_ + (coulAt c r T l.abar l.zbar).p.val) - (_ + (0:ℝ)) = _
    rw [add_zero]; exact add_sub_cancel_left _ _
  have e2 : (atRT 0 ε on l r T).e - (atRT 0 ε off l r T).e = (coulAt c r T l.abar l.zbar).e.val := by
    show (_ + (coulAt c r T l.abar l.zbar).e.val) - (_ + (0:ℝ)) = _
    rw [add_zero]; exact add_sub_cancel_left _ _
  rw [e1, e2, hc]
  have pv : (fitAt c r T l.abar l.zbar).p.val = 1 / 3 * r * (fitAt c r T l.abar l.zbar).e.val := rfl
  simp only [applyGain, pv]; ring

/-- C81: switching radiation on adds `A T^4` to the pressure, `3 A T^4 / rho` to the energy and `4 A T^3 / rho` to the
entropy (`A` is a third of the radiation constant), whatever the other contributions. -/
theorem C81_radiation_adds (ε : ℝ) (m : Model) (l : Lam) (r T : ℝ) (hr : 0 < r) (hT : 0 < T) :
    let on := { m with opt := { m.opt with rad := true } }
    let off := { m with opt := { m.opt with rad := false } }
    (atRT 0 ε on l r T).p - (atRT 0 ε off l r T).p = m.A * T ^ 4 ∧
    (atRT 0 ε on l r T).e - (atRT 0 ε off l r T).e = 3 * m.A * T ^ 4 / r ∧
    (atRT 0 ε on l r T).s - (atRT 0 ε off l r T).s = 4 * m.A * T ^ 3 / r := by
  obtain ⟨⟨rd, gs, cl, io, dg, nw⟩, A, c, tb⟩ := m
  intro on off
  have key : ∀ a b d e : ℝ, (a + b + d + e) - (0 + b + d + e) = a := fun a b d e => by ring
  refine ⟨(key _ _ _ _).trans ?_, (key _ _ _ _).trans ?_, (key _ _ _ _).trans ?_⟩ <;>
  · simp only [on, if_true, rad, ratio0]
    field_simp
    try ring

/-! ## C80: the ideal-gas configuration -/

/-- C80: with radiation, degeneracy and Coulomb corrections off, `TemperatureFromDensityInternalEnergy` inverts the energy
exactly, ionised or not, whenever the temperature lies in the range of the table (and the lambda caches nothing). -/
theorem C80_ideal (ε : ℝ) (m : Model) (l : Lam) (hl : l.lT = none) (rho T u : ℝ) (hr : 0 < rho) (hT : 0 < T)
    (ha : 0 < l.abar) (hz : 0 ≤ l.zbar) (hN : 0 < m.c.NA) (hK : 0 < m.c.KB)
    (h1 : m.opt.rad = false) (h2 : m.opt.degenerate = false) (h3 : m.opt.coul = false) (h4 : m.opt.gas = true)
    (hb : m.tb.lTMin ≤ log10 T ∧ log10 T ≤ m.tb.lTMax) :
    tempFromRhoSie 0 m rho (atRT 0 ε m l rho T).e u l = T := by
  have he : (atRT 0 ε m l rho T).e =
      3 / 2 * (m.c.NA * ((if m.opt.ionized then l.zbar + 1 else 1) / l.abar)) * m.c.KB * T := by
    have hz1 : l.zbar + 1 ≠ 0 := by linarith
    cases hi : m.opt.ionized <;>
    · simp only [atRT, getRT, ionPart, h1, h2, h3, h4, hi, add5, zero5, ion, massFractions, dens, ratio0]
      simp
      field_simp
  have hs : solveT 0 m rho (atRT 0 ε m l rho T).e l.abar l.zbar (ratio 0 1 l.abar * rho * m.c.NA)
      (l.zbar * (ratio 0 1 l.abar * rho * m.c.NA)) (pow10 (lTGuess 0 m rho (atRT 0 ε m l rho T).e
        (ratio 0 1 l.abar * rho * m.c.NA) (l.zbar * (ratio 0 1 l.abar * rho * m.c.NA)) u l)) = T := by
    unfold solveT
    simp only [h1, h2, h3, Bool.or_self, Bool.false_eq_true, if_false]
    have : 2 / 3 * ratio 0 ((atRT 0 ε m l rho T).e * rho) (ratio 0 1 l.abar * rho * m.c.NA +
        (if m.opt.ionized then l.zbar * (ratio 0 1 l.abar * rho * m.c.NA) else 0)) * (1 / m.c.KB) = T := by
      rw [he]
      cases m.opt.ionized
      · simp only [ratio0, Bool.false_eq_true, if_false, add_zero]; field_simp
      · have hz1 : 1 + l.zbar ≠ 0 := by linarith
        have hz2 : l.zbar + 1 ≠ 0 := by linarith
        simp only [ratio0, if_true]
        rw [show 1 / l.abar * rho * m.c.NA + l.zbar * (1 / l.abar * rho * m.c.NA) =
          (l.zbar + 1) * (rho * m.c.NA / l.abar) by ring]
        field_simp
    unfold lTAnalytic
    rw [this, pow10_log10 hT]
  unfold tempFromRhoSie lTFromRhoSie
  simp only [hs, safeGet, hl, Option.getD_none, not_lt.2 hb.1, if_false, not_lt.2 hb.2]
  exact pow10_log10 hT

/-- The hypotheses of `C80_ideal` are met: an ionised ideal gas of helium at `T = 10`, `rho = 2`, with the code's
constants and a table from `log10 T = 0` to `1`. -/
example : ∃ m : Model, m.opt.ionized = true ∧ tempFromRhoSie 0 m 2 (atRT 0 (1 / 10) m ⟨4, 2, none⟩ 2 10).e 7 ⟨4, 2, none⟩ = 10 :=
  ⟨⟨⟨false, true, false, true, false, true⟩, 1, codeConsts, { exTables with lTMin := 0, lTMax := 1 }⟩, rfl, by
    refine C80_ideal _ _ _ rfl 2 10 7 (by norm_num) (by norm_num) (by norm_num) (by norm_num) (by norm_num [codeConsts])
      (by norm_num [codeConsts]) rfl rfl rfl rfl ?_
    have h10 : Real.log 10 ≠ 0 := (Real.log_pos (by norm_num)).ne'
    have : log10 10 = 1 := by simp only [log10, Real.logb]; exact div_self h10
    rw [this]; constructor <;> norm_num⟩

end Verif.Helm
