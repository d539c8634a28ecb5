import Verif.Model.Eos.Misc
import Verif.Props.Eos.Ideal
import Verif.Props.RootFind
import Verif.Props.EosBase

set_option linter.unusedSectionVars false

/-! # C40, C74: JWL -/

namespace Verif.EosMisc

open Verif.Mods Verif.Robust Verif.Base Verif.Spec Verif.Gases Verif.RootFind
open Filter Topology

variable {Λ : Type*}

/-- `sexp` is what `safe_arg_exp` returns for every argument that does not overflow. -/
theorem sexp_eq (lo hi x : ℝ) (h : x ≤ hi) : safeArgExp lo hi x = .fin (sexp lo x) := by
  unfold safeArgExp sexp
  split_ifs with h1 h2
  · rfl
  · exact absurd h2 (not_lt.mpr h)
  · rfl

/-- `safe_arg_exp` of a differentiable argument, away from its cut-off. -/
theorem hasDerivAt_sexp {f : ℝ → ℝ} {f' x lo : ℝ} (hf : HasDerivAt f f' x) (h : f x ≠ lo) :
    HasDerivAt (fun y => sexp lo (f y)) (sexp lo (f x) * f') x := by
  rcases lt_or_gt_of_ne h with h | h
  · have h0 : sexp lo (f x) = 0 := if_pos h
    rw [h0, zero_mul]
    refine (hasDerivAt_const x (0 : ℝ)).congr_of_eventuallyEq ?_
    filter_upwards [hf.continuousAt.eventually (gt_mem_nhds h)] with y hy
    exact if_pos hy
  · have h0 : sexp lo (f x) = Real.exp (f x) := if_neg (not_lt.mpr h.le)
    rw [h0]
    refine (hf.exp).congr_of_eventuallyEq ?_
    filter_upwards [hf.continuousAt.eventually (lt_mem_nhds h)] with y hy
    exact if_neg (not_lt.mpr (le_of_lt hy))

/-- Within rounding of the cut-off the truncated exponential is nonnegative and never above the true one. -/
theorem sexp_nonneg (lo x : ℝ) : 0 ≤ sexp lo x ∧ sexp lo x ≤ Real.exp x := by
  unfold sexp
  split_ifs
  · exact ⟨le_rfl, (Real.exp_pos _).le⟩
  · exact ⟨(Real.exp_pos _).le, le_rfl⟩

theorem sexp_mono (lo : ℝ) {x y : ℝ} (h : x ≤ y) : sexp lo x ≤ sexp lo y := by
  by_cases h1 : x < lo
  · rw [sexp, if_pos h1]; exact (sexp_nonneg lo y).1
  · rw [sexp, sexp, if_neg h1, if_neg (fun hy => h1 (lt_of_le_of_lt h hy))]
    exact Real.exp_le_exp.mpr h

namespace Jwl

/-- The state is not on the cut-off of either exponential (a single density each). -/
def Off (p : Jwl) (r : ℝ) : Prop := -p.R1 * (p.rho0 / r) ≠ p.lo ∧ -p.R2 * (p.rho0 / r) ≠ p.lo

theorem hasDerivAt_arg (R rho0 r : ℝ) (hr : 0 < r) :
    HasDerivAt (fun x => -R * (rho0 / x)) (R * (rho0 / r ^ 2)) r := by
  have h : HasDerivAt (fun x => rho0 / x) (-rho0 / r ^ 2) r := by
    refine HasDerivAt.change ((hasDerivAt_const r rho0).div (hasDerivAt_id r) hr.ne') (fun y => rfl) ?_
    simp
  refine HasDerivAt.change (h.const_mul (-R)) (fun y => rfl) ?_
  ring

/-- The reference curve is an isentrope: `dE_ref/drho = P_ref / rho^2`. -/
theorem hasDerivAt_eRef (p : Jwl) (n : Num ℝ) (r : ℝ) (hr : 0 < r) (h0 : p.rho0 ≠ 0) (h1 : p.R1 ≠ 0)
    (h2 : p.R2 ≠ 0) (ho : p.Off r) :
    HasDerivAt (p.eRef (Num.exact n)) (p.pRef (Num.exact n) r / r ^ 2) r := by
  have e1 := (hasDerivAt_sexp (hasDerivAt_arg p.R1 p.rho0 r hr) ho.1).const_mul (p.A / (p.rho0 * p.R1))
  have e2 := (hasDerivAt_sexp (hasDerivAt_arg p.R2 p.rho0 r hr) ho.2).const_mul (p.B / (p.rho0 * p.R2))
  refine HasDerivAt.change (e1.add e2) (fun y => by simp [eRef, ratio_zero_small]) ?_
  simp only [pRef, ratio_zero_small]
  field_simp

theorem hasDerivAt_pRef (p : Jwl) (n : Num ℝ) (r : ℝ) (hr : 0 < r) (ho : p.Off r) :
    HasDerivAt (p.pRef (Num.exact n))
      (p.rho0 / r ^ 2 * (p.A * p.R1 * sexp p.lo (-p.R1 * (p.rho0 / r)) + p.B * p.R2 * sexp p.lo (-p.R2 * (p.rho0 / r)))) r := by
  have e1 := (hasDerivAt_sexp (hasDerivAt_arg p.R1 p.rho0 r hr) ho.1).const_mul p.A
  have e2 := (hasDerivAt_sexp (hasDerivAt_arg p.R2 p.rho0 r hr) ho.2).const_mul p.B
  refine HasDerivAt.change (e1.add e2) (fun y => by simp [pRef, ratio_zero_small]) ?_
  ring

/-- C40: temperature and energy invert each other and by-temperature queries agree with their by-energy
twins, at every density, temperature and energy whatsoever. -/
theorem C40_jwl_round_trip (p : Jwl) (hc : p.Cv ≠ 0) (n : Num ℝ) (r x : ℝ) :
    RoundTripT (p.q (Num.exact n)) r x ∧ RoundTripE (p.q (Num.exact n)) r x ∧
    Twin (p.q (Num.exact n)) .pRT .pRE r x ∧ Twin (p.q (Num.exact n)) .cvRT .cvRE r x ∧
    Twin (p.q (Num.exact n)) .bRT .bRE r x ∧ Twin (p.q (Num.exact n)) .gRT .gRE r x := by
  refine ⟨?_, ?_, rfl, rfl, rfl, rfl⟩
  · simp only [RoundTripT, q, ratio_zero_small]
    rw [add_sub_cancel_left, mul_div_cancel_left₀ _ hc]
  · simp only [RoundTripE, q, ratio_zero_small]
    field_simp
    ring

/-- C40: heat capacity, Gruneisen parameter and bulk modulus are the derivatives they are named after, and
energy and pressure satisfy the first law, at every positive density (except the one or two densities where an
exponential is cut off) and every temperature of any sign. -/
theorem C40_jwl_consistent (p : Jwl) (n : Num ℝ) (r T : ℝ) (hr : 0 < r) (h0 : p.rho0 ≠ 0) (h1 : p.R1 ≠ 0)
    (h2 : p.R2 ≠ 0) (ho : p.Off r) :
    HeatCapacity (p.q (Num.exact n)) r T ∧ EnergyRho (p.q (Num.exact n)) r T ∧
    Gruneisen (p.q (Num.exact n)) r (p.q (Num.exact n) .eRT r T) ∧
    IsentropicBulk (p.q (Num.exact n)) r (p.q (Num.exact n) .eRT r T) := by
  have hE := p.hasDerivAt_eRef n r hr h0 h1 h2 ho
  have hP := p.hasDerivAt_pRef n r hr ho
  have hPe : ∀ e, HasDerivAt (fun x => p.q (Num.exact n) .pRE r x) (r * p.w) e := fun e => by
    refine HasDerivAt.change (hasDerivAt_affine (p.w * r) (p.pRef (Num.exact n) r - p.w * r * p.eRef (Num.exact n) r) e)
      (fun y => ?_) (mul_comm _ _)
    simp only [q]; ring
  refine ⟨?_, ?_, ?_, ?_⟩
  · refine HasDerivAt.change (hasDerivAt_affine p.Cv (p.eRef (Num.exact n) r) T) (fun y => ?_) rfl
    simp only [q]; ring
  · refine ⟨p.w * r * p.Cv, ?_, ?_⟩
    · refine HasDerivAt.change (hasDerivAt_affine (p.w * r * p.Cv) (p.pRef (Num.exact n) r) T) (fun y => ?_) rfl
      simp only [q]; ring
    · refine HasDerivAt.change (hE.add_const (p.Cv * T)) (fun y => rfl) ?_
      simp only [q]
      congr 1
      ring
  · exact hPe _
  · generalize p.q (Num.exact n) .eRT r T = e
    refine ⟨_, _, hP.add (((hasDerivAt_id r).const_mul p.w).mul (hE.const_sub e)), hPe e, ?_⟩
    simp only [q, id, mul_one, Num.exact, ratio_zero_small]
    field_simp
    ring

/-- C40: with nonnegative coefficients the pressure at fixed positive temperature strictly increases with
density, so at most one positive density has a given pressure. -/
theorem C40_jwl_pressure_monotone (p : Jwl) (n : Num ℝ) (T : ℝ) (hT : 0 < p.Cv * T * p.w) (hA : 0 ≤ p.A)
    (hB : 0 ≤ p.B) (h1 : 0 ≤ p.R1) (h2 : 0 ≤ p.R2) (h0 : 0 ≤ p.rho0) (x y : ℝ) (hx : 0 < x) (hxy : x < y) :
    p.q (Num.exact n) .pRT x T < p.q (Num.exact n) .pRT y T := by
  have hy : 0 < y := hx.trans hxy
  have hd : p.rho0 / y ≤ p.rho0 / x := div_le_div_of_nonneg_left h0 hx hxy.le
  have m1 : sexp p.lo (-p.R1 * (p.rho0 / x)) ≤ sexp p.lo (-p.R1 * (p.rho0 / y)) := by
    apply sexp_mono
    nlinarith
  have m2 : sexp p.lo (-p.R2 * (p.rho0 / x)) ≤ sexp p.lo (-p.R2 * (p.rho0 / y)) := by
    apply sexp_mono
    nlinarith
  simp only [q, pRef, Num.exact, ratio_zero_small, add_sub_cancel_left]
  nlinarith [mul_le_mul_of_nonneg_left m1 hA, mul_le_mul_of_nonneg_left m2 hB, mul_lt_mul_of_pos_left hxy hT]

/-- C40: `DensityEnergyFromPressureTemperature`. If the guess is usable and the requested pressure
lies between the pressures at densities `1e-5` and `1e3`, a call that does not abort returns a density in that
range at the middle of an interval over which the pressure at that temperature crosses the requested pressure,
together with the energy at that density and temperature. How close the density is:
`C40_jwl_density_accuracy`. -/
theorem C40_jwl_density_energy (p : Jwl) (n : Num ℝ) (l0 l : Λ) (P T : ℝ) (g : ℝ × ℝ)
    (hg : 1 / 10 ^ 5 ≤ g.1 ∧ g.1 ≤ 10 ^ 3)
    (hP : (p.q n .pRT (1 / 10 ^ 5) T - P) * (p.q n .pRT (10 ^ 3) T - P) ≤ 0) (x : ℝ)
    (h : p.density n P T g.1 = some x) :
    let o := (p.eos n l0).rePT l P T g
    o.1 = x ∧ o.2 = p.q n .eRT o.1 T ∧
    ∃ a b, 1 / 10 ^ 5 ≤ a ∧ a ≤ b ∧ b ≤ 10 ^ 3 ∧ o.1 = (a + b) / 2 ∧
      (p.q n .pRT a T - P) * (p.q n .pRT b T - P) ≤ 0 := by
  have ho : (p.eos n l0).rePT l P T g = (x, p.eRef n x + p.Cv * T) := by
    show p.rePT n P T g = _
    simp [rePT, h]
  have hgs : (if g.1 < 1 / 10 ^ 8 then p.rho0 else g.1) = g.1 := by
    rw [if_neg]; rw [not_lt]; refine le_trans ?_ hg.1; norm_num
  have hpq : ∀ r, p.Cv * T * r * p.w + p.pRef n r = p.q n .pRT r T := fun r => by simp only [q]; ring
  intro o
  have ho' : o = (x, p.eRef n x + p.Cv * T) := ho
  rw [ho']
  refine ⟨rfl, rfl, ?_⟩
  unfold density at h
  rw [hgs] at h
  simp only [hpq] at h
  obtain ⟨st, xr, s, h1, h2, h3, h4, h5, h6, h7, -⟩ := C08_regulaFalsi_keeps_bracket (fun r => p.q n .pRT r T) P g.1
    (1 / 10 ^ 5) (10 ^ 3) (1 / 10 ^ 8) (1 / 10 ^ 8) (by norm_num) (by norm_num) hg.1 hg.2 (Or.inl hP)
  rw [h1] at h
  cases st with
  | success =>
    simp only [Option.some.injEq] at h
    subst h
    exact ⟨s.a, s.b, h3, h4.trans h5, h6, h2, h7⟩
  | fail => simp at h

/-- C40, C52: energy from density and pressure (without a guess) is within `EPS` of the exact energy, or its
pressure within `EPS` of the request, whenever the exact energy lies strictly between the energies at temperatures
`0` and `1e20`, i.e. whenever the state's temperature does. -/
theorem C40_jwl_energy_from_pressure (p : Jwl) (n : Num ℝ) (hε : 0 ≤ n.ε) (l0 l : Λ) (r T : ℝ)
    (hw : p.w * r ≠ 0) (hc : 0 < p.Cv) (hT : 0 < T) (hT' : T < 10 ^ 20) :
    let e := eRPNoGuess n.ε (fun k (_ : Λ) => p.q n k) l0 0 l r (p.q n .pRT r T)
    |e - p.q n .eRT r T| ≤ n.ε ∨ |p.q n .pRE r e - p.q n .pRT r T| ≤ n.ε := by
  refine C52_affine_no_guess n.ε hε (fun k (_ : Λ) => p.q n k) l0 l 0 r (p.q n .pRT r T) (p.q n .eRT r T)
    (p.w * r) (p.pRef n r - p.w * r * p.eRef n r) hw (fun x => ?_) rfl ?_ ?_
  · simp only [q]; ring
  · simp only [q]
    nlinarith [mul_pos hc hT]
  · simp only [q]
    have := mul_lt_mul_of_pos_left hT' hc
    linarith

/-- C74 (partial): the JWL reference state: energy, heat capacity, bulk modulus and `dp/de` are the direct
queries at the reported density and temperature. -/
theorem C74_jwl_reference_partial (p : Jwl) (n : Num ℝ) (l0 l : Λ) :
    let t := p.eos n l0
    t.q .eRT l (t.ref l).rho (t.ref l).temp = (t.ref l).sie ∧
    t.q .cvRT l (t.ref l).rho (t.ref l).temp = (t.ref l).cv ∧
    t.q .bRT l (t.ref l).rho (t.ref l).temp = (t.ref l).bmod ∧
    (t.ref l).rho * t.q .gRT l (t.ref l).rho (t.ref l).temp = (t.ref l).dpde :=
  ⟨rfl, rfl, rfl, mul_comm _ _⟩

/-- C74 is violated for JWL: the reported pressure (atmospheric) is not the pressure at the reported
density and temperature, for any nonnegative coefficients and positive heat capacity that make the latter exceed
it; the error is the whole detonation-product pressure. -/
theorem C74_jwl_pressure_violated (p : Jwl) (n : Num ℝ) (l0 l : Λ) (hA : 0 ≤ p.A) (hB : 0 ≤ p.B)
    (h : p.atm < p.w * p.rho0 * (p.Cv * p.rt)) :
    let t := p.eos n l0
    (t.ref l).press < t.q .pRT l (t.ref l).rho (t.ref l).temp := by
  show p.atm < p.pRef n p.rho0 + p.w * p.rho0 * (p.eRef n p.rho0 + p.Cv * p.rt - p.eRef n p.rho0)
  have h1 : 0 ≤ p.pRef n p.rho0 :=
    add_nonneg (mul_nonneg hA (sexp_nonneg _ _).1) (mul_nonneg hB (sexp_nonneg _ _).1)
  have : p.eRef n p.rho0 + p.Cv * p.rt - p.eRef n p.rho0 = p.Cv * p.rt := by ring
  rw [this]
  linarith

/-- PETN-like parameters (CGS), with the double-precision cut-off. -/
noncomputable def petn : Jwl := ⟨6170000000000, 169260000000, 4.4, 1.2, 0.25, 1.77, 2.5e7, 1, 1, 293, 1e6, minExpArg⟩

/-- Non-vacuity of the derivative laws: away from the cut-off, at the initial density. -/
example (n : Num ℝ) : IsentropicBulk (petn.q (Num.exact n)) 1.77 (petn.q (Num.exact n) .eRT 1.77 300) := by
  refine (C40_jwl_consistent petn n 1.77 300 (by norm_num) (by norm_num [petn]) (by norm_num [petn])
    (by norm_num [petn]) ?_).2.2.2
  have hl : petn.lo < -(6 : ℝ) := by
    have := Real.one_sub_inv_le_log_of_pos (show (0 : ℝ) < 2 by norm_num)
    show (-1021 - 1) * Real.log 2 < -6
    linarith
  constructor
  · intro h; rw [← h] at hl; norm_num [petn] at hl
  · intro h; rw [← h] at hl; norm_num [petn] at hl

/-- Non-vacuity of the violation: PETN at room temperature. -/
example (n : Num ℝ) (l : Unit) : ((petn.eos n l).ref l).press < (petn.eos n l).q .pRT l 1.77 293 :=
  C74_jwl_pressure_violated petn n l l (by norm_num [petn]) (by norm_num [petn]) (by norm_num [petn])

end Jwl

end Verif.EosMisc
