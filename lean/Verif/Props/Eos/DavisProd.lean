import Verif.Model.Eos.Davis
import Verif.Props.Eos.Ideal
import Verif.Props.Eos.Misc
import Verif.Props.RootFind
import Mathlib.Analysis.SpecialFunctions.Pow.Deriv

set_option linter.unusedSectionVars false

/-! # C44, C74: DavisProducts -/

namespace Verif.Davis.Prod

open Verif.Mods Verif.Robust Verif.Base Verif.Spec Verif.Gases Verif.RootFind
open Filter Topology

variable {Λ : Type*}

/-- C44: temperature and energy invert each other and by-temperature queries agree with their by-energy twins, at every
density, temperature and energy. -/
theorem C44_products_round_trip (p : Prod) (n : Num ℝ) (hc : p.Cv ≠ 0) (r x : ℝ) :
    RoundTripT (p.q (Num.exact n)) r x ∧ RoundTripE (p.q (Num.exact n)) r x ∧
    Twin (p.q (Num.exact n)) .pRT .pRE r x ∧ Twin (p.q (Num.exact n)) .cvRT .cvRE r x ∧
    Twin (p.q (Num.exact n)) .bRT .bRE r x ∧ Twin (p.q (Num.exact n)) .gRT .gRE r x := by
  refine ⟨?_, ?_, rfl, rfl, rfl, rfl⟩
  · simp only [RoundTripT, q, energy, add_sub_cancel_right]
    simp only [Num.exact, ratio_zero_small]
    rw [mul_div_cancel_left₀ _ hc]
    ring
  · simp only [RoundTripE, q, energy, add_sub_cancel_left]
    generalize p.Es (Num.exact n) r = E
    simp only [Num.exact, ratio_zero_small]
    rw [mul_div_cancel₀ _ hc]
    ring

/-- C44: heat capacity and Gruneisen parameter are the derivatives they are named after. -/
theorem C44_products_heat_gruneisen (p : Prod) (m : Num ℝ) (r x : ℝ) :
    HeatCapacity (p.q m) r x ∧ Gruneisen (p.q m) r x := by
  constructor
  · refine HasDerivAt.change (hasDerivAt_affine p.Cv (p.Es m r - p.Cv * p.Ts m r) x) (fun y => ?_) rfl
    simp only [q, energy]; ring
  · refine HasDerivAt.change (hasDerivAt_affine (r * p.gamma m r) (p.Ps m r - r * p.gamma m r * p.Es m r) x) (fun y => ?_) rfl
    simp only [q, pressure]; ring

theorem h_pos (p : Prod) {x : ℝ} (hx : 0 < x) : 0 < p.h x := by
  unfold h
  have := Real.rpow_pos_of_pos hx p.n
  have := Real.rpow_pos_of_pos hx (-p.n)
  positivity

theorem hasDerivAt_h (p : Prod) {x : ℝ} (hx : 0 < x) :
    HasDerivAt p.h (1 / 2 * p.n * (x ^ (p.n - 1) - x ^ (-p.n - 1))) x := by
  have h1 := Real.hasDerivAt_rpow_const (x := x) (p := p.n) (Or.inl hx.ne')
  have h2 := Real.hasDerivAt_rpow_const (x := x) (p := -p.n) (Or.inl hx.ne')
  refine HasDerivAt.change ((h1.add h2).const_mul (1 / 2)) (fun y => rfl) ?_
  ring

/-- The building block `h^c / x^d` of all three reference curves. -/
theorem hasDerivAt_block (p : Prod) (c d : ℝ) {x : ℝ} (hx : 0 < x) :
    HasDerivAt (fun y => p.h y ^ c / y ^ d)
      (1 / 2 * (c * p.n) * (x ^ (p.n - 1) - x ^ (-p.n - 1)) * (p.h x ^ (c - 1) / x ^ d) - d * (p.h x ^ c / x ^ d / x)) x := by
  have h1 := (p.hasDerivAt_h hx).rpow_const (p := c) (Or.inl (p.h_pos hx).ne')
  have h2 := Real.hasDerivAt_rpow_const (x := x) (p := d) (Or.inl hx.ne')
  have h3 := Real.rpow_pos_of_pos hx d
  refine HasDerivAt.change (h1.fun_div h2 h3.ne') (fun y => rfl) ?_
  rw [Real.rpow_sub_one hx.ne' d]
  generalize x ^ d = X at *
  generalize p.h x ^ c = Y
  generalize p.h x ^ (c - 1) = Z
  field_simp

/-- Its logarithmic derivative: `c n (x^2n - 1)/(x^2n + 1) - d`. -/
theorem block_log (p : Prod) (c d : ℝ) {x : ℝ} (hx : 0 < x) :
    1 / 2 * (c * p.n) * (x ^ (p.n - 1) - x ^ (-p.n - 1)) * (p.h x ^ (c - 1) / x ^ d) - d * (p.h x ^ c / x ^ d / x) =
      p.h x ^ c / x ^ d * (c * p.n * (1 - 2 / (x ^ (2 * p.n) + 1)) - d) / x := by
  have hh := p.h_pos hx
  rw [Real.rpow_sub_one hh.ne', Real.rpow_sub_one hx.ne', Real.rpow_sub_one hx.ne', two_mul, Real.rpow_add hx]
  have h1 := Real.rpow_pos_of_pos hx p.n
  have h2 : x ^ (-p.n) = 1 / x ^ p.n := by rw [Real.rpow_neg hx.le, one_div]
  have h3 : p.h x = 1 / 2 * (x ^ p.n + 1 / x ^ p.n) := by rw [h, h2]
  have hd := Real.rpow_pos_of_pos hx d
  generalize p.h x ^ c = Y
  rw [h3, h2]
  generalize x ^ p.n = w at *
  generalize x ^ d = D at *
  have : w * w + 1 ≠ 0 := by positivity
  field_simp
  ring

theorem hasDerivAt_x (vc r : ℝ) (hr : 0 < r) (hv : 0 < vc) :
    HasDerivAt (fun s => 1 / (s * vc)) (-(1 / (r * vc)) / r) r := by
  have h1 : HasDerivAt (fun s => s * vc) vc r := by simpa using (hasDerivAt_id r).mul_const vc
  refine HasDerivAt.change ((hasDerivAt_const r (1 : ℝ)).fun_div h1 (by positivity)) (fun y => rfl) ?_
  field_simp
  ring

theorem F_of_pos (p : Prod) (m : Num ℝ) {r : ℝ} (hr : 0 < r) :
    p.F (Num.exact m) r = 2 * (p.a / ((1 / (r * p.vc)) ^ (2 * p.n) + 1)) := by
  simp only [F, Num.exact, ratio_zero_small, if_neg (not_le.mpr hr)]

theorem Es_of_pos (p : Prod) (m : Num ℝ) {r : ℝ} (hr : 0 < r) :
    p.Es (Num.exact m) r = p.pc * (p.vc / (p.k - 1 + p.a)) *
      (p.h (1 / (r * p.vc)) ^ (p.a / p.n) / (1 / (r * p.vc)) ^ (p.k - 1 + p.a)) := by
  simp only [Es, Num.exact, ratio_zero_small, if_neg (not_le.mpr hr)]
  ring

theorem Ps_of_pos (p : Prod) (m : Num ℝ) {r : ℝ} (hr : 0 < r) :
    p.Ps (Num.exact m) r = p.pc / (p.k - 1 + p.a) *
      (p.h (1 / (r * p.vc)) ^ (p.a / p.n) / (1 / (r * p.vc)) ^ (p.k + p.a) * (p.k - 1 + p.F (Num.exact m) r)) := by
  simp only [Ps, if_neg (not_le.mpr hr)]
  generalize p.F (Num.exact m) r = f
  simp only [Num.exact, ratio_zero_small]
  ring

/-- Pressure and energy on the isentrope. -/
theorem Ps_eq (p : Prod) (m : Num ℝ) (hv : 0 < p.vc) {r : ℝ} (hr : 0 < r) :
    p.Ps (Num.exact m) r = r * p.Es (Num.exact m) r * (p.k - 1 + p.F (Num.exact m) r) := by
  rw [p.Ps_of_pos m hr, p.Es_of_pos m hr]
  have hx : 0 < 1 / (r * p.vc) := by positivity
  have : p.k + p.a = (p.k - 1 + p.a) + 1 := by ring
  rw [this, Real.rpow_add_one hx.ne']
  have hX := Real.rpow_pos_of_pos hx (p.k - 1 + p.a)
  generalize (1 / (r * p.vc)) ^ (p.k - 1 + p.a) = X at *
  generalize p.h (1 / (r * p.vc)) ^ (p.a / p.n) = Y
  field_simp

/-- The reference curve is an isentrope: `dE_s/drho = P_s/rho^2`. -/
theorem hasDerivAt_Es (p : Prod) (m : Num ℝ) (hn : p.n ≠ 0) (hv : 0 < p.vc) (r : ℝ) (hr : 0 < r) :
    HasDerivAt (p.Es (Num.exact m)) (p.Ps (Num.exact m) r / r ^ 2) r := by
  have hx : 0 < 1 / (r * p.vc) := by positivity
  have h1 := (p.hasDerivAt_block (p.a / p.n) (p.k - 1 + p.a) hx)
  rw [block_log p _ _ hx] at h1
  have h2 := ((h1.comp r (hasDerivAt_x p.vc r hr hv)).const_mul (p.pc * (p.vc / (p.k - 1 + p.a))))
  refine HasDerivAt.changeOn (Ioi_mem_nhds hr) h2 (fun y hy => p.Es_of_pos m hy) ?_
  rw [p.Ps_eq m hv hr, p.Es_of_pos m hr, p.F_of_pos m hr, div_mul_cancel₀ _ hn]
  generalize p.h (1 / (r * p.vc)) ^ (p.a / p.n) / (1 / (r * p.vc)) ^ (p.k - 1 + p.a) = Y
  have hX : 0 < (1 / (r * p.vc)) ^ (2 * p.n) + 1 := by positivity
  generalize (1 / (r * p.vc)) ^ (2 * p.n) + 1 = X at *
  generalize p.pc * (p.vc / (p.k - 1 + p.a)) = K
  field_simp
  ring

/-- Temperature on the isentrope: `dT_s/drho = Gamma T_s / rho`. -/
theorem hasDerivAt_Ts (p : Prod) (m : Num ℝ) (hn : p.n ≠ 0) (hv : 0 < p.vc) (r : ℝ) (hr : 0 < r) :
    HasDerivAt (p.Ts (Num.exact m)) (p.gamma (Num.exact m) r * p.Ts (Num.exact m) r / r) r := by
  have hx : 0 < 1 / (r * p.vc) := by positivity
  have h1 := (p.hasDerivAt_block (p.a / p.n * (1 - p.b)) (p.k - 1 + p.a * (1 - p.b)) hx)
  rw [block_log p _ _ hx] at h1
  have hT : ∀ {y}, 0 < y → p.Ts (Num.exact m) y = (2 : ℝ) ^ (-p.a * (p.b / p.n)) * p.pc * (p.vc / (p.Cv * (p.k - 1 + p.a))) *
      (p.h (1 / (y * p.vc)) ^ (p.a / p.n * (1 - p.b)) / (1 / (y * p.vc)) ^ (p.k - 1 + p.a * (1 - p.b))) := fun {y} hy => by
    simp only [Ts, Num.exact, ratio_zero_small, if_neg (not_le.mpr hy)]
  have h2 := ((h1.comp r (hasDerivAt_x p.vc r hr hv)).const_mul ((2 : ℝ) ^ (-p.a * (p.b / p.n)) * p.pc * (p.vc / (p.Cv * (p.k - 1 + p.a)))))
  refine HasDerivAt.changeOn (Ioi_mem_nhds hr) h2 (fun y hy => hT hy) ?_
  rw [hT hr, gamma, p.F_of_pos m hr]
  have : p.a / p.n * (1 - p.b) * p.n = p.a * (1 - p.b) := by field_simp
  rw [this]
  generalize p.h (1 / (r * p.vc)) ^ (p.a / p.n * (1 - p.b)) / (1 / (r * p.vc)) ^ (p.k - 1 + p.a * (1 - p.b)) = Y
  have hX : 0 < (1 / (r * p.vc)) ^ (2 * p.n) + 1 := by positivity
  generalize (1 / (r * p.vc)) ^ (2 * p.n) + 1 = X at *
  generalize (2 : ℝ) ^ (-p.a * (p.b / p.n)) * p.pc * (p.vc / (p.Cv * (p.k - 1 + p.a))) = K
  field_simp
  ring

/-- C44: the reference curve is an isentrope of the EOS: along `T = T_s(rho)` the energy changes by `P/rho^2 drho` and the
temperature by `Gamma T/rho drho`. -/
theorem C44_products_isentrope (p : Prod) (m : Num ℝ) (hn : p.n ≠ 0) (hv : 0 < p.vc) (r : ℝ) (hr : 0 < r) :
    HasDerivAt (fun x => p.q (Num.exact m) .eRT x (p.Ts (Num.exact m) x)) (p.q (Num.exact m) .pRT r (p.Ts (Num.exact m) r) / r ^ 2) r ∧
    HasDerivAt (p.Ts (Num.exact m)) (p.q (Num.exact m) .gRT r (p.Ts (Num.exact m) r) * p.Ts (Num.exact m) r / r) r := by
  refine ⟨?_, p.hasDerivAt_Ts m hn hv r hr⟩
  refine HasDerivAt.change (p.hasDerivAt_Es m hn hv r hr) (fun y => by simp [q, energy]) (by simp [q, energy, pressure])

/-- C44: energy and pressure satisfy the first law and the bulk modulus is the isentropic derivative of the pressure, at
every positive density, temperature (of any sign) and energy. -/
theorem C44_products_first_law (p : Prod) (m : Num ℝ) (hn : p.n ≠ 0) (hv : 0 < p.vc) (r T : ℝ) (hr : 0 < r) :
    EnergyRho (p.q (Num.exact m)) r T := by
  refine ⟨r * p.gamma (Num.exact m) r * p.Cv, ?_, ?_⟩
  · refine HasDerivAt.change (hasDerivAt_affine (r * p.gamma (Num.exact m) r * p.Cv)
      (p.Ps (Num.exact m) r - r * p.gamma (Num.exact m) r * p.Cv * p.Ts (Num.exact m) r) T) (fun y => ?_) rfl
    simp only [q, pressure, energy]; ring
  · refine HasDerivAt.change ((((p.hasDerivAt_Ts m hn hv r hr).const_sub T).const_mul p.Cv).add (p.hasDerivAt_Es m hn hv r hr))
      (fun y => rfl) ?_
    simp only [q, pressure, energy]
    field_simp
    ring

/-- C44: the bulk modulus is `rho` times the isentropic derivative of the pressure. -/
theorem C44_products_bulk (p : Prod) (m : Num ℝ) (hn : p.n ≠ 0) (hv : 0 < p.vc) (r e : ℝ) (hr : 0 < r) :
    IsentropicBulk (p.q (Num.exact m)) r e := by
  have hx : 0 < 1 / (r * p.vc) := by positivity
  have hxd := hasDerivAt_x p.vc r hr hv
  have hE := p.hasDerivAt_Es m hn hv r hr
  -- F
  have hF : HasDerivAt (p.F (Num.exact m)) (-4 * p.a * p.n * ((1 / (r * p.vc)) ^ (2 * p.n - 1) / (1 + (1 / (r * p.vc)) ^ (2 * p.n)) ^ 2)
      * (-(1 / (r * p.vc)) / r)) r := by
    have h1 := (Real.hasDerivAt_rpow_const (x := 1 / (r * p.vc)) (p := 2 * p.n) (Or.inl hx.ne')).add_const 1
    have hX : 0 < (1 / (r * p.vc)) ^ (2 * p.n) + 1 := by positivity
    have h2 := ((hasDerivAt_const (1 / (r * p.vc)) p.a).fun_div h1 hX.ne').const_mul 2
    have h3 := h2.comp r hxd
    refine HasDerivAt.changeOn (Ioi_mem_nhds hr) h3 (fun y hy => p.F_of_pos m hy) ?_
    have : 1 + (1 / (r * p.vc)) ^ (2 * p.n) = (1 / (r * p.vc)) ^ (2 * p.n) + 1 := add_comm _ _
    rw [this]
    generalize (1 / (r * p.vc)) ^ (2 * p.n - 1) = W
    generalize (1 / (r * p.vc)) ^ (2 * p.n) + 1 = X at *
    field_simp
    ring
  have hB := (p.hasDerivAt_block (p.a / p.n) (p.k + p.a) hx).comp r hxd
  rw [div_mul_cancel₀ _ hn] at hB
  have hP := (hB.fun_mul (hF.const_add (p.k - 1))).const_mul (p.pc / (p.k - 1 + p.a))
  have hP : HasDerivAt (p.Ps (Num.exact m)) _ r :=
    HasDerivAt.changeOn (Ioi_mem_nhds hr) hP (fun y hy => p.Ps_of_pos m hy) rfl
  have hG : HasDerivAt (fun x => x * p.gamma (Num.exact m) x) _ r :=
    (hasDerivAt_id r).mul ((hF.const_mul (1 - p.b)).const_add (p.k - 1))
  refine ⟨_, _, hP.add (hG.mul (hE.const_sub e)), (p.C44_products_heat_gruneisen (Num.exact m) r e).2, ?_⟩
  have hesv : p.Ps (Num.exact m) r = -(p.pc / (p.k - 1 + p.a) * (p.h (1 / (r * p.vc)) ^ (p.a / p.n) / (1 / (r * p.vc)) ^ (p.k + p.a)
      + 1 / (r * p.vc) * (1 / 2 * p.a * ((1 / (r * p.vc)) ^ (p.n - 1) - (1 / (r * p.vc)) ^ (-p.n - 1)) *
        (p.h (1 / (r * p.vc)) ^ (p.a / p.n - 1) / (1 / (r * p.vc)) ^ (p.k + p.a)) -
        (p.k + p.a) * (p.h (1 / (r * p.vc)) ^ (p.a / p.n) / (1 / (r * p.vc)) ^ (p.k + p.a) / (1 / (r * p.vc)))))) := by
    have := p.block_log (p.a / p.n) (p.k + p.a) hx
    rw [div_mul_cancel₀ _ hn] at this
    rw [this, p.Ps_of_pos m hr, p.F_of_pos m hr]
    have hX : 0 < (1 / (r * p.vc)) ^ (2 * p.n) + 1 := by positivity
    generalize (1 / (r * p.vc)) ^ (2 * p.n) + 1 = X at *
    generalize p.h (1 / (r * p.vc)) ^ (p.a / p.n) / (1 / (r * p.vc)) ^ (p.k + p.a) = Y
    generalize p.pc / (p.k - 1 + p.a) = K
    field_simp
    ring
  have hr' := not_le.mpr hr
  simp only [q, bulk, pressure, if_neg hr', Function.comp, id, one_mul]
  generalize p.Es (Num.exact m) r = Es at *
  have hg : p.gamma (Num.exact m) r = p.k - 1 + (1 - p.b) * p.F (Num.exact m) r := rfl
  generalize p.F (Num.exact m) r = f at *
  rw [hg]
  generalize p.Ps (Num.exact m) r = Ps at *
  simp only [Num.exact, ratio_zero_small]
  generalize p.h (1 / (r * p.vc)) ^ (p.a / p.n) / (1 / (r * p.vc)) ^ (p.k + p.a) = tmp at *
  generalize p.h (1 / (r * p.vc)) ^ (p.a / p.n - 1) / (1 / (r * p.vc)) ^ (p.k + p.a) = tmp1 at *
  generalize (1 / (r * p.vc)) ^ (p.n - 1) - (1 / (r * p.vc)) ^ (-p.n - 1) = w at *
  generalize (1 / (r * p.vc)) ^ (2 * p.n - 1) / (1 + (1 / (r * p.vc)) ^ (2 * p.n)) ^ 2 = fx at *
  generalize hK : p.pc / (p.k - 1 + p.a) = K at *
  rw [hesv]
  field_simp
  ring

theorem pofR_eq (p : Prod) (m : Num ℝ) (T r : ℝ) : p.pofR m T r = p.q m .pRT r T := by
  simp only [pofR, q, pressure, energy]
  ring

/-- C44: `DensityEnergyFromPressureTemperature`. If the reference density is within `[1e-5, 1e3]` and the
requested pressure lies between the pressures at those densities, a call that does not abort returns a density in that
range at the middle of an interval over which the pressure at that temperature crosses the requested one, with the
energy at that density and temperature. How close: `C44_products_density_accuracy`. -/
theorem C44_products_density_energy (p : Prod) (m : Num ℝ) (l0 l : Λ) (P T : ℝ) (g : ℝ × ℝ)
    (hg : 1 / 10 ^ 5 ≤ ratio m.σ 1 p.vc ∧ ratio m.σ 1 p.vc ≤ 10 ^ 3)
    (hP : (p.q m .pRT (1 / 10 ^ 5) T - P) * (p.q m .pRT (10 ^ 3) T - P) ≤ 0) (x : ℝ)
    (h : p.density m P T = some x) :
    let o := (p.eos m l0).rePT l P T g
    o.1 = x ∧ o.2 = p.q m .eRT o.1 T ∧
    ∃ a b, 1 / 10 ^ 5 ≤ a ∧ a ≤ b ∧ b ≤ 10 ^ 3 ∧ o.1 = (a + b) / 2 ∧
      (p.q m .pRT a T - P) * (p.q m .pRT b T - P) ≤ 0 := by
  have ho : (p.eos m l0).rePT l P T g = (x, p.q m .eRT x T) := by
    show (match p.density m P T with | some x => (x, p.q m .eRT x T) | none => g) = _
    rw [h]
  intro o
  have ho' : o = (x, p.q m .eRT x T) := ho
  rw [ho']
  refine ⟨rfl, rfl, ?_⟩
  have hf : p.pofR m T = fun r => p.q m .pRT r T := funext fun r => p.pofR_eq m T r
  unfold density at h
  rw [hf] at h
  obtain ⟨st, xr, s, h1, h2, h3, h4, h5, h6, h7, -⟩ := C08_regulaFalsi_keeps_bracket (fun r => p.q m .pRT r T) P (ratio m.σ 1 p.vc)
    (1 / 10 ^ 5) (10 ^ 3) (1 / 10 ^ 8) (1 / 10 ^ 8) (by norm_num) (by norm_num) hg.1 hg.2 (Or.inl hP)
  rw [h1] at h
  cases st with
  | success =>
    simp only [Option.some.injEq] at h
    have hx : 0 ≤ xr := le_trans (by norm_num) (h3.trans h4)
    rw [max_eq_left hx] at h
    subst h
    exact ⟨s.a, s.b, h3, h4.trans h5, h6, h2, h7⟩
  | fail => simp at h

/-- C74: the reference state is a state of the EOS (its temperature is that of its energy, twice the isentrope's). -/
theorem C74_davis_products_reference (p : Prod) (n : Num ℝ) (hc : p.Cv ≠ 0) (l0 l : Λ) : RefDirect (p.eos (Num.exact n) l0) l := by
  have h := (p.C44_products_round_trip n hc ((p.eos (Num.exact n) l0).ref l).rho ((p.eos (Num.exact n) l0).ref l).sie).2.1
  have h : p.energy (Num.exact n) ((p.eos (Num.exact n) l0).ref l).rho (((p.eos (Num.exact n) l0).ref l).temp)
      = ((p.eos (Num.exact n) l0).ref l).sie := h
  refine ⟨?_, h, rfl, ?_, ?_⟩
  · show p.pressure _ _ (p.energy _ _ _) = p.pressure _ _ _
    rw [h]; rfl
  · show p.bulk _ _ (p.energy _ _ _) = p.bulk _ _ _
    rw [h]; rfl
  · exact mul_comm _ _

/-- C74: the reference state's density is that at the critical volume and its energy twice that on the isentrope there,
so its temperature exceeds the isentrope's by the isentrope's energy over the heat capacity. -/
theorem C74_davis_products_reference_energy (p : Prod) (n : Num ℝ) (hc : p.Cv ≠ 0) (l0 l : Λ) :
    let t := p.eos (Num.exact n) l0
    let r := (t.ref l).rho
    r = 1 / p.vc ∧ (t.ref l).sie = 2 * t.q .eRT l r (p.Ts (Num.exact n) r) ∧
    (t.ref l).temp = p.Ts (Num.exact n) r + t.q .eRT l r (p.Ts (Num.exact n) r) / p.Cv := by
  have h0 : ∀ r, p.energy (Num.exact n) r (p.Ts (Num.exact n) r) = p.Es (Num.exact n) r := by
    intro r; simp [energy]
  refine ⟨ratio_zero_small 1 p.vc, ?_, ?_⟩
  · show 2 * p.Es _ _ = 2 * p.energy _ _ _
    rw [h0]; rfl
  · show p.Ts (Num.exact n) _ + ratio 0 (2 * p.Es _ _ - p.Es _ _) p.Cv = p.Ts (Num.exact n) _ + p.energy _ _ _ / p.Cv
    rw [h0, ← ratio_zero_small (p.Es _ _), two_mul, add_sub_cancel_right]
    rfl

/-- PBX-9502 products (`test_eos_unit.cpp`, rounded) meet the hypotheses of the theorems above. -/
example : ∃ p : Prod, p.n ≠ 0 ∧ 0 < p.vc ∧ p.Cv ≠ 0 ∧ 1 / 10 ^ 5 ≤ ratio 0 1 p.vc ∧ ratio 0 1 p.vc ≤ 10 ^ 3 :=
  ⟨⟨798311 / 10 ^ 6, 58 / 100, 135 / 100, 266182 / 10 ^ 5, 75419 / 10 ^ 5, 32 * 10 ^ 9, 1072 * 10 ^ 7, 1, 1⟩,
    by norm_num, by norm_num, by norm_num, by norm_num [ratio_zero_small], by norm_num [ratio_zero_small]⟩

end Verif.Davis.Prod
