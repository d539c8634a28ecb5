import Verif.Props.Hermite
import Mathlib.Analysis.SpecialFunctions.Pow.Deriv
import Mathlib.Analysis.SpecialFunctions.Sqrt

set_option linter.unusedSectionVars false

/-! # C77, C78: the components of the Helmholtz EOS -/

namespace Verif.Helm

open Verif.Hermite Verif.Robust Verif.Spec Filter Topology

/-! ## Radiation -/

/-- Radiation pressure, as reported at `(rho, T)`; it does not depend on the composition. -/
noncomputable def radP (A : ℝ) : ℝ → ℝ → ℝ → ℝ → D5 := fun r T _ _ => (rad 0 A r T).p
/-- Radiation energy. -/
noncomputable def radE (A : ℝ) : ℝ → ℝ → ℝ → ℝ → D5 := fun r T _ _ => (rad 0 A r T).e
/-- Radiation entropy. -/
noncomputable def radS (A : ℝ) : ℝ → ℝ → ℝ → ℝ → D5 := fun r T _ _ => (rad 0 A r T).s

theorem rad_p_val (A r T : ℝ) : (rad 0 A r T).p.val = A * T ^ 4 := by simp only [rad]; ring
theorem rad_e_val (A r T : ℝ) : (rad 0 A r T).e.val = 3 * A * T ^ 4 * r⁻¹ := by
  simp only [rad, ratio0]; ring
theorem rad_s_val (A r T : ℝ) (hT : T ≠ 0) : (rad 0 A r T).s.val = 4 * A * T ^ 3 * r⁻¹ := by
  simp only [rad, ratio0]; field_simp; ring

/-- C77: every derivative reported for radiation is the derivative of the reported quantity, and the radiation
arrays obey the first law and the Maxwell relation. -/
theorem C77_radiation (A r T a z : ℝ) (hr : 0 < r) (hT : 0 < T) :
    Jet (radP A) r T a z ∧ Jet (radE A) r T a z ∧ Jet (radS A) r T a z ∧
    Laws (rad 0 A r T).p (rad 0 A r T).e (rad 0 A r T).s r T := by
  have hr0 := hr.ne'
  have hT0 := hT.ne'
  refine ⟨⟨?_, ?_, ?_, ?_⟩, ⟨?_, ?_, ?_, ?_⟩, ⟨?_, ?_, ?_, ?_⟩, ⟨?_, ?_, ?_⟩⟩
  · exact HasDerivAt.change (hasDerivAt_const r (A * T ^ 4)) (fun x => rad_p_val A x T) rfl
  · exact HasDerivAt.change ((hasDerivAt_pow 4 T).const_mul A) (fun x => rad_p_val A r x)
      (by simp [radP, rad]; ring)
  · exact hasDerivAt_const _ _
  · exact hasDerivAt_const _ _
  · exact HasDerivAt.change ((hasDerivAt_inv hr0).const_mul (3 * A * T ^ 4)) (fun x => rad_e_val A x T)
      (by simp only [radE, rad, ratio0]; field_simp)
  · exact HasDerivAt.change (((hasDerivAt_pow 4 T).const_mul (3 * A)).mul_const r⁻¹) (fun x => rad_e_val A r x)
      (by simp only [radE, rad, ratio0]; ring)
  · exact hasDerivAt_const _ _
  · exact hasDerivAt_const _ _
  · exact HasDerivAt.change ((hasDerivAt_inv hr0).const_mul (4 * A * T ^ 3)) (fun x => rad_s_val A x T hT0)
      (by simp [radS, rad, ratio0]; field_simp; ring)
  · exact HasDerivAt.changeOn (isOpen_ne.mem_nhds hT0) (((hasDerivAt_pow 3 T).const_mul (4 * A)).mul_const r⁻¹)
      (fun x hx => rad_s_val A r x hx) (by simp [radS, rad, ratio0]; field_simp; ring)
  · exact hasDerivAt_const _ _
  · exact hasDerivAt_const _ _
  · simp only [rad, ratio0]; field_simp; ring
  · simp only [rad, ratio0]; field_simp; ring
  · simp only [rad, ratio0]; field_simp; ring

/-! ## Ions -/

/-- The ion arrays reported by an EOS with degenerate electrons (`options.ionized && degenerate`), at
`(rho, T, abar, zbar)`. -/
noncomputable def ionAt (c : Consts) (r T a z : ℝ) : Three :=
  ionPart 0 ⟨⟨true, true, true, true, true, true⟩, 0, c,
    ⟨fun _ => 0, fun _ => 0, fun _ _ => 0, fun _ _ => 0, fun _ _ => 0, fun _ _ => 0, fun _ _ => 0, fun _ _ => 0,
     fun _ _ => 0, fun _ _ => 0, fun _ _ => 0, fun _ _ => 0, fun _ _ => 0, fun _ _ => 0, fun _ _ => 0,
     fun _ _ => 0, fun _ _ => 0, fun _ _ => 0, fun _ _ => 0, fun _ _ => 0, fun _ _ => 0, fun _ _ => 0,
     fun _ _ => 0, 0, 0, 0, 0, 0, 0, fun _ => 0, fun _ => 0⟩⟩ r T a z (dens 0 c r a z)

/-- The ion part of any EOS with degenerate electrons is `ionAt`. -/
theorem ionPart_eq (m : Model) (hd : m.opt.degenerate = true) (r T a z : ℝ) :
    ionPart 0 m r T a z (dens 0 m.c r a z) = ionAt m.c r T a z := by
  unfold ionAt ionPart
  cases hi : m.opt.ionized <;> simp [hd]

theorem lnT_eq (T : ℝ) : log10 T / log10 (Real.exp 1) = Real.log T := by
  have h10 : Real.log 10 ≠ 0 := (Real.log_pos (by norm_num)).ne'
  simp only [log10, Real.logb, Real.log_exp]
  field_simp

theorem ion_p (c : Consts) (r T a z : ℝ) (ha : a ≠ 0) :
    (ionAt c r T a z).p = ⟨c.NA * c.KB * r * T * a⁻¹, c.NA * c.KB * T / a, c.NA * c.KB * r / a,
      -(c.NA * c.KB * r * T / a ^ 2), 0⟩ := by
  simp [ionAt, ionPart, ion, massFractions, dens, ratio0]
  refine ⟨?_, ?_, ?_, ?_⟩ <;> field_simp

theorem ion_e (c : Consts) (r T a z : ℝ) (hr : r ≠ 0) (ha : a ≠ 0) :
    (ionAt c r T a z).e = ⟨3 / 2 * (c.NA * c.KB * T * a⁻¹), 0, 3 / 2 * (c.NA * c.KB / a),
      -(3 / 2 * (c.NA * c.KB * T / a ^ 2)), 0⟩ := by
  simp [ionAt, ionPart, ion, massFractions, dens, ratio0]
  refine ⟨?_, ?_, ?_, ?_⟩
  · field_simp
  · left; field_simp; ring
  · field_simp
  · field_simp

theorem ion_s (c : Consts) (r T a z : ℝ) (hr : r ≠ 0) (hT : T ≠ 0) (ha : a ≠ 0) :
    (ionAt c r T a z).s = ⟨c.NA * c.KB * a⁻¹ * (5 / 2 + (Real.log (a * a * Real.sqrt a / (r * c.NA)) +
        c.LSWOT15 * Real.log T)), -(c.NA * c.KB / a / r), 3 / 2 * (c.NA * c.KB / a) / T,
      -(c.NA * c.KB / a ^ 2) * (Real.log (a * a * Real.sqrt a / (r * c.NA)) + c.LSWOT15 * Real.log T), 0⟩ := by
  simp [ionAt, ionPart, ion, massFractions, dens, ratio0, lnT_eq]
  refine ⟨?_, ?_, ?_, ?_⟩
  · field_simp; ring
  · field_simp; ring
  · field_simp; ring
  · field_simp; ring

theorem log_ywot (NA r a : ℝ) (hr : 0 < r) (ha : 0 < a) (hN : 0 < NA) :
    Real.log (a * a * Real.sqrt a / (r * NA)) = 5 / 2 * Real.log a - Real.log r - Real.log NA := by
  have hs : 0 < Real.sqrt a := Real.sqrt_pos.2 ha
  rw [Real.log_div (by positivity) (by positivity), Real.log_mul (by positivity) hs.ne',
    Real.log_mul ha.ne' ha.ne', Real.log_mul hr.ne' hN.ne', Real.log_sqrt ha.le]
  ring

/-- C77: ion pressure and energy: every reported derivative is the derivative; and the reported arrays satisfy the
first law and the Maxwell relation among themselves. -/
theorem C77_ions (c : Consts) (r T a z : ℝ) (hr : 0 < r) (hT : 0 < T) (ha : 0 < a) :
    Jet (fun r T a z => (ionAt c r T a z).p) r T a z ∧ Jet (fun r T a z => (ionAt c r T a z).e) r T a z ∧
    Laws (ionAt c r T a z).p (ionAt c r T a z).e (ionAt c r T a z).s r T := by
  have hr0 := hr.ne'
  have hT0 := hT.ne'
  have ha0 := ha.ne'
  have hna : {x : ℝ | x ≠ 0} ∈ 𝓝 a := isOpen_ne.mem_nhds ha0
  have hnr : {x : ℝ | x ≠ 0} ∈ 𝓝 r := isOpen_ne.mem_nhds hr0
  refine ⟨⟨?_, ?_, ?_, ?_⟩, ⟨?_, ?_, ?_, ?_⟩, ⟨?_, ?_, ?_⟩⟩
  · refine HasDerivAt.change ((((hasDerivAt_id r).const_mul (c.NA * c.KB)).mul_const T).mul_const a⁻¹)
      (fun x => by rw [ion_p c x T a z ha0]; rfl) (by rw [ion_p c r T a z ha0]; simp; ring)
  · refine HasDerivAt.change (((hasDerivAt_id T).const_mul (c.NA * c.KB * r)).mul_const a⁻¹)
      (fun x => by rw [ion_p c r x a z ha0]; rfl) (by rw [ion_p c r T a z ha0]; simp; ring)
  · refine HasDerivAt.changeOn hna ((hasDerivAt_inv ha0).const_mul (c.NA * c.KB * r * T))
      (fun x hx => by rw [ion_p c r T x z hx]) (by rw [ion_p c r T a z ha0]; simp; ring)
  · refine HasDerivAt.change (hasDerivAt_const z (c.NA * c.KB * r * T * a⁻¹))
      (fun x => by rw [ion_p c r T a x ha0]) (by rw [ion_p c r T a z ha0])
  · refine HasDerivAt.changeOn hnr (hasDerivAt_const r (3 / 2 * (c.NA * c.KB * T * a⁻¹)))
      (fun x hx => by rw [ion_e c x T a z hx ha0]) (by rw [ion_e c r T a z hr0 ha0])
  · refine HasDerivAt.change ((((hasDerivAt_id T).const_mul (c.NA * c.KB)).mul_const a⁻¹).const_mul (3 / 2))
      (fun x => by rw [ion_e c r x a z hr0 ha0]; rfl) (by rw [ion_e c r T a z hr0 ha0]; simp; ring)
  · refine HasDerivAt.changeOn hna (((hasDerivAt_inv ha0).const_mul (c.NA * c.KB * T)).const_mul (3 / 2))
      (fun x hx => by rw [ion_e c r T x z hr0 hx]) (by rw [ion_e c r T a z hr0 ha0]; simp; ring)
  · refine HasDerivAt.change (hasDerivAt_const z (3 / 2 * (c.NA * c.KB * T * a⁻¹)))
      (fun x => by rw [ion_e c r T a x hr0 ha0]) (by rw [ion_e c r T a z hr0 ha0])
  · rw [ion_e c r T a z hr0 ha0, ion_s c r T a z hr0 hT0 ha0]; field_simp
  · rw [ion_e c r T a z hr0 ha0, ion_p c r T a z ha0]; field_simp; ring
  · rw [ion_s c r T a z hr0 hT0 ha0, ion_p c r T a z ha0]; field_simp

/-- C78 (what holds): the density and composition derivatives reported for the ion entropy are its derivatives. -/
theorem C78_ion_entropy_density_composition_partial (c : Consts) (r T a z : ℝ) (hr : 0 < r) (hT : 0 < T)
    (ha : 0 < a) (hN : 0 < c.NA) :
    HasDerivAt (fun x => (ionAt c x T a z).s.val) (ionAt c r T a z).s.ddr r ∧
    HasDerivAt (fun x => (ionAt c r T x z).s.val) (ionAt c r T a z).s.dda a := by
  have hr0 := hr.ne'
  have hT0 := hT.ne'
  have ha0 := ha.ne'
  constructor
  · have h := (((((Real.hasDerivAt_log hr0).const_sub (5 / 2 * Real.log a)).sub_const (Real.log c.NA)).add_const
      (c.LSWOT15 * Real.log T)).const_add (5 / 2)).const_mul (c.NA * c.KB * a⁻¹)
    refine HasDerivAt.changeOn (isOpen_Ioi.mem_nhds hr) h (fun x hx => ?_) ?_
    · rw [ion_s c x T a z (ne_of_gt hx) hT0 ha0, log_ywot _ _ _ hx ha hN]
    · rw [ion_s c r T a z hr0 hT0 ha0]; field_simp
  · have h := (((((Real.hasDerivAt_log ha0).const_mul (5 / 2)).sub_const (Real.log r)).sub_const
      (Real.log c.NA)).add_const (c.LSWOT15 * Real.log T)).const_add (5 / 2)
    have h2 := ((hasDerivAt_inv ha0).const_mul (c.NA * c.KB)).fun_mul h
    refine HasDerivAt.changeOn (isOpen_Ioi.mem_nhds ha) h2 (fun x hx => ?_) ?_
    · rw [ion_s c r T x z hr0 hT0 (ne_of_gt hx), log_ywot _ _ _ hr hx hN]
    · rw [ion_s c r T a z hr0 hT0 ha0, log_ywot _ _ _ hr ha hN]; field_simp; ring

/-- C78: the temperature derivative of the reported ion entropy is the reported one, hence `cv/T`, exactly when the
constant `LSWOT15` multiplying `ln T` is `3/2`. -/
theorem C78_ion_entropy_T_iff (c : Consts) (r T a z : ℝ) (hr : 0 < r) (hT : 0 < T)
    (ha : 0 < a) (hN : 0 < c.NA) (hK : 0 < c.KB) :
    HasDerivAt (fun x => (ionAt c r x a z).s.val) (ionAt c r T a z).s.ddt T ↔ c.LSWOT15 = 3 / 2 := by
  have hr0 := hr.ne'
  have hT0 := hT.ne'
  have ha0 := ha.ne'
  have h := (((((Real.hasDerivAt_log hT0).const_mul c.LSWOT15).const_add
      (Real.log (a * a * Real.sqrt a / (r * c.NA))))).const_add (5 / 2)).const_mul (c.NA * c.KB * a⁻¹)
  have h' : HasDerivAt (fun x => (ionAt c r x a z).s.val) (c.NA * c.KB * a⁻¹ * (c.LSWOT15 * T⁻¹)) T :=
    HasDerivAt.changeOn (isOpen_ne.mem_nhds hT0) h (fun x hx => by rw [ion_s c r x a z hr0 hx ha0]) rfl
  have hv : (ionAt c r T a z).s.ddt = 3 / 2 * (c.NA * c.KB / a) / T := by rw [ion_s c r T a z hr0 hT0 ha0]
  rw [hv]
  constructor
  · intro hd
    have := h'.unique hd
    have hpos : c.NA * c.KB ≠ 0 := (mul_pos hN hK).ne'
    field_simp at this
    have h3 : c.LSWOT15 * 2 = 3 := by
      have : c.NA * c.KB * (c.LSWOT15 * 2 - 3) = 0 := by linear_combination c.NA * c.KB * this
      rcases mul_eq_zero.1 this with h | h
      · exact absurd h hpos
      · linarith
    linarith
  · intro hL
    refine HasDerivAt.change h' (fun _ => rfl) ?_
    rw [hL]; field_simp

/-- The constants of the code, `eos_helmholtz.hpp:353-360`, `:377-381`, `:1378-1385`. -/
noncomputable def codeConsts : Consts where
  KB := 1.3806504e-16
  NA := 6.02214199e23
  LSWOT15 := 46.682612633059801
  esu := 4.80320427e-10
  a1 := -0.898004
  b1 := 0.96786
  c1 := 0.220703
  d1 := -0.86097
  e1 := 2.5269
  a2 := 0.29561
  b2 := 1.9885
  c2 := 0.288675
  LN10 := 2.30258509299405

/-- C78 violated: with the constants of the code (`LSWOT15 = 46.68…`, which the comment describes as an additive
constant), the entropy reported by the ion component violates `T dS/dT = cv` at every state. -/
theorem C78_ion_entropy_T_violated (r T a z : ℝ) (hr : 0 < r) (hT : 0 < T) (ha : 0 < a) :
    ¬ HasDerivAt (fun x => (ionAt codeConsts r x a z).s.val) ((ionAt codeConsts r T a z).e.ddt / T) T := by
  have hl := (C77_ions codeConsts r T a z hr hT ha).2.2.heat
  intro h
  have h' : HasDerivAt (fun x => (ionAt codeConsts r x a z).s.val) (ionAt codeConsts r T a z).s.ddt T :=
    HasDerivAt.change h (fun _ => rfl) (by rw [← hl]; field_simp)
  have := (C78_ion_entropy_T_iff codeConsts r T a z hr hT ha (by norm_num [codeConsts])
    (by norm_num [codeConsts])).1 h'
  norm_num [codeConsts] at this

/-! ## Coulomb corrections -/

/-- The plasma parameter with its reported derivatives, at `(rho, T, abar, zbar)`. -/
noncomputable def plasAt (c : Consts) (r T a z : ℝ) : Plas :=
  let x := massFractions c r (dens 0 c r a z).ytot
  plasma 0 c T z x.1 x.2.1 x.2.2

/-- C79: the plasma coupling parameter is positive at every physical state, so the branch of the Coulomb
correction written for the other case is never taken. -/
theorem C79_weak_branch_unreachable (c : Consts) (r T a z : ℝ) (hr : 0 < r) (hT : 0 < T) (ha : 0 < a)
    (hN : 0 < c.NA) (hK : 0 < c.KB) : 0 ≤ (plasAt c r T a z).g := by
  have hx : 0 < c.NA * (1 / a) * r := by positivity
  have hpi := Real.pi_pos
  simp only [plasAt, plasma, massFractions, dens, ratio0]
  have : (0:ℝ) < (4 / 3 * Real.pi * (c.NA * (1 / a) * r)) ^ (1 / 3 : ℝ) := by positivity
  positivity

/-- The Coulomb gain applied to every quantity, as a function of density and temperature. -/
noncomputable def gainAt (r T : ℝ) : ℝ := (gain 0 codeConsts.LN10 r T).1

/-- C79 violated: the temperature derivative of the gain used in the reported heat capacity of the Coulomb
correction is not the derivative of the gain: at `T = 10^4.5` the gain is stationary in temperature, but the
reported derivative is not zero at any density below 0.1 g/cc. -/
theorem C79_gain_derivative_violated (r : ℝ) (hr : 0 < r) (hr1 : r < 1 / 10) :
    HasDerivAt (fun T => gainAt r T) 0 (pow10 (9 / 2)) ∧ (gain 0 codeConsts.LN10 r (pow10 (9 / 2))).2.1 ≠ 0 := by
  have h10 : Real.log 10 ≠ 0 := (Real.log_pos (by norm_num)).ne'
  have hT : 0 < pow10 (9 / 2) := Real.exp_pos _
  have hl : log10 (pow10 (9 / 2)) = 9 / 2 := by
    simp only [log10, Real.logb, pow10, Real.log_exp]; field_simp
  constructor
  · have hlog : HasDerivAt (fun T => log10 T - 9 / 2) ((pow10 (9 / 2))⁻¹ / Real.log 10) (pow10 (9 / 2)) :=
      ((Real.hasDerivAt_log hT.ne').div_const _).sub_const _
    have hden : HasDerivAt (fun T => 1 + ((log10 T - 9 / 2) / 3) ^ 24) 0 (pow10 (9 / 2)) := by
      have := ((hlog.div_const 3).pow 24).const_add 1
      refine HasDerivAt.change this (fun _ => rfl) ?_
      simp [hl]
    have hg : HasDerivAt (fun T => 1 / (1 + ((log10 T - 9 / 2) / 3) ^ 24)) 0 (pow10 (9 / 2)) := by
      have hne : (1 + ((log10 (pow10 (9 / 2)) - 9 / 2) / 3) ^ 24 : ℝ) ≠ 0 := by rw [hl]; norm_num
      have := (hasDerivAt_const (pow10 (9 / 2)) (1 : ℝ)).fun_div hden hne
      exact HasDerivAt.change this (fun _ => rfl) (by simp)
    have := (hg.const_mul ((butterworth 0 12 (log10 r + 1) 6).1)).const_sub 1
    refine HasDerivAt.change this (fun T => ?_) (by simp)
    simp only [gainAt, gain, butterworth, ratio0]
  · have hlr : log10 r + 1 < 0 := by
      have h1 : Real.log r < Real.log (1 / 10) := Real.log_lt_log hr hr1
      have h2 : Real.log (1 / 10) = -Real.log 10 := by rw [one_div, Real.log_inv]
      have h3 : 0 < Real.log 10 := Real.log_pos (by norm_num)
      have : log10 r < -1 := by
        simp only [log10, Real.logb]; rw [div_lt_iff₀ h3]; linarith
      linarith
    simp only [gain, butterworth, ratio0, hl]
    have hx : (log10 r + 1) ≠ 0 := hlr.ne
    have hpos : (0:ℝ) < 1 + ((log10 r + 1) / 6) ^ 24 := by positivity
    have hL : codeConsts.LN10 ≠ 0 := by norm_num [codeConsts]
    norm_num
    exact ⟨⟨hpos.ne', hx⟩, hT.ne', hL⟩

/-! ### The fit, before the gain -/

/-- `D ↦ D^(1/3)` has derivative `D^(1/3)/(3 D)`. -/
theorem cbrt_deriv {x : ℝ} (hx : 0 < x) :
    HasDerivAt (fun y : ℝ => y ^ (1 / 3 : ℝ)) (x ^ (1 / 3 : ℝ) / (3 * x)) x := by
  have := Real.hasDerivAt_rpow_const (x := x) (p := 1 / 3) (Or.inl hx.ne')
  refine HasDerivAt.change this (fun _ => rfl) ?_
  rw [Real.rpow_sub_one hx.ne']; field_simp

theorem plas_g (c : Consts) (r T a z : ℝ) :
    (plasAt c r T a z).g = c.esu ^ 2 / c.KB * z ^ 2 * T⁻¹ * (4 / 3 * Real.pi * (c.NA * r * a⁻¹)) ^ (1 / 3 : ℝ) := by
  simp only [plasAt, plasma, massFractions, dens, ratio0]
  rw [show c.NA * (1 / a) * r = c.NA * r * a⁻¹ from by ring]
  generalize (4 / 3 * Real.pi * (c.NA * r * a⁻¹)) ^ (1 / 3 : ℝ) = q
  rw [mul_one_div, div_div_eq_mul_div, mul_pow]
  by_cases hq : c.KB * T = 0
  · rcases mul_eq_zero.1 hq with h | h <;> simp [h]
  · have h1 := left_ne_zero_of_mul hq
    have h2 := right_ne_zero_of_mul hq
    field_simp

/-- The reported plasma parameter as a `Reported` quantity. -/
noncomputable def plasD (c : Consts) (r T a z : ℝ) : D5 :=
  let p := plasAt c r T a z
  ⟨p.g, p.dd, p.dt, p.da, p.dz⟩

/-- The reported derivatives of the plasma parameter in closed form. -/
theorem plas_ders (c : Consts) (r T a z : ℝ) (hr : 0 < r) (ha : 0 < a) (hN : 0 < c.NA) :
    (plasAt c r T a z).dd = (plasAt c r T a z).g / (3 * r) ∧
    (plasAt c r T a z).da = -((plasAt c r T a z).g / (3 * a)) ∧
    (plasAt c r T a z).dt = -((plasAt c r T a z).g / T) ∧
    (plasAt c r T a z).dz = 2 * ((plasAt c r T a z).g / z) := by
  have hx : 0 < c.NA * (1 / a) * r := by positivity
  have hpi := Real.pi_pos
  have hq : (0:ℝ) < (4 / 3 * Real.pi * (c.NA * (1 / a) * r)) ^ (1 / 3 : ℝ) := by positivity
  simp only [plasAt, plasma, massFractions, dens, ratio0]
  generalize hqq : (4 / 3 * Real.pi * (c.NA * (1 / a) * r)) ^ (1 / 3 : ℝ) = q at hq
  generalize (c.esu * z) ^ 2 / (c.KB * T * (1 / q)) = g
  refine ⟨?_, ?_, trivial, trivial⟩
  · field_simp
  · field_simp

/-- C79: the plasma coupling parameter's reported derivatives are its derivatives. -/
theorem C79_plasma_parameter (c : Consts) (r T a z : ℝ) (hr : 0 < r) (hT : 0 < T) (ha : 0 < a) (hz : 0 < z)
    (hN : 0 < c.NA) : Jet (plasD c) r T a z := by
  have hpi := Real.pi_pos
  obtain ⟨h1, h2, h3, h4⟩ := plas_ders c r T a z hr ha hN
  have hx : 0 < 4 / 3 * Real.pi * (c.NA * r * a⁻¹) := by positivity
  have hg := plas_g c r T a z
  refine ⟨?_, ?_, ?_, ?_⟩
  · have hin : HasDerivAt (fun r => 4 / 3 * Real.pi * (c.NA * r * a⁻¹)) (4 / 3 * Real.pi * (c.NA * a⁻¹)) r :=
      HasDerivAt.change ((((hasDerivAt_id r).const_mul c.NA).mul_const a⁻¹).const_mul (4 / 3 * Real.pi))
        (fun _ => rfl) (by ring)
    have := ((cbrt_deriv hx).comp r hin).const_mul (c.esu ^ 2 / c.KB * z ^ 2 * T⁻¹)
    refine HasDerivAt.change this (fun x => plas_g c x T a z) ?_
    show _ = (plasAt c r T a z).dd
    rw [h1, hg]; field_simp
  · have := (((hasDerivAt_inv hT.ne').const_mul (c.esu ^ 2 / c.KB * z ^ 2)).mul_const
      ((4 / 3 * Real.pi * (c.NA * r * a⁻¹)) ^ (1 / 3 : ℝ)))
    refine HasDerivAt.change this (fun x => plas_g c r x a z) ?_
    show _ = (plasAt c r T a z).dt
    rw [h3, hg]; ring
  · have hin : HasDerivAt (fun a => 4 / 3 * Real.pi * (c.NA * r * a⁻¹)) (4 / 3 * Real.pi * (c.NA * r * -(a ^ 2)⁻¹)) a :=
      ((hasDerivAt_inv ha.ne').const_mul (c.NA * r)).const_mul (4 / 3 * Real.pi)
    have := ((cbrt_deriv hx).comp a hin).const_mul (c.esu ^ 2 / c.KB * z ^ 2 * T⁻¹)
    refine HasDerivAt.change this (fun x => plas_g c r T x z) ?_
    show _ = (plasAt c r T a z).da
    rw [h2, hg]; field_simp
  · have := (((hasDerivAt_pow 2 z).const_mul (c.esu ^ 2 / c.KB)).mul_const T⁻¹).mul_const
      ((4 / 3 * Real.pi * (c.NA * r * a⁻¹)) ^ (1 / 3 : ℝ))
    refine HasDerivAt.change this (fun x => plas_g c r T a x) ?_
    show _ = (plasAt c r T a z).dz
    rw [h4, hg]; field_simp; ring

/-- The Coulomb fit before the gain, at `(rho, T, abar, zbar)`. -/
noncomputable def fitAt (c : Consts) (r T a z : ℝ) : Three :=
  coulStrong 0 c r T (dens 0 c r a z).ytot a (plasAt c r T a z)

/-- The fourth root. -/
theorem qrt_deriv {g : ℝ} (hg : 0 < g) :
    HasDerivAt (fun y => Real.sqrt (Real.sqrt y)) (Real.sqrt (Real.sqrt g) / (4 * g)) g := by
  have hs : 0 < Real.sqrt g := Real.sqrt_pos.2 hg
  have hss : 0 < Real.sqrt (Real.sqrt g) := Real.sqrt_pos.2 hs
  have := (Real.hasDerivAt_sqrt hs.ne').comp g (Real.hasDerivAt_sqrt hg.ne')
  refine HasDerivAt.change this (fun _ => rfl) ?_
  have e1 : Real.sqrt g * Real.sqrt g = g := Real.mul_self_sqrt hg.le
  have e2 : Real.sqrt (Real.sqrt g) * Real.sqrt (Real.sqrt g) = Real.sqrt g := Real.mul_self_sqrt hs.le
  rw [← mul_div_mul_comm, div_eq_div_iff (by positivity) (by positivity)]
  linear_combination (-4 * Real.sqrt g) * e2 - 4 * e1

/-- The energy fit per `N_A k T / A` as a function of the plasma parameter. -/
noncomputable def fitU (c : Consts) (g : ℝ) : ℝ :=
  c.a1 * g + c.b1 * Real.sqrt (Real.sqrt g) + c.c1 / Real.sqrt (Real.sqrt g) + c.d1

/-- Its derivative. -/
noncomputable def fitU' (c : Consts) (g : ℝ) : ℝ :=
  c.a1 + 1 / 4 / g * (c.b1 * Real.sqrt (Real.sqrt g) - c.c1 / Real.sqrt (Real.sqrt g))

theorem fitU_deriv (c : Consts) {g : ℝ} (hg : 0 < g) : HasDerivAt (fitU c) (fitU' c g) g := by
  have hss : 0 < Real.sqrt (Real.sqrt g) := Real.sqrt_pos.2 (Real.sqrt_pos.2 hg)
  have hq := qrt_deriv hg
  have := (((hasDerivAt_id g).const_mul c.a1).fun_add (hq.const_mul c.b1)).fun_add
    ((hasDerivAt_const g c.c1).fun_div hq hss.ne')
  refine HasDerivAt.change (this.add_const c.d1) (fun _ => rfl) ?_
  unfold fitU'; field_simp; ring

theorem fit_e (c : Consts) (r T a z : ℝ) :
    (fitAt c r T a z).e.val = c.KB * c.NA * a⁻¹ * T * fitU c (plasAt c r T a z).g := by
  simp only [fitAt, coulStrong, dens, ratio0, fitU, one_div]

/-- C79: before the gain is applied, the derivatives reported for the Coulomb energy and pressure are their
derivatives. -/
theorem C79_fit_energy_pressure (c : Consts) (r T a z : ℝ) (hr : 0 < r) (hT : 0 < T) (ha : 0 < a) (hz : 0 < z)
    (hN : 0 < c.NA) (hg : 0 < (plasAt c r T a z).g) :
    Jet (fun r T a z => (fitAt c r T a z).e) r T a z ∧ Jet (fun r T a z => (fitAt c r T a z).p) r T a z := by
  have hj := C79_plasma_parameter c r T a z hr hT ha hz hN
  have hU := fitU_deriv c hg
  have eR : HasDerivAt (fun x => (fitAt c x T a z).e.val) (fitAt c r T a z).e.ddr r := by
    have := (hU.comp r hj.ddr).const_mul (c.KB * c.NA * a⁻¹ * T)
    refine HasDerivAt.change this (fun x => fit_e c x T a z) ?_
    simp only [fitAt, coulStrong, dens, ratio0, plasD, fitU', one_div]; ring
  have eT : HasDerivAt (fun x => (fitAt c r x a z).e.val) (fitAt c r T a z).e.ddt T := by
    have := ((hasDerivAt_id T).const_mul (c.KB * c.NA * a⁻¹)).fun_mul (hU.comp T hj.ddt)
    refine HasDerivAt.change this (fun x => fit_e c r x a z) ?_
    have hval := fit_e c r T a z
    have : (fitAt c r T a z).e.ddt = c.KB * c.NA * T * a⁻¹ * fitU' c (plasAt c r T a z).g * (plasAt c r T a z).dt +
        (fitAt c r T a z).e.val / T := by
      simp only [fitAt, coulStrong, dens, ratio0, fitU', one_div]
    rw [this, hval]
    show c.KB * c.NA * a⁻¹ * 1 * fitU c (plasAt c r T a z).g + _ * (fitU' c (plasAt c r T a z).g * (plasAt c r T a z).dt) = _
    simp only [id]; field_simp; ring
  have eA : HasDerivAt (fun x => (fitAt c r T x z).e.val) (fitAt c r T a z).e.dda a := by
    have := (((hasDerivAt_inv ha.ne').const_mul (c.KB * c.NA)).mul_const T).fun_mul (hU.comp a hj.dda)
    refine HasDerivAt.change this (fun x => fit_e c r T x z) ?_
    have hval := fit_e c r T a z
    have : (fitAt c r T a z).e.dda = c.KB * c.NA * T * a⁻¹ * fitU' c (plasAt c r T a z).g * (plasAt c r T a z).da -
        (fitAt c r T a z).e.val * a⁻¹ := by
      simp only [fitAt, coulStrong, dens, ratio0, fitU', one_div]
    rw [this, hval]
    show c.KB * c.NA * -(a ^ 2)⁻¹ * T * fitU c (plasAt c r T a z).g +
      _ * (fitU' c (plasAt c r T a z).g * (plasAt c r T a z).da) = _
    field_simp; ring
  have eZ : HasDerivAt (fun x => (fitAt c r T a x).e.val) (fitAt c r T a z).e.ddz z := by
    have := (hU.comp z hj.ddz).const_mul (c.KB * c.NA * a⁻¹ * T)
    refine HasDerivAt.change this (fun x => fit_e c r T a x) ?_
    simp only [fitAt, coulStrong, dens, ratio0, plasD, fitU', one_div]; ring
  have pv : ∀ r T a z, (fitAt c r T a z).p.val = 1 / 3 * r * (fitAt c r T a z).e.val := fun _ _ _ _ => rfl
  refine ⟨⟨eR, eT, eA, eZ⟩, ⟨?_, ?_, ?_, ?_⟩⟩
  · refine HasDerivAt.change (((hasDerivAt_id r).const_mul (1 / 3)).fun_mul eR) (fun x => pv x T a z) ?_
    show 1 / 3 * 1 * (fitAt c r T a z).e.val + 1 / 3 * r * (fitAt c r T a z).e.ddr =
      1 / 3 * (fitAt c r T a z).e.val + 1 / 3 * r * (fitAt c r T a z).e.ddr
    ring
  · exact HasDerivAt.change (eT.const_mul (1 / 3 * r)) (fun x => pv r x a z) rfl
  · exact HasDerivAt.change (eA.const_mul (1 / 3 * r)) (fun x => pv r T x z) rfl
  · exact HasDerivAt.change (eZ.const_mul (1 / 3 * r)) (fun x => pv r T a x) rfl

/-- The bracket of the entropy derivative. -/
noncomputable def fitS' (c : Consts) (g : ℝ) : ℝ :=
  3 / 4 * c.b1 * Real.sqrt (Real.sqrt g) + 5 / 4 * (c.c1 / Real.sqrt (Real.sqrt g)) + c.d1

/-- C79: the density derivative reported for the Coulomb entropy is its derivative exactly when the plasma
parameter is one (or the bracket of the fit vanishes): the code multiplies by it where it should divide. -/
theorem C79_fit_entropy_iff (c : Consts) (r T a z : ℝ) (hr : 0 < r) (hT : 0 < T) (ha : 0 < a) (hz : 0 < z)
    (hN : 0 < c.NA) (hK : 0 < c.KB) (hg : 0 < (plasAt c r T a z).g) (hb : fitS' c (plasAt c r T a z).g ≠ 0) :
    HasDerivAt (fun x => (fitAt c x T a z).s.val) (fitAt c r T a z).s.ddr r ↔ (plasAt c r T a z).g = 1 := by
  have hj := (C79_plasma_parameter c r T a z hr hT ha hz hN).ddr
  have hss : 0 < Real.sqrt (Real.sqrt (plasAt c r T a z).g) := Real.sqrt_pos.2 (Real.sqrt_pos.2 hg)
  have hq := qrt_deriv hg
  have hS : HasDerivAt (fun g => 3 * c.b1 * Real.sqrt (Real.sqrt g) - 5 * (c.c1 / Real.sqrt (Real.sqrt g)) +
      c.d1 * (Real.log g - 1) - c.e1) (fitS' c (plasAt c r T a z).g / (plasAt c r T a z).g)
      (plasAt c r T a z).g := by
    have := (((hq.const_mul (3 * c.b1)).fun_sub (((hasDerivAt_const (plasAt c r T a z).g c.c1).fun_div hq
      hss.ne').const_mul 5)).fun_add (((Real.hasDerivAt_log hg.ne').sub_const 1).const_mul c.d1)).sub_const c.e1
    refine HasDerivAt.change this (fun _ => rfl) ?_
    unfold fitS'; field_simp; ring
  have h' : HasDerivAt (fun x => (fitAt c x T a z).s.val)
      (-(c.KB * c.NA * (1 / a)) * (fitS' c (plasAt c r T a z).g / (plasAt c r T a z).g * (plasAt c r T a z).dd)) r := by
    refine HasDerivAt.change ((hS.comp r hj).const_mul (-(c.KB * c.NA * (1 / a)))) (fun x => ?_) rfl
    simp only [fitAt, coulStrong, dens, ratio0]; rfl
  have hv : (fitAt c r T a z).s.ddr = -(c.KB * c.NA * (1 / a)) * (fitS' c (plasAt c r T a z).g *
      (plasAt c r T a z).g * (plasAt c r T a z).dd) := by
    simp only [fitAt, coulStrong, ratio0, fitS']; ring
  have hdd : (plasAt c r T a z).dd ≠ 0 := by
    rw [(plas_ders c r T a z hr ha hN).1]; exact (div_pos hg (by positivity)).ne'
  have hk : -(c.KB * c.NA * (1 / a)) ≠ 0 := by
    have : 0 < c.KB * c.NA * (1 / a) := by positivity
    exact neg_ne_zero.2 this.ne'
  rw [hv]
  constructor
  · intro hd
    have := mul_left_cancel₀ hk (h'.unique hd)
    have h2 := mul_right_cancel₀ hdd this
    rw [div_eq_iff hg.ne'] at h2
    have h3 : (plasAt c r T a z).g ^ 2 = 1 := by
      have : fitS' c (plasAt c r T a z).g * ((plasAt c r T a z).g ^ 2 - 1) = 0 := by linear_combination -h2
      rcases mul_eq_zero.1 this with h | h
      · exact absurd h hb
      · linarith
    nlinarith
  · intro h1
    refine HasDerivAt.change h' (fun _ => rfl) ?_
    rw [h1]; ring

/-- C79 violated: with the constants of the code, at every density and composition there is a temperature (the one
at which the plasma parameter is 16) where the density derivative reported for the Coulomb entropy is not its
derivative; and the branch evaluated there is the one the code takes. -/
theorem C79_fit_entropy_violated (r a z : ℝ) (hr : 0 < r) (ha : 0 < a) (hz : 0 < z) :
    ∃ T, 0 < T ∧ 0 ≤ (plasAt codeConsts r T a z).g ∧
      ¬ HasDerivAt (fun x => (fitAt codeConsts x T a z).s.val) (fitAt codeConsts r T a z).s.ddr r := by
  have hpi := Real.pi_pos
  have hN : 0 < codeConsts.NA := by norm_num [codeConsts]
  have hK : 0 < codeConsts.KB := by norm_num [codeConsts]
  have he : 0 < codeConsts.esu := by norm_num [codeConsts]
  have hq : (0:ℝ) < (4 / 3 * Real.pi * (codeConsts.NA * r * a⁻¹)) ^ (1 / 3 : ℝ) := by positivity
  refine ⟨codeConsts.esu ^ 2 / codeConsts.KB * z ^ 2 *
    (4 / 3 * Real.pi * (codeConsts.NA * r * a⁻¹)) ^ (1 / 3 : ℝ) / 16, by positivity, ?_⟩
  set T := codeConsts.esu ^ 2 / codeConsts.KB * z ^ 2 *
    (4 / 3 * Real.pi * (codeConsts.NA * r * a⁻¹)) ^ (1 / 3 : ℝ) / 16 with hTdef
  have hT : 0 < T := by rw [hTdef]; positivity
  have hg : (plasAt codeConsts r T a z).g = 16 := by
    rw [plas_g]
    have : codeConsts.esu ^ 2 / codeConsts.KB * z ^ 2 *
      (4 / 3 * Real.pi * (codeConsts.NA * r * a⁻¹)) ^ (1 / 3 : ℝ) = 16 * T := by rw [hTdef]; ring
    calc _ = codeConsts.esu ^ 2 / codeConsts.KB * z ^ 2 *
        (4 / 3 * Real.pi * (codeConsts.NA * r * a⁻¹)) ^ (1 / 3 : ℝ) * T⁻¹ := by ring
      _ = 16 := by rw [this]; field_simp
  have h2 : Real.sqrt (Real.sqrt 16) = 2 := by
    rw [show (16:ℝ) = 4 ^ 2 from by norm_num, Real.sqrt_sq (by norm_num), show (4:ℝ) = 2 ^ 2 from by norm_num,
      Real.sqrt_sq (by norm_num)]
  refine ⟨by rw [hg]; norm_num, ?_⟩
  rw [C79_fit_entropy_iff codeConsts r T a z hr hT ha hz hN hK (by rw [hg]; norm_num)
    (by rw [hg, fitS', h2]; norm_num [codeConsts]), hg]
  norm_num

/-- The Coulomb correction as reported at `(rho, T, abar, zbar)`. -/
noncomputable def coulAt (c : Consts) (r T a z : ℝ) : Three :=
  let d := dens 0 c r a z
  let x := massFractions c r d.ytot
  coulomb 0 c r T d.ytot a z x.1 x.2.1 x.2.2

/-- The charge at which the plasma parameter is one. -/
noncomputable def zOne (c : Consts) (r T a : ℝ) : ℝ :=
  Real.sqrt (T * c.KB / (c.esu ^ 2 * (4 / 3 * Real.pi * (c.NA * r * a⁻¹)) ^ (1 / 3 : ℝ)))

/-- C79 violated: the heat capacity reported by the Coulomb correction is not the temperature derivative of the
energy it reports: at `T = 10^4.5`, any density below 0.1 g/cc, any mean atomic mass, and the charge that makes the
plasma parameter one, they differ. -/
theorem C79_coulomb_heat_capacity_violated (r a : ℝ) (hr : 0 < r) (hr1 : r < 1 / 10) (ha : 0 < a) :
    let T := pow10 (9 / 2)
    let z := zOne codeConsts r T a
    0 < z ∧ ∃ d, HasDerivAt (fun t => (coulAt codeConsts r t a z).e.val) d T ∧
      d ≠ (coulAt codeConsts r T a z).e.ddt := by
  intro T z
  have hpi := Real.pi_pos
  have hT : 0 < T := Real.exp_pos _
  have hN : 0 < codeConsts.NA := by norm_num [codeConsts]
  have hK : 0 < codeConsts.KB := by norm_num [codeConsts]
  have he : 0 < codeConsts.esu := by norm_num [codeConsts]
  have hq : (0:ℝ) < (4 / 3 * Real.pi * (codeConsts.NA * r * a⁻¹)) ^ (1 / 3 : ℝ) := by positivity
  have hz : 0 < z := Real.sqrt_pos.2 (by positivity)
  have hz2 : z ^ 2 = T * codeConsts.KB /
      (codeConsts.esu ^ 2 * (4 / 3 * Real.pi * (codeConsts.NA * r * a⁻¹)) ^ (1 / 3 : ℝ)) :=
    Real.sq_sqrt (by positivity)
  have hg : (plasAt codeConsts r T a z).g = 1 := by
    rw [plas_g, hz2]; field_simp
  refine ⟨hz, ?_⟩
  obtain ⟨g1, g2⟩ := C79_gain_derivative_violated r hr hr1
  have hfit := (C79_fit_energy_pressure codeConsts r T a z hr hT ha hz hN (by rw [hg]; norm_num)).1.ddt
  have hcoul : ∀ t, 0 < t → coulAt codeConsts r t a z =
      ⟨applyGain 0 (gain 0 codeConsts.LN10 r t).1 (gain 0 codeConsts.LN10 r t).2.1 (gain 0 codeConsts.LN10 r t).2.2
        (fitAt codeConsts r t a z).p,
       applyGain 0 (gain 0 codeConsts.LN10 r t).1 (gain 0 codeConsts.LN10 r t).2.1 (gain 0 codeConsts.LN10 r t).2.2
        (fitAt codeConsts r t a z).e,
       applyGain 0 (gain 0 codeConsts.LN10 r t).1 (gain 0 codeConsts.LN10 r t).2.1 (gain 0 codeConsts.LN10 r t).2.2
        (fitAt codeConsts r t a z).s⟩ := by
    intro t ht
    have h := C79_weak_branch_unreachable codeConsts r t a z hr ht ha hN hK
    unfold plasAt at h
    unfold coulAt coulomb
    simp only at h ⊢
    rw [if_pos h]
    rfl
  have hd := hfit.fun_mul g1
  refine ⟨_, HasDerivAt.changeOn (isOpen_Ioi.mem_nhds hT) hd (fun t ht => by
    rw [hcoul t ht]; rfl) rfl, ?_⟩
  rw [hcoul T hT]
  have hgain : gainAt r T ≠ 0 := by
    show (gain 0 codeConsts.LN10 r T).1 ≠ 0
    have hl : log10 T = 9 / 2 := by
      have h10 : Real.log 10 ≠ 0 := (Real.log_pos (by norm_num)).ne'
      simp only [T, log10, Real.logb, pow10, Real.log_exp]; field_simp
    have hlr : log10 r + 1 < 0 := by
      have h1 : Real.log r < Real.log (1 / 10) := Real.log_lt_log hr hr1
      have h2 : Real.log (1 / 10) = -Real.log 10 := by rw [one_div, Real.log_inv]
      have h3 : 0 < Real.log 10 := Real.log_pos (by norm_num)
      have : log10 r < -1 := by
        simp only [log10, Real.logb]; rw [div_lt_iff₀ h3]; linarith
      linarith
    have hpos : (0:ℝ) < ((log10 r + 1) / 6) ^ 24 :=
      Even.pow_pos (by decide) (div_ne_zero hlr.ne (by norm_num))
    simp only [gain, butterworth, ratio0, hl]
    norm_num
    intro h
    have : (1 + ((log10 r + 1) / 6) ^ 24)⁻¹ < 1 := inv_lt_one_of_one_lt₀ (by linarith)
    linarith
  have hU : (fitAt codeConsts r T a z).e.val ≠ 0 := by
    rw [fit_e, hg]
    have h1 : fitU codeConsts 1 ≠ 0 := by
      unfold fitU; rw [Real.sqrt_one, Real.sqrt_one]; norm_num [codeConsts]
    have ha' : a⁻¹ ≠ 0 := inv_ne_zero ha.ne'
    exact mul_ne_zero (mul_ne_zero (mul_ne_zero (mul_ne_zero hK.ne' hN.ne') ha') hT.ne') h1
  show (fitAt codeConsts r T a z).e.ddt * gainAt r T + (fitAt codeConsts r T a z).e.val * 0 ≠
    gainAt r T * (fitAt codeConsts r T a z).e.ddt +
      ratio 0 ((fitAt codeConsts r T a z).e.val * gainAt r T * (gain 0 codeConsts.LN10 r T).2.1) (gainAt r T)
  rw [ratio0]
  intro h
  have h3 : (fitAt codeConsts r T a z).e.val * gainAt r T * (gain 0 codeConsts.LN10 r T).2.1 / gainAt r T = 0 := by
    linear_combination -h
  rcases div_eq_zero_iff.1 h3 with h4 | h4
  · rcases mul_eq_zero.1 h4 with h5 | h5
    · rcases mul_eq_zero.1 h5 with h6 | h6
      · exact hU h6
      · exact hgain h6
    · exact g2 h5
  · exact hgain h4

end Verif.Helm
