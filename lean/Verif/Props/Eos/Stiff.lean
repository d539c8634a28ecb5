import Verif.Props.Eos.Ideal

set_option linter.unusedSectionVars false

/-! # C37, C38, C74: StiffGas and NobleAbel -/

namespace Verif.Gases

open Verif.Mods Verif.Robust Verif.Base Verif.Spec

variable {Λ : Type*}

theorem hasDerivAt_log_affine (c a b x : ℝ) (h : a * x + b ≠ 0) :
    HasDerivAt (fun y => c * Real.log (a * y + b)) (c * (a / (a * x + b))) x := by
  refine HasDerivAt.change (((Real.hasDerivAt_log h).comp x (hasDerivAt_affine a b x)).const_mul c)
    (fun y => rfl) ?_
  ring

theorem hasDerivAt_log_recip (c a b x : ℝ) (hx : x ≠ 0) (h : a / x + b ≠ 0) :
    HasDerivAt (fun y => c * Real.log (a / y + b)) (-c * a / (x ^ 2 * (a / x + b))) x := by
  have h1 : HasDerivAt (fun y => a / y + b) (-a / x ^ 2) x := by
    refine HasDerivAt.change (((hasDerivAt_const x a).div (hasDerivAt_id x) hx).add_const b) (fun y => rfl) ?_
    simp
  refine HasDerivAt.change (((Real.hasDerivAt_log h).comp x h1).const_mul c) (fun y => rfl) ?_
  generalize a / x + b = k at h
  field_simp

theorem hasDerivAt_recip (a b x : ℝ) (hx : x ≠ 0) : HasDerivAt (fun y => a / y + b) (-a / x ^ 2) x := by
  refine HasDerivAt.change (((hasDerivAt_const x a).div (hasDerivAt_id x) hx).add_const b) (fun y => rfl) ?_
  simp

namespace Stiff

/-- Parameters accepted by the constructor, without the degenerate zero values. -/
structure Ok (p : Stiff) : Prop where
  gm1 : 0 < p.gm1
  Cv : 0 < p.Cv
  Pinf : 0 ≤ p.Pinf
  T0 : 0 < p.T0
  P0 : 0 < p.P0

/-- Closed form of the energy at a positive density and temperature. -/
theorem energy_eq (p : Stiff) (hp : p.Ok) (n : Num ℝ) (r T : ℝ) (hr : 0 < r) (hT : 0 < T) :
    p.qs (Num.exact n) .eRT r T = p.Cv * T + p.Pinf / r + p.q := by
  obtain ⟨hg, hc, hi, h0, hP⟩ := hp
  show max p.q (ratio 0 (r * p.Cv * T + p.Pinf) r + p.q) = _
  rw [ratio_zero_small, max_eq_right]
  · congr 1; field_simp
  · have : 0 ≤ (r * p.Cv * T + p.Pinf) / r := by positivity
    linarith

/-- C37: StiffGas is thermodynamically consistent at every state of positive density and temperature. -/
theorem C37_stiff_consistent (p : Stiff) (hp : p.Ok) (n : Num ℝ) (r T : ℝ) (hr : 0 < r) (hT : 0 < T) :
    Consistent (p.qs (Num.exact n)) r T := by
  have hE := fun r T hr hT => energy_eq p hp n r T hr hT
  obtain ⟨hg, hc, hi, h0, hP0⟩ := hp
  have hCT : 0 < p.Cv * T := mul_pos hc hT
  have hTE : p.qs (Num.exact n) .tRE r (p.Cv * T + p.Pinf / r + p.q) = T := by
    show max 0 (ratio 0 (r * (p.Cv * T + p.Pinf / r + p.q - p.q) - p.Pinf) (r * p.Cv)) = T
    rw [ratio_zero_small]
    have : (r * (p.Cv * T + p.Pinf / r + p.q - p.q) - p.Pinf) / (r * p.Cv) = T := by field_simp; ring
    rw [this, max_eq_right hT.le]
  have hPT : HasDerivAt (fun t => p.qs (Num.exact n) .pRT r t) (p.gm1 * r * p.Cv) T := by
    have hpos : 0 < p.gm1 * r * p.Cv * T := by positivity
    have h := hasDerivAt_max (c := -p.Pinf) (hasDerivAt_affine (p.gm1 * r * p.Cv) (-p.Pinf) T) (by linarith)
    exact HasDerivAt.change h (fun y => by simp [qs, sub_eq_add_neg]) rfl
  have hpos : 0 < p.gm1 * r * p.Cv * T := by positivity
  have hPv : p.qs (Num.exact n) .pRT r T = p.gm1 * r * p.Cv * T - p.Pinf := max_eq_right (by linarith)
  have hPEpos : -p.Pinf < p.gm1 * r * (p.Cv * T + p.Pinf / r + p.q - p.q) - (p.gm1 + 1) * p.Pinf := by
    have : p.gm1 * r * (p.Cv * T + p.Pinf / r + p.q - p.q) = p.gm1 * r * p.Cv * T + p.gm1 * p.Pinf := by
      field_simp; ring
    rw [this]; linarith
  refine ⟨?_, ?_, ?_, ?_, ?_, ?_, ?_, ?_⟩
  · rw [RoundTripT, hE r T hr hT, hTE]
  · refine ⟨?_, ?_, rfl, ?_, rfl⟩
    · rw [Twin, hE r T hr hT]; simp only [qs]; congr 1; field_simp; ring
    · rw [Twin, hE r T hr hT]
      have hP : 0 < p.P0 + p.Pinf := by linarith
      simp only [qs, sie0, vol0, rho0, ratio_zero_small]
      have e1 : (p.Cv * T + p.Pinf / r + p.q - p.q - p.Pinf * (1 / r)) /
          ((p.P0 + (p.gm1 + 1) * p.Pinf) / (p.P0 + p.Pinf) * p.Cv * p.T0 + p.q - p.q -
            p.Pinf * (p.gm1 * p.Cv * p.T0 / (p.P0 + p.Pinf))) = T / p.T0 := by
        have : (p.P0 + (p.gm1 + 1) * p.Pinf) / (p.P0 + p.Pinf) * p.Cv * p.T0 + p.q - p.q -
            p.Pinf * (p.gm1 * p.Cv * p.T0 / (p.P0 + p.Pinf)) = p.Cv * p.T0 := by
          field_simp; ring
        rw [this]
        field_simp
        ring
      have e2 : 1 / r / (p.gm1 * p.Cv * p.T0 / (p.P0 + p.Pinf)) = (p.P0 + p.Pinf) / (p.gm1 * p.Cv * p.T0) / r := by
        field_simp
      rw [e1, e2]
      ring
    · rw [Twin, hE r T hr hT]; simp only [qs]; congr 1; field_simp; ring
  · have h : HasDerivAt (fun t => p.Cv * t + (p.Pinf / r + p.q)) p.Cv T := hasDerivAt_affine _ _ _
    refine HasDerivAt.changeOn (Ioi_mem_nhds hT) h ?_ rfl
    intro y hy
    rw [hE r y hr hy]; ring
  · refine ⟨_, hPT, ?_⟩
    rw [hPv]
    refine HasDerivAt.changeOn (Ioi_mem_nhds hr) (hasDerivAt_recip p.Pinf (p.Cv * T + p.q) r hr.ne') ?_ ?_
    · intro y hy
      rw [hE y T hy hT]; ring
    · congr 1; ring
  · have h := (hasDerivAt_log_affine p.Cv (1 / p.T0) 0 T (by positivity)).add_const
      (p.gm1 * p.Cv * Real.log (p.rho0 (Num.exact n) / r) + p.qp)
    refine HasDerivAt.change h (fun y => ?_) ?_
    · simp only [qs, ratio_zero_small, add_zero]
      rw [show y / p.T0 = 1 / p.T0 * y by ring]
      ring
    · simp only [qs]
      field_simp
      ring
  · refine ⟨_, hPT, ?_⟩
    have hr0 : 0 < p.rho0 (Num.exact n) := by
      simp only [rho0, ratio_zero_small]; positivity
    have h := (hasDerivAt_log_recip (p.gm1 * p.Cv) (p.rho0 (Num.exact n)) 0 r hr.ne' (by positivity)).const_add
      (p.Cv * Real.log (T / p.T0) + p.qp)
    refine HasDerivAt.change h (fun y => ?_) ?_
    · simp only [qs, ratio_zero_small, add_zero]
      ring
    · simp only [add_zero]
      field_simp
  · rw [hE r T hr hT]
    have h := hasDerivAt_max (c := -p.Pinf) (hasDerivAt_affine (p.gm1 * r)
      (-(p.gm1 * r * p.q) - (p.gm1 + 1) * p.Pinf) (p.Cv * T + p.Pinf / r + p.q)) (by linarith [hPEpos])
    refine HasDerivAt.change h (fun y => by simp only [qs]; congr 1; ring) ?_
    simp only [qs]; ring
  · rw [hE r T hr hT]
    set e := p.Cv * T + p.Pinf / r + p.q with he
    refine ⟨p.gm1 * (e - p.q), p.gm1 * r, ?_, ?_, ?_⟩
    · have h := hasDerivAt_max (c := -p.Pinf) (hasDerivAt_affine (p.gm1 * (e - p.q))
        (-((p.gm1 + 1) * p.Pinf)) r) (by linarith [hPEpos])
      exact HasDerivAt.change h (fun y => by simp only [qs]; congr 1; ring) rfl
    · have h := hasDerivAt_max (c := -p.Pinf) (hasDerivAt_affine (p.gm1 * r)
        (-(p.gm1 * r * p.q) - (p.gm1 + 1) * p.Pinf) e) (by linarith [hPEpos])
      exact HasDerivAt.change h (fun y => by simp only [qs]; congr 1; ring) rfl
    · have h2 : p.qs (Num.exact n) .pRE r e = p.gm1 * r * (e - p.q) - (p.gm1 + 1) * p.Pinf :=
        max_eq_right hPEpos.le
      have h3 : r * (e - p.q) - p.Pinf = r * (p.Cv * T) := by rw [he]; field_simp; ring
      have h1 : p.qs (Num.exact n) .bRE r e = p.gm1 * (p.gm1 + 1) * (r * (e - p.q) - p.Pinf) := by
        refine max_eq_right ?_
        rw [h3]; positivity
      rw [h1, h2]
      field_simp
      ring

/-- C37: at every input, also unphysical ones, the temperature is at least `SMALL`, the pressure at least
`-Pinf`, the energy at least `q` and the bulk modulus at least `SMALL`. -/
theorem C37_stiff_floors (p : Stiff) (n : Num ℝ) (r x : ℝ) :
    n.σ ≤ p.qs n .tRE r x ∧ p.q ≤ p.qs n .eRT r x ∧ -p.Pinf ≤ p.qs n .pRT r x ∧ -p.Pinf ≤ p.qs n .pRE r x ∧
    n.σ ≤ p.qs n .bRT r x ∧ n.σ ≤ p.qs n .bRE r x :=
  ⟨le_max_left _ _, le_max_left _ _, le_max_left _ _, le_max_left _ _, le_max_left _ _, le_max_left _ _⟩

/-- C37: density and energy from pressure and temperature invert the queries exactly, for every pressure
above `-Pinf` with `P + (gm1+1) Pinf` nonnegative and every positive temperature. -/
theorem C37_stiff_inversion (p : Stiff) (hp : p.Ok) (n : Num ℝ) (l0 l : Λ) (P T : ℝ) (hP : 0 < P + p.Pinf)
    (hT : 0 < T) (g : ℝ × ℝ) : PTInverts (p.eos (Num.exact n) l0) l P T g := by
  have hE := fun r T hr hT => energy_eq p hp n r T hr hT
  obtain ⟨hg, hc, hi, h0, hP0⟩ := hp
  have hrho : (p.rePT (Num.exact n) P T).1 = (P + p.Pinf) / (p.gm1 * p.Cv * T) := by
    show max 0 (ratio 0 (P + p.Pinf) (p.gm1 * p.Cv * T)) = _
    rw [ratio_zero_small, max_eq_right (by positivity)]
  have hrpos : 0 < (P + p.Pinf) / (p.gm1 * p.Cv * T) := by positivity
  refine ⟨?_, ?_⟩
  · show p.qs (Num.exact n) .pRT (p.rePT (Num.exact n) P T).1 T = P
    rw [hrho]
    simp only [qs]
    have : p.gm1 * ((P + p.Pinf) / (p.gm1 * p.Cv * T)) * p.Cv * T - p.Pinf = P := by field_simp; ring
    rw [this, max_eq_right (by linarith)]
  · show p.qs (Num.exact n) .eRT (p.rePT (Num.exact n) P T).1 T = (p.rePT (Num.exact n) P T).2
    rw [hrho, hE _ T hrpos hT]
    show _ = max p.q (ratio 0 (P + (p.gm1 + 1) * p.Pinf) (P + p.Pinf) * p.Cv * T + p.q)
    have h1 : 0 ≤ P + (p.gm1 + 1) * p.Pinf := by nlinarith
    rw [ratio_zero_small, max_eq_right (by
      have : 0 ≤ (P + (p.gm1 + 1) * p.Pinf) / (P + p.Pinf) * p.Cv * T := by positivity
      linarith)]
    have hne : P + p.Pinf ≠ 0 := hP.ne'
    field_simp
    ring

/-- C37, C51 for StiffGas: `FillEos` keeps its inputs, returns the direct queries and a state with the
pressure and temperature passed in, for every accepted way of naming inputs. -/
theorem C37_stiff_fill (p : Stiff) (hp : p.Ok) (n : Num ℝ) (fl : Flags) (s : Thermo ℝ) (hr : 0 < s.rho)
    (hT : 0 < s.temp) (hP : 0 < s.press + p.Pinf)
    (hfl : (fl.rho, fl.temp, fl.sie, fl.press) ∈ [(false, true, false, true), (false, false, true, true),
      (false, true, true, false), (true, false, true, false)]) :
    ∃ o, p.fill (Num.exact n) fl s = some o ∧ InputsKept fl s o ∧ OutputsMatch (p.qs (Num.exact n)) fl o ∧
      StateMatch (p.qs (Num.exact n)) fl s o := by
  obtain ⟨hpt1, hpt2⟩ := C37_stiff_inversion p hp n () () s.press s.temp hP hT (s.rho, s.sie)
  have hcons := fun r hr => C37_stiff_consistent p hp n r s.temp hr hT
  obtain ⟨hg, hc, hi, h0, hP0⟩ := hp
  set o := p.rePT (Num.exact n) s.press s.temp with ho
  have hrho : o.1 = (s.press + p.Pinf) / (p.gm1 * p.Cv * s.temp) := by
    show max 0 (ratio 0 (s.press + p.Pinf) (p.gm1 * p.Cv * s.temp)) = _
    rw [ratio_zero_small, max_eq_right (by positivity)]
  have hrpos : 0 < o.1 := by rw [hrho]; positivity
  have hpt1' : p.qs (Num.exact n) .pRT o.1 s.temp = s.press := hpt1
  have hpt2' : p.qs (Num.exact n) .eRT o.1 s.temp = o.2 := hpt2
  obtain ⟨o', ho', hst⟩ := C51_gas_state (p.qs (Num.exact n)) (fun P T _ => p.rePT (Num.exact n) P T)
    (p.eFromRP (Num.exact n)) fl s (hcons s.rho hr).roundTrip (by
      show max (-p.Pinf) (p.gm1 * s.rho * (ratio 0 (s.press + (p.gm1 + 1) * p.Pinf) (p.gm1 * s.rho) + p.q - p.q)
        - (p.gm1 + 1) * p.Pinf) = s.press
      rw [ratio_zero_small]
      have : p.gm1 * s.rho * ((s.press + (p.gm1 + 1) * p.Pinf) / (p.gm1 * s.rho) + p.q - p.q)
        - (p.gm1 + 1) * p.Pinf = s.press := by field_simp; ring
      rw [this, max_eq_right (by linarith)])
    ⟨by
      show p.qs (Num.exact n) .pRE o.1 o.2 = s.press
      rw [← hpt2', ← hpt1']; exact ((hcons o.1 hrpos).twins.1).symm,
     by
      show p.qs (Num.exact n) .tRE o.1 o.2 = s.temp
      rw [← hpt2']; exact (hcons o.1 hrpos).roundTrip⟩ hfl
  exact ⟨o', ho', (C51_gas_inputs_kept _ _ _ fl s o' ho').1, (C51_gas_inputs_kept _ _ _ fl s o' ho').2, hst⟩

/-- C74: the StiffGas reference state is a state of the EOS. -/
theorem C74_stiff_reference (p : Stiff) (hp : p.Ok) (n : Num ℝ) (l0 l : Λ) :
    RefDirect (p.eos (Num.exact n) l0) l := by
  have hE := fun r T hr hT => energy_eq p hp n r T hr hT
  obtain ⟨hg, hc, hi, h0, hP0⟩ := hp
  have hP : 0 < p.P0 + p.Pinf := by linarith
  have hr0 : p.rho0 (Num.exact n) = (p.P0 + p.Pinf) / (p.gm1 * p.Cv * p.T0) := by
    simp only [rho0, ratio_zero_small]
  have hr0pos : 0 < p.rho0 (Num.exact n) := by rw [hr0]; positivity
  refine ⟨?_, ?_, rfl, ?_, rfl⟩
  · show max (-p.Pinf) (p.gm1 * p.rho0 (Num.exact n) * p.Cv * p.T0 - p.Pinf) = p.P0
    rw [hr0]
    have : p.gm1 * ((p.P0 + p.Pinf) / (p.gm1 * p.Cv * p.T0)) * p.Cv * p.T0 - p.Pinf = p.P0 := by
      field_simp; ring
    rw [this, max_eq_right (by linarith)]
  · show p.qs (Num.exact n) .eRT (p.rho0 (Num.exact n)) p.T0 = p.sie0 (Num.exact n)
    rw [hE _ _ hr0pos h0, hr0]
    simp only [sie0, ratio_zero_small]
    have := hP.ne'
    field_simp
    ring
  · show max 0 (p.gm1 * (p.gm1 + 1) * p.rho0 (Num.exact n) * p.Cv * p.T0)
      = p.gm1 * (p.gm1 + 1) * ratio 0 (p.P0 + p.Pinf) (p.gm1 * p.Cv * p.T0) * p.Cv * p.T0
    rw [hr0, ratio_zero_small, max_eq_right (by positivity)]

/-- Non-vacuity: water. -/
example : Consistent ((⟨1.35, 18160000, 10 ^ 10, -11671000000, 0, 293, 10 ^ 6, 18, 10⟩ : Stiff).qs
    ⟨0, 0, 0, (0, 0)⟩) 1 300 :=
  C37_stiff_consistent _ ⟨by norm_num, by norm_num, by norm_num, by norm_num, by norm_num⟩ ⟨0, 0, 0, (0, 0)⟩ _ _
    (by norm_num) (by norm_num)

end Stiff

namespace Noble

/-- Parameters accepted by the constructor, without the degenerate zero values. -/
structure Ok (p : Noble) : Prop where
  gm1 : 0 < p.gm1
  Cv : 0 < p.Cv
  b : 0 ≤ p.b
  T0 : 0 < p.T0
  P0 : 0 < p.P0

theorem covol {b r : ℝ} (hr : 0 < r) (hb : b * r < 1) : 1 / r - b = (1 - b * r) / r := by field_simp

/-- C38: NobleAbel is thermodynamically consistent at every positive density below the inverse covolume and
every positive temperature. -/
theorem C38_noble_consistent (p : Noble) (hp : p.Ok) (n : Num ℝ) (r T : ℝ) (hr : 0 < r) (hb : p.b * r < 1)
    (hT : 0 < T) : Consistent (p.qs (Num.exact n)) r T := by
  obtain ⟨hg, hc, hbb, h0, hP0⟩ := hp
  have hCT : 0 < p.Cv * T := mul_pos hc hT
  have hD : 0 < 1 - p.b * r := by linarith
  have hE : ∀ r T, 0 < T → p.qs (Num.exact n) .eRT r T = p.Cv * T + p.q := fun r T hT =>
    max_eq_right (by have := mul_pos hc hT; linarith)
  have hTE : p.qs (Num.exact n) .tRE r (p.Cv * T + p.q) = T := by
    show max 0 ((p.Cv * T + p.q - p.q) / p.Cv) = T
    rw [add_sub_cancel_right, mul_div_cancel_left₀ _ hc.ne', max_eq_right hT.le]
  have hPpos : 0 < p.gm1 * r * p.Cv * T / (1 - p.b * r) := by positivity
  have hPT : HasDerivAt (fun t => p.qs (Num.exact n) .pRT r t) (p.gm1 * r * p.Cv / (1 - p.b * r)) T := by
    have h := hasDerivAt_max (c := 0) (hasDerivAt_affine (p.gm1 * r * p.Cv / (1 - p.b * r)) 0 T) (by positivity)
    refine HasDerivAt.change h (fun y => ?_) rfl
    show max 0 (ratio 0 _ _) = _
    rw [ratio_zero_small]; congr 1; ring
  have hPv : p.qs (Num.exact n) .pRT r T = p.gm1 * r * p.Cv * T / (1 - p.b * r) := by
    show max 0 (ratio 0 _ _) = _
    rw [ratio_zero_small, max_eq_right hPpos.le]
  have hv0 : p.vol0 (Num.exact n) - p.b = p.gm1 * p.Cv * p.T0 / p.P0 := by
    simp only [vol0, ratio_zero_small]; field_simp; ring
  refine ⟨?_, ?_, ?_, ?_, ?_, ?_, ?_, ?_⟩
  · rw [RoundTripT, hE r T hT, hTE]
  · refine ⟨?_, ?_, rfl, ?_, rfl⟩
    · rw [Twin, hE r T hT]; simp only [qs, ratio_zero_small]; congr 2; ring
    · rw [Twin, hE r T hT]
      simp only [qs, sie0, ratio_zero_small]
      have : (p.Cv * T + p.q - p.q) / (p.Cv * p.T0 + p.q - p.q) = T / p.T0 := by
        rw [add_sub_cancel_right, add_sub_cancel_right]; field_simp
      rw [this]
    · rw [Twin, hE r T hT]; simp only [qs, ratio_zero_small]; congr 2; ring
  · refine HasDerivAt.changeOn (Ioi_mem_nhds hT) (hasDerivAt_affine p.Cv p.q T) ?_ rfl
    intro y hy
    rw [hE r y hy]
  · refine ⟨_, hPT, ?_⟩
    rw [hPv]
    refine HasDerivAt.change (hasDerivAt_const r (p.Cv * T + p.q)) (fun y => hE y T hT) ?_
    field_simp
    ring
  · have h := (hasDerivAt_log_affine p.Cv (1 / p.T0) 0 T (by positivity)).add_const
      (p.gm1 * p.Cv * Real.log ((1 / r - p.b) / (p.vol0 (Num.exact n) - p.b)) + p.qp)
    refine HasDerivAt.change h (fun y => ?_) ?_
    · simp only [qs, ratio_zero_small, add_zero]
      rw [show y / p.T0 = 1 / p.T0 * y by ring]
      ring
    · simp only [qs]
      field_simp
      ring
  · refine ⟨_, hPT, ?_⟩
    set w := p.vol0 (Num.exact n) - p.b with hw
    have hwpos : 0 < w := by rw [hv0]; positivity
    have hne : 1 / w / r + -p.b / w = (1 - p.b * r) / (w * r) := by field_simp; ring
    have h := (hasDerivAt_log_recip (p.gm1 * p.Cv) (1 / w) (-p.b / w) r hr.ne' (by
      rw [hne]; positivity)).const_add (p.Cv * Real.log (T / p.T0) + p.qp)
    refine HasDerivAt.change h (fun y => ?_) ?_
    · simp only [qs, ratio_zero_small, add_zero, ← hw]
      rw [show (1 / y - p.b) / w = 1 / w / y + -p.b / w by ring]
      ring
    · rw [hne]
      have := hD.ne'
      field_simp
  · rw [hE r T hT]
    have h := hasDerivAt_max (c := 0) (hasDerivAt_affine (p.gm1 * r / (1 - p.b * r))
      (-(p.gm1 * r * p.q / (1 - p.b * r))) (p.Cv * T + p.q)) (by
        have : p.gm1 * r / (1 - p.b * r) * (p.Cv * T + p.q) + -(p.gm1 * r * p.q / (1 - p.b * r))
          = p.gm1 * r * p.Cv * T / (1 - p.b * r) := by ring
        rw [this]; exact hPpos)
    refine HasDerivAt.change h (fun y => by simp only [qs, ratio_zero_small]; congr 1; ring) ?_
    simp only [qs, ratio_zero_small]; ring
  · rw [hE r T hT]
    set e := p.Cv * T + p.q with he
    have heq : e - p.q = p.Cv * T := by rw [he]; ring
    have hPE : 0 < p.gm1 * r * (e - p.q) / (1 - p.b * r) := by rw [heq]; positivity
    refine ⟨p.gm1 * (e - p.q) / (1 - p.b * r) ^ 2, p.gm1 * r / (1 - p.b * r), ?_, ?_, ?_⟩
    · have h1 : HasDerivAt (fun x => p.gm1 * x * (e - p.q) / (1 - p.b * x))
          (p.gm1 * (e - p.q) / (1 - p.b * r) ^ 2) r := by
        have hn := hasDerivAt_affine (p.gm1 * (e - p.q)) 0 r
        have hd := hasDerivAt_affine (-p.b) 1 r
        refine HasDerivAt.change (hn.div hd (by linarith)) (fun y => ?_) ?_
        · simp only [Pi.div_apply]; congr 1 <;> ring
        · have : -p.b * r + 1 = 1 - p.b * r := by ring
          rw [this]
          generalize 1 - p.b * r = D at hD this
          have hD' := hD.ne'
          have hDe : D = 1 - p.b * r := by linarith
          field_simp
          rw [hDe]; ring
      have h := hasDerivAt_max (c := 0) h1 hPE
      exact HasDerivAt.change h (fun y => by simp only [qs, ratio_zero_small]) rfl
    · have h := hasDerivAt_max (c := 0) (hasDerivAt_affine (p.gm1 * r / (1 - p.b * r))
        (-(p.gm1 * r * p.q / (1 - p.b * r))) e) (by
          have : p.gm1 * r / (1 - p.b * r) * e + -(p.gm1 * r * p.q / (1 - p.b * r))
            = p.gm1 * r * (e - p.q) / (1 - p.b * r) := by ring
          rw [this]; exact hPE)
      exact HasDerivAt.change h (fun y => by simp only [qs, ratio_zero_small]; congr 1; ring) rfl
    · have h2 : p.qs (Num.exact n) .pRE r e = p.gm1 * r * (e - p.q) / (1 - p.b * r) := by
        show max 0 (ratio 0 _ _) = _
        rw [ratio_zero_small, max_eq_right hPE.le]
      have h1 : p.qs (Num.exact n) .bRE r e
          = p.gm1 * (p.gm1 + 1) * r * (e - p.q) / ((1 - p.b * r) * (1 - p.b * r)) := by
        show max 0 (ratio 0 _ _) = _
        rw [ratio_zero_small, max_eq_right (by rw [heq]; positivity)]
      rw [h1, h2]
      have := hD.ne'
      field_simp
      ring

/-- C38: at every input the temperature, pressure and bulk modulus are at least `SMALL` and the energy at
least `q`, which is what `MinInternalEnergyFromDensity` reports. -/
theorem C38_noble_floors (p : Noble) (n : Num ℝ) (l0 l : Λ) (r x : ℝ) :
    n.σ ≤ p.qs n .tRE r x ∧ (p.eos n l0).minE l r ≤ p.qs n .eRT r x ∧ n.σ ≤ p.qs n .pRT r x ∧
    n.σ ≤ p.qs n .pRE r x ∧ n.σ ≤ p.qs n .bRT r x ∧ n.σ ≤ p.qs n .bRE r x :=
  ⟨le_max_left _ _, le_max_left _ _, le_max_left _ _, le_max_left _ _, le_max_left _ _, le_max_left _ _⟩

/-- C38: density and energy from pressure and temperature invert the queries exactly and give a density
below the inverse covolume. -/
theorem C38_noble_inversion (p : Noble) (hp : p.Ok) (n : Num ℝ) (l0 l : Λ) (P T : ℝ) (hP : 0 < P)
    (hT : 0 < T) (g : ℝ × ℝ) : PTInverts (p.eos (Num.exact n) l0) l P T g ∧
      0 < ((p.eos (Num.exact n) l0).rePT l P T g).1 ∧ p.b * ((p.eos (Num.exact n) l0).rePT l P T g).1 < 1 := by
  obtain ⟨hg, hc, hbb, h0, hP0⟩ := hp
  have hden : 0 < p.gm1 * p.Cv * T + p.b * P := by positivity
  have hrho : (p.rePT (Num.exact n) P T).1 = P / (p.gm1 * p.Cv * T + p.b * P) := by
    show max 0 (ratio 0 P (p.gm1 * p.Cv * T + p.b * P)) = _
    rw [ratio_zero_small, max_eq_right (by positivity)]
  have h1b : 1 - p.b * (P / (p.gm1 * p.Cv * T + p.b * P)) = p.gm1 * p.Cv * T / (p.gm1 * p.Cv * T + p.b * P) := by
    field_simp; ring
  refine ⟨⟨?_, rfl⟩, ?_, ?_⟩
  · show max 0 (ratio 0 (p.gm1 * (p.rePT (Num.exact n) P T).1 * p.Cv * T) (1 - p.b * (p.rePT (Num.exact n) P T).1)) = P
    rw [hrho, h1b, ratio_zero_small]
    have : p.gm1 * (P / (p.gm1 * p.Cv * T + p.b * P)) * p.Cv * T
        / (p.gm1 * p.Cv * T / (p.gm1 * p.Cv * T + p.b * P)) = P := by
      have := hden.ne'
      field_simp
    rw [this, max_eq_right hP.le]
  · show 0 < (p.rePT (Num.exact n) P T).1
    rw [hrho]; positivity
  · show p.b * (p.rePT (Num.exact n) P T).1 < 1
    rw [hrho]
    have : 0 < p.gm1 * p.Cv * T / (p.gm1 * p.Cv * T + p.b * P) := by positivity
    linarith

/-- C38: `FillEos` of NobleAbel when energy is an output of (density, temperature) or (pressure,
temperature), or an input. -/
theorem C38_noble_fill_partial (p : Noble) (hp : p.Ok) (n : Num ℝ) (fl : Flags) (s o : Thermo ℝ)
    (ho : p.fill (Num.exact n) fl s = some o) :
    InputsKept fl s o ∧ OutputsMatch (p.qs (Num.exact n)) fl o ∧
    (fl.temp = false → fl.sie = true → fl.press = true → 0 < s.temp →
      p.qs (Num.exact n) .tRE o.rho o.sie = s.temp) ∧
    (fl.rho = true → fl.sie = true → 0 < s.press → 0 < s.temp →
      p.qs (Num.exact n) .pRE o.rho o.sie = s.press ∧ p.qs (Num.exact n) .tRE o.rho o.sie = s.temp) := by
  have hinv := fun hP hT => C38_noble_inversion p hp n () () s.press s.temp hP hT (s.rho, s.sie)
  have hc := hp.Cv
  have hTE : ∀ r, 0 < s.temp → p.qs (Num.exact n) .tRE r (max p.q (p.Cv * s.temp + p.q)) = s.temp := by
    intro r hT
    have := mul_pos hc hT
    show max 0 ((max p.q (p.Cv * s.temp + p.q) - p.q) / p.Cv) = s.temp
    rw [max_eq_right (show p.q ≤ p.Cv * s.temp + p.q by linarith), add_sub_cancel_right, mul_div_cancel_left₀ _ hc.ne', max_eq_right hT.le]
  refine ⟨(C51_gas_inputs_kept _ _ _ fl s o ho).1, (C51_gas_inputs_kept _ _ _ fl s o ho).2, ?_, ?_⟩
  · obtain ⟨a, b, c, d, e, f⟩ := fl
    rintro rfl rfl rfl hT
    simp only [fill, fillGas] at ho
    cases a <;> simp at ho
    subst ho
    simp only [fillRE, Bool.false_eq_true, if_true, if_false]
    split_ifs <;> exact hTE _ hT
  · obtain ⟨a, b, c, d, e, f⟩ := fl
    rintro rfl rfl hP hT
    obtain ⟨⟨hpt, -⟩, hr, hbr⟩ := hinv hP hT
    change 0 < (p.rePT (Num.exact n) s.press s.temp).1 at hr
    change p.b * (p.rePT (Num.exact n) s.press s.temp).1 < 1 at hbr
    change p.qs (Num.exact n) .pRT (p.rePT (Num.exact n) s.press s.temp).1 s.temp = s.press at hpt
    have htw := (C38_noble_consistent p hp n _ s.temp hr hbr hT).twins.1
    rw [Twin, hpt] at htw
    simp only [fill, fillGas] at ho
    cases b <;> cases d <;> simp at ho
    subst ho
    simp only [fillRE, Bool.false_eq_true, if_false]
    split_ifs <;> exact ⟨htw.symm, hTE _ hT⟩

/-- C38 is violated: `FillEos` with density and pressure as inputs computes an energy whose pressure is
`rho * P`, not `P`, for every nonnegative state below the inverse covolume. -/
theorem C38_noble_fill_pressure_violated (p : Noble) (hp : p.Ok) (n : Num ℝ) (r P : ℝ) (hr : 0 < r)
    (hb : p.b * r < 1) (hP : 0 ≤ P) :
    p.qs (Num.exact n) .pRE r (p.eFromRP r P) = r * P ∧
    ∀ s : Thermo ℝ, s.rho = r → s.press = P → ∃ o, p.fill (Num.exact n) ⟨false, true, true, false, false, false⟩ s
      = some o ∧ o.sie = p.eFromRP r P := by
  obtain ⟨hg, hc, hbb, h0, hP0⟩ := hp
  have hD : 0 < 1 - p.b * r := by linarith
  refine ⟨?_, ?_⟩
  · show max 0 (ratio 0 (p.gm1 * r * (P * (1 - p.b * r) / p.gm1 + p.q - p.q)) (1 - p.b * r)) = r * P
    rw [ratio_zero_small]
    have : p.gm1 * r * (P * (1 - p.b * r) / p.gm1 + p.q - p.q) / (1 - p.b * r) = r * P := by
      generalize 1 - p.b * r = D at hD
      field_simp
      ring
    rw [this, max_eq_right (by positivity)]
  · rintro s rfl rfl
    refine ⟨_, by simp only [fill, fillGas]; simp; rfl, ?_⟩
    simp [fillRE]

/-- C74: the NobleAbel reference state is a state of the EOS. -/
theorem C74_noble_reference (p : Noble) (hp : p.Ok) (n : Num ℝ) (l0 l : Λ) :
    RefDirect (p.eos (Num.exact n) l0) l := by
  obtain ⟨hg, hc, hbb, h0, hP0⟩ := hp
  have hden : 0 < p.gm1 * p.Cv * p.T0 + p.b * p.P0 := by positivity
  have hr0 : p.rho0 (Num.exact n) = p.P0 / (p.gm1 * p.Cv * p.T0 + p.b * p.P0) := by
    simp only [rho0, ratio_zero_small]
  have h1b : 1 - p.b * p.rho0 (Num.exact n) = p.gm1 * p.Cv * p.T0 / (p.gm1 * p.Cv * p.T0 + p.b * p.P0) := by
    rw [hr0]; field_simp; ring
  have hr0pos : 0 < p.rho0 (Num.exact n) := by rw [hr0]; positivity
  have h1bpos : 0 < 1 - p.b * p.rho0 (Num.exact n) := by rw [h1b]; positivity
  refine ⟨?_, ?_, rfl, ?_, ?_⟩
  · show max 0 (ratio 0 (p.gm1 * p.rho0 (Num.exact n) * p.Cv * p.T0) (1 - p.b * p.rho0 (Num.exact n))) = p.P0
    rw [h1b, hr0, ratio_zero_small]
    have : p.gm1 * (p.P0 / (p.gm1 * p.Cv * p.T0 + p.b * p.P0)) * p.Cv * p.T0
        / (p.gm1 * p.Cv * p.T0 / (p.gm1 * p.Cv * p.T0 + p.b * p.P0)) = p.P0 := by
      have := hden.ne'
      field_simp
    rw [this, max_eq_right hP0.le]
  · show max p.q (p.Cv * p.T0 + p.q) = p.Cv * p.T0 + p.q
    exact max_eq_right (by have := mul_pos hc h0; linarith)
  · show max 0 (ratio 0 (p.gm1 * (p.gm1 + 1) * p.rho0 (Num.exact n) * p.Cv * p.T0)
      ((1 - p.b * p.rho0 (Num.exact n)) * (1 - p.b * p.rho0 (Num.exact n)))) = ratio 0 _ _
    rw [ratio_zero_small, ratio_zero_small, max_eq_right (by positivity)]
    congr 1; ring
  · show p.rho0 (Num.exact n) * ratio 0 p.gm1 (1 - p.b * p.rho0 (Num.exact n)) = ratio 0 _ _
    rw [ratio_zero_small, ratio_zero_small]
    ring

/-- Non-vacuity: a propellant gas. -/
example : Consistent ((⟨0.25, 15000000, 1, 0, 0, 293, 10 ^ 6, 25, 12⟩ : Noble).qs ⟨0, 0, 0, (0, 0)⟩) 0.1 3000 :=
  C38_noble_consistent _ ⟨by norm_num, by norm_num, by norm_num, by norm_num, by norm_num⟩ ⟨0, 0, 0, (0, 0)⟩ _ _
    (by norm_num) (by norm_num) (by norm_num)

end Noble

/-- C74 is violated by StiffGas and NobleAbel: the reference `dv/dT` is never written, the caller gets back
whatever was in the variable. -/
theorem C74_dvdt_unset_violated (ps : Stiff) (pn : Noble) (n : Num ℝ) (l0 l : Λ) :
    ((ps.eos n l0).ref l).dvdt = n.u.1 ∧ ((pn.eos n l0).ref l).dvdt = n.u.1 := ⟨rfl, rfl⟩

end Verif.Gases
