import Verif.Props.Modifiers
import Mathlib.Topology.Order.Lattice

set_option linter.unusedSectionVars false

/-! # C30, C70: the bilinear ramp -/

namespace Verif.Mods

open Verif.Robust Verif.Spec

section general
variable {K Λ : Type*} [Field K] [LinearOrder K] [IsStrictOrderedRing K]

theorem ratio_zero_small (a b : K) : ratio 0 a b = a / b := by simp [ratio]

theorem ratio_of_nonneg (σ a : K) {b : K} (hb : 0 ≤ b) : ratio σ a b = a / (b + σ) := by
  simp [ratio, sgn, hb, not_lt.2 hb]

theorem ratio_lin (σ x b : K) : ratio σ x b = x * ratio σ 1 b := by
  simp [ratio, div_eq_mul_inv]

/-- C30: the pressure is the larger of the ramp and the wrapped pressure, whichever way the state is
given; all queries but pressure and bulk modulus are those of the wrapped EOS. -/
theorem C30_ramp_is_max (σ : K) (p : Ramp K) (f : Λ → K → K → K → K)
    (g : Λ → K → K → K → K → PTDer K) (t : Eos K Λ) (l : Λ) (r y : K) :
    (ramped σ p f g t).q .pRE l r y = max (p.pressure σ r) (t.q .pRE l r y) ∧
    (ramped σ p f g t).q .pRT l r y = max (p.pressure σ r) (t.q .pRT l r y) ∧
    (∀ k, k ≠ .pRE → k ≠ .pRT → k ≠ .bRE → k ≠ .bRT →
      (ramped σ p f g t).q k l r y = t.q k l r y) := by
  refine ⟨?_, ?_, ?_⟩
  · simp only [ramped]
    split_ifs with h
    · rw [max_eq_left h.le]
    · rw [max_eq_right (not_lt.1 h)]
  · simp only [ramped]
    split_ifs with h
    · rw [max_eq_left h.le]
    · rw [max_eq_right (not_lt.1 h)]
  · intro k h1 h2 h3 h4
    cases k <;> first | rfl | exact absurd rfl h1 | exact absurd rfl h2 | exact absurd rfl h3 |
      exact absurd rfl h4

/-- The two lines of the ramp meet at the mid point, at pressure `Pmid`. -/
theorem ramp_mid {r0 a b c : K} (h0 : r0 ≠ 0) (hab : a ≠ b) :
    let p := Ramp.mk' r0 a b c
    p.a * (p.rmid / p.r0 - 1) = p.b * (p.rmid / p.r0 - p.c) ∧ p.pmid = p.a * (p.rmid / p.r0 - 1) := by
  have : a - b ≠ 0 := sub_ne_zero.2 hab
  refine ⟨?_, rfl⟩
  simp only [Ramp.mk']
  field_simp
  ring

/-- Closed form of the (unregularised) ramp for a mid point at or above `r0`. -/
theorem ramp_closed {r0 a b c : K} (hok : (Ramp.mk' r0 a b c).Ok)
    (hmid : r0 ≤ (Ramp.mk' r0 a b c).rmid) (rho : K) :
    let p := Ramp.mk' r0 a b c
    p.pressure 0 rho
      = a * (max r0 (min rho p.rmid) / r0 - 1) + b * ((max rho p.rmid - p.rmid) / r0) := by
  intro p
  obtain ⟨h0, ha, hb, hab⟩ := hok
  have h0' : 0 < r0 := h0
  obtain ⟨m1, -⟩ := ramp_mid (c := c) h0'.ne' hab
  have m1' : a * (p.rmid / r0 - 1) = b * (p.rmid / r0 - c) := m1
  have hmid' : r0 ≤ p.rmid := hmid
  unfold Ramp.pressure
  simp only [ratio_zero_small]
  change (if rho < r0 then 0 else if rho < p.rmid then a * (rho / r0 - 1) else b * (rho / r0 - c)) = _
  split_ifs with h1 h2
  · rw [min_eq_left (h1.le.trans hmid'), max_eq_left h1.le, max_eq_right (h1.le.trans hmid')]
    field_simp
    ring
  · rw [min_eq_left h2.le, max_eq_right (not_lt.1 h1), max_eq_right h2.le]
    ring
  · rw [min_eq_right (not_lt.1 h2), max_eq_right hmid', max_eq_left (not_lt.1 h2), m1']
    ring

/-- C30: the ramp vanishes below `r0` (and at `r0`), is never negative, and never decreases with
density, for every accepted parameter set whose mid point is not below `r0`. -/
theorem C30_ramp_monotone {r0 a b c : K} (hok : (Ramp.mk' r0 a b c).Ok)
    (hmid : r0 ≤ (Ramp.mk' r0 a b c).rmid) :
    Monotone ((Ramp.mk' r0 a b c).pressure 0) ∧
    (∀ rho, rho ≤ r0 → (Ramp.mk' r0 a b c).pressure 0 rho = 0) ∧
    (∀ rho, 0 ≤ (Ramp.mk' r0 a b c).pressure 0 rho) := by
  have h0 : 0 < r0 := hok.1
  have ha : 0 < a := hok.2.1
  have hb : 0 ≤ b := hok.2.2.1
  have hmono : Monotone ((Ramp.mk' r0 a b c).pressure 0) := by
    intro x y hxy
    rw [ramp_closed hok hmid, ramp_closed hok hmid]
    gcongr
  have hz : ∀ rho, rho ≤ r0 → (Ramp.mk' r0 a b c).pressure 0 rho = 0 := by
    intro rho h
    rw [ramp_closed hok hmid, min_eq_left (h.trans hmid), max_eq_left h,
      max_eq_right (h.trans hmid)]
    field_simp
    ring
  refine ⟨hmono, hz, fun rho => ?_⟩
  rcases le_total rho r0 with h | h
  · rw [hz rho h]
  · have := hmono h
    rwa [hz r0 le_rfl] at this

/-- C30: the regularised division changes the ramp by at most the stated (relative order `SMALL`)
amount, at every density above zero. -/
theorem C30_ramp_regularisation {σ : K} (hσ : 0 ≤ σ) {p : Ramp K} (hok : p.Ok) (rho : K) (hr : 0 ≤ rho) :
    |p.pressure σ rho - p.pressure 0 rho| ≤ max p.a p.b * (rho * σ / (p.r0 * (p.r0 + σ))) := by
  obtain ⟨h0, ha, hb, hab⟩ := hok
  have hs : 0 < p.r0 + σ := by linarith
  have key : ∀ k c : K, 0 ≤ k → |k * (ratio σ rho p.r0 - c) - k * (ratio 0 rho p.r0 - c)|
      = k * (rho * σ / (p.r0 * (p.r0 + σ))) := by
    intro k c hk
    rw [ratio_zero_small, ratio_of_nonneg _ _ h0.le]
    have : k * (rho / (p.r0 + σ) - c) - k * (rho / p.r0 - c)
        = -(k * (rho * σ / (p.r0 * (p.r0 + σ)))) := by
      field_simp
      ring
    rw [this, abs_neg, abs_of_nonneg]
    positivity
  have hq : 0 ≤ rho * σ / (p.r0 * (p.r0 + σ)) := by positivity
  unfold Ramp.pressure
  split_ifs with h1 h2
  · simp only [sub_zero, abs_zero]
    exact mul_nonneg (le_max_of_le_left ha.le) hq
  · rw [key p.a 1 ha.le]
    exact mul_le_mul_of_nonneg_right (le_max_left _ _) hq
  · rw [key p.b p.c hb]
    exact mul_le_mul_of_nonneg_right (le_max_right _ _) hq

/-- C30: the ramp's density-from-pressure is the inverse of its pressure, for `b > 0`, nonnegative
pressures and densities from `r0` up. -/
theorem C30_ramp_inverse {r0 a b c : K} (hok : (Ramp.mk' r0 a b c).Ok) (hb : 0 < b)
    (hmid : r0 ≤ (Ramp.mk' r0 a b c).rmid) :
    (∀ P, 0 ≤ P → (Ramp.mk' r0 a b c).pressure 0 ((Ramp.mk' r0 a b c).density 0 P) = P) ∧
    (∀ rho, r0 ≤ rho → (Ramp.mk' r0 a b c).density 0 ((Ramp.mk' r0 a b c).pressure 0 rho) = rho) := by
  have h0 : 0 < r0 := hok.1
  have ha : 0 < a := hok.2.1
  have hab : a ≠ b := hok.2.2.2
  obtain ⟨m1, m2⟩ := ramp_mid (c := c) h0.ne' hab
  set p := Ramp.mk' r0 a b c with hp
  have e0 : p.r0 = r0 := rfl
  have ea : p.a = a := rfl
  have eb : p.b = b := rfl
  have ec : p.c = c := rfl
  rw [e0, ea, eb, ec] at m1
  rw [e0, ea] at m2
  constructor
  · intro P hP
    unfold Ramp.density Ramp.pressure
    simp only [ratio_zero_small, e0, ea, eb, ec]
    by_cases hlt : P < p.pmid
    · simp only [if_pos hlt]
      have e1 : r0 * (P / a + 1) = r0 + r0 * P / a := by ring
      have g1 : ¬ r0 * (P / a + 1) < r0 := by
        rw [e1, not_lt]; have : 0 ≤ r0 * P / a := by positivity
        linarith
      have g2 : r0 * (P / a + 1) < p.rmid := by
        have : P / a < p.rmid / r0 - 1 := by
          rw [div_lt_iff₀ ha, mul_comm]; rw [m2] at hlt; exact hlt
        have h2 : r0 * (P / a + 1) < r0 * (p.rmid / r0) := by
          apply mul_lt_mul_of_pos_left _ h0; linarith
        rwa [mul_div_cancel₀ _ h0.ne'] at h2
      rw [if_neg g1, if_pos g2]
      field_simp
      ring
    · simp only [if_neg hlt]
      have hge : p.pmid ≤ P := not_lt.1 hlt
      have g2 : p.rmid ≤ r0 * (P / b + c) := by
        have : p.rmid / r0 - c ≤ P / b := by
          rw [le_div_iff₀ hb, mul_comm, ← m1, ← m2]; exact hge
        have h2 : r0 * (p.rmid / r0) ≤ r0 * (P / b + c) := by
          apply mul_le_mul_of_nonneg_left _ h0.le; linarith
        rwa [mul_div_cancel₀ _ h0.ne'] at h2
      rw [if_neg (not_lt.2 (hmid.trans g2)), if_neg (not_lt.2 g2)]
      field_simp
      ring
  · intro rho hr
    unfold Ramp.density Ramp.pressure
    simp only [ratio_zero_small, e0, ea, eb, ec]
    rw [if_neg (not_lt.2 hr)]
    by_cases hlt : rho < p.rmid
    · simp only [if_pos hlt]
      have : a * (rho / r0 - 1) < p.pmid := by
        rw [m2]; gcongr
      rw [if_pos this]
      field_simp
      ring
    · simp only [if_neg hlt]
      have : ¬ b * (rho / r0 - c) < p.pmid := by
        rw [m2, m1, not_lt]; have := not_lt.1 hlt; gcongr
      rw [if_neg this]
      field_simp
      ring

/-- C30: the ramp constructed from P-alpha parameters goes through the elastic limit `(rmid, Pe)` and
the crush point `(r1, Pc)` found by the root finds. -/
theorem C30_palpha_points {rho0 alpha0 Pe Pc rmid r1 : K} (hr : 0 < rho0) (hal : 1 < alpha0)
    (h1 : rho0 / alpha0 < rmid) (h2 : rmid < r1) (hPe : 0 < Pe) (hPc : Pe < Pc)
    (hab : (pAlphaParams 0 rho0 alpha0 Pe Pc rmid r1).2.1
      ≠ (pAlphaParams 0 rho0 alpha0 Pe Pc rmid r1).2.2.1) :
    let q := pAlphaParams 0 rho0 alpha0 Pe Pc rmid r1
    let p := Ramp.mk' q.1 q.2.1 q.2.2.1 q.2.2.2
    p.Ok ∧ p.r0 * alpha0 = rho0 ∧ p.rmid = rmid ∧ p.pressure 0 p.r0 = 0 ∧ p.pressure 0 rmid = Pe ∧
      p.pressure 0 r1 = Pc := by
  intro q p
  have hal0 : 0 < alpha0 := by linarith
  have hr0 : 0 < rho0 / alpha0 := by positivity
  obtain ⟨r0, e0⟩ : ∃ x, x = rho0 / alpha0 := ⟨_, rfl⟩
  have q0 : q.1 = r0 := by simp [q, pAlphaParams, ratio_zero_small, e0]
  have qa : q.2.1 = r0 * Pe / (rmid - r0) := by simp [q, pAlphaParams, ratio_zero_small, e0]
  have qb : q.2.2.1 = r0 * (Pc - Pe) / (r1 - rmid) := by
    simp [q, pAlphaParams, ratio_zero_small, e0]
  have qc : q.2.2.2 = (Pc * rmid - Pe * r1) / (r0 * (Pc - Pe)) := by
    simp [q, pAlphaParams, ratio_zero_small, e0]
  have hab' : q.2.1 ≠ q.2.2.1 := hab
  rw [← e0] at h1 hr0
  have d1 : 0 < rmid - r0 := by linarith
  have d2 : 0 < r1 - rmid := by linarith
  have d3 : 0 < Pc - Pe := by linarith
  have ok : p.Ok := by
    refine ⟨?_, ?_, ?_, hab'⟩
    · change 0 < q.1; rw [q0]; exact hr0
    · change 0 < q.2.1; rw [qa]; positivity
    · change 0 ≤ q.2.2.1; rw [qb]; positivity
  have la : q.2.1 * (rmid / r0 - 1) = Pe := by
    rw [qa]; field_simp
  have lb : q.2.2.1 * (rmid / r0 - q.2.2.2) = Pe := by
    rw [qb, qc]; field_simp; ring
  have lc : q.2.2.1 * (r1 / r0 - q.2.2.2) = Pc := by
    rw [qb, qc]; field_simp; ring
  have hm : p.rmid = rmid := by
    have hsub : q.2.1 - q.2.2.1 ≠ 0 := sub_ne_zero.2 hab'
    change q.1 * (q.2.1 - q.2.2.1 * q.2.2.2) / (q.2.1 - q.2.2.1) = rmid
    rw [q0, div_eq_iff hsub]
    have : q.2.1 * (rmid / r0 - 1) = q.2.2.1 * (rmid / r0 - q.2.2.2) := by rw [la, lb]
    have h3 : (q.2.1 - q.2.2.1) * (rmid / r0) = q.2.1 - q.2.2.1 * q.2.2.2 := by linear_combination this
    rw [← h3]
    field_simp
  refine ⟨ok, ?_, hm, ?_, ?_, ?_⟩
  · change q.1 * alpha0 = rho0
    rw [q0, e0]; field_simp
  · have hmid : q.1 ≤ p.rmid := by rw [hm, q0]; exact h1.le
    exact (C30_ramp_monotone ok hmid).2.1 _ le_rfl
  · unfold Ramp.pressure
    rw [ratio_zero_small, hm]
    change (if rmid < q.1 then (0:K) else if rmid < rmid then q.2.1 * (rmid / q.1 - 1)
      else q.2.2.1 * (rmid / q.1 - q.2.2.2)) = Pe
    rw [q0, if_neg (not_lt.2 h1.le), if_neg (lt_irrefl _), lb]
  · unfold Ramp.pressure
    rw [ratio_zero_small, hm]
    change (if r1 < q.1 then (0:K) else if r1 < rmid then q.2.1 * (r1 / q.1 - 1)
      else q.2.2.1 * (r1 / q.1 - q.2.2.2)) = Pc
    rw [q0, if_neg (by linarith), if_neg (by linarith), lc]

/-- C30 non-vacuity: an accepted ramp with `r0 < rmid` and `b > 0`, and a P-alpha parameter set. -/
example : (Ramp.mk' (1 : ℚ) 2 (1/2) (-1)).Ok ∧ (1:ℚ) ≤ (Ramp.mk' (1 : ℚ) 2 (1/2) (-1)).rmid ∧
    (Ramp.mk' (1 : ℚ) 2 (1/2) (-1)).pressure 0 (3/2) = 1 := by
  norm_num [Ramp.Ok, Ramp.mk', Ramp.pressure, ratio]

example : (pAlphaParams (0:ℚ) 2 2 1 3 (3/2) 4).2.1 ≠ (pAlphaParams (0:ℚ) 2 2 1 3 (3/2) 4).2.2.1 ∧
    (2:ℚ) / 2 < 3 / 2 := by
  norm_num [pAlphaParams, ratio]

/-- C30 is violated: `CheckParams` accepts parameters whose mid point lies below `r0`; the ramp then
drops to a negative pressure at `r0`. -/
theorem C30_ramp_accepts_decreasing_violated :
    (Ramp.mk' (1 : ℚ) 2 1 2).Ok ∧ (Ramp.mk' (1 : ℚ) 2 1 2).pressure 0 1 = -1 ∧
    (∀ rho < 1, (Ramp.mk' (1 : ℚ) 2 1 2).pressure 0 rho = 0) ∧
    ¬ Monotone ((Ramp.mk' (1 : ℚ) 2 1 2).pressure 0) := by
  have h1 : (Ramp.mk' (1 : ℚ) 2 1 2).pressure 0 1 = -1 := by
    norm_num [Ramp.mk', Ramp.pressure, ratio]
  have h0 : ∀ rho < 1, (Ramp.mk' (1 : ℚ) 2 1 2).pressure 0 rho = 0 := by
    intro rho h
    simp [Ramp.pressure, Ramp.mk', h]
  refine ⟨by norm_num [Ramp.Ok, Ramp.mk'], h1, h0, fun hm => ?_⟩
  have := hm (show (0:ℚ) ≤ 1 by norm_num)
  rw [h1, h0 0 (by norm_num)] at this
  norm_num at this

/-- C30: above the ramp the EOS is untouched: pressure and bulk modulus are the wrapped ones wherever
the wrapped pressure is at least the ramp's. -/
theorem C30_above_ramp (σ : K) (p : Ramp K) (f : Λ → K → K → K → K)
    (g : Λ → K → K → K → K → PTDer K) (t : Eos K Λ) (l : Λ) (r y : K) :
    (p.pressure σ r ≤ t.q .pRE l r y →
      (ramped σ p f g t).q .pRE l r y = t.q .pRE l r y ∧
      (ramped σ p f g t).q .bRE l r y = t.q .bRE l r y) ∧
    (p.pressure σ r ≤ t.q .pRT l r y →
      (ramped σ p f g t).q .pRT l r y = t.q .pRT l r y ∧
      (ramped σ p f g t).q .bRT l r y = t.q .bRT l r y) := by
  constructor <;> intro h <;> simp only [ramped, if_neg (not_lt.2 h), and_self]

/-- C30: temperature/energy round trips and the twin queries keep agreeing under a ramp. -/
theorem C30_ramp_twins (σ : K) (p : Ramp K) (f : Λ → K → K → K → K)
    (g : Λ → K → K → K → K → PTDer K) (t : Eos K Λ) (l : Λ) (r T : K) (h : Twins (t.at l) r T) :
    Twins ((ramped σ p f g t).at l) r T := by
  obtain ⟨h1, h2, h3, h4, h5⟩ := h
  unfold Twin Eos.at at h1 h2 h3 h4 h5
  refine ⟨?_, h2, h3, ?_, h5⟩
  · simp only [Twin, Eos.at, ramped, h1]
  · simp only [Twin, Eos.at, ramped, h1, h4]

end general

/-- C30: the ramp is continuous at every density. -/
theorem C30_ramp_continuous {r0 a b c : ℝ} (hok : (Ramp.mk' r0 a b c).Ok)
    (hmid : r0 ≤ (Ramp.mk' r0 a b c).rmid) : Continuous ((Ramp.mk' r0 a b c).pressure 0) := by
  have : (Ramp.mk' r0 a b c).pressure 0 = fun rho =>
      a * (max r0 (min rho (Ramp.mk' r0 a b c).rmid) / r0 - 1)
        + b * ((max rho (Ramp.mk' r0 a b c).rmid - (Ramp.mk' r0 a b c).rmid) / r0) := by
    funext rho; exact ramp_closed hok hmid rho
  rw [this]
  have h0 : r0 ≠ 0 := (show 0 < r0 from hok.1).ne'
  fun_prop

/-- C30: with a continuous wrapped pressure the ramped pressure is continuous in density. -/
theorem C30_ramped_pressure_continuous {Λ : Type*} {r0 a b c : ℝ} (hok : (Ramp.mk' r0 a b c).Ok)
    (hmid : r0 ≤ (Ramp.mk' r0 a b c).rmid) (f : Λ → ℝ → ℝ → ℝ → ℝ)
    (g : Λ → ℝ → ℝ → ℝ → ℝ → PTDer ℝ) (t : Eos ℝ Λ) (l : Λ) (y : ℝ) :
    (Continuous (fun r => t.q .pRE l r y) →
      Continuous (fun r => (ramped 0 (Ramp.mk' r0 a b c) f g t).q .pRE l r y)) ∧
    (Continuous (fun r => t.q .pRT l r y) →
      Continuous (fun r => (ramped 0 (Ramp.mk' r0 a b c) f g t).q .pRT l r y)) := by
  have hc := C30_ramp_continuous hok hmid
  constructor <;> intro h
  · simp only [(C30_ramp_is_max (0:ℝ) (Ramp.mk' r0 a b c) f g t l _ y).1]
    exact hc.max h
  · simp only [(C30_ramp_is_max (0:ℝ) (Ramp.mk' r0 a b c) f g t l _ y).2.1]
    exact hc.max h

/-! ## C70: derivatives of the ramp -/

/-- Away from its two corners the ramp has derivative 0 below `r0` and `dpdrho` above. -/
theorem ramp_hasDerivAt {σ : ℝ} {p : Ramp ℝ} (hmid : p.r0 ≤ p.rmid) {r : ℝ} (h0 : r ≠ p.r0)
    (hm : r ≠ p.rmid) :
    HasDerivAt (p.pressure σ) (if r < p.r0 then 0 else p.dpdrho σ r) r := by
  have lin : ∀ k c : ℝ, HasDerivAt (fun x => k * (ratio σ x p.r0 - c)) (ratio σ k p.r0) r := by
    intro k c
    have := (((hasDerivAt_id r).mul_const (ratio σ 1 p.r0)).sub_const c).const_mul k
    simp only [id, one_mul] at this
    rw [ratio_lin σ k]
    refine this.congr_of_eventuallyEq (Filter.Eventually.of_forall fun x => ?_)
    simp only [ratio_lin σ x]
  split_ifs with h
  · refine (hasDerivAt_const r (0:ℝ)).congr_of_eventuallyEq ?_
    filter_upwards [eventually_lt_nhds h] with x hx
    simp [Ramp.pressure, hx]
  · have hgt : p.r0 < r := lt_of_le_of_ne (not_lt.1 h) (Ne.symm h0)
    unfold Ramp.dpdrho
    split_ifs with h2
    · refine (lin p.a 1).congr_of_eventuallyEq ?_
      filter_upwards [eventually_gt_nhds hgt, eventually_lt_nhds h2] with x hx hx2
      simp [Ramp.pressure, not_lt.2 hx.le, hx2]
    · have hgt2 : p.rmid < r := lt_of_le_of_ne (not_lt.1 h2) (Ne.symm hm)
      refine (lin p.b p.c).congr_of_eventuallyEq ?_
      filter_upwards [eventually_gt_nhds hgt, eventually_gt_nhds hgt2] with x hx hx2
      simp [Ramp.pressure, not_lt.2 hx.le, not_lt.2 hx2.le]

/-- Derivatives of the ramped pressure where the ramp is strictly active. -/
theorem ramped_active_deriv {Λ : Type*} {σ : ℝ} {p : Ramp ℝ} (f : Λ → ℝ → ℝ → ℝ → ℝ)
    (g : Λ → ℝ → ℝ → ℝ → ℝ → PTDer ℝ) (t : Eos ℝ Λ) (l : Λ) {r e d : ℝ}
    (hact : t.q .pRE l r e < p.pressure σ r) (hd : HasDerivAt (p.pressure σ) d r)
    (c1 : ContinuousAt (fun x => t.q .pRE l x e) r) (c2 : ContinuousAt (fun x => t.q .pRE l r x) e) :
    HasDerivAt (fun x => (ramped σ p f g t).q .pRE l x e) d r ∧
    HasDerivAt (fun x => (ramped σ p f g t).q .pRE l r x) 0 e := by
  constructor
  · refine hd.congr_of_eventuallyEq ?_
    filter_upwards [c1.eventually_lt hd.continuousAt hact] with x hx
    simp [ramped, hx]
  · refine (hasDerivAt_const e (p.pressure σ r)).congr_of_eventuallyEq ?_
    filter_upwards [c2.eventually_lt continuousAt_const hact] with x hx
    simp [ramped, hx]

/-- C70: on the two rising segments of the ramp the bulk modulus returned is the isentropic one of the
pressure returned. -/
theorem C70_ramp_bulk_on_ramp_partial {Λ : Type*} {σ : ℝ} {p : Ramp ℝ} (hmid : p.r0 ≤ p.rmid)
    (f : Λ → ℝ → ℝ → ℝ → ℝ) (g : Λ → ℝ → ℝ → ℝ → ℝ → PTDer ℝ) (t : Eos ℝ Λ) (l : Λ) {r e : ℝ}
    (h0 : p.r0 < r) (hm : r ≠ p.rmid) (hact : t.q .pRE l r e < p.pressure σ r)
    (c1 : ContinuousAt (fun x => t.q .pRE l x e) r) (c2 : ContinuousAt (fun x => t.q .pRE l r x) e) :
    IsentropicBulk ((ramped σ p f g t).at l) r e := by
  have hd := ramp_hasDerivAt (σ := σ) hmid h0.ne' hm
  rw [if_neg (not_lt.2 h0.le)] at hd
  obtain ⟨d1, d2⟩ := ramped_active_deriv f g t l hact hd c1 c2
  refine ⟨_, _, d1, d2, ?_⟩
  simp [ramped, Eos.at, hact]

/-- C70: strictly above the ramp the Gruneisen parameter and the bulk modulus stay the derivatives of
the pressure. -/
theorem C70_above_ramp_partial {Λ : Type*} {σ : ℝ} {p : Ramp ℝ} (hmid : p.r0 ≤ p.rmid)
    (f : Λ → ℝ → ℝ → ℝ → ℝ) (g : Λ → ℝ → ℝ → ℝ → ℝ → PTDer ℝ) (t : Eos ℝ Λ) (l : Λ) {r e : ℝ}
    (h0 : r ≠ p.r0) (hm : r ≠ p.rmid) (hab : p.pressure σ r < t.q .pRE l r e) :
    (Gruneisen (t.at l) r e → Gruneisen ((ramped σ p f g t).at l) r e) ∧
    (IsentropicBulk (t.at l) r e → IsentropicBulk ((ramped σ p f g t).at l) r e) := by
  have hd := ramp_hasDerivAt (σ := σ) hmid h0 hm
  constructor
  · intro h
    unfold Gruneisen at *
    refine h.congr_of_eventuallyEq ?_
    filter_upwards [continuousAt_const.eventually_lt h.continuousAt hab] with x hx
    simp [ramped, Eos.at, not_lt.2 hx.le]
  · rintro ⟨Pr, Pe, d1, d2, hb⟩
    refine ⟨Pr, Pe, ?_, ?_, ?_⟩
    · refine d1.congr_of_eventuallyEq ?_
      filter_upwards [hd.continuousAt.eventually_lt d1.continuousAt hab] with x hx
      simp [ramped, Eos.at, not_lt.2 hx.le]
    · refine d2.congr_of_eventuallyEq ?_
      filter_upwards [continuousAt_const.eventually_lt d2.continuousAt hab] with x hx
      simp [ramped, Eos.at, not_lt.2 hx.le]
    · simpa [ramped, Eos.at, not_lt.2 hab.le] using hb

/-- C70 is violated below `r0`: whenever the wrapped EOS is in tension there (continuous negative
pressure), the ramped pressure is identically zero nearby but the bulk modulus returned is
`rho*a/r0 > 0`, for every accepted ramp. -/
theorem C70_bulk_below_r0_violated {Λ : Type*} {σ : ℝ} (hσ : 0 ≤ σ) {p : Ramp ℝ} (hok : p.Ok)
    (hmid : p.r0 ≤ p.rmid) (f : Λ → ℝ → ℝ → ℝ → ℝ) (g : Λ → ℝ → ℝ → ℝ → ℝ → PTDer ℝ) (t : Eos ℝ Λ)
    (l : Λ) {r e : ℝ} (hr : 0 < r) (h0 : r < p.r0) (ht : t.q .pRE l r e < 0)
    (c1 : ContinuousAt (fun x => t.q .pRE l x e) r) (c2 : ContinuousAt (fun x => t.q .pRE l r x) e) :
    0 < (ramped σ p f g t).q .bRE l r e ∧ ¬ IsentropicBulk ((ramped σ p f g t).at l) r e := by
  have hp0 : p.pressure σ r = 0 := by simp [Ramp.pressure, h0]
  have hact : t.q .pRE l r e < p.pressure σ r := by rw [hp0]; exact ht
  have hd := ramp_hasDerivAt (σ := σ) hmid h0.ne (h0.trans_le hmid).ne
  rw [if_pos h0] at hd
  obtain ⟨d1, d2⟩ := ramped_active_deriv f g t l hact hd c1 c2
  have hb : (ramped σ p f g t).q .bRE l r e = r * (p.a / (p.r0 + σ)) := by
    simp [ramped, hact, Ramp.dpdrho, h0.trans_le hmid, ratio_of_nonneg _ _ hok.1.le]
  have hpos : 0 < r * (p.a / (p.r0 + σ)) := by
    have := hok.1; have := hok.2.1; positivity
  refine ⟨hb ▸ hpos, ?_⟩
  rintro ⟨Pr, Pe, e1, e2, hB⟩
  have u1 := e1.unique d1
  have u2 := e2.unique d2
  subst u1; subst u2
  rw [Eos.at, hb] at hB
  simp only [mul_zero, add_zero] at hB
  linarith

/-- C70 is violated on the ramp: the pressure does not depend on the energy there, but the Gruneisen
parameter returned is that of the wrapped EOS. -/
theorem C70_gruneisen_on_ramp_violated {Λ : Type*} {σ : ℝ} {p : Ramp ℝ} (hmid : p.r0 ≤ p.rmid)
    (f : Λ → ℝ → ℝ → ℝ → ℝ) (g : Λ → ℝ → ℝ → ℝ → ℝ → PTDer ℝ) (t : Eos ℝ Λ) (l : Λ) {r e : ℝ}
    (h0 : r ≠ p.r0) (hm : r ≠ p.rmid) (hact : t.q .pRE l r e < p.pressure σ r)
    (c1 : ContinuousAt (fun x => t.q .pRE l x e) r) (c2 : ContinuousAt (fun x => t.q .pRE l r x) e)
    (hg : r * t.q .gRE l r e ≠ 0) :
    ¬ Gruneisen ((ramped σ p f g t).at l) r e := by
  have hd := ramp_hasDerivAt (σ := σ) hmid h0 hm
  obtain ⟨-, d2⟩ := ramped_active_deriv f g t l hact hd c1 c2
  intro h
  exact hg (h.unique d2)

/-- C70 non-vacuity: an ideal-gas-like wrapped pressure `rho*e` with `e < 0`, and an accepted ramp. -/
example : (Ramp.mk' (1 : ℝ) 2 (1/2) (-1)).Ok ∧
    (Ramp.mk' (1 : ℝ) 2 (1/2) (-1)).r0 ≤ (Ramp.mk' (1 : ℝ) 2 (1/2) (-1)).rmid ∧
    (1/2 : ℝ) * (-1) < 0 ∧ ContinuousAt (fun x : ℝ => x * (-1)) (1/2) := by
  refine ⟨by norm_num [Ramp.Ok, Ramp.mk'], by norm_num [Ramp.mk'], by norm_num, ?_⟩
  fun_prop

end Verif.Mods
