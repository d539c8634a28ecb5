import Verif.Spec.Expansion
import Verif.Props.Eos.Jwl
import Verif.Props.Eos.DavisProd
import Verif.Props.Eos.DavisReac
import Verif.Props.Eos.Gruneisen
import Verif.Props.Eos.Misc

/-! # C74: the thermal expansion reported with the reference state -/

namespace Verif

open Spec EosMisc Davis Mods Base Robust Gases

variable {Λ : Type*}

private theorem ratio0 (a b : ℝ) : ratio (0 : ℝ) a b = a / b := by
  unfold ratio sgn; split_ifs <;> simp

/-- C74: the ideal electrons report the thermal expansion at the reference state. -/
theorem C74_electrons_expansion (p : Electrons) (hg : 0 < p.gm1) (hT0 : 0 < p.T0) (hr0 : 0 < p.rho0) (n : Num ℝ) (z0 z : ℝ)
    (hcv : 0 < p.cv z) :
    Expansion ((p.eos n z0).at z) ((p.eos n z0).ref z).rho ((p.eos n z0).ref z).temp ((p.eos n z0).ref z).dvdt := by
  have k : 0 < p.gm1 * p.cv z * p.T0 := by positivity
  refine ⟨p.gm1 * p.cv z * p.T0, p.gm1 * p.rho0 * p.cv z, ?_, ?_, k.ne', ?_⟩
  · have h : HasDerivAt (fun y : ℝ => y * (p.gm1 * p.cv z * p.T0)) (1 * (p.gm1 * p.cv z * p.T0)) p.rho0 := (hasDerivAt_id _).mul_const _
    rw [one_mul] at h
    refine h.congr_of_eventuallyEq ?_
    filter_upwards [lt_mem_nhds hr0] with y hy
    show max 0 (p.gm1 * y * p.cv z * p.T0) = _
    rw [max_eq_right (by positivity)]; ring
  · have h : HasDerivAt (fun t : ℝ => t * (p.gm1 * p.rho0 * p.cv z)) (1 * (p.gm1 * p.rho0 * p.cv z)) p.T0 := (hasDerivAt_id _).mul_const _
    rw [one_mul] at h
    refine h.congr_of_eventuallyEq ?_
    filter_upwards [lt_mem_nhds hT0] with t ht
    show max 0 (p.gm1 * p.rho0 * p.cv z * t) = _
    rw [max_eq_right (by positivity)]; ring
  · show 1 / (p.rho0 * p.T0) = p.gm1 * p.rho0 * p.cv z / (p.rho0 ^ 2 * (p.gm1 * p.cv z * p.T0))
    field_simp

/-- C74: JWL, both Davis EOS and Gruneisen report for `dV/dT` the Gruneisen parameter times density times heat capacity over the bulk
modulus (all at the reference state). -/
theorem C74_expansion_formula (j : Jwl) (dr : Reac) (dp : Davis.Prod) (g : Grun.Grun) (n : Num ℝ) (dv : ℝ → ℝ → ℝ) (l0 l : Λ) :
    ∀ t : Eos ℝ Λ, (t = j.eos (Num.exact n) l0 ∨ t = dr.eos (Num.exact n) l0 ∨ t = dp.eos (Num.exact n) l0 ∨ t = g.eos n dv l0) →
      (t.ref l).dvdt = t.q .gRT l (t.ref l).rho (t.ref l).temp * (t.ref l).rho * (t.ref l).cv / (t.ref l).bmod := by
  rintro t (rfl | rfl | rfl | rfl)
  · show ratio (0 : ℝ) _ _ = _
    rw [ratio0]; rfl
  · show _ * ratio (0 : ℝ) _ _ = _
    rw [ratio0, mul_div_assoc']; rfl
  · show _ * ratio (0 : ℝ) dp.Cv _ = _
    rw [ratio0 dp.Cv, mul_div_assoc']; rfl
  · rfl

/-- That formula is the thermal expansion exactly when the bulk modulus reported is the density times the isothermal one, for an EOS
whose pressure queries agree and whose Gruneisen parameter and heat capacity are what they say: it has one factor of density too
many, and the isentropic modulus for the isothermal one. -/
theorem C74_expansion_formula_iff (f : Answers ℝ) (r T b Pr : ℝ) (hr : 0 < r) (hp : ∀ t, f .pRT r t = f .pRE r (f .eRT r t))
    (hcv : HeatCapacity f r T) (hg : Gruneisen f r (f .eRT r T)) (hgt : f .gRT r T = f .gRE r (f .eRT r T))
    (h0 : f .gRT r T * f .cvRT r T ≠ 0) (hPr : HasDerivAt (fun y => f .pRT y T) Pr r) (hPr0 : Pr ≠ 0) (hb : b ≠ 0) :
    Expansion f r T (f .gRT r T * r * f .cvRT r T / b) ↔ b = r * (r * Pr) := by
  have hPT : HasDerivAt (fun t => f .pRT r t) (r * f .gRT r T * f .cvRT r T) T := by
    have := hg.comp T hcv
    rw [← hgt] at this
    refine this.congr_of_eventuallyEq (Filter.Eventually.of_forall fun t => hp t)
  have hr2 : r ^ 2 * Pr ≠ 0 := by positivity
  constructor
  · rintro ⟨Pr', PT', h1, h2, -, e⟩
    rw [h1.unique hPr, h2.unique hPT, div_eq_div_iff hb hr2] at e
    have h : f .gRT r T * f .cvRT r T * r * (r ^ 2 * Pr - b) = 0 := by linear_combination e
    rcases mul_eq_zero.1 h with h | h
    · exact absurd h (mul_ne_zero h0 hr.ne')
    · linarith
  · intro e
    refine ⟨Pr, _, hPr, hPT, hPr0, ?_⟩
    rw [e]
    congr 1 <;> ring

/-- C74 is violated for JWL: already for pure ideal-gas products (`A = B = 0`) the `dV/dT` reported is the thermal expansion only for
the accidental density `rho0 = w + 1`. -/
theorem C74_jwl_expansion_violated (p : Jwl) (hA : p.A = 0) (hB : p.B = 0) (hw : 0 < p.w) (hc : 0 < p.Cv) (hT : 0 < p.rt)
    (hr : 0 < p.rho0) (hne : p.rho0 ≠ p.w + 1) (n : Num ℝ) (l0 l : Λ) :
    let t := p.eos (Num.exact n) l0
    ¬ Expansion (t.at l) (t.ref l).rho (t.ref l).temp (t.ref l).dvdt := by
  intro t
  have e0 : ∀ r, p.eRef (Num.exact n) r = 0 := by
    intro r; show ratio (0 : ℝ) p.A _ * _ + ratio (0 : ℝ) p.B _ * _ = 0
    simp only [ratio0, hA, hB]; ring
  have p0 : ∀ r, p.pRef (Num.exact n) r = 0 := by
    intro r; show p.A * _ + p.B * _ = 0
    rw [hA, hB]; ring
  rw [C74_expansion_formula p ⟨0, 0, 0, 0, 0, 0, 0, 0, 0, 0, 0, 0, 0⟩ ⟨0, 0, 0, 0, 0, 0, 0, 0, 0⟩ ⟨0, 0, 0, 0, 0, 0, 0, 0, 0, 0, 0, 0, 0⟩ n
    (fun _ _ => 0) l0 l t (Or.inl rfl)]
  have hb : (t.ref l).bmod = (p.w + 1) * p.w * p.rho0 * (p.Cv * p.rt) := by
    show (p.w + 1) * p.w * p.rho0 * (p.eRef (Num.exact n) p.rho0 + p.Cv * p.rt - p.eRef (Num.exact n) p.rho0) + _ * (p.A * _ * _ + p.B * _ * _) = _
    rw [e0, hA, hB]; ring
  have hq : ∀ r T, (t.at l) .pRT r T = p.w * p.Cv * T * r := by
    intro r T
    show p.pRef (Num.exact n) r + p.w * r * (p.eRef (Num.exact n) r + p.Cv * T - p.eRef (Num.exact n) r) = _
    rw [e0, p0]; ring
  have hPr : HasDerivAt (fun y => (t.at l) .pRT y p.rt) (p.w * p.Cv * p.rt) p.rho0 := by
    simp only [hq]
    simpa using (hasDerivAt_id p.rho0).const_mul (p.w * p.Cv * p.rt)
  have hcv : HeatCapacity (t.at l) p.rho0 p.rt := by
    show HasDerivAt (fun T => p.eRef (Num.exact n) p.rho0 + p.Cv * T) p.Cv p.rt
    rw [e0]
    simpa using (hasDerivAt_id p.rt).const_mul p.Cv
  have hg : Gruneisen (t.at l) p.rho0 ((t.at l) .eRT p.rho0 p.rt) := by
    show HasDerivAt (fun x => p.pRef (Num.exact n) p.rho0 + p.w * p.rho0 * (x - p.eRef (Num.exact n) p.rho0)) (p.rho0 * p.w) _
    rw [e0, p0]
    simpa [mul_comm] using ((hasDerivAt_id ((t.at l) .eRT p.rho0 p.rt)).const_mul (p.w * p.rho0))
  have key := C74_expansion_formula_iff (t.at l) p.rho0 p.rt (t.ref l).bmod (p.w * p.Cv * p.rt) hr (fun T => by
      rw [hq]
      show _ = p.pRef (Num.exact n) p.rho0 + p.w * p.rho0 * (p.eRef (Num.exact n) p.rho0 + p.Cv * T - p.eRef (Num.exact n) p.rho0)
      rw [e0, p0]; ring)
    hcv hg rfl (by show p.w * p.Cv ≠ 0; positivity) hPr (by positivity) (by rw [hb]; positivity)
  intro h
  have := key.1 h
  rw [hb] at this
  have h2 : p.w * p.Cv * p.rt * p.rho0 * (p.rho0 - (p.w + 1)) = 0 := by linear_combination -this
  rcases mul_eq_zero.1 h2 with h3 | h3
  · exact absurd h3 (by positivity)
  · exact hne (by linarith)

/-- The usual products have densities near 2 and `w` near 0.3. -/
example : ∃ p : Jwl, p.A = 0 ∧ p.B = 0 ∧ 0 < p.w ∧ 0 < p.Cv ∧ 0 < p.rt ∧ 0 < p.rho0 ∧ p.rho0 ≠ p.w + 1 :=
  ⟨⟨0, 0, 1, 1, 3 / 10, 18 / 10, 1, 1, 1, 293, 1, -700⟩, rfl, rfl, by norm_num, by norm_num, by norm_num, by norm_num, by norm_num⟩

end Verif
