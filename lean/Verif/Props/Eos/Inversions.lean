import Verif.Props.RootFindRate
import Verif.Props.Eos.Jwl
import Verif.Props.Eos.Carnahan
import Verif.Props.Eos.DavisReac
import Verif.Props.Eos.DavisProd
import Verif.Props.Eos.Gruneisen

set_option linter.unusedSectionVars false

/-! # C39, C40, C41, C43, C44: how close the density found for a pressure and temperature is to the exact one -/

namespace Verif

open Verif.Mods Verif.Robust Verif.Base Verif.Spec Verif.Gases Verif.RootFind

variable {Λ : Type*}

/-- The chords of the pressure at temperature `T` through density `ρ` rise at least at rate `m` over the densities
`[lo, hi]`. -/
def Spec.PressureRises (q : Q → ℝ → ℝ → ℝ) (T m ρ lo hi : ℝ) : Prop :=
  (∀ x, lo ≤ x → x ≤ ρ → m * (ρ - x) ≤ q .pRT ρ T - q .pRT x T) ∧
  ∀ x, ρ ≤ x → x ≤ hi → m * (x - ρ) ≤ q .pRT x T - q .pRT ρ T

/-- A pressure whose density derivative is at least `m` rises at least at rate `m`. -/
theorem Spec.pressureRises_of_deriv {q : Q → ℝ → ℝ → ℝ} {T m lo hi : ℝ} (d : ℝ → ℝ)
    (hd : ∀ x ∈ Set.Icc lo hi, HasDerivAt (fun r => q .pRT r T) (d x) x) (hm : ∀ x ∈ Set.Icc lo hi, m ≤ d x)
    (ρ : ℝ) (h1 : lo ≤ ρ) (h2 : ρ ≤ hi) : PressureRises q T m ρ lo hi := by
  have hc : ContinuousOn (fun r => q .pRT r T) (Set.Icc lo hi) := fun z hz => (hd z hz).continuousAt.continuousWithinAt
  have key := (convex_Icc lo hi).mul_sub_le_image_sub_of_le_deriv hc
    (fun z hz => (hd z (interior_subset hz)).differentiableAt.differentiableWithinAt)
    (fun z hz => by rw [(hd z (interior_subset hz)).deriv]; exact hm z (interior_subset hz))
  exact ⟨fun x hx hxr => key x ⟨hx, hxr.trans h2⟩ ρ ⟨h1, h2⟩ hxr, fun x hx hxh => key ρ ⟨h1, h2⟩ x ⟨h1.trans hx, hxh⟩ hx⟩

/-- The accuracy of a density found by `regula_falsi` for a rising pressure. -/
theorem density_accuracy {q : Q → ℝ → ℝ → ℝ} {T m lo hi P g tol ρ x : ℝ} {o : Option (RF ℝ)} (hm : 0 < m)
    (hr : PressureRises q T m ρ lo hi) (h1 : lo ≤ ρ) (h2 : ρ ≤ hi) (hρ : q .pRT ρ T = P) (h3 : lo ≤ g) (h4 : g ≤ hi)
    (ht : 0 ≤ tol) (h : regulaFalsi 1000 (fun r => q .pRT r T) P g lo hi tol tol = some (⟨.success, some x⟩, o)) :
    |x - ρ| ≤ max tol (2 * tol / m) :=
  C61_chord_accuracy 1000 (fun r => q .pRT r T) P g lo hi tol tol 1 m ρ x o (Or.inl rfl) hm h1 h2 hρ
    (fun x a b => by rw [one_mul, ← hρ]; exact hr.1 x a b) (fun x a b => by rw [one_mul, ← hρ]; exact hr.2 x a b)
    h3 h4 ht ht h

/-- Distance does not grow under a clamp that keeps the exact value. -/
theorem abs_max_sub_le {x ρ t : ℝ} (h : |x - ρ| ≤ t) (h0 : 0 ≤ ρ) : |max 0 x - ρ| ≤ t := by
  rcases le_total 0 x with hx | hx
  · rw [max_eq_right hx]; exact h
  · rw [max_eq_left hx]
    refine le_trans ?_ h
    rw [abs_of_nonpos (by linarith), abs_of_nonpos (by linarith)]
    linarith

namespace EosMisc.Jwl

/-- The pressure of a JWL gas at fixed temperature rises at least at the rate of its thermal part, `w Cv T`. -/
theorem pressureRises (p : Jwl) (n : Num ℝ) (T ρ lo hi : ℝ) (hlo : 0 < lo) (hρ : lo ≤ ρ) (hA : 0 ≤ p.A)
    (hB : 0 ≤ p.B) (h1 : 0 ≤ p.R1) (h2 : 0 ≤ p.R2) (h0 : 0 ≤ p.rho0) :
    PressureRises (p.q (Num.exact n)) T (p.Cv * T * p.w) ρ lo hi := by
  have key : ∀ x y, lo ≤ x → x ≤ y →
      p.Cv * T * p.w * (y - x) ≤ p.q (Num.exact n) .pRT y T - p.q (Num.exact n) .pRT x T := by
    intro x y hx hxy
    have hx : 0 < x := hlo.trans_le hx
    have hy : 0 < y := hx.trans_le hxy
    have hd : p.rho0 / y ≤ p.rho0 / x := div_le_div_of_nonneg_left h0 hx hxy
    have m1 : sexp p.lo (-p.R1 * (p.rho0 / x)) ≤ sexp p.lo (-p.R1 * (p.rho0 / y)) := by
      apply sexp_mono
      nlinarith
    have m2 : sexp p.lo (-p.R2 * (p.rho0 / x)) ≤ sexp p.lo (-p.R2 * (p.rho0 / y)) := by
      apply sexp_mono
      nlinarith
    simp only [q, pRef, Num.exact, ratio_zero_small, add_sub_cancel_left]
    nlinarith [mul_le_mul_of_nonneg_left m1 hA, mul_le_mul_of_nonneg_left m2 hB]
  exact ⟨fun x hx hxr => key x ρ hx hxr, fun x hx _ => key ρ x hρ hx⟩

/-- C40: accuracy of `DensityEnergyFromPressureTemperature`. With nonnegative coefficients and positive `w Cv T`, if some
density `ρ` in `[1e-5, 1e3]` has the requested pressure at the requested temperature and the guess is usable, a call that
does not abort returns a density within `max 1e-8 (2e-8 / (w Cv T))` of `ρ`, and the energy at that density. -/
theorem C40_jwl_density_accuracy (p : Jwl) (n : Num ℝ) (l0 l : Λ) (P T : ℝ) (g : ℝ × ℝ)
    (hT : 0 < p.Cv * T * p.w) (hA : 0 ≤ p.A) (hB : 0 ≤ p.B) (h1 : 0 ≤ p.R1) (h2 : 0 ≤ p.R2) (h0 : 0 ≤ p.rho0)
    (hg : 1 / 10 ^ 5 ≤ g.1 ∧ g.1 ≤ 10 ^ 3) (ρ : ℝ) (hρ : 1 / 10 ^ 5 ≤ ρ ∧ ρ ≤ 10 ^ 3)
    (hP : p.q (Num.exact n) .pRT ρ T = P) (x : ℝ) (h : p.density (Num.exact n) P T g.1 = some x) :
    let o := (p.eos (Num.exact n) l0).rePT l P T g
    |o.1 - ρ| ≤ max (1 / 10 ^ 8) (2 * (1 / 10 ^ 8) / (p.Cv * T * p.w)) ∧ o.2 = p.q (Num.exact n) .eRT o.1 T := by
  have ho : (p.eos (Num.exact n) l0).rePT l P T g = (x, p.q (Num.exact n) .eRT x T) := by
    show p.rePT (Num.exact n) P T g = _
    simp [rePT, h, q]
  intro o
  have ho' : o = (x, p.q (Num.exact n) .eRT x T) := ho
  rw [ho']
  refine ⟨?_, rfl⟩
  have hgs : (if g.1 < 1 / 10 ^ 8 then p.rho0 else g.1) = g.1 := by
    rw [if_neg]; rw [not_lt]; refine le_trans ?_ hg.1; norm_num
  have hpq : ∀ r, p.Cv * T * r * p.w + p.pRef (Num.exact n) r = p.q (Num.exact n) .pRT r T := fun r => by
    simp only [q]; ring
  unfold density at h
  rw [hgs] at h
  simp only [hpq] at h
  split at h
  · next xr o hh =>
    simp only [Option.some.injEq] at h
    subst h
    exact density_accuracy hT (p.pressureRises n T ρ _ _ (by norm_num) hρ.1 hA hB h1 h2 h0) hρ.1 hρ.2 hP hg.1 hg.2 (by norm_num) hh
  · simp at h

/-- The hypotheses of the theorems above are met by a JWL explosive at ambient temperature. -/
example : ∃ p : Jwl, 0 < p.Cv * 300 * p.w ∧ 0 ≤ p.A ∧ 0 ≤ p.B ∧ 0 ≤ p.R1 ∧ 0 ≤ p.R2 ∧ 0 ≤ p.rho0 ∧
    1 / 10 ^ 5 ≤ p.rho0 ∧ p.rho0 ≤ 10 ^ 3 :=
  ⟨⟨632 * 10 ^ 10, -4 * 10 ^ 10 + 5 * 10 ^ 10, 11, 3, 8 / 10, 16 / 10, 10 ^ 7, 1, 1, 293, 10 ^ 6, -700⟩, by norm_num⟩

end EosMisc.Jwl

namespace Gases.Carnahan

/-- The slope of the function whose root is the density: between 1 and `3 + 3 b P / (Cv (g-1) T)`. -/
theorem rootF_rate (p : Carnahan) (hp : p.Ok) (hb : 0 < p.b) (n : Num ℝ) (P T : ℝ) (hP : 0 ≤ P) (hT : 0 < T)
    {x y : ℝ} (hx : 0 ≤ x) (hxy : x ≤ y) (hy : y ≤ 1 / p.b) :
    1 * (y - x) ≤ p.rootF (Num.exact n) P T y - p.rootF (Num.exact n) P T x ∧
    p.rootF (Num.exact n) P T y - p.rootF (Num.exact n) P T x ≤ (3 + 3 * p.b * (P / (p.Cv * p.gm1 * T))) * (y - x) := by
  obtain ⟨hg, hc, -, -, -⟩ := hp
  have hk : 0 < p.Cv * p.gm1 * T := by positivity
  obtain ⟨k, hke⟩ : ∃ k, k = P / (p.Cv * p.gm1 * T) := ⟨_, rfl⟩
  have hk0 : 0 ≤ k := by rw [hke]; positivity
  rw [← hke]
  have hd : ∀ z ∈ Set.Icc 0 (1 / p.b), HasDerivAt (p.rootF (Num.exact n) P T)
      (1 + 2 * (p.b * z) + 3 * (p.b * z) ^ 2 - 4 * (p.b * z) ^ 3 + 3 * p.b * k * (1 - p.b * z) ^ 2) z := by
    intro z _
    have h1 : p.rootF (Num.exact n) P T = fun z => z + p.b * z ^ 2 + p.b ^ 2 * z ^ 3 - p.b ^ 3 * z ^ 4
        - k * (1 - p.b * z) ^ 3 := by
      funext z; simp only [rootF, ratio_zero_small, hke]; ring
    rw [h1]
    have h2 := ((((hasDerivAt_id z).add ((hasDerivAt_pow 2 z).const_mul p.b)).add
      ((hasDerivAt_pow 3 z).const_mul (p.b ^ 2))).sub ((hasDerivAt_pow 4 z).const_mul (p.b ^ 3))).sub
      (((((hasDerivAt_id z).const_mul p.b).const_sub 1).pow 3).const_mul k)
    refine HasDerivAt.change h2 (fun y => rfl) ?_
    simp only [id]
    norm_num
    ring
  refine rate_of_deriv hd (fun z hz => ?_) hx hxy hy
  have hu0 : 0 ≤ p.b * z := mul_nonneg hb.le hz.1
  have hu1 : p.b * z ≤ 1 := by have := hz.2; rw [le_div_iff₀ hb] at this; linarith
  obtain ⟨u, hu⟩ : ∃ u, u = p.b * z := ⟨_, rfl⟩
  rw [← hu] at hu0 hu1 ⊢
  have hbk : 0 ≤ 3 * p.b * k := by positivity
  constructor
  · have h1 : 0 ≤ 3 * p.b * k * (1 - u) ^ 2 := by positivity
    have h2 : 0 ≤ u * (2 + 3 * u - 4 * u ^ 2) := mul_nonneg hu0 (by nlinarith)
    nlinarith
  · have h1 : 3 * p.b * k * (1 - u) ^ 2 ≤ 3 * p.b * k * 1 := mul_le_mul_of_nonneg_left (by nlinarith) hbk
    have h2 : 0 ≤ (u - 73 / 100) ^ 2 * (4 * u + 284 / 100) := by positivity
    nlinarith

/-- C39: accuracy of the density found for a pressure and temperature: for every positive pressure and temperature there
is exactly one density below the inverse covolume with that pressure, and a call that does not abort returns a density
within `2e-9` of it. It cannot abort if, with `M = 3 + 3 b P / (Cv (g-1) T)`, `M ≤ 2^p`, `(1 - 1/(2M))^q / b ≤ 1e-9` and
`(p + 2) q < 1000`. -/
theorem C39_density_accuracy (p : Carnahan) (hp : p.Ok) (n : Num ℝ) (r0 tiny P T : ℝ) (hP : 0 < P)
    (ht : 0 ≤ tiny) (hT : tiny < T) (hb : tiny < p.b) :
    ∃ ρ, 0 < ρ ∧ p.b * ρ < 1 ∧ p.qs (Num.exact n) r0 .pRT ρ T = P ∧
      (∀ ρ', 0 ≤ ρ' → p.b * ρ' < 1 → p.qs (Num.exact n) r0 .pRT ρ' T = P → ρ' = ρ) ∧
      (∀ x, p.density (Num.exact n) tiny P T = some x → |x - ρ| ≤ 2 / 10 ^ 9) ∧
      ∀ k j : ℕ, 3 + 3 * p.b * (P / (p.Cv * p.gm1 * T)) ≤ 2 ^ k →
        (1 - 1 / (2 * (3 + 3 * p.b * (P / (p.Cv * p.gm1 * T))))) ^ j * (1 / p.b) ≤ 1 / 10 ^ 9 → (k + 2) * j < 1000 →
        ∃ x, p.density (Num.exact n) tiny P T = some x := by
  obtain ⟨ρ, h0, h1, h2, h3, -⟩ := C39_density_bracket p hp n r0 tiny P T ht hb hT hP
  have hb0 : 0 < p.b := lt_of_le_of_lt ht hb
  have hT0 : 0 < T := lt_of_le_of_lt ht hT
  have hroot := (rootF_iff p hp n r0 P T ρ hP.le hT0 h0.le h1).2 h2
  have hρb : ρ ≤ 1 / p.b := by rw [le_div_iff₀ hb0]; linarith
  have hrate := fun x y (hx : 0 ≤ x) hxy hy => rootF_rate p hp hb0 n P T hP.le hT0 (x := x) (y := y) hx hxy hy
  refine ⟨ρ, h0, h1, h2, h3, fun x hx => ?_, fun k j hk hj hkj => ?_⟩
  · unfold density at hx
    rw [if_neg (not_le.2 hT), if_neg (not_le.2 hb)] at hx
    split at hx
    · next xr o hh =>
      simp only [Option.some.injEq] at hx
      rw [← hx]
      refine abs_max_sub_le ?_ h0.le
      have := C61_rising_accuracy 1000 (p.rootF (Num.exact n) P T) 0 0 0 (1 / p.b) (1 / 10 ^ 9) (1 / 10 ^ 9) 1 1 ρ xr o
        (Or.inl rfl) one_pos (fun x y a b c => by rw [one_mul (_ - _), one_mul]; simpa using (hrate x y a b c).1)
        h0.le hρb hroot le_rfl (by positivity) (by norm_num) (by norm_num) hh
      refine this.trans (max_le (by norm_num) (by norm_num))
    · simp at hx
  · have hM : (1 : ℝ) ≤ 3 + 3 * p.b * (P / (p.Cv * p.gm1 * T)) := by
      have := hp.Cv; have := hp.gm1
      have : 0 ≤ 3 * p.b * (P / (p.Cv * p.gm1 * T)) := by positivity
      linarith
    obtain ⟨xr, s, e1, -, -⟩ := C61_no_failure (p.rootF (Num.exact n) P T) 0 0 0 (1 / p.b) (1 / 10 ^ 9) (1 / 10 ^ 9) 1 1
      (3 + 3 * p.b * (P / (p.Cv * p.gm1 * T))) ρ k j (Or.inl rfl) one_pos hM (by rw [one_mul]; exact hk)
      (fun x y a b c => by simp only [one_mul (_ - _)]; simpa using hrate x y a b c)
      h0.le hρb hroot le_rfl (by positivity) (by norm_num) (by norm_num) (by rw [sub_zero]; exact hj) hkj
    refine ⟨max 0 xr, ?_⟩
    unfold density
    rw [if_neg (not_le.2 hT), if_neg (not_le.2 hb)]
    have e1' : regulaFalsi 1000 (p.rootF (Num.exact n) P T) 0 (Num.exact n).σ 0 (1 / p.b) (1 / 10 ^ 9) (1 / 10 ^ 9)
      = some (⟨.success, some xr⟩, some s) := e1
    rw [e1']

/-- A gas with covolume `1e-3` at one atmosphere and room temperature: no abort is possible (`k = 2`, `j = 170`). -/
example (n : Num ℝ) : let p : Carnahan := ⟨4 / 10, 718 * 10 ^ 4, 1 / 1000, 0, 0, 298, 10 ^ 6, 1, 1⟩
    ∃ x, p.density (Num.exact n) 0 (10 ^ 6) 298 = some x := by
  intro p
  have hp : p.Ok := ⟨by norm_num [p], by norm_num [p], by norm_num [p], by norm_num [p], by norm_num [p]⟩
  obtain ⟨ρ, -, -, -, -, -, h⟩ := C39_density_accuracy p hp n 1 0 (10 ^ 6) 298 (by norm_num) le_rfl (by norm_num) (by norm_num [p])
  refine h 2 170 (by norm_num [p]) ?_ (by norm_num)
  have : (1 - 1 / (2 * (3 + 3 * p.b * (10 ^ 6 / (p.Cv * p.gm1 * 298)))) : ℝ) ≤ 5 / 6 + 1 / 10 ^ 3 := by norm_num [p]
  have h0 : (0 : ℝ) ≤ 1 - 1 / (2 * (3 + 3 * p.b * (10 ^ 6 / (p.Cv * p.gm1 * 298)))) := by norm_num [p]
  refine le_trans (mul_le_mul_of_nonneg_right (pow_le_pow_left₀ h0 this 170) (by norm_num [p])) ?_
  norm_num [p]

end Gases.Carnahan

namespace Davis

/-- C43: accuracy of `DensityEnergyFromPressureTemperature` of DavisReactants: where the chords of the pressure through the
exact density rise at least at rate `m` over `[1e-5, 1e3]`, a call that does not abort returns a density within `max 1e-8 (2e-8 / m)` of the
exact one, with the energy there. -/
theorem Reac.C43_reactants_density_accuracy (p : Reac) (n : Num ℝ) (l0 l : Λ) (P T m : ℝ) (g : ℝ × ℝ)
    (hg : 1 / 10 ^ 5 ≤ p.rho0 ∧ p.rho0 ≤ 10 ^ 3) (hm : 0 < m) (ρ : ℝ)
    (hr : PressureRises (p.q n) T m ρ (1 / 10 ^ 5) (10 ^ 3)) (hρ : 1 / 10 ^ 5 ≤ ρ ∧ ρ ≤ 10 ^ 3)
    (hP : p.q n .pRT ρ T = P) (x : ℝ) (h : p.density n P T = some x) :
    let o := (p.eos n l0).rePT l P T g
    |o.1 - ρ| ≤ max (1 / 10 ^ 8) (2 * (1 / 10 ^ 8) / m) ∧ o.2 = p.q n .eRT o.1 T := by
  have ho : (p.eos n l0).rePT l P T g = (x, p.q n .eRT x T) := by
    show (match p.density n P T with | some x => (x, p.q n .eRT x T) | none => g) = _
    rw [h]
  intro o
  have ho' : o = (x, p.q n .eRT x T) := ho
  rw [ho']
  refine ⟨?_, rfl⟩
  have hf : p.pofR n T = fun r => p.q n .pRT r T := funext fun r => p.pofR_eq n T r
  unfold density at h
  rw [hf] at h
  split at h
  · next xr o hh =>
    simp only [Option.some.injEq] at h
    subst h
    exact abs_max_sub_le (density_accuracy hm hr hρ.1 hρ.2 hP hg.1 hg.2 (by norm_num) hh) (le_trans (by norm_num) hρ.1)
  · simp at h

/-- C44: the same for DavisProducts. -/
theorem Prod.C44_products_density_accuracy (p : Prod) (n : Num ℝ) (l0 l : Λ) (P T m : ℝ) (g : ℝ × ℝ)
    (hg : 1 / 10 ^ 5 ≤ ratio n.σ 1 p.vc ∧ ratio n.σ 1 p.vc ≤ 10 ^ 3) (hm : 0 < m) (ρ : ℝ)
    (hr : PressureRises (p.q n) T m ρ (1 / 10 ^ 5) (10 ^ 3)) (hρ : 1 / 10 ^ 5 ≤ ρ ∧ ρ ≤ 10 ^ 3)
    (hP : p.q n .pRT ρ T = P) (x : ℝ) (h : p.density n P T = some x) :
    let o := (p.eos n l0).rePT l P T g
    |o.1 - ρ| ≤ max (1 / 10 ^ 8) (2 * (1 / 10 ^ 8) / m) ∧ o.2 = p.q n .eRT o.1 T := by
  have ho : (p.eos n l0).rePT l P T g = (x, p.q n .eRT x T) := by
    show (match p.density n P T with | some x => (x, p.q n .eRT x T) | none => g) = _
    rw [h]
  intro o
  have ho' : o = (x, p.q n .eRT x T) := ho
  rw [ho']
  refine ⟨?_, rfl⟩
  have hf : p.pofR n T = fun r => p.q n .pRT r T := funext fun r => p.pofR_eq n T r
  unfold density at h
  rw [hf] at h
  split at h
  · next xr o hh =>
    simp only [Option.some.injEq] at h
    subst h
    rw [max_comm]
    exact abs_max_sub_le (density_accuracy hm hr hρ.1 hρ.2 hP hg.1 hg.2 (by norm_num) hh) (le_trans (by norm_num) hρ.1)
  · simp at h

/-- A reactant whose pressure is that of its reference isentrope: the chords through the reference density rise at least
at rate `1/1000`. -/
example (n : Num ℝ) : let p : Reac := ⟨1, 0, 0, 300, 1, 1, 0, 0, 0, 1, 1, 1, 1⟩
    PressureRises (p.q (Num.exact n)) 300 (1 / 1000) 1 (1 / 10 ^ 5) (10 ^ 3) := by
  intro p
  have hP : ∀ r, p.q (Num.exact n) .pRT r 300 = p.Ps (Num.exact n) r := fun r => by
    simp [Reac.q, Reac.pressure, Reac.gamma, p]
  have h1 : p.Ps (Num.exact n) 1 = 0 := by simp [Reac.Ps, p, ratio_zero_small]
  refine ⟨fun x hx hx1 => ?_, fun x hx1 hx => ?_⟩
  · have hx0 : 0 < x := lt_of_lt_of_le (by norm_num) hx
    rw [hP, hP, h1]
    rcases hx1.eq_or_lt with rfl | hlt
    · rw [h1]; norm_num
    · have hv : p.Ps (Num.exact n) x = 1 / 4 * (Real.exp (4 * (1 - 1 / x)) - 1) := by
        simp [Reac.Ps, Reac.phat, p, ratio_zero_small, not_le.2 hx0, not_le.2 hlt, max_eq_left hx0.le]
      rw [hv]
      have hd : 0 < 4 - 3 * x := by linarith
      have e1 := Real.add_one_le_exp (-(4 * (1 - 1 / x)))
      rw [Real.exp_neg] at e1
      have e2 : -(4 * (1 - 1 / x)) + 1 = (4 - 3 * x) / x := by field_simp; ring
      rw [e2] at e1
      have e3 : Real.exp (4 * (1 - 1 / x)) ≤ x / (4 - 3 * x) := by
        have h := inv_anti₀ (div_pos hd hx0) e1
        rwa [inv_inv, inv_div] at h
      have e4 : x / (4 - 3 * x) ≤ 1 - (1 - x) := by rw [div_le_iff₀ hd]; nlinarith
      linarith
  · have hx0 : 0 < x := by linarith
    rw [hP, hP, h1]
    have hv : p.Ps (Num.exact n) x = 1 / 4 * (4 * (1 - 1 / x) + 1 / 2 * ((4 * (1 - 1 / x)) ^ 2
        + 1 / 3 * (4 * (1 - 1 / x)) ^ 3) + (1 - 1 / x) ^ 2 / (1 - (1 - 1 / x)) ^ 4) := by
      simp [Reac.Ps, Reac.phat, p, ratio_zero_small, not_le.2 hx0, hx1, max_eq_left hx0.le]
    rw [hv]
    have hy : (x - 1) / 1000 ≤ 1 - 1 / x := by
      have : 1 - 1 / x = (x - 1) / x := by field_simp
      rw [this]
      exact div_le_div_of_nonneg_left (by linarith) hx0 (by linarith)
    obtain ⟨y, hye⟩ : ∃ y, y = 1 - 1 / x := ⟨_, rfl⟩
    rw [← hye] at hy ⊢
    have hy0 : 0 ≤ y := le_trans (by linarith) hy
    have : 0 ≤ 1 / 2 * ((4 * y) ^ 2 + 1 / 3 * (4 * y) ^ 3) + y ^ 2 / (1 - y) ^ 4 := by positivity
    linarith

/-- Products without an isentrope pressure are an ideal gas, whose pressure rises at rate `(k - 1) Cv T`. -/
example (n : Num ℝ) : let p : Prod := ⟨1, 1, 2, 1, 1, 0, 5, 1, 1⟩
    PressureRises (p.q (Num.exact n)) 300 1500 1 (1 / 10 ^ 5) (10 ^ 3) := by
  intro p
  have hP : ∀ r, 0 < r → p.q (Num.exact n) .pRT r 300 = 1500 * r := fun r hr => by
    simp [Prod.q, Prod.pressure, Prod.energy, Prod.gamma, Prod.Ps, Prod.Es, Prod.Ts, p, ratio_zero_small, not_le.2 hr]
    ring
  refine ⟨fun x hx hx1 => ?_, fun x hx1 hx => ?_⟩
  · rw [hP 1 one_pos, hP x (lt_of_lt_of_le (by norm_num) hx)]; linarith
  · rw [hP 1 one_pos, hP x (by linarith)]; linarith

end Davis

namespace Grun.Grun

/-- C41: accuracy of `DensityEnergyFromPressureTemperature` of Gruneisen in expansion (requested pressure below that at the
reference density): where the chords of the pressure through the exact density rise at least at rate `m` over `[0, 1.1 rho0]`, a call that does not abort returns
a density within `max 1e-8 (2e-8 / m)` of the exact one, with the energy there. -/
theorem C41_gruneisen_density_accuracy (p : Grun) (n : Num ℝ) (dv : ℝ → ℝ → ℝ) (l0 l : Λ) (P T m : ℝ) (g : ℝ × ℝ)
    (h0 : 0 < p.rho0) (hlt : P < p.q .pRT p.rho0 T) (hm : 0 < m) (ρ : ℝ)
    (hr : PressureRises p.q T m ρ 0 (11 / 10 * p.rho0)) (hρ : 0 ≤ ρ ∧ ρ ≤ 11 / 10 * p.rho0)
    (hP : p.q .pRT ρ T = P) (x : ℝ) (h : p.density P T = some x) :
    let o := (p.eos n dv l0).rePT l P T g
    |o.1 - ρ| ≤ max (1 / 10 ^ 8) (2 * (1 / 10 ^ 8) / m) ∧ o.2 = p.q .eRT o.1 T := by
  have ho : (p.eos n dv l0).rePT l P T g = (x, p.q .eRT x T) := by
    show p.rePT P T g = _
    rw [rePT, h]
  intro o
  have ho' : o = (x, p.q .eRT x T) := ho
  rw [ho']
  refine ⟨?_, rfl⟩
  simp only [density, if_pos hlt] at h
  split at h
  · next xr o hh =>
    simp only [Option.some.injEq] at h
    subst h
    exact density_accuracy hm hr hρ.1 hρ.2 hP h0.le (by linarith) (by norm_num) hh
  · simp at h

/-- C41: and in compression, up to the largest stable density `hi` with pressure `pmax` there (a request above `pmax` is
answered as one for `pmax`): where the chords of the pressure through the exact density rise at least at rate `m` over `[0.9 rho0, hi]`, a call that does not
abort returns a density within `max 1e-8 (2e-8 / m)` of the exact one. The secant guess it starts from is always inside the
interval. -/
theorem C41_gruneisen_density_accuracy_compression (p : Grun) (n : Num ℝ) (dv : ℝ → ℝ → ℝ) (l0 l : Λ) (P T m hi : ℝ)
    (g : ℝ × ℝ) (h0 : 0 < p.rho0) (hge : p.q .pRT p.rho0 T ≤ P) (hhi : p.maxStable T = some hi) (hlt : p.rho0 < hi)
    (hm : 0 < m) (ρ : ℝ) (hr : PressureRises p.q T m ρ (9 / 10 * p.rho0) hi) (hρ : 9 / 10 * p.rho0 ≤ ρ ∧ ρ ≤ hi)
    (hpr : p.q .pRT p.rho0 T < p.q .pRT hi T) (hP : p.q .pRT ρ T = min P (p.q .pRT hi T)) (x : ℝ) (h : p.density P T = some x) :
    let o := (p.eos n dv l0).rePT l P T g
    |o.1 - ρ| ≤ max (1 / 10 ^ 8) (2 * (1 / 10 ^ 8) / m) ∧ o.2 = p.q .eRT o.1 T := by
  have ho : (p.eos n dv l0).rePT l P T g = (x, p.q .eRT x T) := by
    show p.rePT P T g = _
    rw [rePT, h]
  intro o
  have ho' : o = (x, p.q .eRT x T) := ho
  rw [ho']
  refine ⟨?_, rfl⟩
  have hmin : (if P > p.q .pRT hi T then p.q .pRT hi T else P) = min P (p.q .pRT hi T) := by
    split_ifs with hc
    · rw [min_eq_right hc.le]
    · rw [min_eq_left (not_lt.1 hc)]
  simp only [density, if_neg (not_lt.2 hge), hhi, hmin] at h
  split at h
  · next xr o hh =>
    simp only [Option.some.injEq] at h
    subst h
    have hf : 0 ≤ (hi - p.rho0) / (p.q .pRT hi T - p.q .pRT p.rho0 T) := div_nonneg (by linarith) (by linarith)
    have hu0 : 0 ≤ min P (p.q .pRT hi T) - p.q .pRT p.rho0 T := by
      rcases min_choice P (p.q .pRT hi T) with h | h <;> rw [h] <;> linarith
    have hu1 : min P (p.q .pRT hi T) - p.q .pRT p.rho0 T ≤ p.q .pRT hi T - p.q .pRT p.rho0 T := by
      linarith [min_le_right P (p.q .pRT hi T)]
    have e1 := mul_nonneg hf hu0
    have e2 := mul_le_mul_of_nonneg_left hu1 hf
    rw [div_mul_cancel₀ _ (by linarith)] at e2
    exact density_accuracy hm hr hρ.1 hρ.2 hP (by linarith) (by linarith) (by norm_num) hh
  · simp at h

/-- A material without Gruneisen term: expansion and compression both meet the hypotheses above. -/
example : let p : Grun := ⟨2, 0, 0, 0, 0, 0, 1, 300, 0, 1, 10, 1, 1⟩
    PressureRises p.q 300 (1 / 30) (1 / 2) 0 (11 / 10 * p.rho0) ∧ p.q .pRT (1 / 2) 300 < p.q .pRT p.rho0 300 ∧
    PressureRises p.q 300 (1 / 30) 2 (9 / 10 * p.rho0) 10 ∧ p.maxStable 300 = some 10 := by
  intro p
  have hlo : ∀ r, r < 1 → p.q .pRT r 300 = 4 * (r - 1) := fun r hr => by
    simp [q, pressure, gamma, p, min_eq_left (by linarith : r ≤ 10), not_le.2 hr]
    norm_num
  have hhi : ∀ r, 1 ≤ r → r ≤ 10 → p.q .pRT r 300 = 4 * (1 - 1 / r) := fun r hr h => by
    simp [q, pressure, gamma, sPoly, p, min_eq_left h, hr]
    norm_num
  have hinv : ∀ r : ℝ, 1 ≤ r → r ≤ 10 → 1 / r ≤ 1 - (r - 1) / 10 := fun r h1 h2 => by
    rw [div_le_iff₀ (by linarith)]; nlinarith
  have hinv2 : ∀ r : ℝ, 2 ≤ r → r ≤ 10 → 1 / r ≤ 1 / 2 - (r - 2) / 20 := fun r h1 h2 => by
    rw [div_le_iff₀ (by linarith)]; nlinarith
  have hinv3 : ∀ r : ℝ, 1 ≤ r → r ≤ 2 → 1 / 2 + (2 - r) / 4 ≤ 1 / r := fun r h1 h2 => by
    rw [le_div_iff₀ (by linarith)]; nlinarith
  have hr0 : p.rho0 = 1 := rfl
  rw [hr0]
  refine ⟨⟨fun x hx hx1 => ?_, fun x hx1 hx => ?_⟩, ?_, ⟨fun x hx hx1 => ?_, fun x hx1 hx => ?_⟩, ?_⟩
  · rw [hlo _ (by norm_num), hlo x (by linarith)]; linarith
  · rw [hlo (1 / 2) (by norm_num)]
    rcases lt_or_ge x 1 with h | h
    · rw [hlo x h]; linarith
    · rw [hhi x h (by linarith)]; have := hinv x h (by linarith); linarith
  · rw [hlo _ (by norm_num), hhi _ le_rfl (by norm_num)]; norm_num
  · rw [hhi 2 (by norm_num) (by norm_num)]
    rcases lt_or_ge x 1 with h | h
    · rw [hlo x h]; linarith
    · rw [hhi x h (by linarith)]; have := hinv3 x h hx1; linarith
  · rw [hhi 2 (by norm_num) (by norm_num), hhi x (by linarith) hx]; have := hinv2 x hx1 hx; linarith
  · unfold maxStable
    dsimp only
    rw [if_pos]
    simp [dPdr, gamma, sPoly, p]

end Grun.Grun

end Verif
