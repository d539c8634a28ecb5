import Verif.Props.Eos.Stiff
import Verif.Props.RootFind

set_option linter.unusedSectionVars false

/-! # C39, C74, C75: CarnahanStarling, and the gases as special cases of each other -/

namespace Verif.Gases

open Verif.Mods Verif.Robust Verif.Base Verif.Spec Verif.RootFind

variable {Λ : Type*}

namespace Carnahan

/-- Parameters accepted by the constructor, without the degenerate zero values. -/
structure Ok (p : Carnahan) : Prop where
  gm1 : 0 < p.gm1
  Cv : 0 < p.Cv
  b : 0 ≤ p.b
  T0 : 0 < p.T0
  P0 : 0 < p.P0

theorem zed_eq (p : Carnahan) (n : Num ℝ) (r : ℝ) (h : p.b * r < 1) :
    p.zed (Num.exact n) r = (1 + p.b * r + (p.b * r) ^ 2 - (p.b * r) ^ 3) / (1 - p.b * r) ^ 3 := by
  simp only [zed, ratio_zero_small]
  have hD : (0 : ℝ) < 1 - p.b * r := by linarith
  have hD' := hD.ne'
  generalize p.b * r = x at *
  field_simp
  ring

theorem poly_pos {x : ℝ} (h0 : 0 ≤ x) (h1 : x < 1) : 0 < 1 + x + x ^ 2 - x ^ 3 := by
  have : x ^ 3 ≤ x ^ 2 := by nlinarith [sq_nonneg x]
  nlinarith [sq_nonneg x]

theorem zed_pos (p : Carnahan) (n : Num ℝ) (r : ℝ) (h0 : 0 ≤ p.b * r) (h : p.b * r < 1) :
    0 < p.zed (Num.exact n) r := by
  rw [zed_eq p n r h]
  exact div_pos (poly_pos h0 h) (pow_pos (by linarith) 3)

/-- `d(rho Z)/d rho` is what `PartialRhoZedFromDensity` returns. -/
theorem hasDerivAt_rhoZed (p : Carnahan) (n : Num ℝ) (r : ℝ) (h : p.b * r < 1) :
    HasDerivAt (fun x => p.zed (Num.exact n) x * x) (p.dRhoZed (Num.exact n) r) r := by
  have hD : (0 : ℝ) < 1 - p.b * r := by linarith
  have hbr : HasDerivAt (fun x => p.b * x) p.b r := by simpa using hasDerivAt_affine p.b 0 r
  have hn : HasDerivAt (fun x => p.b * x * (4 - 2 * (p.b * x)))
      (p.b * (4 - 2 * (p.b * r)) + p.b * r * (-(2 * p.b))) r := by
    refine HasDerivAt.change (hbr.mul ((hbr.const_mul 2).const_sub 4)) (fun y => rfl) rfl
  have hd : HasDerivAt (fun x => (1 - p.b * x) ^ 3) (3 * (1 - p.b * r) ^ 2 * (-p.b)) r := by
    refine HasDerivAt.change ((hbr.const_sub 1).pow 3) (fun y => rfl) ?_
    norm_num
  have hz : HasDerivAt (fun x => p.zed (Num.exact n) x)
      (((p.b * (4 - 2 * (p.b * r)) + p.b * r * (-(2 * p.b))) * (1 - p.b * r) ^ 3
        - p.b * r * (4 - 2 * (p.b * r)) * (3 * (1 - p.b * r) ^ 2 * (-p.b))) / ((1 - p.b * r) ^ 3) ^ 2) r := by
    refine HasDerivAt.change ((hn.div hd (by positivity)).const_add 1) (fun y => ?_) rfl
    simp only [zed, ratio_zero_small, Pi.div_apply]
  refine HasDerivAt.change (hz.mul (hasDerivAt_id r)) (fun y => rfl) ?_
  simp only [zed, dRhoZed, ratio_zero_small, id, mul_one]
  have hD' := hD.ne'
  field_simp
  ring

/-- C39: CarnahanStarling is thermodynamically consistent at every positive density below the inverse
covolume and every positive temperature; `r0` is the constructor's reference density. -/
theorem C39_carnahan_consistent (p : Carnahan) (hp : p.Ok) (n : Num ℝ) (r0 : ℝ) (hr0 : 0 < r0)
    (r T : ℝ) (hr : 0 < r) (hb : p.b * r < 1) (hT : 0 < T) : Consistent (p.qs (Num.exact n) r0) r T := by
  obtain ⟨hg, hc, hbb, h0, hP0⟩ := hp
  have hCT : 0 < p.Cv * T := mul_pos hc hT
  have hD : 0 < 1 - p.b * r := by linarith
  have hz := zed_pos p n r (by positivity) hb
  have hdz := hasDerivAt_rhoZed p n r hb
  have hdzp : 0 < p.dRhoZed (Num.exact n) r := by
    simp only [dRhoZed, ratio_zero_small]
    have : 0 ≤ p.b * r := by positivity
    have : 0 ≤ p.b * r * (8 - 2 * (p.b * r)) / (1 - p.b * r) ^ 4 := by
      apply div_nonneg (mul_nonneg this (by linarith)) (by positivity)
    linarith
  set Z := p.zed (Num.exact n) r with hZ
  have hE : ∀ r T, 0 < T → p.qs (Num.exact n) r0 .eRT r T = p.Cv * T + p.q := fun r T hT =>
    max_eq_right (by have := mul_pos hc hT; linarith)
  have hTE : p.qs (Num.exact n) r0 .tRE r (p.Cv * T + p.q) = T := by
    show max 0 ((p.Cv * T + p.q - p.q) / p.Cv) = T
    rw [add_sub_cancel_right, mul_div_cancel_left₀ _ hc.ne', max_eq_right hT.le]
  have hPT : HasDerivAt (fun t => p.qs (Num.exact n) r0 .pRT r t) (Z * r * p.Cv * p.gm1) T := by
    have h := hasDerivAt_max (c := 0) (hasDerivAt_affine (Z * r * p.Cv * p.gm1) 0 T) (by positivity)
    refine HasDerivAt.change h (fun y => ?_) rfl
    show max 0 (Z * r * y * p.Cv * p.gm1) = _
    congr 1; ring
  have hPv : p.qs (Num.exact n) r0 .pRT r T = Z * r * T * p.Cv * p.gm1 := max_eq_right (by positivity)
  have hEder : HasDerivAt (fun x => p.qs (Num.exact n) r0 .pRE r x) (Z * r * p.gm1) (p.Cv * T + p.q) := by
    have h := hasDerivAt_max (c := 0) (hasDerivAt_affine (Z * r * p.gm1) (-(Z * r * p.gm1 * p.q)) (p.Cv * T + p.q))
      (by
        have : Z * r * p.gm1 * (p.Cv * T + p.q) + -(Z * r * p.gm1 * p.q) = Z * r * p.gm1 * (p.Cv * T) := by ring
        rw [this]; positivity)
    refine HasDerivAt.change h (fun y => ?_) rfl
    show max 0 (Z * r * (y - p.q) * p.gm1) = _
    congr 1; ring
  refine ⟨?_, ?_, ?_, ?_, ?_, ?_, ?_, ?_⟩
  · rw [RoundTripT, hE r T hT, hTE]
  · refine ⟨?_, ?_, rfl, ?_, rfl⟩
    · rw [Twin, hE r T hT]
      show max 0 (Z * r * T * p.Cv * p.gm1) = max 0 (Z * r * (p.Cv * T + p.q - p.q) * p.gm1)
      congr 1; ring
    · rw [Twin, hE r T hT]
      simp only [qs, ratio_zero_small]
      have : (p.Cv * T + p.q - p.q) / (p.Cv * p.T0 + p.q - p.q) = T / p.T0 := by
        rw [add_sub_cancel_right, add_sub_cancel_right]; field_simp
      rw [this]
    · rw [Twin, hE r T hT]
      simp only [qs]
      congr 1; ring
  · refine HasDerivAt.changeOn (Ioi_mem_nhds hT) (hasDerivAt_affine p.Cv p.q T) ?_ rfl
    intro y hy
    rw [hE r y hy]
  · refine ⟨_, hPT, ?_⟩
    rw [hPv]
    refine HasDerivAt.change (hasDerivAt_const r (p.Cv * T + p.q)) (fun y => hE y T hT) ?_
    rw [show Z * r * T * p.Cv * p.gm1 - T * (Z * r * p.Cv * p.gm1) = 0 by ring, zero_div]
  · have h := (hasDerivAt_log_affine p.Cv (1 / p.T0) 0 T (by positivity)).add_const
      (p.gm1 * p.Cv * Real.log (1 / r / (1 / r0))
        - p.gm1 * p.Cv * p.b * (1 / (1 / r - p.b) - 1 / (1 / r0 - p.b))
          * (4 + p.b * (1 / (1 / r - p.b) + 1 / (1 / r0 - p.b))) + p.qp)
    refine HasDerivAt.change h (fun y => ?_) ?_
    · simp only [qs, ratio_zero_small, add_zero]
      rw [show y / p.T0 = 1 / p.T0 * y by ring]
      ring
    · simp only [qs]
      field_simp
      ring
  · refine ⟨_, hPT, ?_⟩
    set a0 := 1 / (1 / r0 - p.b) with ha0
    have hlog := hasDerivAt_log_recip (p.gm1 * p.Cv) r0 0 r hr.ne' (by positivity)
    have hcov : 1 / r - p.b = (1 - p.b * r) / r := by field_simp
    have ha : HasDerivAt (fun x => 1 / (1 / x - p.b)) (1 / (1 - p.b * r) ^ 2) r := by
      have h1 : HasDerivAt (fun x => 1 / x - p.b) (-1 / r ^ 2) r := by
        simpa [sub_eq_add_neg] using hasDerivAt_recip 1 (-p.b) r hr.ne'
      refine HasDerivAt.change ((hasDerivAt_const r (1 : ℝ)).div h1 (by rw [hcov]; positivity)) (fun y => rfl) ?_
      rw [hcov]
      have := hD.ne'
      field_simp
      ring
    have hprod := (((ha.sub_const a0).const_mul (p.gm1 * p.Cv * p.b)).mul
      (((ha.add_const a0).const_mul p.b).const_add 4))
    have h := (hlog.sub hprod).const_add (p.Cv * Real.log (T / p.T0) + p.qp)
    refine HasDerivAt.change h (fun y => ?_) ?_
    · simp only [qs, ratio_zero_small, add_zero, ← ha0]
      rw [show (1 / y / (1 / r0) : ℝ) = r0 / y by field_simp]
      simp only [Pi.sub_apply, Pi.mul_apply]
      ring
    · rw [hZ, zed_eq p n r hb]
      have hav : 1 / (1 / r - p.b) = r / (1 - p.b * r) := by rw [hcov]; field_simp
      simp only [hav, add_zero]
      generalize a0 = a0'
      obtain ⟨D, hDe⟩ : ∃ D, D = 1 - p.b * r := ⟨_, rfl⟩
      rw [← hDe] at hD ⊢
      have hD' := hD.ne'
      field_simp
      rw [hDe]
      ring
  · rw [hE r T hT]
    refine HasDerivAt.change hEder (fun y => rfl) ?_
    show Z * r * p.gm1 = r * (Z * p.gm1)
    ring
  · rw [hE r T hT]
    set e := p.Cv * T + p.q with he
    have heq : e - p.q = p.Cv * T := by rw [he]; ring
    refine ⟨p.dRhoZed (Num.exact n) r * ((e - p.q) * p.gm1), Z * r * p.gm1, ?_, hEder, ?_⟩
    · have h := hasDerivAt_max (c := 0) (hdz.mul_const ((e - p.q) * p.gm1)) (by
        show 0 < Z * r * ((e - p.q) * p.gm1)
        rw [heq]; positivity)
      refine HasDerivAt.change h (fun y => ?_) rfl
      simp only [qs]
      congr 1; ring
    · have h2 : p.qs (Num.exact n) r0 .pRE r e = Z * r * (e - p.q) * p.gm1 := by
        refine max_eq_right ?_
        change 0 ≤ Z * r * (e - p.q) * p.gm1
        rw [heq]; positivity
      have h1 : p.qs (Num.exact n) r0 .bRE r e
          = r * (e - p.q) * p.gm1 * (p.dRhoZed (Num.exact n) r + Z * Z * p.gm1) := by
        refine max_eq_right ?_
        change 0 ≤ r * (e - p.q) * p.gm1 * (p.dRhoZed (Num.exact n) r + Z * Z * p.gm1)
        rw [heq]; positivity
      rw [h1, h2]
      field_simp

/-- The function handed to the root finder vanishes exactly at the densities with the requested pressure. -/
theorem rootF_iff (p : Carnahan) (hp : p.Ok) (n : Num ℝ) (r0 P T r : ℝ) (hP : 0 ≤ P) (hT : 0 < T)
    (h0 : 0 ≤ r) (h1 : p.b * r < 1) :
    p.rootF (Num.exact n) P T r = 0 ↔ p.qs (Num.exact n) r0 .pRT r T = P := by
  obtain ⟨hg, hc, hbb, -, -⟩ := hp
  have hz := zed_pos p n r (by positivity) h1
  have hPr : p.qs (Num.exact n) r0 .pRT r T = p.zed (Num.exact n) r * r * T * p.Cv * p.gm1 :=
    max_eq_right (by positivity)
  have hD : (0 : ℝ) < 1 - p.b * r := by linarith
  have hk : 0 < p.Cv * p.gm1 * T := by positivity
  have key : p.rootF (Num.exact n) P T r
      = (p.zed (Num.exact n) r * r * T * p.Cv * p.gm1 - P) * ((1 - p.b * r) ^ 3 / (p.Cv * p.gm1 * T)) := by
    simp only [rootF, ratio_zero_small]
    rw [zed_eq p n r h1]
    obtain ⟨D, hDe⟩ : ∃ D, D = 1 - p.b * r := ⟨_, rfl⟩
    rw [← hDe] at hD ⊢
    have := hD.ne'
    field_simp
    rw [hDe]
    ring
  rw [hPr, key, mul_eq_zero, sub_eq_zero]
  constructor
  · rintro (h | h)
    · exact h
    · exact absurd h (by positivity)
  · exact Or.inl

/-- The function handed to the root finder is strictly increasing on the physical range. -/
theorem rootF_strictMono (p : Carnahan) (hp : p.Ok) (hb : 0 < p.b) (n : Num ℝ) (P T : ℝ) (hP : 0 ≤ P) (hT : 0 < T) :
    StrictMonoOn (p.rootF (Num.exact n) P T) (Set.Icc 0 (1 / p.b)) := by
  obtain ⟨hg, hc, -, -, -⟩ := hp
  have hk : 0 < p.Cv * p.gm1 * T := by positivity
  intro x hx y hy hxy
  have hy1 : p.b * y ≤ 1 := by
    have := hy.2; rw [le_div_iff₀ hb] at this; linarith
  have hxy' : p.b * x < p.b * y := mul_lt_mul_of_pos_left hxy hb
  have hx0 : 0 ≤ p.b * x := mul_nonneg hb.le hx.1
  simp only [rootF, ratio_zero_small]
  have h1 : x * (1 + p.b * x * (1 + p.b * x * (1 - p.b * x))) < y * (1 + p.b * y * (1 + p.b * y * (1 - p.b * y))) := by
    set u := p.b * x with hu
    set v := p.b * y with hv
    -- compare `u + u^2 + u^3 - u^4`
    have hpoly : u * (1 + u * (1 + u * (1 - u))) < v * (1 + v * (1 + v * (1 - v))) := by
      have hv0 : 0 ≤ v := by linarith
      have hu1 : u ≤ 1 := by linarith
      have : v * (1 + v * (1 + v * (1 - v))) - u * (1 + u * (1 + u * (1 - u)))
          = (v - u) * (1 + (v + u) + (v ^ 2 + v * u + u ^ 2) - (v + u) * (v ^ 2 + u ^ 2)) := by ring
      have h2 : 0 < 1 + (v + u) + (v ^ 2 + v * u + u ^ 2) - (v + u) * (v ^ 2 + u ^ 2) := by
        have e1 : v ^ 2 ≤ v := by nlinarith
        have e2 : u ^ 2 ≤ u := by nlinarith
        have e3 : (v + u) * (v ^ 2 + u ^ 2) ≤ 2 * (v ^ 2 + u ^ 2) :=
          mul_le_mul_of_nonneg_right (by linarith) (by positivity)
        nlinarith [mul_nonneg hv0 hx0]
      nlinarith [mul_pos (show 0 < v - u by linarith) h2]
    have hb' : x = u / p.b := by rw [hu]; field_simp
    have hb'' : y = v / p.b := by rw [hv]; field_simp
    rw [hb', hb'', div_mul_eq_mul_div, div_mul_eq_mul_div]
    exact div_lt_div_of_pos_right hpoly hb
  have h2 : P * (1 - p.b * y) ^ 3 / (p.Cv * p.gm1 * T) ≤ P * (1 - p.b * x) ^ 3 / (p.Cv * p.gm1 * T) := by
    apply div_le_div_of_nonneg_right _ hk.le
    apply mul_le_mul_of_nonneg_left _ hP
    exact pow_le_pow_left₀ (by linarith) (by linarith) 3
  linarith

/-- C39: for every nonnegative pressure and positive temperature there is exactly one density in
`[0, 1/b)` with that pressure. `DensityFromPressureTemperature` aborts or returns a density in `[0, 1/b]`
that is the centre of an interval containing it, and no wider than `2e-9` unless both end residuals of the
root find are within `1e-9` (no abort and closeness in both cases: `C39_density_accuracy`). -/
theorem C39_density_bracket (p : Carnahan) (hp : p.Ok) (n : Num ℝ) (r0 tiny P T : ℝ) (ht : 0 ≤ tiny)
    (hb : tiny < p.b) (hT : tiny < T) (hP : 0 < P) :
    ∃ ρ, 0 < ρ ∧ p.b * ρ < 1 ∧ p.qs (Num.exact n) r0 .pRT ρ T = P ∧
      (∀ ρ', 0 ≤ ρ' → p.b * ρ' < 1 → p.qs (Num.exact n) r0 .pRT ρ' T = P → ρ' = ρ) ∧
      ∀ x, p.density (Num.exact n) tiny P T = some x →
        ∃ s : RF ℝ, x = (s.a + s.b) / 2 ∧ 0 ≤ s.a ∧ s.b ≤ 1 / p.b ∧ ρ ∈ Set.Icc s.a s.b ∧
          (s.b - s.a ≤ 2 / 10 ^ 9 ∨ (|s.ya| ≤ 1 / 10 ^ 9 ∧ |s.yb| ≤ 1 / 10 ^ 9)) := by
  have hb0 : 0 < p.b := lt_of_le_of_lt ht hb
  have hT0 : 0 < T := lt_of_le_of_lt ht hT
  have hmono := rootF_strictMono p hp hb0 n P T hP.le hT0
  have hiff := fun r h0 h1 => rootF_iff p hp n r0 P T r hP.le hT0 h0 h1
  have hk : 0 < p.Cv * p.gm1 * T := by have := hp.Cv; have := hp.gm1; positivity
  have hf0 : p.rootF (Num.exact n) P T 0 < 0 := by
    simp only [rootF, ratio_zero_small]
    norm_num
    positivity
  have hf1 : 0 < p.rootF (Num.exact n) P T (1 / p.b) := by
    simp only [rootF, ratio_zero_small]
    rw [mul_one_div_cancel hb0.ne']
    norm_num
    positivity
  have hcont : Continuous (p.rootF (Num.exact n) P T) := by
    unfold rootF
    simp only [ratio_zero_small]
    fun_prop
  obtain ⟨st, x, s, ρ, hx, hρ, hmem, hd, -⟩ := C08_regulaFalsi_near_true_root (p.rootF (Num.exact n) P T) 0 0 0
    (1 / p.b) (1 / 10 ^ 9) (1 / 10 ^ 9) (by norm_num) (by norm_num) le_rfl (by positivity) hcont.continuousOn
    (by rw [sub_zero, sub_zero]; exact (mul_neg_of_neg_of_pos hf0 hf1).le)
  obtain ⟨st', x', s', hx', hxm, ha, -, -, hbb, -, -, -⟩ := C08_regulaFalsi_keeps_bracket (p.rootF (Num.exact n) P T) 0 0 0
    (1 / p.b) (1 / 10 ^ 9) (1 / 10 ^ 9) (by norm_num) (by norm_num) le_rfl (by positivity)
    (Or.inl (by rw [sub_zero, sub_zero]; exact (mul_neg_of_neg_of_pos hf0 hf1).le))
  have hs : st = st' ∧ x = x' ∧ s = s' := by
    rw [hx] at hx'
    simpa [and_assoc] using hx'
  obtain ⟨rfl, rfl, rfl⟩ := hs
  have hρ0 : 0 < ρ := by
    rcases (ha.trans hmem.1).eq_or_lt with h | h
    · rw [← h] at hρ; linarith
    · exact h
  have hρ1 : p.b * ρ < 1 := by
    have h := (hmem.2.trans hbb)
    rcases h.eq_or_lt with h | h
    · rw [h] at hρ; linarith
    · rw [lt_div_iff₀ hb0] at h; linarith
  refine ⟨ρ, hρ0, hρ1, (hiff ρ hρ0.le hρ1).1 hρ, ?_, ?_⟩
  · intro ρ' h0 h1 hρ'
    have := (hiff ρ' h0 h1).2 hρ'
    refine hmono.injOn ⟨h0, ?_⟩ ⟨hρ0.le, hmem.2.trans hbb⟩ (this.trans hρ.symm)
    rw [le_div_iff₀ hb0]; linarith
  · intro y hy
    unfold density at hy
    rw [if_neg (not_le.2 hT), if_neg (not_le.2 hb)] at hy
    change (match regulaFalsi 1000 (p.rootF (Num.exact n) P T) 0 0 0 (1 / p.b) (1 / 10 ^ 9) (1 / 10 ^ 9) with
      | some (⟨.success, some x⟩, _) => some (max 0 x)
      | _ => none) = some y at hy
    rw [hx] at hy
    cases st with
    | fail => simp at hy
    | success =>
      simp only [Option.some.injEq] at hy
      have hxnn : 0 ≤ x := by rw [hxm]; linarith [hmem.1, hmem.2]
      rw [max_eq_right hxnn] at hy
      subst hy
      obtain ⟨-, -, -, hstop⟩ := C08_regulaFalsi_always_sign_change 1000 (p.rootF (Num.exact n) P T) 0 0 0
        (1 / p.b) (1 / 10 ^ 9) (1 / 10 ^ 9) (by norm_num) (by norm_num) le_rfl (by positivity) _ s hx
      refine ⟨s, hxm, ha, hbb, hmem, ?_⟩
      rcases hstop rfl with h | h
      · left; linarith
      · exact Or.inr h

/-- C39: without covolume the density is exact, and at or below the smallest temperature it is zero. -/
theorem C39_density_ideal_limit (p : Carnahan) (hp : p.Ok) (n : Num ℝ) (r0 tiny P T : ℝ) (hb : p.b = 0)
    (ht : 0 ≤ tiny) (hP : 0 ≤ P) :
    (T ≤ tiny → p.density (Num.exact n) tiny P T = some 0) ∧
    (tiny < T → ∃ x, p.density (Num.exact n) tiny P T = some x ∧ p.qs (Num.exact n) r0 .pRT x T = P) := by
  constructor
  · intro h; simp [density, h]
  · intro h
    have hT : 0 < T := lt_of_le_of_lt ht h
    have hg := hp.gm1
    have hc := hp.Cv
    refine ⟨P / (p.Cv * p.gm1 * T), ?_, ?_⟩
    · simp [density, not_le.2 h, hb, ht, ratio_zero_small]
    · have h1 : p.b * (P / (p.Cv * p.gm1 * T)) < 1 := by rw [hb, zero_mul]; norm_num
      rw [← rootF_iff p hp n r0 P T _ hP hT (by positivity) h1]
      simp only [rootF, hb, ratio_zero_small]
      norm_num

/-- C39: the energy computed by `FillEos` from density and pressure has that pressure. -/
theorem C39_fill_energy (p : Carnahan) (hp : p.Ok) (n : Num ℝ) (r0 r P : ℝ) (hr : 0 < r) (hb : p.b * r < 1)
    (hP : 0 ≤ P) : p.qs (Num.exact n) r0 .pRE r (p.eFromRP (Num.exact n) r P) = P := by
  have hg := hp.gm1
  have hz := zed_pos p n r (mul_nonneg hp.b hr.le) hb
  simp only [qs, eFromRP, ratio_zero_small]
  have : p.zed (Num.exact n) r * r * (P / (p.zed (Num.exact n) r * r * p.gm1) + p.q - p.q) * p.gm1 = P := by
    field_simp
    ring
  rw [this, max_eq_right hP]

/-- C74 is violated: the reference bulk modulus of CarnahanStarling lacks a factor `gm1`; times `gm1` it is
the direct query at the reference density and temperature. -/
theorem C74_carnahan_bmod_violated (p : Carnahan) (hp : p.Ok) (n : Num ℝ) (r0 tiny : ℝ) (hr : 0 < r0)
    (hb : p.b * r0 < 1) (l0 l : Λ) :
    let t := p.eos (Num.exact n) r0 tiny l0
    p.gm1 * (t.ref l).bmod = t.q .bRT l (t.ref l).rho (t.ref l).temp ∧ 0 < (t.ref l).bmod ∧
    (p.gm1 ≠ 1 → (t.ref l).bmod ≠ t.q .bRT l (t.ref l).rho (t.ref l).temp) := by
  obtain ⟨hg, hc, hbb, h0, hP0⟩ := hp
  have hz := zed_pos p n r0 (by positivity) hb
  have hdzp : 0 < p.dRhoZed (Num.exact n) r0 := by
    simp only [dRhoZed, ratio_zero_small]
    have h0 : 0 ≤ p.b * r0 := by positivity
    have : 0 ≤ p.b * r0 * (8 - 2 * (p.b * r0)) / (1 - p.b * r0) ^ 4 := by
      apply div_nonneg (mul_nonneg h0 (by linarith)) (by positivity)
    linarith
  intro t
  have h1 : t.q .bRT l (t.ref l).rho (t.ref l).temp = r0 * p.Cv * p.T0 * p.gm1 *
      (p.dRhoZed (Num.exact n) r0 + p.zed (Num.exact n) r0 * p.zed (Num.exact n) r0 * p.gm1) :=
    max_eq_right (by positivity)
  have h2 : (t.ref l).bmod = r0 * p.Cv * p.T0 *
      (p.dRhoZed (Num.exact n) r0 + p.zed (Num.exact n) r0 * p.zed (Num.exact n) r0 * p.gm1) := rfl
  have h3 : 0 < (t.ref l).bmod := by rw [h2]; positivity
  have h4 : p.gm1 * (t.ref l).bmod = t.q .bRT l (t.ref l).rho (t.ref l).temp := by rw [h1, h2]; ring
  refine ⟨h4, h3, fun hne h => hne ?_⟩
  have h5 : (p.gm1 - 1) * (t.ref l).bmod = 0 := by rw [← h4] at h; linarith
  rcases mul_eq_zero.1 h5 with h6 | h6
  · linarith
  · exact absurd h6 h3.ne'

/-- C74: the other reference values of CarnahanStarling are the direct queries, the pressure whenever the
constructor's density is the density with pressure `P0` and temperature `T0`. -/
theorem C74_carnahan_reference_partial (p : Carnahan) (hp : p.Ok) (n : Num ℝ) (r0 tiny : ℝ) (l0 l : Λ)
    (hroot : p.qs (Num.exact n) r0 .pRT r0 p.T0 = p.P0) :
    let t := p.eos (Num.exact n) r0 tiny l0
    t.q .pRT l (t.ref l).rho (t.ref l).temp = (t.ref l).press ∧
    t.q .eRT l (t.ref l).rho (t.ref l).temp = (t.ref l).sie ∧
    t.q .cvRT l (t.ref l).rho (t.ref l).temp = (t.ref l).cv ∧
    (t.ref l).rho * t.q .gRT l (t.ref l).rho (t.ref l).temp = (t.ref l).dpde := by
  refine ⟨hroot, ?_, rfl, ?_⟩
  · show max p.q (p.Cv * p.T0 + p.q) = _
    exact max_eq_right (by have := mul_pos hp.Cv hp.T0; linarith)
  · show r0 * (p.zed (Num.exact n) r0 * p.gm1) = r0 * p.zed (Num.exact n) r0 * p.gm1
    ring

/-- Non-vacuity: a dense gas at half its limiting density. -/
example : Consistent ((⟨0.4, 7180000, 1, 0, 0, 293, 10 ^ 6, 29, 14⟩ : Carnahan).qs ⟨0, 0, 0, (0, 0)⟩ 0.001) 0.5 300 :=
  C39_carnahan_consistent _ ⟨by norm_num, by norm_num, by norm_num, by norm_num, by norm_num⟩ ⟨0, 0, 0, (0, 0)⟩ _
    (by norm_num) _ _ (by norm_num) (by norm_num) (by norm_num)

end Carnahan

/-! ## Special cases -/

/-- C75: StiffGas with `Pinf = 0`, `q = 0`, and NobleAbel and CarnahanStarling with no covolume and `q = 0`
give the IdealGas energy, pressure, temperature, heat capacity, bulk modulus and Gruneisen parameter, at
every positive density and every state, negative arguments included. -/
theorem C75_ideal_limits (gm1 Cv T0 P0 A Z sT sR r0 : ℝ) (n : Num ℝ) (k : Q) (hk : k ≠ .sRT ∧ k ≠ .sRE)
    (r x : ℝ) (hr : 0 < r) :
    let f := (⟨gm1, Cv, sT, sR, T0, P0, A, Z⟩ : Ideal).q (Num.exact n) k r x
    (⟨gm1, Cv, 0, 0, 0, T0, P0, A, Z⟩ : Stiff).qs (Num.exact n) k r x = f ∧
    (⟨gm1, Cv, 0, 0, 0, T0, P0, A, Z⟩ : Noble).qs (Num.exact n) k r x = f ∧
    (⟨gm1, Cv, 0, 0, 0, T0, P0, A, Z⟩ : Carnahan).qs (Num.exact n) r0 k r x = f := by
  obtain ⟨h1, h2⟩ := hk
  have hr' := hr.ne'
  have e1 : (r * x) / (r * Cv) = x / Cv := mul_div_mul_left _ _ hr'
  have e2 : r * Cv * x / r = Cv * x := by field_simp
  cases k
  case sRT => exact absurd rfl h1
  case sRE => exact absurd rfl h2
  all_goals
    simp only [Ideal.q, Stiff.qs, Noble.qs, Carnahan.qs, Carnahan.zed, Carnahan.dRhoZed, ratio_zero_small,
      sub_zero, add_zero, zero_mul, mul_zero, neg_zero, one_pow, div_one, mul_one, one_mul, e1, e2,
      and_self, true_and]
    try (refine ⟨?_, ?_, ?_⟩ <;> congr 1 <;> ring)
    try (refine ⟨?_, ?_⟩ <;> congr 1 <;> ring)
    try (congr 1; ring)

/-- C75: the entropies reduce as well: with no entropy offset and the IdealGas entropy measured from the same reference state
(temperature `T0`, pressure `P0`), all four EOS give the same entropy at every positive density and temperature or energy. -/
theorem C75_ideal_limits_entropy (gm1 Cv T0 P0 A Z : ℝ) (hg : 0 < gm1) (hc : 0 < Cv) (hT : 0 < T0) (hP : 0 < P0) (n : Num ℝ) (k : Q)
    (hk : k = .sRT ∨ k = .sRE) (r x : ℝ) (hr : 0 < r) (hx : 0 < x) :
    let rho0 := P0 / (gm1 * Cv * T0)
    let f := (⟨gm1, Cv, T0, rho0, T0, P0, A, Z⟩ : Ideal).q (Num.exact n) k r x
    (⟨gm1, Cv, 0, 0, 0, T0, P0, A, Z⟩ : Stiff).qs (Num.exact n) k r x = f ∧
    (⟨gm1, Cv, 0, 0, 0, T0, P0, A, Z⟩ : Noble).qs (Num.exact n) k r x = f ∧
    (⟨gm1, Cv, 0, 0, 0, T0, P0, A, Z⟩ : Carnahan).qs (Num.exact n) rho0 k r x = f := by
  have e1 : P0 / (gm1 * Cv * T0) / r = 1 / r / (gm1 * Cv * T0 / P0) := by field_simp
  have e2 : 1 / r / (1 / (P0 / (gm1 * Cv * T0))) = 1 / r / (gm1 * Cv * T0 / P0) := by field_simp
  have e3 : max 0 (x / Cv) / T0 = x / (Cv * T0) := by rw [max_eq_right (by positivity)]; field_simp
  have e4 : P0 / P0 = 1 := div_self hP.ne'
  rcases hk with rfl | rfl <;>
  simp only [Ideal.q, Stiff.qs, Noble.qs, Carnahan.qs, Stiff.rho0, Stiff.vol0, Stiff.sie0, Noble.vol0, Noble.sie0, ratio_zero_small,
      sub_zero, add_zero, zero_mul, mul_zero, mul_one, one_mul,
      e1, e2, e3, e4]
  · simp [Num.exact]
  · simp [Num.exact, mul_comm]

/-- Air-like parameters meet the hypotheses. -/
example : ∃ gm1 Cv T0 P0 r x : ℝ, 0 < gm1 ∧ 0 < Cv ∧ 0 < T0 ∧ 0 < P0 ∧ 0 < r ∧ 0 < x :=
  ⟨4 / 10, 7180000, 298, 1000000, 1 / 1000, 300, by norm_num, by norm_num, by norm_num, by norm_num, by norm_num, by norm_num⟩

end Verif.Gases
