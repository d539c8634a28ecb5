import Verif.Props.Eos.GruneisenRho
import Verif.Props.RootFindRate
import Mathlib.Topology.Order.Compact

set_option linter.unusedSectionVars false
set_option linter.dupNamespace false

/-! # C76: the cubic fits — the root actually returned, for every position of the fixed guess -/

namespace Verif.Grun

open Verif.RootFind

/-- The search interval lies in `[0,1]`. -/
theorem bracket_bounds (s1 s2 s3 : ℝ) :
    0 ≤ (bracket s1 s2 s3).1 ∧ (bracket s1 s2 s3).2 ≤ 1 := by
  simp only [bracket]
  split_ifs <;> simp

/-- A bracket search that starts below the interval searches from the guess on. -/
theorem regulaFalsi_low_guess (fuel : Nat) (f : ℝ → ℝ) (g a b xt yt : ℝ) (ha : 0 < f a) (hg : 0 < f g) (hb : f b < 0) :
    regulaFalsi fuel f 0 g a b xt yt = regulaFalsi fuel f 0 g g b xt yt := by
  have h1 : ¬ f a * f g ≤ 0 := not_le.2 (mul_pos ha hg)
  have h2 : ¬ f g * f g ≤ 0 := not_le.2 (mul_pos hg hg)
  have h3 : f g * f b ≤ 0 := (mul_neg_of_pos_of_neg hg hb).le
  unfold regulaFalsi
  simp only [initBracket, checkBracket, sub_zero, h1, h2, h3, decide_true, decide_false, if_true, if_false,
    Bool.false_eq_true]

/-- A search whose guess lies above the interval returns a value between `0` and the guess. -/
theorem regulaFalsi_high_guess (f : ℝ → ℝ) (g a b xt yt xr : ℝ) (o : Option (RF ℝ)) (ha0 : 0 ≤ a) (hab : a ≤ b) (hbg : b < g)
    (ha : 0 < f a) (hb : f b < 0) (hx : 0 ≤ xt) (hy : 0 ≤ yt)
    (h : regulaFalsi 1000 f 0 g a b xt yt = some (⟨.success, some xr⟩, o)) : 0 < xr ∧ xr ≤ g := by
  by_cases h1 : f a * f g ≤ 0
  · have e : regulaFalsi 1000 f 0 g a b xt yt = regulaFalsi 1000 f 0 g a g xt yt := by
      unfold regulaFalsi
      simp only [initBracket, checkBracket, sub_zero, h1, decide_true, if_true]
    rw [e] at h
    obtain ⟨st, xr', s, e1, e2, e3, e4, e5, e6, e7, -⟩ := C08_regulaFalsi_keeps_bracket f 0 g a g xt yt hx hy
      (hab.trans hbg.le) le_rfl (Or.inl (by simpa using h1))
    rw [e1] at h
    simp only [Option.some.injEq, Prod.mk.injEq, Res.mk.injEq] at h
    obtain ⟨⟨-, rfl⟩, -⟩ := h
    refine ⟨?_, by linarith⟩
    by_contra hn
    push Not at hn
    have hsa : s.a = 0 := by linarith
    have hsb : s.b = 0 := by linarith
    rw [hsa, hsb] at e7
    have ha' : a = 0 := by linarith
    rw [ha'] at ha
    nlinarith [mul_pos ha ha]
  · have h2 : f g * f b ≤ 0 := by
      have : 0 < f g := by
        by_contra hh; push Not at hh; exact h1 (mul_nonpos_of_nonneg_of_nonpos ha.le hh)
      exact (mul_neg_of_pos_of_neg this hb).le
    unfold regulaFalsi at h
    simp only [initBracket, checkBracket, sub_zero, h1, h2, decide_true, decide_false, if_true, if_false,
      Bool.false_eq_true] at h
    have hc : ¬ rfCond xt yt (rfStart ⟨g, b, f g, f b⟩).2 := by
      rintro ⟨hh, -⟩
      simp only [rfStart] at hh
      linarith
    rw [rfLoop_stop hc] at h
    simp only [rfStart, Option.some.injEq, Prod.mk.injEq, Res.mk.injEq] at h
    obtain ⟨⟨-, rfl⟩, -⟩ := h
    constructor <;> linarith

/-- `Steep s1 s2 s3 x hi m`: up to `hi`, every chord of the denominator through its zero `x` falls at least at rate `m`. -/
def Steep (s1 s2 s3 x hi m : ℝ) : Prop :=
  (∀ y, 0 ≤ y → y ≤ x → m * (x - y) ≤ poly s1 s2 s3 y) ∧ (∀ y, x ≤ y → y ≤ hi → poly s1 s2 s3 y ≤ -(m * (y - x)))

/-- C76: for a cubic fit with a sign change over the search interval, the first singular compression is a simple zero,
so that there is such a rate. -/
theorem C76_cubic_root_simple (s1 s2 s3 : ℝ) (h3 : s3 ≠ 0)
    (hs : poly s1 s2 s3 (bracket s1 s2 s3).1 * poly s1 s2 s3 (bracket s1 s2 s3).2 < 0) :
    ∃ x m, FirstRoot s1 s2 s3 (some x) ∧ x < (bracket s1 s2 s3).2 ∧ 0 < m ∧ Steep s1 s2 s3 x (bracket s1 s2 s3).2 m := by
  obtain ⟨hlo, hc, -, -⟩ := C76_cubic_bracket s1 s2 s3 h3
  obtain ⟨x, hx, hx1, hx2, huniq⟩ := hc hs
  obtain ⟨f1, f2, f3, f4⟩ := hx
  have hhi : poly s1 s2 s3 (bracket s1 s2 s3).2 < 0 := by
    by_contra hn; push Not at hn; nlinarith
  -- the quotient
  set k : ℝ → ℝ := fun t => s1 + s2 * (t + x) + s3 * (t ^ 2 + t * x + x ^ 2) with hk
  have hkc : Continuous k := by simp only [hk]; fun_prop
  have hfac : ∀ t, poly s1 s2 s3 t = (x - t) * k t := fun t => by
    have h := f3
    simp only [poly] at h
    simp only [poly, hk]
    linear_combination h
  have hposl : ∀ y, 0 ≤ y → y < x → 0 < poly s1 s2 s3 y := fun y hy hyx =>
    pos_of_no_root (poly_continuous s1 s2 s3) (by rw [poly_zero]; norm_num)
      (fun z hz hzb => f4 z hz (lt_of_le_of_lt hzb hyx)) hy le_rfl
  have hnegr : ∀ y, x < y → y ≤ (bracket s1 s2 s3).2 → poly s1 s2 s3 y < 0 := fun y hy hyh => by
    by_contra hn
    push Not at hn
    obtain ⟨z, ⟨hz1, hz2⟩, hz⟩ := intermediate_value_Icc' hyh (poly_continuous s1 s2 s3).continuousOn
      (show (0 : ℝ) ∈ Set.Icc _ _ from ⟨hhi.le, hn⟩)
    have := huniq z (f1.le.trans (hy.le.trans hz1)) hz2 hz
    linarith
  have hkx : 0 < k x := by
    have hk0 : 0 ≤ k x := by
      -- limit of positive values from the left
      by_contra hn
      push Not at hn
      have hk00 : 0 < k 0 := by
        have := hfac 0
        rw [poly_zero] at this
        by_contra hh; push Not at hh; nlinarith
      obtain ⟨z, ⟨hz1, hz2⟩, hz⟩ := intermediate_value_Icc' f1.le hkc.continuousOn
        (show (0 : ℝ) ∈ Set.Icc (k x) (k 0) from ⟨hn.le, hk00.le⟩)
      have hzx : z < x := lt_of_le_of_ne hz2 (fun e => by rw [e] at hz; linarith)
      have := hposl z hz1 hzx
      rw [hfac, hz] at this
      linarith
    rcases eq_or_lt_of_le hk0 with h | h
    · exfalso
      -- a double zero: factor again
      have hd : s1 + 2 * s2 * x + 3 * s3 * x ^ 2 = 0 := by
        simp only [hk] at h; linear_combination -h
      have hfac2 : ∀ t, poly s1 s2 s3 t = -(x - t) ^ 2 * (s2 + s3 * (2 * x + t)) := fun t => by
        rw [hfac]; simp only [hk]; linear_combination (x - t) * hd
      set q : ℝ → ℝ := fun t => s2 + s3 * (2 * x + t) with hq
      have hqhi : 0 < q (bracket s1 s2 s3).2 := by
        have := hhi
        rw [hfac2] at this
        by_contra hh
        push Not at hh
        have hsq := sq_nonneg (x - (bracket s1 s2 s3).2)
        simp only [hq] at hh
        nlinarith [mul_nonneg hsq (neg_nonneg.2 hh)]
      have hq0 : q 0 < 0 := by
        have := hfac2 0
        rw [poly_zero] at this
        by_contra hh
        push Not at hh
        simp only [hq] at hh
        nlinarith [mul_nonneg (sq_nonneg (x - 0)) hh]
      -- the zero of q
      obtain ⟨z, ⟨hz1, hz2⟩, hz⟩ := intermediate_value_Icc (f1.le.trans hx2.le)
        (show Continuous q by simp only [hq]; fun_prop).continuousOn
        (show (0 : ℝ) ∈ Set.Icc (q 0) (q (bracket s1 s2 s3).2) from ⟨hq0.le, hqhi.le⟩)
      have hzx : z = x := huniq z hz1 hz2 (by
        rw [hfac2]; simp only [hq] at hz; rw [hz, mul_zero])
      subst hzx
      -- triple zero
      simp only [hq] at hz hqhi hq0
      have hs2 : s2 = -3 * s3 * z := by linear_combination hz
      have hs1 : s1 = 3 * s3 * z ^ 2 := by rw [hs2] at hd; linear_combination hd
      have hs3 : 0 < s3 := by nlinarith
      have hdisc : 0 ≤ disc s1 s2 s3 := disc_nonneg_of_double s1 s2 s3 h3 z f3 hd
      have hsq : s2 ^ 2 - 3 * s3 * s1 = 0 := by rw [hs2, hs1]; ring
      have hb : bracket s1 s2 s3 = (0, min z 1) := by
        have e1 : s2 / (-3 * s3) = z := by rw [hs2]; field_simp
        simp only [bracket, if_pos hdisc, hsq, Real.sqrt_zero, add_zero, sub_zero, e1, min_self, if_neg (not_lt.2 hs3.le),
          if_pos f1, gt_iff_lt]
      rw [hb] at hx2
      have : min z 1 ≤ z := min_le_left _ _
      simp only at hx2
      linarith
    · exact h
  have hkpos : ∀ t ∈ Set.Icc 0 (bracket s1 s2 s3).2, 0 < k t := fun t ht => by
    rcases lt_trichotomy t x with h | h | h
    · have := hposl t ht.1 h
      rw [hfac] at this
      exact (mul_pos_iff_of_pos_left (by linarith)).1 this
    · rw [h]; exact hkx
    · have := hnegr t h ht.2
      rw [hfac] at this
      by_contra hn
      push Not at hn
      nlinarith
  have hne : (Set.Icc 0 (bracket s1 s2 s3).2).Nonempty := ⟨0, le_rfl, f1.le.trans hx2.le⟩
  obtain ⟨t0, ht0, hmin⟩ := isCompact_Icc.exists_isMinOn hne hkc.continuousOn
  refine ⟨x, k t0, ⟨f1, f2, f3, f4⟩, hx2, hkpos t0 ht0, fun y hy hyx => ?_, fun y hxy hyh => ?_⟩
  · rw [hfac, mul_comm]
    exact mul_le_mul_of_nonneg_left (hmin ⟨hy, hyx.trans hx2.le⟩) (by linarith)
  · rw [hfac]
    have := mul_le_mul_of_nonneg_left (hmin ⟨f1.le.trans hxy, hyh⟩ : k t0 ≤ k y) (show 0 ≤ y - x by linarith)
    linarith

/-- C76: the compression returned for a cubic fit, for every position of the fixed guess: when the constructor does not
abort, it lies strictly in `(0,1)`, and either it is at most `0.001` (the guess, when the fit is singular before that),
or it is within `max(100 ε, 20 ε / m)` of the first singular compression, `m` being any rate at which the
denominator falls through its zero. -/
theorem C76_cubic_root (ε s1 s2 s3 : ℝ) (hε : 0 < ε) (h3 : s3 ≠ 0) (x m : ℝ) (hm : 0 < m)
    (hs : poly s1 s2 s3 (bracket s1 s2 s3).1 * poly s1 s2 s3 (bracket s1 s2 s3).2 < 0)
    (hx : FirstRoot s1 s2 s3 (some x)) (hst : Steep s1 s2 s3 x (bracket s1 s2 s3).2 m) (xr : ℝ)
    (h : cubicRoot ε s1 s2 s3 = some (some xr)) :
    0 < xr ∧ xr < 1 ∧ (xr ≤ 1 / 1000 ∨ |xr - x| ≤ max (100 * ε) (20 * ε / m)) := by
  obtain ⟨hlo, hc, -, -⟩ := C76_cubic_bracket s1 s2 s3 h3
  obtain ⟨x', hx', hx1, hx2, huniq⟩ := hc hs
  obtain ⟨hb0, hb1⟩ := bracket_bounds s1 s2 s3
  have hxx : x' = x := by
    rcases lt_trichotomy x' x with hh | hh | hh
    · exact absurd hx'.2.2.1 (hx.2.2.2 x' hx'.1 hh)
    · exact hh
    · exact absurd hx.2.2.1 (hx'.2.2.2 x hx.1 hh)
  subst hxx
  have hhi : poly s1 s2 s3 (bracket s1 s2 s3).2 < 0 := by
    by_contra hn; push Not at hn; nlinarith
  have hlo0 : 0 < poly s1 s2 s3 (bracket s1 s2 s3).1 := by linarith
  have hposl : ∀ y, 0 ≤ y → y < x' → 0 < poly s1 s2 s3 y := fun y hy hyx =>
    pos_of_no_root (poly_continuous s1 s2 s3) (by rw [poly_zero]; norm_num)
      (fun z hz hzb => hx.2.2.2 z hz (lt_of_le_of_lt hzb hyx)) hy le_rfl
  simp only [cubicRoot, if_pos hs] at h
  set lo := (bracket s1 s2 s3).1
  set hi := (bracket s1 s2 s3).2
  -- the successful call
  have hcall : ∃ o, regulaFalsi 1000 (poly s1 s2 s3) 0 (1 / 1000) lo hi (100 * ε) (100 / 10 * ε)
      = some (⟨.success, some xr⟩, o) := by
    revert h
    generalize regulaFalsi 1000 (poly s1 s2 s3) 0 (1 / 1000) lo hi (100 * ε) (100 / 10 * ε) = R
    intro h
    rcases R with _ | ⟨⟨st, xo⟩, o⟩
    · simp at h
    · cases st <;> cases xo <;> simp at h
      exact ⟨o, by rw [h]⟩
  obtain ⟨o, hcall⟩ := hcall
  by_cases hg : hi < 1 / 1000
  · obtain ⟨p1, p2⟩ := regulaFalsi_high_guess (poly s1 s2 s3) (1 / 1000) lo hi (100 * ε) (100 / 10 * ε) xr o hb0
      (hx1.le.trans hx2.le) hg hlo0 hhi (by positivity) (by positivity) hcall
    exact ⟨p1, by linarith, Or.inl p2⟩
  · push Not at hg
    -- the left end the search really starts from
    obtain ⟨a, ha0, hax, hag, hcall⟩ : ∃ a, 0 ≤ a ∧ a < x' ∧ a ≤ 1 / 1000 ∧
        regulaFalsi 1000 (poly s1 s2 s3) 0 (1 / 1000) a hi (100 * ε) (100 / 10 * ε) = some (⟨.success, some xr⟩, o) := by
      rcases le_or_gt lo (1 / 1000) with hl | hl
      · exact ⟨lo, hb0, hx1, hl, hcall⟩
      · refine ⟨1 / 1000, by norm_num, by linarith, le_rfl, ?_⟩
        rw [← regulaFalsi_low_guess 1000 (poly s1 s2 s3) (1 / 1000) lo hi _ _ hlo0
          (hposl _ (by norm_num) (by linarith)) hhi]
        exact hcall
    have hpa := hposl a ha0 hax
    obtain ⟨st, xr', s, e1, e2, e3, e4, e5, e6, e7, -⟩ := C08_regulaFalsi_keeps_bracket (poly s1 s2 s3) 0 (1 / 1000)
      a hi (100 * ε) (100 / 10 * ε) (by positivity) (by positivity) hag hg
      (Or.inl (by rw [sub_zero, sub_zero]; exact (mul_neg_of_pos_of_neg hpa hhi).le))
    have hacc := C61_chord_accuracy 1000 (poly s1 s2 s3) 0 (1 / 1000) a hi (100 * ε) (100 / 10 * ε) (-1) m x' xr o
      (Or.inr rfl) hm hax.le hx2.le hx.2.2.1
      (fun y hy hyx => by have := hst.1 y (ha0.trans hy) hyx; linarith)
      (fun y hy hyx => by have := hst.2 y hy hyx; linarith) hag hg (by positivity) (by positivity) hcall
    rw [e1] at hcall
    simp only [Option.some.injEq, Prod.mk.injEq, Res.mk.injEq] at hcall
    obtain ⟨⟨-, rfl⟩, -⟩ := hcall
    simp only [sub_zero] at e7
    refine ⟨?_, ?_, Or.inr ?_⟩
    · by_contra hn
      push Not at hn
      have hsa : s.a = 0 := by linarith
      have hsb : s.b = 0 := by linarith
      rw [hsa, hsb, poly_zero] at e7
      norm_num at e7
    · by_contra hn
      push Not at hn
      have hsa : s.a = 1 := by linarith
      have hsb : s.b = 1 := by linarith
      have hh1 : hi = 1 := by linarith
      rw [hsa, hsb] at e7
      rw [hh1] at hhi
      nlinarith [mul_pos_of_neg_of_neg hhi hhi]
    · have : 2 * (100 / 10 * ε) / m = 20 * ε / m := by ring
      rw [this] at hacc
      exact hacc

/-- C76 (partial): consequently the denominator is positive at every density from the reference density up to `0.99` times the
automatic maximum (at every density at all when none is set), for every cubic fit for which the constructor does not
abort and whose denominator falls through its first zero `x` steeply enough for the root finder's tolerance to be
covered by the safety factor: `max(100 ε, 20 ε / m) ≤ (1 - x) / 100`. Not covered: the fits for which it is not (a nearly
double zero, for which the claim is false: `C76_double_zero_violated`; or one within `10^4 ε` of compression one). -/
theorem C76_cubic_no_singularity_partial (ε s1 s2 s3 rho0 : ℝ) (hε : 0 < ε) (hε1 : ε ≤ 1) (h3 : ε ≤ |s3|) (h0 : 0 < rho0)
    (o : Option ℝ) (ho : computeRhoMax ε s1 s2 s3 rho0 = some o)
    (hst : ∀ x, FirstRoot s1 s2 s3 (some x) → x < (bracket s1 s2 s3).2 → ∃ m, 0 < m ∧ Steep s1 s2 s3 x (bracket s1 s2 s3).2 m ∧
      max (100 * ε) (20 * ε / m) ≤ (1 - x) / 100)
    (r : ℝ) (hr : rho0 ≤ r) (hm : ∀ M, o = some M → r ≤ 0.99 * M) :
    0 < poly s1 s2 s3 (1 - rho0 / r) := by
  have hr0 : 0 < r := lt_of_lt_of_le h0 hr
  have h30 : s3 ≠ 0 := by rintro rfl; simp at h3; linarith
  have heta : 0 ≤ 1 - rho0 / r := by
    rw [sub_nonneg, div_le_one hr0]; exact hr
  have heta1 : 1 - rho0 / r < 1 := by
    have : 0 < rho0 / r := by positivity
    linarith
  obtain ⟨hlo, hc1, hc2, hc3⟩ := C76_cubic_bracket s1 s2 s3 h30
  obtain ⟨hb0, hb1⟩ := bracket_bounds s1 s2 s3
  have hroot : etaRoot ε s1 s2 s3 = cubicRoot ε s1 s2 s3 := by
    simp [etaRoot, not_lt.2 h3]
  have key : ∀ x, (∀ y, 0 < y → y < x → poly s1 s2 s3 y ≠ 0) → 1 - rho0 / r < x → 0 < poly s1 s2 s3 (1 - rho0 / r) :=
    fun x hx hlt => pos_of_no_root (poly_continuous s1 s2 s3) (by rw [poly_zero]; norm_num)
      (fun y hy hyb => hx y hy (lt_of_le_of_lt hyb hlt)) heta le_rfl
  by_cases hs : poly s1 s2 s3 (bracket s1 s2 s3).1 * poly s1 s2 s3 (bracket s1 s2 s3).2 < 0
  · obtain ⟨x, hx, hx1, hx2, -⟩ := hc1 hs
    obtain ⟨m, hm0, hsteep, hδ⟩ := hst x hx hx2
    cases hcr : cubicRoot ε s1 s2 s3 with
    | none => simp [computeRhoMax, hroot, hcr] at ho
    | some o' =>
      cases o' with
      | none =>
        exfalso
        simp only [cubicRoot, if_pos hs] at hcr
        revert hcr
        generalize regulaFalsi 1000 (poly s1 s2 s3) 0 (1 / 1000) _ _ (100 * ε) (100 / 10 * ε) = R
        intro hcr
        rcases R with _ | ⟨⟨st, xo⟩, o2⟩
        · simp at hcr
        · cases st <;> cases xo <;> simp at hcr
      | some xr =>
        obtain ⟨p1, p2, p3⟩ := C76_cubic_root ε s1 s2 s3 hε h30 x m hm0 hs hx hsteep xr hcr
        have ho' : o = some (rho0 / ((1 - xr) + ε)) := by
          simp only [computeRhoMax, hroot, hcr, gt_iff_lt, p1, p2, and_self, if_true, Option.some.injEq] at ho
          exact ho.symm
        have hle := hm _ ho'
        have hp : 0 < (1 - xr) + ε := by linarith
        have hle' : r * ((1 - xr) + ε) ≤ 0.99 * rho0 := by
          have := mul_le_mul_of_nonneg_right hle hp.le
          rwa [mul_assoc, div_mul_cancel₀ _ hp.ne'] at this
        rcases p3 with p3 | p3
        · exfalso
          nlinarith
        · refine key x hx.2.2.2 ?_
          have hxr : xr ≤ x + (1 - x) / 100 := by
            have := (abs_le.1 (p3.trans hδ)).2; linarith
          have hx1 := hx.2.1
          have : 1 - x < rho0 / r := by
            rw [lt_div_iff₀ hr0]
            nlinarith [mul_pos hr0 hε, mul_le_mul_of_nonneg_left hxr hr0.le]
          linarith
  · -- no sign change
    have hhi : 0 ≤ poly s1 s2 s3 (bracket s1 s2 s3).2 := by
      by_contra hn
      push Not at hn
      exact hs (mul_neg_of_pos_of_neg (by linarith) hn)
    rcases eq_or_lt_of_le hhi with hz | hpos
    · obtain ⟨q1, q2, q3⟩ := hc3 hz.symm
      rcases eq_or_lt_of_le q2 with q2 | q2
      · rw [q2] at q3
        exact key 1 q3 heta1
      · have hll : ¬ |poly s1 s2 s3 (bracket s1 s2 s3).1| < ε := by
          rw [abs_of_pos (by linarith)]; linarith
        have hcr : cubicRoot ε s1 s2 s3 = some (some (bracket s1 s2 s3).2) := by
          have hh : |poly s1 s2 s3 (bracket s1 s2 s3).2| < ε := by rw [← hz, abs_zero]; exact hε
          simp only [cubicRoot, if_neg hs, if_neg hll, if_pos hh]
        have ho' : o = some (rho0 / ((1 - (bracket s1 s2 s3).2) + ε)) := by
          simp only [computeRhoMax, hroot, hcr, gt_iff_lt, q1, q2, and_self, if_true, Option.some.injEq] at ho
          exact ho.symm
        have hle := hm _ ho'
        have hpp : 0 < rho0 / ((1 - (bracket s1 s2 s3).2) + ε) := div_pos h0 (by linarith)
        exact key _ q3 (eta_lt hε q2 h0 hr0 (by linarith))
    · exact key 1 (hc2 hpos) heta1

/-- The rate for a fit with nonnegative coefficients: at least the linear one. -/
theorem steep_of_nonneg (s1 s2 s3 x hi : ℝ) (h1 : 0 ≤ s1) (h2 : 0 ≤ s2) (h3 : 0 ≤ s3) (hx0 : 0 ≤ x)
    (hx : poly s1 s2 s3 x = 0) : Steep s1 s2 s3 x hi s1 := by
  have hfac : ∀ t, poly s1 s2 s3 t = (x - t) * (s1 + s2 * (t + x) + s3 * (t ^ 2 + t * x + x ^ 2)) := fun t => by
    have h := hx
    simp only [poly] at h
    simp only [poly]
    linear_combination h
  refine ⟨fun y hy hyx => ?_, fun y hxy _ => ?_⟩
  · rw [hfac]
    have : 0 ≤ (x - y) * (s2 * (y + x) + s3 * (y ^ 2 + y * x + x ^ 2)) := mul_nonneg (by linarith) (by positivity)
    linarith
  · rw [hfac]
    have hy : 0 ≤ y := hx0.trans hxy
    have : 0 ≤ (y - x) * (s2 * (y + x) + s3 * (y ^ 2 + y * x + x ^ 2)) := mul_nonneg (by linarith) (by positivity)
    linarith

/-- C76: for the usual cubic fits, with nonnegative coefficients and `s1 ≥ 1/5`, all that remains is that the singular
compression is not within `10^4 ε` of one. -/
theorem C76_cubic_usual (ε s1 s2 s3 rho0 : ℝ) (hε : 0 < ε) (hε1 : ε ≤ 1) (h1 : 1 / 5 ≤ s1) (h2 : 0 ≤ s2) (h3 : ε ≤ s3)
    (h0 : 0 < rho0) (o : Option ℝ) (ho : computeRhoMax ε s1 s2 s3 rho0 = some o)
    (hx : poly s1 s2 s3 (1 - 10000 * ε) ≤ 0 ∨ 0 ≤ poly s1 s2 s3 1) (hε2 : 10000 * ε < 1)
    (r : ℝ) (hr : rho0 ≤ r) (hm : ∀ M, o = some M → r ≤ 0.99 * M) :
    0 < poly s1 s2 s3 (1 - rho0 / r) := by
  have h30 : 0 ≤ s3 := hε.le.trans h3
  refine C76_cubic_no_singularity_partial ε s1 s2 s3 rho0 hε hε1 (by rw [abs_of_nonneg h30]; exact h3) h0 o ho
    (fun x hfx _ => ?_) r hr hm
  obtain ⟨f1, f2, f3, f4⟩ := hfx
  have hs := steep_of_nonneg s1 s2 s3 x (bracket s1 s2 s3).2 (by linarith) h2 h30 f1.le f3
  have hs' := steep_of_nonneg s1 s2 s3 x 1 (by linarith) h2 h30 f1.le f3
  refine ⟨s1, by linarith, hs, ?_⟩
  have hx1 : x ≤ 1 - 10000 * ε := by
    rcases hx with hx | hx
    · by_contra hn
      push Not at hn
      have := hs'.1 (1 - 10000 * ε) (by linarith) hn.le
      nlinarith
    · have := hs'.2 1 f2.le le_rfl
      nlinarith
  have h20 : 20 * ε / s1 ≤ 100 * ε := by
    rw [div_le_iff₀ (by linarith)]; nlinarith
  rw [max_eq_left h20]
  linarith

/-- Non-vacuity: the fit `1 - eta - eta^2 - eta^3` meets every hypothesis on the fit, with its sign change, a first
singular compression and a rate. -/
example : ∃ x m, FirstRoot 1 1 1 (some x) ∧ 0 < m ∧ Steep 1 1 1 x (bracket 1 1 1).2 m := by
  have hb : bracket 1 1 1 = (0, 1) := by rw [bracket, if_neg (by norm_num [disc])]
  obtain ⟨x, m, h1, -, h2, h3⟩ := C76_cubic_root_simple 1 1 1 one_ne_zero (by rw [hb]; norm_num [poly])
  exact ⟨x, m, h1, h2, h3⟩

example (o : Option ℝ) (ho : computeRhoMax (1 / 10 ^ 16) 1 1 1 2 = some o) (r : ℝ) (hr : 2 ≤ r)
    (hm : ∀ M, o = some M → r ≤ 0.99 * M) : 0 < poly 1 1 1 (1 - 2 / r) :=
  C76_cubic_usual (1 / 10 ^ 16) 1 1 1 2 (by norm_num) (by norm_num) (by norm_num) (by norm_num) (by norm_num) (by norm_num)
    o ho (Or.inl (by norm_num [poly])) (by norm_num) r hr hm

end Verif.Grun
