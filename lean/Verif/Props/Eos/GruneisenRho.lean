import Verif.Props.Eos.Gruneisen
import Mathlib.Topology.Order.IntermediateValue

set_option linter.unusedSectionVars false
set_option linter.dupNamespace false

/-! # C76: the automatic maximum density of Gruneisen stays below the singular compression -/

namespace Verif.Grun

open Verif.RootFind

/-- The denominator is positive at zero compression. -/
theorem poly_zero (s1 s2 s3 : ℝ) : poly s1 s2 s3 0 = 1 := by simp [poly]

theorem poly_continuous (s1 s2 s3 : ℝ) : Continuous (poly s1 s2 s3) := by
  unfold poly; fun_prop

/-- A continuous function that is positive at `0` and has no zero in `(0, b]` is positive on `[0, b]`. -/
theorem pos_of_no_root {f : ℝ → ℝ} (hf : Continuous f) (h0 : 0 < f 0) {b : ℝ} (h : ∀ x, 0 < x → x ≤ b → f x ≠ 0)
    {x : ℝ} (hx : 0 ≤ x) (hb : x ≤ b) : 0 < f x := by
  by_contra hn
  push Not at hn
  obtain ⟨y, ⟨hy1, hy2⟩, hy⟩ := intermediate_value_Icc' hx hf.continuousOn (show (0 : ℝ) ∈ Set.Icc (f x) (f 0) from ⟨hn, h0.le⟩)
  rcases eq_or_lt_of_le hy1 with h1 | h1
  · rw [← h1] at hy; linarith
  · exact h y h1 (hy2.trans hb) hy

/-- The specification of a first singular compression: `root = some x` says `x` is the smallest zero of the
denominator in `(0,1)`, `none` that there is none. -/
def FirstRoot (s1 s2 s3 : ℝ) : Option ℝ → Prop
  | some x => 0 < x ∧ x < 1 ∧ poly s1 s2 s3 x = 0 ∧ ∀ y, 0 < y → y < x → poly s1 s2 s3 y ≠ 0
  | none => ∀ y, 0 < y → y < 1 → poly s1 s2 s3 y ≠ 0

/-- `find_min_bounded_val` returns the smaller of the values strictly inside the bounds. -/
theorem findMinBounded_spec (v1 v2 lo hi : ℝ) :
    match findMinBounded v1 v2 lo hi with
    | some x => (x = v1 ∨ x = v2) ∧ lo < x ∧ x < hi ∧ ∀ y, y = v1 ∨ y = v2 → lo < y → y < hi → x ≤ y
    | none => ∀ y, y = v1 ∨ y = v2 → ¬ (lo < y ∧ y < hi) := by
  unfold findMinBounded
  simp only [gt_iff_lt]
  split_ifs with h1 h2
  · refine ⟨?_, h1.1, h1.2, fun y hy _ _ => ?_⟩
    · rcases min_choice v1 v2 with h | h <;> simp [h]
    · rcases hy with rfl | rfl
      · exact min_le_left _ _
      · exact min_le_right _ _
  · refine ⟨?_, h2.1, h2.2, fun y hy h3 h4 => ?_⟩
    · rcases max_choice v1 v2 with h | h <;> simp [h]
    · -- `y` is the minimum or the maximum; it is not the minimum
      rcases le_total v1 v2 with h | h
      · rw [min_eq_left h] at h1
        rw [max_eq_right h]
        rcases hy with rfl | rfl
        · exact absurd ⟨h3, h4⟩ h1
        · exact le_rfl
      · rw [min_eq_right h] at h1
        rw [max_eq_left h]
        rcases hy with rfl | rfl
        · exact le_rfl
        · exact absurd ⟨h3, h4⟩ h1
  · intro y hy hb
    rcases le_total v1 v2 with h | h
    · rw [min_eq_left h] at h1
      rw [max_eq_right h] at h2
      rcases hy with rfl | rfl
      · exact h1 hb
      · exact h2 hb
    · rw [min_eq_right h] at h1
      rw [max_eq_left h] at h2
      rcases hy with rfl | rfl
      · exact h2 hb
      · exact h1 hb

/-- The zeros of a quadratic denominator are the two values the code computes. -/
theorem quadratic_roots (s1 s2 : ℝ) (h2 : s2 ≠ 0) (hd : 0 ≤ s1 ^ 2 + 4 * s2) (y : ℝ) :
    poly s1 s2 0 y = 0 ↔ y = (s1 + Real.sqrt (s1 ^ 2 + 4 * s2)) / (-2 * s2) ∨
      y = (s1 - Real.sqrt (s1 ^ 2 + 4 * s2)) / (-2 * s2) := by
  have hs := Real.sq_sqrt hd
  set w := Real.sqrt (s1 ^ 2 + 4 * s2)
  have h2' : (-2 * s2) ≠ 0 := mul_ne_zero (by norm_num) h2
  rw [eq_div_iff h2', eq_div_iff h2']
  have key : (y * (-2 * s2) - (s1 + w)) * (y * (-2 * s2) - (s1 - w)) = -4 * s2 * poly s1 s2 0 y := by
    simp only [poly]; linear_combination -hs
  constructor
  · intro h
    rw [h, mul_zero] at key
    rcases mul_eq_zero.mp key with h | h
    · left; linarith
    · right; linarith
  · intro h
    have : -4 * s2 * poly s1 s2 0 y = 0 := by
      rw [← key]
      rcases h with h | h
      · rw [h]; ring
      · rw [h]; ring
    rcases mul_eq_zero.mp this with h | h
    · exact absurd (by linarith : s2 = 0) h2
    · exact h

/-- C76: with a linear or quadratic shock velocity fit (the higher coefficients zero and the quadratic one, when
present, above rounding) the compression the code computes is exactly the first singular one, and it reports "no
limit" exactly when there is none. -/
theorem C76_eta_root_quadratic (ε s1 s2 : ℝ) (hε : 0 < ε) (h2 : s2 = 0 ∨ ε ≤ |s2|) :
    ∃ o, etaRoot ε s1 s2 0 = some o ∧ FirstRoot s1 s2 0 o := by
  have h3 : |(0 : ℝ)| < ε := by simpa using hε
  rcases h2 with h2 | h2
  · subst h2
    by_cases hs : s1 > 1
    · refine ⟨some (1 / s1), by simp [etaRoot, hε, hs], ?_⟩
      have hs0 : 0 < s1 := by linarith
      refine ⟨by positivity, ?_, ?_, fun y hy hyx => ?_⟩
      · rw [div_lt_one hs0]; exact hs
      · simp only [poly]; field_simp; ring
      · simp only [poly]
        have : s1 * y < 1 := by rw [lt_div_iff₀ hs0] at hyx; linarith
        intro h; linarith
    · refine ⟨none, by simp [etaRoot, hε, hs], fun y hy hy1 => ?_⟩
      simp only [poly]
      intro h
      push Not at hs
      nlinarith
  · have hn : ¬ |s2| < ε := not_lt.mpr h2
    have h20 : s2 ≠ 0 := by
      rintro rfl; simp at h2; linarith
    by_cases hd : s1 ^ 2 + 4 * s2 < 0
    · refine ⟨none, by simp [etaRoot, hε, hn, hd], fun y hy _ h => ?_⟩
      have : (s1 + 2 * s2 * y) ^ 2 = s1 ^ 2 + 4 * s2 := by
        simp only [poly] at h; linear_combination -4 * s2 * h
      nlinarith [sq_nonneg (s1 + 2 * s2 * y)]
    · have hd' := not_lt.mp hd
      refine ⟨findMinBounded ((s1 + Real.sqrt (s1 ^ 2 + 4 * s2)) / (-2 * s2))
        ((s1 - Real.sqrt (s1 ^ 2 + 4 * s2)) / (-2 * s2)) 0 1, by simp only [etaRoot, hn, h3, hd, false_and,
        if_false, not_false_eq_true, and_true, if_true], ?_⟩
      have hspec := findMinBounded_spec ((s1 + Real.sqrt (s1 ^ 2 + 4 * s2)) / (-2 * s2))
        ((s1 - Real.sqrt (s1 ^ 2 + 4 * s2)) / (-2 * s2)) 0 1
      revert hspec
      cases findMinBounded ((s1 + Real.sqrt (s1 ^ 2 + 4 * s2)) / (-2 * s2))
        ((s1 - Real.sqrt (s1 ^ 2 + 4 * s2)) / (-2 * s2)) 0 1 with
      | none =>
        intro hspec y hy hy1 h
        exact hspec y ((quadratic_roots s1 s2 h20 hd' y).mp h) ⟨hy, hy1⟩
      | some x =>
        rintro ⟨h1, h4, h5, h6⟩
        refine ⟨h4, h5, (quadratic_roots s1 s2 h20 hd' x).mpr h1, fun y hy hyx h => ?_⟩
        have := h6 y ((quadratic_roots s1 s2 h20 hd' y).mp h) hy (hyx.trans h5)
        linarith

/-- Below the density `rho0 / ((1 - x) + eps)` the compression is below `x`. -/
theorem eta_lt {ε x rho0 r : ℝ} (hε : 0 < ε) (hx : x < 1) (h0 : 0 < rho0) (hr : 0 < r)
    (h : r ≤ rho0 / ((1 - x) + ε)) : 1 - rho0 / r < x := by
  have hp : 0 < (1 - x) + ε := by linarith
  rw [le_div_iff₀ hp] at h
  have : (1 - x) < rho0 / r := by
    rw [lt_div_iff₀ hr]
    nlinarith
  linarith

/-- C76: consequently the reference pressure's denominator is positive at every density from the reference
density up to the automatically determined maximum (the `0.99` safety factor only lowers it), or at every density
at all when there is no maximum. -/
theorem C76_no_singularity_below_maximum (ε s1 s2 s3 rho0 : ℝ) (hε : 0 < ε) (h0 : 0 < rho0) (o : Option ℝ)
    (ho : etaRoot ε s1 s2 s3 = some o) (hf : FirstRoot s1 s2 s3 o) (r : ℝ) (hr : rho0 ≤ r)
    (hm : ∀ m, computeRhoMax ε s1 s2 s3 rho0 = some (some m) → r ≤ 0.99 * m) :
    0 < poly s1 s2 s3 (1 - rho0 / r) := by
  have hr0 : 0 < r := lt_of_lt_of_le h0 hr
  have heta : 0 ≤ 1 - rho0 / r := by
    rw [sub_nonneg, div_le_one hr0]; exact hr
  have heta1 : 1 - rho0 / r < 1 := by
    have : 0 < rho0 / r := by positivity
    linarith
  cases o with
  | none =>
    exact pos_of_no_root (poly_continuous s1 s2 s3) (by rw [poly_zero]; norm_num)
      (fun x hx hxb => hf x hx (lt_of_le_of_lt hxb heta1)) heta le_rfl
  | some x =>
    obtain ⟨f1, f2, f3, f4⟩ := hf
    have hrm : computeRhoMax ε s1 s2 s3 rho0 = some (some (rho0 / ((1 - x) + ε))) := by
      simp [computeRhoMax, ho, f1, f2]
    have hle := hm _ hrm
    have hpos : 0 < rho0 / ((1 - x) + ε) := div_pos h0 (by linarith)
    have hlt := eta_lt hε f2 h0 hr0 (by linarith : r ≤ rho0 / ((1 - x) + ε))
    exact pos_of_no_root (poly_continuous s1 s2 s3) (by rw [poly_zero]; norm_num)
      (fun y hy hyb => f4 y hy (lt_of_le_of_lt hyb hlt)) heta le_rfl

/-! ## The cubic search interval -/

/-- Two real zeros of a cubic force a nonnegative discriminant. -/
theorem disc_nonneg_of_two_roots (s1 s2 s3 : ℝ) (h3 : s3 ≠ 0) (a b : ℝ) (hab : a ≠ b)
    (ha : poly s1 s2 s3 a = 0) (hb : poly s1 s2 s3 b = 0) : 0 ≤ disc s1 s2 s3 := by
  -- divided difference
  have hdd : s1 + s2 * (a + b) + s3 * (a ^ 2 + a * b + b ^ 2) = 0 := by
    have h : (a - b) * (s1 + s2 * (a + b) + s3 * (a ^ 2 + a * b + b ^ 2)) = 0 := by
      simp only [poly] at ha hb; linear_combination hb - ha
    rcases mul_eq_zero.mp h with h | h
    · exact absurd (sub_eq_zero.mp h) hab
    · exact h
  -- third zero
  obtain ⟨c, hc⟩ : ∃ c, s2 = -s3 * (a + b + c) := ⟨-s2 / s3 - a - b, by field_simp; ring⟩
  have hs1 : s1 = s3 * (a * b + b * c + a * c) := by rw [hc] at hdd; linear_combination hdd
  have h1 : 1 = s3 * (a * b * c) := by
    simp only [poly] at ha
    rw [hc, hs1] at ha
    linear_combination ha
  have : disc s1 s2 s3 = (s3 ^ 2 * (a - b) * (b - c) * (a - c)) ^ 2 := by
    have e : disc s1 s2 s3 = -18 * s3 * s2 * s1 * 1 - 4 * (-s2) ^ 3 * 1 + s2 ^ 2 * s1 ^ 2 - 4 * s3 * s1 ^ 3 - 27 * s3 ^ 2 * 1 ^ 2 := by
      unfold disc; ring
    rw [e, h1, hc, hs1]
    ring
  rw [this]
  positivity

/-- Double zero likewise. -/
theorem disc_nonneg_of_double (s1 s2 s3 : ℝ) (h3 : s3 ≠ 0) (a : ℝ) (ha : poly s1 s2 s3 a = 0)
    (hd : s1 + 2 * s2 * a + 3 * s3 * a ^ 2 = 0) : 0 ≤ disc s1 s2 s3 := by
  obtain ⟨c, hc⟩ : ∃ c, s2 = -s3 * (a + a + c) := ⟨-s2 / s3 - a - a, by field_simp; ring⟩
  have hs1 : s1 = s3 * (a * a + a * c + a * c) := by rw [hc] at hd; linear_combination hd
  have h1 : 1 = s3 * (a * a * c) := by
    simp only [poly] at ha
    rw [hc, hs1] at ha
    linear_combination ha
  have : disc s1 s2 s3 = 0 := by
    have e : disc s1 s2 s3 = -18 * s3 * s2 * s1 * 1 - 4 * (-s2) ^ 3 * 1 + s2 ^ 2 * s1 ^ 2 - 4 * s3 * s1 ^ 3 - 27 * s3 ^ 2 * 1 ^ 2 := by
      unfold disc; ring
    rw [e, h1, hc, hs1]
    ring
  rw [this]

theorem hasDerivAt_poly (s1 s2 s3 x : ℝ) :
    HasDerivAt (poly s1 s2 s3) (-(s1 + 2 * s2 * x + 3 * s3 * x ^ 2)) x := by
  have h := (((hasDerivAt_id x).const_mul s1).add ((hasDerivAt_pow 2 x).const_mul s2)).add
    ((hasDerivAt_pow 3 x).const_mul s3)
  refine HasDerivAt.change (h.const_sub 1) (fun y => ?_) ?_
  · simp [poly]; ring
  · simp; ring

theorem strictAnti_poly (s1 s2 s3 a b : ℝ) (h : ∀ x, a < x → x < b → 0 < s1 + 2 * s2 * x + 3 * s3 * x ^ 2) :
    StrictAntiOn (poly s1 s2 s3) (Set.Icc a b) := by
  refine strictAntiOn_of_deriv_neg (convex_Icc a b) (poly_continuous s1 s2 s3).continuousOn (fun x hx => ?_)
  rw [interior_Icc] at hx
  rw [(hasDerivAt_poly s1 s2 s3 x).deriv]
  linarith [h x hx.1 hx.2]

theorem strictMono_poly (s1 s2 s3 a b : ℝ) (h : ∀ x, a < x → x < b → s1 + 2 * s2 * x + 3 * s3 * x ^ 2 < 0) :
    StrictMonoOn (poly s1 s2 s3) (Set.Icc a b) := by
  refine strictMonoOn_of_deriv_pos (convex_Icc a b) (poly_continuous s1 s2 s3).continuousOn (fun x hx => ?_)
  rw [interior_Icc] at hx
  rw [(hasDerivAt_poly s1 s2 s3 x).deriv]
  linarith [h x hx.1 hx.2]

/-- The critical points are real when the discriminant is nonnegative (the claim of the comment at
`eos_gruneisen.hpp:271-274`). -/
theorem critical_real (s1 s2 s3 : ℝ) (hd : 0 ≤ disc s1 s2 s3) : 0 ≤ s2 ^ 2 - 3 * s3 * s1 := by
  have h : 4 * (s2 ^ 2 - 3 * s3 * s1) ^ 3
      = (2 * s2 ^ 3 - 9 * s1 * s2 * s3 - 27 * s3 ^ 2) ^ 2 + 27 * s3 ^ 2 * disc s1 s2 s3 := by
    unfold disc; ring
  by_contra hn
  push Not at hn
  have h3 : (s2 ^ 2 - 3 * s3 * s1) ^ 3 < 0 := by
    have : (s2 ^ 2 - 3 * s3 * s1) ^ 3 = (s2 ^ 2 - 3 * s3 * s1) * (s2 ^ 2 - 3 * s3 * s1) ^ 2 := by ring
    rw [this]
    exact mul_neg_of_neg_of_pos hn (pow_pos_of_sq hn)
  nlinarith [sq_nonneg (2 * s2 ^ 3 - 9 * s1 * s2 * s3 - 27 * s3 ^ 2), mul_nonneg (sq_nonneg s3) hd]
where
  pow_pos_of_sq {x : ℝ} (h : x < 0) : 0 < x ^ 2 := by nlinarith [mul_pos_of_neg_of_neg h h]

/-- The two critical points in increasing order: `f' = -3 s3 (x - m)(x - M)`, and the discriminant is
`-27 s3^2 f(m) f(M)`. -/
theorem critical_points (s1 s2 s3 : ℝ) (h3 : s3 ≠ 0) (hd : 0 ≤ disc s1 s2 s3) :
    let e1 := (s2 + Real.sqrt (s2 ^ 2 - 3 * s3 * s1)) / (-3 * s3)
    let e2 := (s2 - Real.sqrt (s2 ^ 2 - 3 * s3 * s1)) / (-3 * s3)
    min e1 e2 ≤ max e1 e2 ∧
    (∀ x, s1 + 2 * s2 * x + 3 * s3 * x ^ 2 = 3 * s3 * ((x - min e1 e2) * (x - max e1 e2))) ∧
    poly s1 s2 s3 (min e1 e2) * poly s1 s2 s3 (max e1 e2) ≤ 0 := by
  intro e1 e2
  have hw := Real.sq_sqrt (critical_real s1 s2 s3 hd)
  have h1 : e1 + e2 = -2 * s2 / (3 * s3) := by simp only [e1, e2]; field_simp; ring
  have h2 : e1 * e2 = s1 / (3 * s3) := by
    simp only [e1, e2]
    rw [div_mul_div_comm, div_eq_div_iff (by positivity) (by positivity)]
    have : (s2 + Real.sqrt (s2 ^ 2 - 3 * s3 * s1)) * (s2 - Real.sqrt (s2 ^ 2 - 3 * s3 * s1)) = 3 * s3 * s1 := by
      linear_combination -hw
    rw [this]; ring
  have hs2 : s2 = -(3 / 2) * s3 * (e1 + e2) := by rw [h1]; field_simp
  have hs1 : s1 = 3 * s3 * (e1 * e2) := by rw [h2]; field_simp
  clear_value e1 e2
  have hsum : min e1 e2 + max e1 e2 = e1 + e2 := min_add_max e1 e2
  have hprod : min e1 e2 * max e1 e2 = e1 * e2 := min_mul_max e1 e2
  refine ⟨min_le_max, fun x => ?_, ?_⟩
  · have : (x - min e1 e2) * (x - max e1 e2) = x ^ 2 - (e1 + e2) * x + e1 * e2 := by
      rw [← hsum, ← hprod]; ring
    rw [this]
    rw [hs1, hs2]; ring
  · have hpp : poly s1 s2 s3 (min e1 e2) * poly s1 s2 s3 (max e1 e2) = poly s1 s2 s3 e1 * poly s1 s2 s3 e2 := by
      rcases le_total e1 e2 with h | h
      · rw [min_eq_left h, max_eq_right h]
      · rw [min_eq_right h, max_eq_left h, mul_comm]
    have hD : disc s1 s2 s3 = -27 * s3 ^ 2 * (poly s1 s2 s3 e1 * poly s1 s2 s3 e2) := by
      unfold disc poly
      rw [hs1, hs2]
      ring
    rw [hpp]
    by_contra hn
    push Not at hn
    have : 0 < 27 * s3 ^ 2 * (poly s1 s2 s3 e1 * poly s1 s2 s3 e2) := by positivity
    linarith

/-- C76: the interval searched for a cubic fit. The denominator is positive at its left end; if it changes sign over the
interval, the interval contains exactly one zero and that is the first singular compression; if it is positive at
the right end there is no singular compression in `(0,1)`; if it vanishes there, no smaller one exists. -/
theorem C76_cubic_bracket (s1 s2 s3 : ℝ) (h3 : s3 ≠ 0) :
    let lo := (bracket s1 s2 s3).1
    let hi := (bracket s1 s2 s3).2
    1 ≤ poly s1 s2 s3 lo ∧
    (poly s1 s2 s3 lo * poly s1 s2 s3 hi < 0 → ∃ x, FirstRoot s1 s2 s3 (some x) ∧ lo < x ∧ x < hi ∧
      ∀ y, 0 ≤ y → y ≤ hi → poly s1 s2 s3 y = 0 → y = x) ∧
    (0 < poly s1 s2 s3 hi → FirstRoot s1 s2 s3 none) ∧
    (poly s1 s2 s3 hi = 0 → 0 < hi ∧ hi ≤ 1 ∧ ∀ y, 0 < y → y < hi → poly s1 s2 s3 y ≠ 0) := by
  intro lo hi
  -- a general closing lemma: strictly decreasing from `c` on, at least 1 before, up to `hi ≤ 1`
  have core : ∀ c h : ℝ, 0 ≤ c → c ≤ h → h ≤ 1 → (∀ y, 0 ≤ y → y ≤ c → 1 ≤ poly s1 s2 s3 y) →
      StrictAntiOn (poly s1 s2 s3) (Set.Icc c h) →
      (poly s1 s2 s3 h < 0 → ∃ x, FirstRoot s1 s2 s3 (some x) ∧ c < x ∧ x < h ∧
        ∀ y, 0 ≤ y → y ≤ h → poly s1 s2 s3 y = 0 → y = x) ∧
      (0 < poly s1 s2 s3 h → ∀ y, 0 < y → y ≤ h → poly s1 s2 s3 y ≠ 0) ∧
      (poly s1 s2 s3 h = 0 → 0 < h ∧ ∀ y, 0 < y → y < h → poly s1 s2 s3 y ≠ 0) := by
    intro c h hc hch h1 hbef hanti
    have hfc := hbef c hc le_rfl
    refine ⟨fun hneg => ?_, fun hpos y hy hyh => ?_, fun hz => ⟨?_, fun y hy hyh => ?_⟩⟩
    · obtain ⟨x, ⟨hx1, hx2⟩, hx⟩ := intermediate_value_Icc' hch (poly_continuous s1 s2 s3).continuousOn
        (show (0 : ℝ) ∈ Set.Icc (poly s1 s2 s3 h) (poly s1 s2 s3 c) from ⟨hneg.le, by linarith⟩)
      have hcx : c < x := lt_of_le_of_ne hx1 (fun e => by rw [← e] at hx; linarith)
      have hxh : x < h := lt_of_le_of_ne hx2 (fun e => by rw [e] at hx; linarith)
      have huniq : ∀ y, 0 ≤ y → y ≤ h → poly s1 s2 s3 y = 0 → y = x := by
        intro y hy hyh hyz
        rcases le_total y c with hyc | hyc
        · have := hbef y hy hyc; linarith
        · exact hanti.injOn ⟨hyc, hyh⟩ ⟨hx1, hx2⟩ (by rw [hyz, hx])
      refine ⟨x, ⟨by linarith, by linarith, hx, fun y hy hyx hyz => ?_⟩, hcx, hxh, huniq⟩
      have := huniq y hy.le (by linarith) hyz
      linarith
    · rcases le_total y c with hyc | hyc
      · have := hbef y hy.le hyc
        intro h; linarith
      · have := hanti.antitoneOn ⟨hyc, hyh⟩ ⟨hch, le_rfl⟩ hyh
        intro h; linarith
    · rcases eq_or_lt_of_le (hc.trans hch) with he | he
      · rw [← he, poly_zero] at hz; norm_num at hz
      · exact he
    · rcases le_total y c with hyc | hyc
      · have := hbef y hy.le hyc
        intro h; linarith
      · have := hanti ⟨hyc, hyh.le⟩ ⟨hch, le_rfl⟩ hyh
        intro h; linarith
  by_cases hd : 0 ≤ disc s1 s2 s3
  · obtain ⟨hmM, hg, hmul⟩ := critical_points s1 s2 s3 h3 hd
    have hbr : bracket s1 s2 s3 = (lo, hi) := rfl
    simp only [bracket, if_pos hd] at hbr
    generalize min ((s2 + Real.sqrt (s2 ^ 2 - 3 * s3 * s1)) / (-3 * s3))
      ((s2 - Real.sqrt (s2 ^ 2 - 3 * s3 * s1)) / (-3 * s3)) = m at *
    generalize max ((s2 + Real.sqrt (s2 ^ 2 - 3 * s3 * s1)) / (-3 * s3))
      ((s2 - Real.sqrt (s2 ^ 2 - 3 * s3 * s1)) / (-3 * s3)) = M at *
    clear_value lo hi
    by_cases hneg : s3 < 0
    · rw [if_pos hneg, Prod.mk.injEq] at hbr
      obtain ⟨hlo, hhi⟩ := hbr
      -- increasing up to m, decreasing on [m, M], increasing after
      have hmono1 : StrictMonoOn (poly s1 s2 s3) (Set.Icc 0 m) := strictMono_poly _ _ _ _ _ fun x hx1 hx2 => by
        rw [hg]; nlinarith [mul_pos (sub_pos.mpr hx2) (show 0 < M - x by linarith)]
      have hanti : StrictAntiOn (poly s1 s2 s3) (Set.Icc m M) := strictAnti_poly _ _ _ _ _ fun x hx1 hx2 => by
        rw [hg]; nlinarith [mul_pos (sub_pos.mpr hx1) (sub_pos.mpr hx2)]
      have hmono2 : ∀ B, StrictMonoOn (poly s1 s2 s3) (Set.Icc M B) := fun B => strictMono_poly _ _ _ _ _ fun x hx1 hx2 => by
        rw [hg]; nlinarith [mul_pos (sub_pos.mpr hx1) (show 0 < x - m by linarith)]
      have hbef : ∀ y, 0 ≤ y → y ≤ lo → 1 ≤ poly s1 s2 s3 y := by
        intro y hy hyl
        rw [← hlo] at hyl
        rcases le_total m 0 with hm0 | hm0
        · rw [max_eq_right hm0] at hyl
          have : y = 0 := le_antisymm hyl hy
          rw [this, poly_zero]
        · rw [max_eq_left hm0] at hyl
          have := hmono1.monotoneOn ⟨le_rfl, hm0⟩ ⟨hy, hyl⟩ hy
          rwa [poly_zero] at this
      have hlo0 : 0 ≤ lo := by rw [← hlo]; exact le_max_right _ _
      have hmlo : m ≤ lo := by rw [← hlo]; exact le_max_left _ _
      have hflo := hbef lo hlo0 le_rfl
      by_cases hlo1 : 1 < lo
      · -- the descent starts beyond 1
        have hhi1 : hi = 1 := by
          rw [← hhi, hlo]; exact min_eq_right ((le_of_lt hlo1).trans (le_max_right _ _))
        have h1 := hbef 1 (by norm_num) hlo1.le
        rw [hhi1]
        refine ⟨hflo, fun h => ?_, fun _ y hy hy1 h => ?_, fun h => ?_⟩
        · nlinarith
        · have := hbef y hy.le (by linarith); linarith
        · linarith
      · push Not at hlo1
        have hlohi : lo ≤ hi := by rw [← hhi, hlo]; exact le_min (le_max_right _ _) hlo1
        have hhi1 : hi ≤ 1 := by rw [← hhi]; exact min_le_right _ _
        have hhiM : hi ≤ max M lo := by rw [← hhi, hlo]; exact min_le_left _ _
        have hanti' : StrictAntiOn (poly s1 s2 s3) (Set.Icc lo hi) := by
          rcases le_total M lo with h | h
          · rw [max_eq_right h] at hhiM
            have : hi = lo := le_antisymm hhiM hlohi
            rw [this, Set.Icc_self]
            intro a ha b hb hab
            rw [Set.mem_singleton_iff] at ha hb
            rw [ha, hb] at hab
            exact absurd hab (lt_irrefl _)
          · rw [max_eq_left h] at hhiM
            exact hanti.mono (Set.Icc_subset_Icc hmlo hhiM)
        obtain ⟨c1, c2, c3⟩ := core lo hi hlo0 hlohi hhi1 hbef hanti'
        refine ⟨hflo, fun h => c1 (by nlinarith), fun hpos y hy hy1 => ?_, fun hz => ?_⟩
        · rcases le_total y hi with h | h
          · exact c2 hpos y hy h
          · -- beyond hi (hi < 1, so hi = max M lo)
            have hhi' : hi = max M lo := by
              rw [← hhi, hlo]
              refine min_eq_left ?_
              by_contra hh
              push Not at hh
              have : hi = 1 := by rw [← hhi, hlo]; exact min_eq_right hh.le
              linarith
            have hMhi : M ≤ hi := by rw [hhi']; exact le_max_left _ _
            have := (hmono2 1).monotoneOn ⟨hMhi, hhi1⟩ ⟨hMhi.trans h, hy1.le⟩ h
            intro hh; linarith
        · exact ⟨(c3 hz).1, hhi1, (c3 hz).2⟩
    · have hpos3 : 0 < s3 := lt_of_le_of_ne (not_lt.mp hneg) (Ne.symm h3)
      rw [if_neg hneg] at hbr
      have hanti1 : ∀ a, StrictAntiOn (poly s1 s2 s3) (Set.Icc a m) := fun a => strictAnti_poly _ _ _ _ _ fun x hx1 hx2 => by
        rw [hg]
        have := mul_pos (sub_pos.mpr hx2) (show 0 < M - x by linarith)
        have h' : 0 < (x - m) * (x - M) := by nlinarith
        positivity
      have hmono : StrictMonoOn (poly s1 s2 s3) (Set.Icc m M) := strictMono_poly _ _ _ _ _ fun x hx1 hx2 => by
        rw [hg]; nlinarith [mul_pos (sub_pos.mpr hx1) (sub_pos.mpr hx2)]
      have hanti2 : ∀ B, StrictAntiOn (poly s1 s2 s3) (Set.Icc M B) := fun B => strictAnti_poly _ _ _ _ _ fun x hx1 hx2 => by
        rw [hg]
        have h' : 0 < (x - m) * (x - M) := mul_pos (by linarith) (by linarith)
        positivity
      by_cases hm0 : m > 0
      · rw [if_pos hm0, Prod.mk.injEq] at hbr
        obtain ⟨rfl, rfl⟩ := hbr
        have hp0 := poly_zero s1 s2 s3
        obtain ⟨c1, c2, c3⟩ := core 0 (min m 1) le_rfl (le_min hm0.le zero_le_one) (min_le_right _ _)
          (fun y hy hy' => by rw [le_antisymm hy' hy, hp0]) ((hanti1 0).mono (Set.Icc_subset_Icc le_rfl (min_le_left _ _)))
        refine ⟨hp0.ge, fun h => c1 (by rw [hp0] at h; linarith), fun hpos y hy hy1 => ?_,
          fun hz => ⟨(c3 hz).1, min_le_right _ _, (c3 hz).2⟩⟩
        rcases le_total 1 m with h1 | h1
        · rw [min_eq_right h1] at c2 hpos
          exact c2 hpos y hy hy1.le
        · rw [min_eq_left h1] at hpos
          have : poly s1 s2 s3 m ≤ poly s1 s2 s3 M := hmono.monotoneOn ⟨le_rfl, hmM⟩ ⟨hmM, le_rfl⟩ hmM
          nlinarith
      · rw [if_neg hm0, Prod.mk.injEq] at hbr
        obtain ⟨rfl, rfl⟩ := hbr
        push Not at hm0
        have hp0 := poly_zero s1 s2 s3
        have hbefM : ∀ y, 0 ≤ y → y ≤ M → 1 ≤ poly s1 s2 s3 y := fun y hy hyM => by
          have := hmono.monotoneOn ⟨hm0, hy.trans hyM⟩ ⟨hm0.trans hy, hyM⟩ hy
          rwa [hp0] at this
        refine ⟨hp0.ge, ?_⟩
        by_cases hM1 : 1 ≤ M
        · have h1 := hbefM 1 zero_le_one hM1
          refine ⟨fun h => by rw [hp0] at h; linarith, fun _ y hy hy1 h => ?_, fun h => by linarith⟩
          have := hbefM y hy.le (by linarith); linarith
        · push Not at hM1
          obtain ⟨c1, c2, c3⟩ := core (max M 0) 1 (le_max_right _ _) (max_le hM1.le zero_le_one) le_rfl
            (fun y hy hy' => by
              rcases le_total M 0 with h | h
              · rw [max_eq_right h] at hy'; rw [le_antisymm hy' hy, hp0]
              · rw [max_eq_left h] at hy'; exact hbefM y hy hy')
            ((hanti2 1).mono (Set.Icc_subset_Icc (le_max_left _ _) le_rfl))
          refine ⟨fun h => ?_, fun hpos y hy hy1 => c2 hpos y hy hy1.le, fun hz => ⟨zero_lt_one, le_rfl, (c3 hz).2⟩⟩
          obtain ⟨x, a1, a2, a3, a4⟩ := c1 (by rw [hp0] at h; linarith)
          exact ⟨x, a1, lt_of_le_of_lt (le_max_right _ _) a2, a3, a4⟩
  · -- a single simple zero
    have hbr : bracket s1 s2 s3 = (lo, hi) := rfl
    simp only [bracket, if_neg hd, Prod.mk.injEq] at hbr
    obtain ⟨h1, h2⟩ := hbr
    rw [← h1, ← h2]
    have hp0 := poly_zero s1 s2 s3
    have huniq : ∀ a b, poly s1 s2 s3 a = 0 → poly s1 s2 s3 b = 0 → a = b := fun a b ha hb => by
      by_contra hab
      exact hd (disc_nonneg_of_two_roots s1 s2 s3 h3 a b hab ha hb)
    refine ⟨hp0.ge, fun h => ?_, fun hpos y hy hy1 hyz => ?_, fun hz => ⟨zero_lt_one, le_rfl, fun y hy hy1 hyz => ?_⟩⟩
    · rw [hp0, one_mul] at h
      obtain ⟨x, ⟨hx1, hx2⟩, hx⟩ := intermediate_value_Icc' zero_le_one (poly_continuous s1 s2 s3).continuousOn
        (show (0 : ℝ) ∈ Set.Icc (poly s1 s2 s3 1) (poly s1 s2 s3 0) from ⟨h.le, by rw [hp0]; norm_num⟩)
      have hx1 : 0 < x := lt_of_le_of_ne hx1 (fun e => by rw [← e] at hx; linarith)
      have hx2 : x < 1 := lt_of_le_of_ne hx2 (fun e => by rw [e] at hx; linarith)
      exact ⟨x, ⟨hx1, hx2, hx, fun y hy hyx hyz => absurd (huniq y x hyz hx) hyx.ne⟩, hx1, hx2,
        fun y _ _ hyz => huniq y x hyz hx⟩
    · -- divide by the zero `y`
      set k : ℝ → ℝ := fun t => -(s1 + s2 * (t + y) + s3 * (t ^ 2 + t * y + y ^ 2)) with hk
      have hfac : ∀ t, poly s1 s2 s3 t = (t - y) * k t := fun t => by
        have h := hyz
        simp only [poly] at h
        simp only [poly, hk]
        linear_combination h
      have hk0 : k 0 < 0 := by
        have := hfac 0
        rw [hp0] at this
        nlinarith
      have hk1 : 0 < k 1 := by
        have := hfac 1
        by_contra hn
        push Not at hn
        nlinarith
      obtain ⟨z, ⟨hz1, hz2⟩, hz⟩ := intermediate_value_Icc zero_le_one
        (show Continuous k by simp only [hk]; fun_prop).continuousOn
        (show (0 : ℝ) ∈ Set.Icc (k 0) (k 1) from ⟨hk0.le, hk1.le⟩)
      have hzr : poly s1 s2 s3 z = 0 := by rw [hfac, hz, mul_zero]
      have hzy := huniq z y hzr hyz
      rw [hzy] at hz
      exact hd (disc_nonneg_of_double s1 s2 s3 h3 y hyz (by simp only [hk] at hz; linear_combination -hz))
    · exact absurd (huniq y 1 hyz hz) hy1.ne

/-- Non-vacuity: a linear fit with a genuine limit (`s1 = 1.5`, singular at compression `2/3`) and the positivity it
gives. -/
example (r : ℝ) (hr : 2 ≤ r) (hm : ∀ m, computeRhoMax 1e-16 1.5 0 0 2 = some (some m) → r ≤ 0.99 * m) :
    0 < poly 1.5 0 0 (1 - 2 / r) := by
  obtain ⟨o, ho, hf⟩ := C76_eta_root_quadratic 1e-16 1.5 0 (by norm_num) (Or.inl rfl)
  exact C76_no_singularity_below_maximum 1e-16 1.5 0 0 2 (by norm_num) (by norm_num) o ho hf r hr hm

/-- Non-vacuity of the cubic case: `1 - eta - eta^2 - eta^3` changes sign over the search interval `[0,1]`. -/
example : bracket 1 1 1 = (0, 1) ∧ poly 1 1 1 0 * poly 1 1 1 1 < 0 := by
  constructor
  · rw [bracket, if_neg (by norm_num [disc])]
  · norm_num [poly]

end Verif.Grun
