import Verif.Props.Eos.GruneisenCubic

set_option linter.unusedSectionVars false
set_option linter.dupNamespace false

/-! # C76: a cubic fit with a nearly double zero above its singular compression

The exact-arithmetic counterpart of a failure seen in double precision: with negative discriminant the whole interval
is searched, and a regula falsi iterate that lands on a local maximum of the denominator just below zero stays there,
the value at the other end being halved until it passes the test on the function value.
-/

namespace Verif.Grun

open Verif.RootFind

namespace DoubleZero

/-- How far the double zero is split: the quadratic factor is `(pp - t)^2 + et`. -/
noncomputable def et : ℝ := 1 / 10 ^ 60

/-- The position of the local maximum. -/
noncomputable def pp : ℝ := 701 / 1000

/-- The leading coefficient of the fit. -/
noncomputable def c3 : ℝ := 1 / (3 / 10 * (pp ^ 2 + et))

/-- The quadratic coefficient. -/
noncomputable def c2 : ℝ := -c3 * (3 / 10 + 2 * pp)

/-- The linear coefficient. -/
noncomputable def c1 : ℝ := c3 * (pp ^ 2 + et + 2 * pp * (3 / 10))

/-- `robust::EPS()`. -/
noncomputable def eps : ℝ := 10 * (1 / 2 ^ 52)

theorem poly_eq (t : ℝ) : poly c1 c2 c3 t = c3 * (3 / 10 - t) * ((pp - t) ^ 2 + et) := by
  have h : c3 * (3 / 10 * (pp ^ 2 + et)) = 1 := by
    have : (0 : ℝ) < 3 / 10 * (pp ^ 2 + et) := by simp only [pp, et]; positivity
    rw [c3, one_div, inv_mul_cancel₀ this.ne']
  simp only [poly, c1, c2]
  linear_combination -h

theorem c3_bounds : 6 < c3 ∧ c3 < 7 := by
  constructor <;> · simp only [c3, pp, et]; norm_num

theorem disc_neg : disc c1 c2 c3 < 0 := by
  simp only [disc, c1, c2, c3, pp, et]; norm_num

theorem bracket_eq : bracket c1 c2 c3 = (0, 1) := by
  rw [bracket, if_neg (not_le.2 disc_neg)]

/-- The search after `k + 1` passes. -/
def Inv (k : ℕ) (s : RF ℝ) : Prop :=
  s.a = 1 / 1000 ∧ s.ya = -(poly c1 c2 c3 (1 / 1000) / 2 ^ k) ∧ s.yb = -poly c1 c2 c3 s.b ∧
    |s.b - pp| ≤ (k + 1) / 10 ^ 39 ∧ s.b1 = k + 1 ∧ s.iter = k + 1

theorem y0 : 99 / 100 < poly c1 c2 c3 (1 / 1000) ∧ poly c1 c2 c3 (1 / 1000) < 1 := by
  rw [poly_eq]
  constructor <;> · simp only [c3, pp, et]; norm_num

theorem yb_bounds {k : ℕ} (hk : k ≤ 46) {b : ℝ} (h : |b - pp| ≤ ((k : ℝ) + 1) / 10 ^ 39) :
    7 / 10 < b ∧ b < 71 / 100 ∧ 0 < -poly c1 c2 c3 b ∧ -poly c1 c2 c3 b < 1 / 10 ^ 58 := by
  obtain ⟨h3, h4⟩ := c3_bounds
  have hk' : (k : ℝ) ≤ 46 := by exact_mod_cast hk
  have hd : |b - pp| ≤ 1 / 10 ^ 31 := h.trans (by
    rw [div_le_div_iff₀ (by positivity) (by positivity)]; nlinarith)
  obtain ⟨q1, q2⟩ := abs_le.1 hd
  have b1 : 7 / 10 < b := by
    have : (1 : ℝ) / 10 ^ 31 < 1 / 1000 := by norm_num
    simp only [pp] at q1; linarith
  have b2 : b < 71 / 100 := by
    have : (1 : ℝ) / 10 ^ 31 < 1 / 1000 := by norm_num
    simp only [pp] at q2; linarith
  have hsq : (pp - b) ^ 2 ≤ 1 / 10 ^ 60 := by
    have : (pp - b) ^ 2 ≤ (1 / 10 ^ 31) ^ 2 := by
      rw [← sq_abs (pp - b), abs_sub_comm]
      exact pow_le_pow_left₀ (abs_nonneg _) hd 2
    exact this.trans (by norm_num)
  have het : 0 < et := by simp only [et]; positivity
  have hq : (pp - b) ^ 2 + et ≤ 2 / 10 ^ 60 := by
    have : (1 : ℝ) / 10 ^ 60 + 1 / 10 ^ 60 = 2 / 10 ^ 60 := by ring
    rw [← this]; exact add_le_add hsq le_rfl
  have hq0 : 0 < (pp - b) ^ 2 + et := by positivity
  have e : -poly c1 c2 c3 b = c3 * (b - 3 / 10) * ((pp - b) ^ 2 + et) := by rw [poly_eq]; ring
  refine ⟨b1, b2, ?_, ?_⟩
  · rw [e]; exact mul_pos (mul_pos (by linarith) (by linarith)) hq0
  · rw [e]
    have : c3 * (b - 3 / 10) ≤ 7 * (41 / 100) := mul_le_mul h4.le (by linarith) (by linarith) (by norm_num)
    calc c3 * (b - 3 / 10) * ((pp - b) ^ 2 + et) ≤ 7 * (41 / 100) * (2 / 10 ^ 60) :=
          mul_le_mul this hq hq0.le (by norm_num)
      _ < 1 / 10 ^ 58 := by norm_num

/-- One pass keeps the upper end at the local maximum and halves the value kept for the lower end. -/
theorem step {k : ℕ} (hk : k < 46) {s : RF ℝ} (h : Inv k s) :
    Inv (k + 1) (rfBody (fun x => poly c1 c2 c3 x - 0) (-1) s) := by
  obtain ⟨ha, hya, hyb, hb, hb1, hit⟩ := h
  obtain ⟨y1, y2⟩ := y0
  obtain ⟨g1, g2, g3, g4⟩ := yb_bounds hk.le hb
  set Y := poly c1 c2 c3 (1 / 1000) with hY
  have h2k : (1 : ℝ) ≤ 2 ^ k := one_le_pow₀ (by norm_num)
  have h2k' : (2 : ℝ) ^ k ≤ 2 ^ 46 := pow_le_pow_right₀ (by norm_num) hk.le
  have hA : 0 < Y / 2 ^ k := by positivity
  have hA' : 1 / 10 ^ 15 < Y / 2 ^ k := by
    rw [lt_div_iff₀ (by positivity)]
    calc (1 : ℝ) / 10 ^ 15 * 2 ^ k ≤ 1 / 10 ^ 15 * 2 ^ 46 := by gcongr
      _ < 99 / 100 := by norm_num
      _ < Y := y1
  set A := Y / 2 ^ k with hAdef
  set yb := s.yb with hybdef
  have hyb0 : 0 < yb := by rw [hyb]; exact g3
  have hyb1 : yb < 1 / 10 ^ 58 := by rw [hyb]; exact g4
  set c := (s.a * yb - s.b * s.ya) / (yb - s.ya) with hc
  have hden : 0 < yb + A := by linarith
  have hbc : s.b - c = (s.b - 1 / 1000) * yb / (yb + A) := by
    rw [hc, ha, hya, sub_neg_eq_add, eq_div_iff hden.ne', sub_mul, div_mul_cancel₀ _ hden.ne']
    ring
  have hbc0 : 0 < s.b - c := by
    rw [hbc]; exact div_pos (mul_pos (by linarith) hyb0) hden
  have hbc1 : s.b - c ≤ 1 / 10 ^ 39 := by
    rw [hbc, div_le_iff₀ hden]
    have e1 : (s.b - 1 / 1000) * yb ≤ 1 * (1 / 10 ^ 58) := mul_le_mul (by linarith) hyb1.le hyb0.le (by norm_num)
    have e2 : (1 : ℝ) / 10 ^ 39 * (1 / 10 ^ 15) ≤ 1 / 10 ^ 39 * (yb + A) :=
      mul_le_mul_of_nonneg_left (by linarith) (by positivity)
    have e3 : (1 : ℝ) * (1 / 10 ^ 58) ≤ 1 / 10 ^ 39 * (1 / 10 ^ 15) := by norm_num
    linarith
  have hcp : |c - pp| ≤ (((k + 1 : ℕ) : ℝ) + 1) / 10 ^ 39 := by
    have : |c - pp| ≤ |s.b - pp| + |s.b - c| := by
      have := abs_sub_abs_le_abs_sub (c - pp) (c - s.b)
      have e : c - pp - (c - s.b) = s.b - pp := by ring
      rw [e, abs_sub_comm c s.b] at this
      linarith
    rw [abs_of_pos hbc0] at this
    have e : (((k + 1 : ℕ) : ℝ) + 1) / 10 ^ 39 = ((k : ℝ) + 1) / 10 ^ 39 + 1 / 10 ^ 39 := by push_cast; ring
    rw [e]; linarith
  obtain ⟨k1, k2, k3, k4⟩ := yb_bounds hk hcp
  have hna : ¬ c = s.a := by rw [ha]; intro e; linarith
  have hnb : ¬ c = s.b := by intro e; linarith
  have hyc : -1 * (poly c1 c2 c3 c - 0) > 0 := by linarith
  have hbody : rfBody (fun x => poly c1 c2 c3 x - 0) (-1) s = ⟨s.a, c, s.ya * (1 / 2), -1 * (poly c1 c2 c3 c - 0),
      s.b1 + 1, 0, s.iter + 1⟩ := by
    have : s.b1 + 1 > 1 := by omega
    simp only [rfBody]
    rw [if_neg (by exact hna), if_neg (by exact hnb), if_pos (by exact hyc), if_pos this]
  rw [hbody]
  refine ⟨ha, ?_, by ring, hcp, by simp [hb1], by simp [hit]⟩
  change s.ya * (1 / 2) = -(Y / 2 ^ (k + 1))
  rw [hya, hAdef, pow_succ]
  ring

theorem first : Inv 0 (rfBody (fun x => poly c1 c2 c3 x - 0) (-1)
    ⟨1 / 1000, 1, poly c1 c2 c3 (1 / 1000) * -1, poly c1 c2 c3 1 * -1, 0, 0, 0⟩) := by
  set c := (1 / 1000 * (poly c1 c2 c3 1 * -1) - 1 * (poly c1 c2 c3 (1 / 1000) * -1)) /
    (poly c1 c2 c3 1 * -1 - poly c1 c2 c3 (1 / 1000) * -1) with hc
  have hcp : |c - pp| ≤ (((0 : ℕ) : ℝ) + 1) / 10 ^ 39 := by
    rw [hc, poly_eq, poly_eq]
    simp only [c3, pp, et]
    rw [abs_le]
    constructor <;> norm_num
  obtain ⟨k1, k2, k3, k4⟩ := yb_bounds (by norm_num) hcp
  have hna : ¬ c = 1 / 1000 := by intro e; linarith
  have hnb : ¬ c = 1 := by intro e; linarith
  have hyc : -1 * (poly c1 c2 c3 c - 0) > 0 := by linarith
  have hbody : rfBody (fun x => poly c1 c2 c3 x - 0) (-1)
      ⟨1 / 1000, 1, poly c1 c2 c3 (1 / 1000) * -1, poly c1 c2 c3 1 * -1, 0, 0, 0⟩ =
      ⟨1 / 1000, c, poly c1 c2 c3 (1 / 1000) * -1 * 1, -1 * (poly c1 c2 c3 c - 0), 1, 0, 1⟩ := by
    simp only [rfBody]
    rw [if_neg (by exact hna), if_neg (by exact hnb), if_pos (by exact hyc), if_neg (by norm_num)]
  rw [hbody]
  exact ⟨rfl, by simp, by ring, hcp, rfl, rfl⟩

theorem cond_true {k : ℕ} (hk : k < 46) {s : RF ℝ} (h : Inv k s) : rfCond (100 * eps) (100 / 10 * eps) s := by
  obtain ⟨ha, hya, hyb, hb, hb1, hit⟩ := h
  obtain ⟨y1, y2⟩ := y0
  obtain ⟨g1, g2, g3, g4⟩ := yb_bounds hk.le hb
  refine ⟨?_, Or.inl ?_, by omega⟩
  · have : 2 * (100 * eps) < 1 / 2 := by simp only [eps]; norm_num
    rw [ha]; linarith
  · rw [hya, abs_neg, abs_of_pos (by positivity), gt_iff_lt, lt_div_iff₀ (by positivity)]
    have h2k : (2 : ℝ) ^ k ≤ 2 ^ 45 := pow_le_pow_right₀ (by norm_num) (by omega)
    calc 100 / 10 * eps * 2 ^ k ≤ 100 / 10 * eps * 2 ^ 45 := by
          have : 0 < eps := by simp only [eps]; positivity
          gcongr
      _ < 99 / 100 := by simp only [eps]; norm_num
      _ < _ := y1

theorem cond_false {s : RF ℝ} (h : Inv 46 s) : ¬ rfCond (100 * eps) (100 / 10 * eps) s := by
  obtain ⟨ha, hya, hyb, hb, hb1, hit⟩ := h
  obtain ⟨y1, y2⟩ := y0
  obtain ⟨g1, g2, g3, g4⟩ := yb_bounds le_rfl hb
  rintro ⟨-, h1 | h1, -⟩
  · rw [hya, abs_neg, abs_of_pos (by positivity), gt_iff_lt, lt_div_iff₀ (by positivity)] at h1
    have : 1 < 100 / 10 * eps * 2 ^ 46 := by simp only [eps]; norm_num
    linarith
  · rw [hyb, abs_of_pos g3] at h1
    have : (1 : ℝ) / 10 ^ 58 < 100 / 10 * eps := by simp only [eps]; norm_num
    linarith

theorem loop (j : ℕ) : ∀ (k n : ℕ) (s : RF ℝ), k + j = 46 → Inv k s →
    ∃ s', rfLoop (fun x => poly c1 c2 c3 x - 0) (-1) (100 * eps) (100 / 10 * eps) (n + j) s = some s' ∧ Inv 46 s' := by
  induction j with
  | zero =>
    intro k n s hk h
    obtain rfl : k = 46 := by omega
    exact ⟨s, rfLoop_stop (cond_false h) _, h⟩
  | succ j ih =>
    intro k n s hk h
    obtain ⟨s', e, h'⟩ := ih (k + 1) n _ (by omega) (step (by omega) h)
    refine ⟨s', ?_, h'⟩
    rw [← add_assoc, rfLoop, if_pos (cond_true (by omega) h)]
    exact e

theorem y1neg : poly c1 c2 c3 1 < 0 := by
  rw [poly_eq]; simp only [c3, pp, et]; norm_num

theorem call : ∃ xr o, regulaFalsi 1000 (poly c1 c2 c3) 0 (1 / 1000) 0 1 (100 * eps) (100 / 10 * eps) =
    some (⟨.success, some xr⟩, o) ∧ 3505 / 10000 ≤ xr ∧ xr < 36 / 100 := by
  obtain ⟨p1, p2⟩ := y0
  have hp0 := poly_zero c1 c2 c3
  have hb : initBracket (fun x => poly c1 c2 c3 x - 0) (1 / 1000) 0 1
      = some ⟨1 / 1000, 1, poly c1 c2 c3 (1 / 1000), poly c1 c2 c3 1⟩ := by
    have h1 : ¬ (1 : ℝ) * poly c1 c2 c3 (1 / 1000) ≤ 0 := by linarith
    have h2 : poly c1 c2 c3 (1 / 1000) * poly c1 c2 c3 1 ≤ 0 := (mul_neg_of_pos_of_neg (by linarith) y1neg).le
    simp only [initBracket, checkBracket, sub_zero, hp0, h1, h2, decide_true, decide_false, if_true, Bool.false_eq_true,
      if_false]
  have hstart : rfStart ⟨1 / 1000, 1, poly c1 c2 c3 (1 / 1000), poly c1 c2 c3 1⟩ =
      (-1, ⟨1 / 1000, 1, poly c1 c2 c3 (1 / 1000) * -1, poly c1 c2 c3 1 * -1, 0, 0, 0⟩) := by
    have : ¬ poly c1 c2 c3 (1 / 1000) < 0 := by linarith
    simp only [rfStart, if_neg this]
  obtain ⟨s', e, h'⟩ := loop 46 0 953 _ rfl first
  have hc0 : rfCond (100 * eps) (100 / 10 * eps)
      ⟨1 / 1000, 1, poly c1 c2 c3 (1 / 1000) * -1, poly c1 c2 c3 1 * -1, 0, 0, 0⟩ := by
    refine ⟨?_, Or.inl ?_, by norm_num⟩
    · simp only [eps]; norm_num
    · have : 100 / 10 * eps < 1 / 2 := by simp only [eps]; norm_num
      simp only [mul_neg, mul_one, abs_neg]
      rw [abs_of_pos (by linarith)]; linarith
  have hrun : rfLoop (fun x => poly c1 c2 c3 x - 0) (-1) (100 * eps) (100 / 10 * eps) 1000
      ⟨1 / 1000, 1, poly c1 c2 c3 (1 / 1000) * -1, poly c1 c2 c3 1 * -1, 0, 0, 0⟩ = some s' := by
    rw [show (1000 : ℕ) = 999 + 1 from rfl, rfLoop, if_pos hc0]
    exact e
  obtain ⟨g1, g2, -, -⟩ := yb_bounds le_rfl h'.2.2.2.1
  refine ⟨(s'.a + s'.b) / 2, some s', ?_, ?_, ?_⟩
  · unfold regulaFalsi
    simp only [hb, hstart]
    rw [hrun]
    have : ¬ s'.iter = 1000 := by rw [h'.2.2.2.2.2]; norm_num
    simp only [if_neg this]
  · rw [h'.1]; linarith
  · rw [h'.1]; linarith

end DoubleZero

/-- C76 (violated): the exception in `C76_cubic_no_singularity_partial` is real. With the code's own tolerance there is a
cubic fit, singular at compression `0.3` and with a local maximum of the denominator just below zero at `0.701`, for
which the constructor reports success, sets a maximum density above compression `0.35`, and so accepts densities well
below `0.99` times that maximum at which the reference pressure is singular or its denominator negative. -/
theorem C76_double_zero_violated (rho0 : ℝ) (h0 : 0 < rho0) :
    ∃ s1 s2 s3 M, FirstRoot s1 s2 s3 (some (3 / 10)) ∧
      computeRhoMax (10 * (1 / 2 ^ 52)) s1 s2 s3 rho0 = some (some M) ∧ rho0 / (65 / 100) < M ∧
      rho0 / (7 / 10) < 0.95 * M ∧ poly s1 s2 s3 (1 - rho0 / (rho0 / (7 / 10))) = 0 ∧
      ∀ r, rho0 / (7 / 10) < r → r ≤ M → poly s1 s2 s3 (1 - rho0 / r) < 0 := by
  open DoubleZero in
  obtain ⟨h3, h4⟩ := c3_bounds
  obtain ⟨xr, o, hcall, x1, x2⟩ := call
  have hq : ∀ t, 0 < (pp - t) ^ 2 + et := fun t => by
    have : 0 < et := by simp only [et]; positivity
    positivity
  have heps : eps = 10 * (1 / 2 ^ 52) := rfl
  have he : ¬ |c3| < eps := by
    rw [abs_of_pos (by linarith), not_lt, heps]
    have : (10 : ℝ) * (1 / 2 ^ 52) < 1 := by norm_num
    linarith
  have hcr : cubicRoot eps c1 c2 c3 = some (some xr) := by
    have hs : poly c1 c2 c3 0 * poly c1 c2 c3 1 < 0 := by
      rw [poly_zero, one_mul]; exact y1neg
    simp only [cubicRoot, bracket_eq, if_pos hs, hcall]
  have hM : computeRhoMax eps c1 c2 c3 rho0 = some (some (rho0 / ((1 - xr) + eps))) := by
    have hroot : etaRoot eps c1 c2 c3 = some (some xr) := by
      simp only [etaRoot, he, false_and, and_false, if_false, not_false_eq_true, if_true, hcr]
    have : xr > 0 ∧ xr < 1 := ⟨by linarith, by linarith⟩
    simp only [computeRhoMax, hroot, if_pos this]
  have hep : 0 < eps := by rw [heps]; positivity
  have hep1 : eps < 1 / 10 ^ 10 := by rw [heps]; norm_num
  have hd0 : 0 < (1 - xr) + eps := by linarith
  have hd1 : (1 - xr) + eps < 65 / 100 := by
    have : (1 : ℝ) / 10 ^ 10 < 1 / 10000 := by norm_num
    linarith
  refine ⟨c1, c2, c3, rho0 / ((1 - xr) + eps), ⟨by norm_num, by norm_num, ?_, fun y hy hyx => ?_⟩, hM, ?_, ?_, ?_, ?_⟩
  · rw [poly_eq]; ring
  · rw [poly_eq]
    exact (mul_pos (mul_pos (by linarith) (by linarith)) (hq y)).ne'
  · exact div_lt_div_of_pos_left h0 hd0 hd1
  · rw [← mul_div_assoc, div_lt_div_iff₀ (by norm_num) hd0]
    nlinarith
  · rw [div_div_cancel₀ h0.ne', poly_eq]; ring
  · intro r hr hrM
    have hr0 : 0 < r := lt_trans (by positivity) hr
    have : rho0 / r < 7 / 10 := by
      rw [div_lt_iff₀ hr0]
      rw [div_lt_iff₀ (by norm_num)] at hr
      linarith
    rw [poly_eq]
    have hn : 3 / 10 - (1 - rho0 / r) < 0 := by linarith
    exact mul_neg_of_neg_of_pos (mul_neg_of_pos_of_neg (by linarith) hn) (hq _)

end Verif.Grun
