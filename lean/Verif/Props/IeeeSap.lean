import Verif.Lemmas.IeeeNear
import Verif.Lemmas.IeeeFinite
import Verif.Model.IeeeSap
import Verif.Props.IeeeBisectSpacing

set_option linter.unusedVariables false

/-! # C165: the `SAP_Polynomial` lookups in machine arithmetic -/

namespace Verif

open Ieee Rounding Classical

namespace Ieee

/-! ## Specification -/

/-- `c0 + c1 μ + c2 μ² + c3 μ³`: the form of both documented polynomials, of the part of the pressure that does not depend on the energy
and of the factor of the energy. (The Gruneisen lookup returns the latter, `dP/de`, not `(1/ρ) dP/de`: see C48.) -/
def sapCubic (c0 c1 c2 c3 μ : ℝ) : ℝ := c0 + c1 * μ + c2 * μ ^ 2 + c3 * μ ^ 3

/-- Its derivative. -/
def sapSlope (c1 c2 c3 μ : ℝ) : ℝ := c1 + 2 * c2 * μ + 3 * c3 * μ ^ 2

/-- A coefficient's magnitude, where magnitudes below `2^-500` count as `2^-500`. -/
noncomputable def mag (c : ℝ) : ℝ := |c| + (2 : ℝ) ^ (-500 : ℤ)

variable {rnd : ℝ → ℝ}

theorem mag_ge (c : ℝ) : (2 : ℝ) ^ (-500 : ℤ) ≤ mag c := by
  unfold mag; linarith [abs_nonneg c]

theorem abs_le_mag (c : ℝ) : |c| ≤ mag c := by
  unfold mag; linarith [zpow_pos (by norm_num : (0 : ℝ) < 2) (-500)]

theorem mag_pos (c : ℝ) : 0 < mag c := lt_of_lt_of_le (zpow_pos (by norm_num) _) (mag_ge c)

theorem lo_le : (2 : ℝ) ^ (-1000 : ℤ) ≤ (2 : ℝ) ^ (-500 : ℤ) := zpow_le_zpow_right₀ (by norm_num) (by norm_num)

/-- `mu` is off by two roundings of `rho / rho0 + 2`. -/
theorem mu_near (h : Dbl rnd) {rho0 rho : ℝ} (h0 : 0 < rho0) (hr : 0 ≤ rho) (hm : rho / rho0 + 2 ≤ 2 ^ (999 : ℤ)) (g : Sap)
    (hg : g.rho0 = .fin rho0) : Near 2 (rho / rho0 + 2) (rho / rho0 - 1) (Sap.mu rnd maxDouble g (.fin rho)) := by
  have hq : 0 ≤ rho / rho0 := div_nonneg hr h0.le
  have lo : (2 : ℝ) ^ (-1000 : ℤ) ≤ 1 := zpow_le_one_of_nonpos₀ (by norm_num) (by norm_num)
  have hi : (2 : ℝ) ^ (999 : ℤ) ≤ 2 ^ (1000 : ℤ) := zpow_le_zpow_right₀ (by norm_num) (by norm_num)
  have u2 : rho / rho0 + 2 ≤ (2 : ℝ) ^ (1000 : ℤ) := hm.trans hi
  have u1 : rho / rho0 + 1 ≤ (2 : ℝ) ^ (1000 : ℤ) := le_trans (by linarith only) u2
  have h1 : Near 1 (rho / rho0 + 1) (rho / rho0) (div rnd maxDouble (.fin rho) (.fin rho0)) := by
    rw [show div rnd maxDouble (.fin rho) (.fin rho0) = ofReal rnd maxDouble (rho / rho0) by simp [div, h0.ne']]
    refine near_round h (k := 0) (by norm_num) (by linarith only [lo, hq]) u1 ?_ (by simp)
    rw [abs_of_nonneg hq]; linarith only
  have h2 : Near 1 1 (-1) (.fin (-1)) := (Near.exact (by norm_num)).mono (by norm_num)
  have := h1.add h (by norm_num) h2 (by linarith only [lo, hq]) (le_of_eq_of_le (by ring) u2)
  unfold Sap.mu sub
  rw [hg]
  simp only [neg]
  convert this using 1 <;> ring

theorem pow_mono3 {m : ℝ} (hm : 1 ≤ m) : m ≤ m * m ∧ m * m ≤ m * m * m := ⟨by nlinarith, by nlinarith⟩

theorem cubic_near (h : Dbl rnd) {c0 c1 c2 c3 m x : ℝ} {v : Ext} (hm : 1 ≤ m) (hv : Near 2 m x v)
    (hs : sapCubic (mag c0) (mag c1) (mag c2) (mag c3) m ≤ 2 ^ (1000 : ℤ)) :
    Near 10 (sapCubic (mag c0) (mag c1) (mag c2) (mag c3) m) (sapCubic c0 c1 c2 c3 x)
      (Sap.cubic rnd maxDouble (.fin c0) (.fin c1) (.fin c2) (.fin c3) v) := by
  unfold sapCubic at *
  have p0 := mag_pos c0
  have p1 := mag_pos c1
  have p2 := mag_pos c2
  have p3 := mag_pos c3
  obtain ⟨m1, m2⟩ := pow_mono3 hm
  have hm0 : 0 < m := by linarith
  have q1 : mag c1 ≤ mag c1 * m := le_mul_of_one_le_right p1.le hm
  have q2 : mag c2 ≤ mag c2 * m := le_mul_of_one_le_right p2.le hm
  have q2' : mag c2 * m ≤ mag c2 * m * m := le_mul_of_one_le_right (by positivity) hm
  have q3 : mag c3 ≤ mag c3 * m := le_mul_of_one_le_right p3.le hm
  have q3' : mag c3 * m ≤ mag c3 * m * m := le_mul_of_one_le_right (by positivity) hm
  have q3'' : mag c3 * m * m ≤ mag c3 * m * m * m := le_mul_of_one_le_right (by positivity) hm
  have e : mag c0 + mag c1 * m + mag c2 * m ^ 2 + mag c3 * m ^ 3 =
      mag c0 + mag c1 * m + mag c2 * m * m + mag c3 * m * m * m := by ring
  have e' : c0 + c1 * x + c2 * x ^ 2 + c3 * x ^ 3 = c0 + c1 * x + c2 * x * x + c3 * x * x * x := by ring
  rw [e] at hs ⊢
  rw [e']
  have g0 := lo_le.trans (mag_ge c0)
  have g1 := lo_le.trans (mag_ge c1)
  have g2 := lo_le.trans (mag_ge c2)
  have g3 := lo_le.trans (mag_ge c3)
  have n (c : ℝ) : Near 0 (mag c) c (.fin c) := Near.exact (abs_le_mag c)
  have t1 := (n c1).mul h (by norm_num) hv (by linarith) (by linarith)
  have t2 := (n c2).mul h (by norm_num) hv (by linarith) (by linarith)
  have t2' := t2.mul h (by norm_num) hv (by linarith) (by linarith)
  have t3 := (n c3).mul h (by norm_num) hv (by linarith) (by linarith)
  have t3' := t3.mul h (by norm_num) hv (by linarith) (by linarith)
  have t3'' := t3'.mul h (by norm_num) hv (by linarith) (by linarith)
  have s1 := ((n c0).mono (by norm_num : 0 ≤ 3)).add h (by norm_num) t1 (by linarith) (by linarith)
  have s2 := (s1.mono (by norm_num : 3 + 1 ≤ 6)).add h (by norm_num) t2' (by linarith) (by linarith)
  exact (s2.mono (by norm_num : 6 + 1 ≤ 9)).add h (by norm_num) t3'' (by linarith) (by linarith)

theorem slope_near (h : Dbl rnd) {c1 c2 c3 m x : ℝ} {v : Ext} (hm : 1 ≤ m) (hv : Near 2 m x v)
    (hs : sapSlope (mag c1) (mag c2) (mag c3) m ≤ 2 ^ (1000 : ℤ)) :
    Near 8 (sapSlope (mag c1) (mag c2) (mag c3) m) (sapSlope c1 c2 c3 x)
      (Sap.slope rnd maxDouble (.fin c1) (.fin c2) (.fin c3) v) := by
  unfold sapSlope at *
  have p1 := mag_pos c1
  have p2 := mag_pos c2
  have p3 := mag_pos c3
  have hm0 : 0 < m := by linarith
  have q2 : 2 * mag c2 ≤ 2 * mag c2 * m := le_mul_of_one_le_right (by positivity) hm
  have q3 : 3 * mag c3 ≤ 3 * mag c3 * m := le_mul_of_one_le_right (by positivity) hm
  have q3' : 3 * mag c3 * m ≤ 3 * mag c3 * m * m := le_mul_of_one_le_right (by positivity) hm
  have e : mag c1 + 2 * mag c2 * m + 3 * mag c3 * m ^ 2 = mag c1 + 2 * mag c2 * m + 3 * mag c3 * m * m := by ring
  have e' : c1 + 2 * c2 * x + 3 * c3 * x ^ 2 = c1 + 2 * c2 * x + 3 * c3 * x * x := by ring
  rw [e] at hs ⊢
  rw [e']
  have g1 := lo_le.trans (mag_ge c1)
  have g2 := lo_le.trans (mag_ge c2)
  have g3 := lo_le.trans (mag_ge c3)
  have n (c : ℝ) : Near 0 (mag c) c (.fin c) := Near.exact (abs_le_mag c)
  have n2 : Near 0 2 2 (.fin 2) := Near.exact (by norm_num)
  have n3 : Near 0 3 3 (.fin 3) := Near.exact (by norm_num)
  have t2 := n2.mul h (by norm_num) (n c2) (by linarith) (by linarith)
  have t2' := t2.mul h (by norm_num) hv (by linarith) (by linarith)
  have t3 := n3.mul h (by norm_num) (n c3) (by linarith) (by linarith)
  have t3' := t3.mul h (by norm_num) hv (by linarith) (by linarith)
  have t3'' := t3'.mul h (by norm_num) hv (by linarith) (by linarith)
  have s1 := ((n c1).mono (by norm_num : 0 ≤ 4)).add h (by norm_num) t2' (by linarith) (by linarith)
  exact (s1.mono (by norm_num : 4 + 1 ≤ 7)).add h (by norm_num) t3'' (by linarith) (by linarith)

/-! ## The branch -/

/-- Two doubles `rho < rho0` have a quotient that is visibly below 1. -/
theorem quotient_lt (h : Dbl rnd) {rho rho0 : ℝ} (hf : IsFloat 53 (-1074) rho) (hf0 : IsFloat 53 (-1074) rho0)
    (h0 : (2 : ℝ) ^ (-1000 : ℤ) ≤ rho0) (hm : rho0 ≤ maxDouble) (hlt : rho < rho0) : rho / rho0 ≤ 1 - 1 / 2 ^ 53 := by
  have hp : 0 < rho0 := lt_of_lt_of_le (zp _) h0
  rw [div_le_iff₀ hp]
  obtain ⟨k, hk1, hk2⟩ : ∃ k : ℤ, (2 : ℝ) ^ k ≤ rho0 ∧ rho0 < 2 ^ (k + 1) := by
    obtain ⟨k, a, b⟩ := exists_mem_Ico_zpow hp (by norm_num : (1 : ℝ) < 2)
    exact ⟨k, a, b⟩
  have e1 : (2 : ℝ) ^ (k + 1) = 2 ^ 53 * 2 ^ (k - 52) := by
    rw [← zpow_natCast, ← zpow_add₀ (by norm_num)]; congr 1; push_cast; ring
  have e2 : (2 : ℝ) ^ k = 2 ^ 53 * 2 ^ (k - 1 - 52) := by
    rw [← zpow_natCast, ← zpow_add₀ (by norm_num)]; congr 1; push_cast; ring
  have e3 : (2 : ℝ) ^ k = 2 * 2 ^ (k - 1) := by
    rw [show (2 : ℝ) * 2 ^ (k - 1) = 2 ^ (1 : ℤ) * 2 ^ (k - 1) by norm_num, ← zpow_add₀ (by norm_num)]; congr 1; ring
  have hk0 := zp k
  by_cases c1 : (2 : ℝ) ^ k ≤ rho
  · have := spacing hf hf0 c1 hlt
    rw [e1] at hk2
    nlinarith
  · push Not at c1
    by_cases c2 : (2 : ℝ) ^ (k - 1) ≤ rho
    · have hk : -1074 ≤ k := by
        by_contra hc
        have a : (2 : ℝ) ^ (k + 1) ≤ 2 ^ (-1000 : ℤ) := zpow_le_zpow_right₀ (by norm_num) (by omega)
        linarith
      have := spacing hf (isFloat_zpow hk) c2 c1
      have : (2 : ℝ) ^ k * (1 / 2 ^ 53) ≤ 2 ^ k - rho := by
        rw [e2] at *
        nlinarith
      nlinarith
    · push Not at c2
      have : rho ≤ rho0 / 2 := by rw [e3] at hk1; linarith
      nlinarith

/-- C165: the machine takes the compression polynomial exactly when the density is at least the reference density, and the
expansion polynomial exactly when it is below: no density is misjudged by rounding, not even the nearest neighbours of the
reference density; at the reference density the computed compression is exactly 0. -/
theorem C165_branch {rnd : ℝ → ℝ} (h : ToNearest 53 (-1074) rnd) (g : Sap) {rho rho0 : ℝ} (hg : g.rho0 = .fin rho0)
    (hf : IsFloat 53 (-1074) rho) (hf0 : IsFloat 53 (-1074) rho0) (h0 : (2 : ℝ) ^ (-1000 : ℤ) ≤ rho0) (hm : rho0 ≤ maxDouble) :
    (le (.fin 0) (Sap.mu rnd maxDouble g (.fin rho)) ↔ rho0 ≤ rho) ∧
    (rho = rho0 → Sap.mu rnd maxDouble g (.fin rho) = .fin 0) := by
  have hp : 0 < rho0 := lt_of_lt_of_le (zp _) h0
  have f1 : IsFloat 53 (-1074) (1 : ℝ) := by simpa using isFloat_zpow (e := 0) (by norm_num)
  have e : Sap.mu rnd maxDouble g (.fin rho) = add rnd maxDouble (ofReal rnd maxDouble (rho / rho0)) (.fin (-1)) := by
    unfold Sap.mu sub
    rw [hg]
    simp [div, hp.ne', neg]
  rw [e]
  refine ⟨⟨fun hle => ?_, fun hle => ?_⟩, ?_⟩
  · by_contra hc
    push Not at hc
    have hq := quotient_lt h hf hf0 h0 hm hc
    have f2 : IsFloat 53 (-1074) (1 - 1 / 2 ^ 53 : ℝ) :=
      ⟨2 ^ 53 - 1, -53, by norm_num, by norm_num, by push_cast; norm_num⟩
    have f3 : IsFloat 53 (-1074) (-(1 / 2 ^ 53) : ℝ) := by
      have := IsFloat.neg (isFloat_zpow (e := -53) (by norm_num))
      convert this using 1
      norm_num
    have hr := rnd_le h f2 hq
    revert hle
    by_cases hb : maxDouble < |rnd (rho / rho0)|
    · rw [ofReal, if_pos hb]
      have : rho / rho0 < 0 := by
        by_contra hc'
        push Not at hc'
        have a := rnd_nonneg h hc'
        rw [abs_of_nonneg a] at hb
        have := maxDouble_large
        have : (1 : ℝ) ≤ 2 ^ 100 := by norm_num
        have : (1 : ℝ) - 1 / 2 ^ 53 ≤ 1 := by norm_num
        linarith
      simp [this, add, le]
    · rw [ofReal, if_neg hb]
      simp only [add]
      have hs : rnd (rho / rho0) + -1 ≤ -(1 / 2 ^ 53) := by linarith
      have hs' := rnd_le h f3 hs
      have hneg : (-(1 / 2 ^ 53) : ℝ) < 0 := by norm_num
      unfold ofReal
      split_ifs with c
      · have : rnd (rho / rho0) + -1 < 0 := by linarith
        simp only [le, this, decide_true]
        simp
      · simp only [le]
        intro hh
        linarith
  · have hq : 1 ≤ rho / rho0 := by rwa [le_div_iff₀ hp, one_mul]
    have hr := rnd_ge h f1 hq
    have a1 : le (.fin 1) (ofReal rnd maxDouble (rho / rho0)) := by
      unfold ofReal
      split_ifs with c
      · have : ¬ rho / rho0 < 0 := by linarith
        simp [le, this]
      · exact hr
    have := add_mono h (-1) a1
    have z : add rnd maxDouble (.fin 1) (.fin (-1)) = .fin 0 := by
      simp [add, ofReal, rnd_zero h, not_lt.mpr maxDouble_pos.le]
    rwa [z] at this
  · rintro rfl
    have z : ofReal rnd maxDouble (rho / rho) = .fin 1 := by
      rw [div_self hp.ne', ofReal_fin, h.exact f1]
      rw [h.exact f1]
      have := maxDouble_large
      have : (1 : ℝ) ≤ 2 ^ 100 := by norm_num
      norm_num
      linarith
    rw [z]
    simp [add, ofReal, rnd_zero h, not_lt.mpr maxDouble_pos.le]

/-! ## The lookups -/

/-- The finite parameters of a gas. -/
structure Sap.Has (g : Sap) (rho0 a0 a1 a2c a2e a3 b0 b1 b2c b2e b3 : ℝ) : Prop where
  rho0 : g.rho0 = .fin rho0
  a0 : g.a0 = .fin a0
  a1 : g.a1 = .fin a1
  a2c : g.a2c = .fin a2c
  a2e : g.a2e = .fin a2e
  a3 : g.a3 = .fin a3
  b0 : g.b0 = .fin b0
  b1 : g.b1 = .fin b1
  b2c : g.b2c = .fin b2c
  b2e : g.b2e = .fin b2e
  b3 : g.b3 = .fin b3

section
variable {g : Sap} {rho0 a0 a1 a2c a2e a3 b0 b1 b2c b2e b3 rho e : ℝ}

theorem lo_mul {a b : ℝ} (ha : (2 : ℝ) ^ (-500 : ℤ) ≤ a) (hb : (2 : ℝ) ^ (-500 : ℤ) ≤ b) : (2 : ℝ) ^ (-1000 : ℤ) ≤ a * b := by
  have := mul_le_mul ha hb (zp _).le ((zp _).le.trans ha)
  rwa [← zpow_add₀ (by norm_num)] at this

theorem cubic_ge {c0 c1 c2 c3 m : ℝ} (hm : 1 ≤ m) : (2 : ℝ) ^ (-500 : ℤ) ≤ sapCubic (mag c0) (mag c1) (mag c2) (mag c3) m := by
  have := mag_ge c0
  have := mag_pos c1
  have := mag_pos c2
  have := mag_pos c3
  unfold sapCubic
  have : 0 ≤ mag c1 * m + mag c2 * m ^ 2 + mag c3 * m ^ 3 := by positivity
  linarith

theorem slope_ge {c1 c2 c3 m : ℝ} (hm : 1 ≤ m) : (2 : ℝ) ^ (-500 : ℤ) ≤ sapSlope (mag c1) (mag c2) (mag c3) m := by
  have := mag_ge c1
  have := mag_pos c2
  have := mag_pos c3
  unfold sapSlope
  have : 0 ≤ 2 * mag c2 * m + 3 * mag c3 * m ^ 2 := by positivity
  linarith

/-- C165: for all finite parameters, energies and densities, of any size and sign (short of overflow), the pressure is
finite and equals the documented polynomial of the exact compression `rho/rho0 - 1`, of compression coefficients from the
reference density on and of expansion coefficients below it, up to `2^-48` of the sum of the magnitudes of its terms. -/
theorem C165_pressure {rnd : ℝ → ℝ} (h : ToNearest 53 (-1074) rnd) (hg : g.Has rho0 a0 a1 a2c a2e a3 b0 b1 b2c b2e b3)
    (hf : IsFloat 53 (-1074) rho) (hf0 : IsFloat 53 (-1074) rho0) (h0 : (2 : ℝ) ^ (-1000 : ℤ) ≤ rho0) (hm : rho0 ≤ maxDouble)
    (hr : 0 ≤ rho) :
    let a2 := if rho0 ≤ rho then a2c else a2e
    let b2 := if rho0 ≤ rho then b2c else b2e
    let m := rho / rho0 + 2
    let size := sapCubic (mag a0) (mag a1) (mag a2) (mag a3) m + mag e * sapCubic (mag b0) (mag b1) (mag b2) (mag b3) m
    m ≤ 2 ^ (999 : ℤ) → sapCubic (mag b0) (mag b1) (mag b2) (mag b3) m ≤ 2 ^ (1000 : ℤ) → size ≤ 2 ^ (1000 : ℤ) →
    ∃ y, Sap.pressure rnd maxDouble g (.fin rho) (.fin e) = .fin y ∧
      |y - (sapCubic a0 a1 a2 a3 (rho / rho0 - 1) + e * sapCubic b0 b1 b2 b3 (rho / rho0 - 1))| ≤ size / 2 ^ 48 := by
  intro a2 b2 m size hmM hB hS
  have hp : 0 < rho0 := lt_of_lt_of_le (zp _) h0
  have hm1 : 1 ≤ m := by
    have : 0 ≤ rho / rho0 := div_nonneg hr hp.le
    show 1 ≤ rho / rho0 + 2
    linarith
  have hmu := mu_near h hp hr hmM g hg.rho0
  have hbr := (C165_branch h g hg.rho0 hf hf0 h0 hm).1
  have gA : (2 : ℝ) ^ (-500 : ℤ) ≤ sapCubic (mag a0) (mag a1) (mag a2) (mag a3) m := cubic_ge hm1
  have gB : (2 : ℝ) ^ (-500 : ℤ) ≤ sapCubic (mag b0) (mag b1) (mag b2) (mag b3) m := cubic_ge hm1
  have hEB := lo_mul (mag_ge e) gB
  have hz := zp (-500)
  have hA' : sapCubic (mag a0) (mag a1) (mag a2) (mag a3) m ≤ 2 ^ (1000 : ℤ) := by
    have : 0 ≤ mag e * sapCubic (mag b0) (mag b1) (mag b2) (mag b3) m := (zp _).le.trans hEB
    show _ ≤ _
    linarith [hS]
  have key := ((cubic_near h hm1 hmu hA').mono (by norm_num : 10 ≤ 0 + 10 + 1)).add h (by norm_num)
    ((Near.exact (abs_le_mag e)).mul h (by norm_num) (cubic_near h hm1 hmu hB) hEB
      (by have : 0 ≤ sapCubic (mag a0) (mag a1) (mag a2) (mag a3) m := hz.le.trans gA
          linarith [hS])) (by linarith [lo_le, (zp (-1000)).le.trans hEB]) hS
  have key' := key.close (by norm_num)
  unfold Sap.pressure
  rw [hg.a0, hg.a1, hg.a2c, hg.a2e, hg.a3, hg.b0, hg.b1, hg.b2c, hg.b2e, hg.b3]
  by_cases hc : rho0 ≤ rho
  · simp only [hbr.2 hc, if_true]
    have e1 : a2 = a2c := if_pos hc
    have e2 : b2 = b2c := if_pos hc
    rw [e1, e2] at key'
    simpa only [size, e1, e2] using key'
  · simp only [mt hbr.1 hc, if_false]
    have e1 : a2 = a2e := if_neg hc
    have e2 : b2 = b2e := if_neg hc
    rw [e1, e2] at key'
    simpa only [size, e1, e2] using key'

/-- C165: likewise the Gruneisen parameter. -/
theorem C165_gruneisen {rnd : ℝ → ℝ} (h : ToNearest 53 (-1074) rnd) (hg : g.Has rho0 a0 a1 a2c a2e a3 b0 b1 b2c b2e b3) (e : Ext)
    (hf : IsFloat 53 (-1074) rho) (hf0 : IsFloat 53 (-1074) rho0) (h0 : (2 : ℝ) ^ (-1000 : ℤ) ≤ rho0) (hm : rho0 ≤ maxDouble)
    (hr : 0 ≤ rho) :
    let b2 := if rho0 ≤ rho then b2c else b2e
    let size := sapCubic (mag b0) (mag b1) (mag b2) (mag b3) (rho / rho0 + 2)
    rho / rho0 + 2 ≤ 2 ^ (999 : ℤ) → size ≤ 2 ^ (1000 : ℤ) →
    ∃ y, Sap.gruneisen rnd maxDouble g (.fin rho) e = .fin y ∧ |y - sapCubic b0 b1 b2 b3 (rho / rho0 - 1)| ≤ size / 2 ^ 48 := by
  intro b2 size hmM hS
  have hp : 0 < rho0 := lt_of_lt_of_le (zp _) h0
  have hm1 : 1 ≤ rho / rho0 + 2 := by
    have : 0 ≤ rho / rho0 := div_nonneg hr hp.le
    linarith
  have hmu := mu_near h hp hr hmM g hg.rho0
  have hbr := (C165_branch h g hg.rho0 hf hf0 h0 hm).1
  have key := (cubic_near h hm1 hmu hS).close (by norm_num)
  unfold Sap.gruneisen
  rw [hg.b0, hg.b1, hg.b2c, hg.b2e, hg.b3]
  by_cases hc : rho0 ≤ rho
  · simp only [hbr.2 hc, if_true]
    have e2 : b2 = b2c := if_pos hc
    rw [e2] at key
    simpa only [size, e2] using key
  · simp only [mt hbr.1 hc, if_false]
    have e2 : b2 = b2e := if_neg hc
    rw [e2] at key
    simpa only [size, e2] using key

/-- C165: likewise the bulk modulus: `rho/rho0` times the derivative of the pressure polynomial with respect to the compression
at fixed energy. -/
theorem C165_bulk_modulus {rnd : ℝ → ℝ} (h : ToNearest 53 (-1074) rnd) (hg : g.Has rho0 a0 a1 a2c a2e a3 b0 b1 b2c b2e b3)
    (hf : IsFloat 53 (-1074) rho) (hf0 : IsFloat 53 (-1074) rho0) (h0 : (2 : ℝ) ^ (-1000 : ℤ) ≤ rho0) (hm : rho0 ≤ maxDouble)
    (hr : 0 ≤ rho) :
    let a2 := if rho0 ≤ rho then a2c else a2e
    let b2 := if rho0 ≤ rho then b2c else b2e
    let m := rho / rho0 + 2
    let size := (1 + m) * (sapSlope (mag a1) (mag a2) (mag a3) m + mag e * sapSlope (mag b1) (mag b2) (mag b3) m)
    m ≤ 2 ^ (999 : ℤ) → sapSlope (mag b1) (mag b2) (mag b3) m ≤ 2 ^ (1000 : ℤ) → size ≤ 2 ^ (1000 : ℤ) →
    ∃ y, Sap.bulkModulus rnd maxDouble g (.fin rho) (.fin e) = .fin y ∧
      |y - rho / rho0 * (sapSlope a1 a2 a3 (rho / rho0 - 1) + e * sapSlope b1 b2 b3 (rho / rho0 - 1))| ≤ size / 2 ^ 48 := by
  intro a2 b2 m size hmM hB hS
  have hp : 0 < rho0 := lt_of_lt_of_le (zp _) h0
  have hm1 : 1 ≤ m := by
    have : 0 ≤ rho / rho0 := div_nonneg hr hp.le
    show 1 ≤ rho / rho0 + 2
    linarith
  have hmu := mu_near h hp hr hmM g hg.rho0
  have hbr := (C165_branch h g hg.rho0 hf hf0 h0 hm).1
  have gA : (2 : ℝ) ^ (-500 : ℤ) ≤ sapSlope (mag a1) (mag a2) (mag a3) m := slope_ge hm1
  have gB : (2 : ℝ) ^ (-500 : ℤ) ≤ sapSlope (mag b1) (mag b2) (mag b3) m := slope_ge hm1
  have hEB := lo_mul (mag_ge e) gB
  have hz := zp (-500)
  have hz' := zp (-1000)
  have hEB0 : 0 ≤ mag e * sapSlope (mag b1) (mag b2) (mag b3) m := hz'.le.trans hEB
  have hA0 : 0 ≤ sapSlope (mag a1) (mag a2) (mag a3) m := hz.le.trans gA
  have hT : sapSlope (mag a1) (mag a2) (mag a3) m + mag e * sapSlope (mag b1) (mag b2) (mag b3) m ≤ size :=
    le_mul_of_one_le_left (by linarith) (by linarith)
  have hi : (2 : ℝ) ^ (999 : ℤ) ≤ 2 ^ (999 : ℤ) := le_rfl
  have hi2 : (2 : ℝ) ^ (1000 : ℤ) = 2 * 2 ^ (999 : ℤ) := by
    rw [show (1000 : ℤ) = 1 + 999 by norm_num, zpow_add₀ (by norm_num)]; norm_num
  have hi1 : (1 : ℝ) ≤ 2 ^ (999 : ℤ) := one_le_zpow₀ (by norm_num) (by norm_num)
  have inner := ((slope_near h hm1 hmu (by linarith)).mono (by norm_num : 8 ≤ 0 + 8 + 1)).add h (by norm_num)
    ((Near.exact (abs_le_mag e)).mul h (by norm_num) (slope_near h hm1 hmu hB) hEB (by linarith)) (by linarith [lo_le])
    (by linarith)
  have outer : Near 3 (1 + m) (1 + (rho / rho0 - 1)) (add rnd maxDouble (.fin 1) (Sap.mu rnd maxDouble g (.fin rho))) :=
    ((Near.exact (by norm_num : |(1 : ℝ)| ≤ 1)).mono (by norm_num : 0 ≤ 2)).add h (by norm_num) hmu
      (by have : (2 : ℝ) ^ (-1000 : ℤ) ≤ 1 := zpow_le_one_of_nonpos₀ (by norm_num) (by norm_num)
          linarith only [this, hm1]) (by
        show 1 + m ≤ (2 : ℝ) ^ (1000 : ℤ)
        rw [hi2]
        have hmM' : m ≤ (2 : ℝ) ^ (999 : ℤ) := hmM
        generalize (2 : ℝ) ^ (999 : ℤ) = T at hmM' hi1
        linarith only [hmM', hi1])
  have key := (outer.mul h (by norm_num) inner (by
    have a : (2 : ℝ) ^ (-1000 : ℤ) ≤ sapSlope (mag a1) (mag a2) (mag a3) m + mag e * sapSlope (mag b1) (mag b2) (mag b3) m := by
      linarith [lo_le]
    exact a.trans hT) hS).close (by norm_num)
  have ex : (1 + (rho / rho0 - 1)) = rho / rho0 := by ring
  rw [ex] at key
  unfold Sap.bulkModulus
  rw [hg.a1, hg.a2c, hg.a2e, hg.a3, hg.b1, hg.b2c, hg.b2e, hg.b3]
  by_cases hc : rho0 ≤ rho
  · simp only [hbr.2 hc, if_true]
    have e1 : a2 = a2c := if_pos hc
    have e2 : b2 = b2c := if_pos hc
    rw [e1, e2] at key
    simpa only [size, e1, e2] using key
  · simp only [mt hbr.1 hc, if_false]
    have e1 : a2 = a2e := if_neg hc
    have e2 : b2 = b2e := if_neg hc
    rw [e1, e2] at key
    simpa only [size, e1, e2] using key

end

/-! ## What is never masked -/

theorem isFin_of_div {rnd : ℝ → ℝ} {Ω : ℝ} {x y : Ext} (h : IsFin (div rnd Ω x y)) : IsFin x ∧ y ≠ .nan ∧ y ≠ .fin 0 := by
  rcases x with _ | s | a <;> rcases y with _ | t | b
  all_goals try exact absurd h not_isFin_nan
  all_goals try exact absurd h (not_isFin_inf _)
  · exact ⟨⟨_, rfl⟩, by simp, by simp⟩
  · refine ⟨⟨_, rfl⟩, by simp, ?_⟩
    intro hb
    obtain rfl : b = 0 := by simpa using hb
    revert h
    simp only [div, if_true]
    split_ifs
    · exact not_isFin_nan
    · exact not_isFin_inf _

theorem isFin_of_mu {rnd : ℝ → ℝ} {Ω : ℝ} {g : Sap} {rho : Ext} (h : IsFin (Sap.mu rnd Ω g rho)) :
    IsFin rho ∧ g.rho0 ≠ .nan ∧ g.rho0 ≠ .fin 0 := isFin_of_div h.of_sub.1

theorem isFin_of_cubic {rnd : ℝ → ℝ} {Ω : ℝ} {c0 c1 c2 c3 m : Ext} (h : IsFin (Sap.cubic rnd Ω c0 c1 c2 c3 m)) :
    IsFin c0 ∧ IsFin c1 ∧ IsFin c2 ∧ IsFin c3 ∧ IsFin m :=
  ⟨h.of_add.1.of_add.1.of_add.1, h.of_add.1.of_add.1.of_add.2.of_mul.1, h.of_add.1.of_add.2.of_mul.1.of_mul.1,
    h.of_add.2.of_mul.1.of_mul.1.of_mul.1, h.of_add.2.of_mul.2⟩

theorem isFin_of_slope {rnd : ℝ → ℝ} {Ω : ℝ} {c1 c2 c3 m : Ext} (h : IsFin (Sap.slope rnd Ω c1 c2 c3 m)) :
    IsFin c1 ∧ IsFin c2 ∧ IsFin c3 ∧ IsFin m :=
  ⟨h.of_add.1.of_add.1, h.of_add.1.of_add.2.of_mul.1.of_mul.2, h.of_add.2.of_mul.1.of_mul.1.of_mul.2, h.of_add.2.of_mul.2⟩

/-- C165: an ordinary number is returned only for ordinary arguments and parameters: a NaN or infinite density or energy, or a NaN
or zero reference density, always shows in the pressure and the bulk modulus as NaN or infinity, and, the energy apart, in the
Gruneisen parameter too. This holds for every rounding and every largest number. -/
theorem C165_nothing_masked (rnd : ℝ → ℝ) (Ω : ℝ) (g : Sap) (rho sie : Ext) :
    (IsFin (Sap.pressure rnd Ω g rho sie) ∨ IsFin (Sap.bulkModulus rnd Ω g rho sie) →
      IsFin rho ∧ IsFin sie ∧ g.rho0 ≠ .nan ∧ g.rho0 ≠ .fin 0) ∧
    (IsFin (Sap.gruneisen rnd Ω g rho sie) → IsFin rho ∧ g.rho0 ≠ .nan ∧ g.rho0 ≠ .fin 0) ∧
    (IsFin (Sap.pressure rnd Ω g rho sie) → IsFin g.a0 ∧ IsFin g.a1 ∧ IsFin g.a3 ∧ IsFin g.b0 ∧ IsFin g.b1 ∧ IsFin g.b3) := by
  refine ⟨?_, ?_, ?_⟩
  · rintro (h | h)
    · simp only [Sap.pressure] at h
      split_ifs at h
      · have m := isFin_of_mu (isFin_of_cubic h.of_add.1).2.2.2.2
        exact ⟨m.1, h.of_add.2.of_mul.1, m.2⟩
      · have m := isFin_of_mu (isFin_of_cubic h.of_add.1).2.2.2.2
        exact ⟨m.1, h.of_add.2.of_mul.1, m.2⟩
    · simp only [Sap.bulkModulus] at h
      split_ifs at h
      · have m := isFin_of_mu h.of_mul.1.of_add.2
        exact ⟨m.1, h.of_mul.2.of_add.2.of_mul.1, m.2⟩
      · have m := isFin_of_mu h.of_mul.1.of_add.2
        exact ⟨m.1, h.of_mul.2.of_add.2.of_mul.1, m.2⟩
  · intro h
    simp only [Sap.gruneisen] at h
    split_ifs at h
    · exact isFin_of_mu (isFin_of_cubic h).2.2.2.2
    · exact isFin_of_mu (isFin_of_cubic h).2.2.2.2
  · intro h
    simp only [Sap.pressure] at h
    split_ifs at h
    all_goals
      have a := isFin_of_cubic h.of_add.1
      have b := isFin_of_cubic h.of_add.2.of_mul.2
      exact ⟨a.1, a.2.1, a.2.2.2.1, b.1, b.2.1, b.2.2.2.1⟩

/-- Fails: a reference density of 0 is accepted ("must be non-negative"), but then no pressure, bulk modulus or Gruneisen parameter is
ever an ordinary number, at any density and energy. -/
theorem C165_zero_reference_violated (rnd : ℝ → ℝ) (Ω : ℝ) (g : Sap) (h0 : g.rho0 = .fin 0) :
    g.accepted ∧ ∀ rho sie, ¬ IsFin (Sap.pressure rnd Ω g rho sie) ∧ ¬ IsFin (Sap.bulkModulus rnd Ω g rho sie) ∧
      ¬ IsFin (Sap.gruneisen rnd Ω g rho sie) := by
  refine ⟨by rw [Sap.accepted, h0]; exact le_refl (0 : ℝ), fun rho sie => ?_⟩
  obtain ⟨p, q, -⟩ := C165_nothing_masked rnd Ω g rho sie
  exact ⟨fun h => (p (.inl h)).2.2.2 h0, fun h => (p (.inr h)).2.2.2 h0, fun h => (q h).2.2 h0⟩

/-! ## The hypotheses are met -/

/-- A gas of reference density 2 with coefficients of either sign. -/
def sapExample : Sap :=
  { rho0 := .fin 2
    a0 := .fin 0
    a1 := .fin 30
    a2c := .fin (-5)
    a2e := .fin 7
    a3 := .fin 1
    b0 := .fin 1
    b1 := .fin (-1)
    b2c := .fin 2
    b2e := .fin 3
    b3 := .fin 0 }

theorem sapExample_has : sapExample.Has 2 0 30 (-5) 7 1 1 (-1) 2 3 0 := ⟨rfl, rfl, rfl, rfl, rfl, rfl, rfl, rfl, rfl, rfl, rfl⟩

theorem mag_le (c : ℝ) : mag c ≤ |c| + 1 := by
  unfold mag
  have : (2 : ℝ) ^ (-500 : ℤ) ≤ 1 := zpow_le_one_of_nonpos₀ (by norm_num) (by norm_num)
  linarith only [this]

theorem big_le {x : ℝ} (hx : x ≤ 2 ^ 30) : x ≤ (2 : ℝ) ^ (999 : ℤ) ∧ x ≤ (2 : ℝ) ^ (1000 : ℤ) := by
  have a : (2 : ℝ) ^ (30 : ℕ) = 2 ^ (30 : ℤ) := by norm_cast
  rw [a] at hx
  exact ⟨hx.trans (zpow_le_zpow_right₀ (by norm_num) (by norm_num)), hx.trans (zpow_le_zpow_right₀ (by norm_num) (by norm_num))⟩

/-- The hypotheses of the three accuracy theorems are met: in compression (density 3) and in expansion (density 1), with negative energy. -/
example : ∃ rnd, ToNearest 53 (-1074) rnd ∧ ∀ rho : ℝ, rho = 3 ∨ rho = 1 →
    (∃ y, Sap.pressure rnd maxDouble sapExample (.fin rho) (.fin (-4)) = .fin y) ∧
    (∃ y, Sap.gruneisen rnd maxDouble sapExample (.fin rho) (.fin (-4)) = .fin y) ∧
    (∃ y, Sap.bulkModulus rnd maxDouble sapExample (.fin rho) (.fin (-4)) = .fin y) := by
  obtain ⟨rnd, h⟩ := exists_toNearest (p := 53) (emin := -1074) (by norm_num)
  refine ⟨rnd, h, fun rho hrho => ?_⟩
  have f2 : IsFloat 53 (-1074) (2 : ℝ) := ⟨2, 0, by norm_num, by norm_num, by norm_num⟩
  have fr : IsFloat 53 (-1074) rho := by
    rcases hrho with rfl | rfl
    · exact ⟨3, 0, by norm_num, by norm_num, by norm_num⟩
    · exact ⟨1, 0, by norm_num, by norm_num, by norm_num⟩
  have lo : (2 : ℝ) ^ (-1000 : ℤ) ≤ 2 :=
    (zpow_le_one_of_nonpos₀ (by norm_num) (by norm_num) : (2 : ℝ) ^ (-1000 : ℤ) ≤ 1).trans (by norm_num)
  have hi : (2 : ℝ) ≤ maxDouble := le_trans (by norm_num) maxDouble_large
  have hr0 : 0 ≤ rho := by rcases hrho with rfl | rfl <;> norm_num
  have hm : rho / 2 + 2 ≤ 4 := by rcases hrho with rfl | rfl <;> norm_num
  have hm0 : 0 ≤ rho / 2 + 2 := by linarith only [hr0]
  have cub (c0 c1 c2 c3 : ℝ) (h0 : |c0| ≤ 30) (h1 : |c1| ≤ 30) (h2 : |c2| ≤ 30) (h3 : |c3| ≤ 30) :
      sapCubic (mag c0) (mag c1) (mag c2) (mag c3) (rho / 2 + 2) ≤ 31 * 85 := by
    unfold sapCubic
    have q2 : (rho / 2 + 2) ^ 2 ≤ 4 ^ 2 := pow_le_pow_left₀ hm0 hm 2
    have q3 : (rho / 2 + 2) ^ 3 ≤ 4 ^ 3 := pow_le_pow_left₀ hm0 hm 3
    have r0 := mag_le c0
    have r1 := mul_le_mul ((mag_le c1).trans (by linarith only [h1] : _ ≤ (31 : ℝ))) hm hm0 (by norm_num)
    have r2 := mul_le_mul ((mag_le c2).trans (by linarith only [h2] : _ ≤ (31 : ℝ))) q2 (by positivity) (by norm_num)
    have r3 := mul_le_mul ((mag_le c3).trans (by linarith only [h3] : _ ≤ (31 : ℝ))) q3 (by positivity) (by norm_num)
    linarith only [r0, r1, r2, r3, h0]
  have slo (c1 c2 c3 : ℝ) (h1 : |c1| ≤ 30) (h2 : |c2| ≤ 30) (h3 : |c3| ≤ 30) :
      sapSlope (mag c1) (mag c2) (mag c3) (rho / 2 + 2) ≤ 31 * 57 := by
    unfold sapSlope
    have q2 : (rho / 2 + 2) ^ 2 ≤ 4 ^ 2 := pow_le_pow_left₀ hm0 hm 2
    have r1 := mag_le c1
    have r2 := mul_le_mul ((mag_le c2).trans (by linarith only [h2] : _ ≤ (31 : ℝ))) hm hm0 (by norm_num)
    have r3 := mul_le_mul ((mag_le c3).trans (by linarith only [h3] : _ ≤ (31 : ℝ))) q2 (by positivity) (by norm_num)
    linarith only [r1, r2, r3, h1]
  have me : mag (-4) ≤ 5 := (mag_le _).trans (by norm_num)
  have big {x : ℝ} (hx : x ≤ 2 ^ 30) : x ≤ (2 : ℝ) ^ (1000 : ℤ) := (big_le hx).2
  have prod {x y : ℝ} (hx : 0 ≤ y) (hy : y ≤ x) : mag (-4) * y ≤ 5 * x :=
    mul_le_mul me hy hx (by norm_num)
  have nn (c : ℝ) : 0 ≤ mag c := (mag_pos c).le
  have cub0 (c0 c1 c2 c3 : ℝ) : 0 ≤ sapCubic (mag c0) (mag c1) (mag c2) (mag c3) (rho / 2 + 2) := by
    have := nn c0; have := nn c1; have := nn c2; have := nn c3
    unfold sapCubic; positivity
  have slo0 (c1 c2 c3 : ℝ) : 0 ≤ sapSlope (mag c1) (mag c2) (mag c3) (rho / 2 + 2) := by
    have := nn c1; have := nn c2; have := nn c3
    unfold sapSlope; positivity
  have hM : rho / 2 + 2 ≤ (2 : ℝ) ^ (999 : ℤ) := (big_le (by linarith only [hm])).1
  have a2 : |if (2 : ℝ) ≤ rho then (-5 : ℝ) else 7| ≤ 30 := by split_ifs <;> norm_num
  have b2 : |if (2 : ℝ) ≤ rho then (2 : ℝ) else 3| ≤ 30 := by split_ifs <;> norm_num
  have A := cub 0 30 _ 1 (by norm_num) (by norm_num) a2 (by norm_num)
  have B := cub 1 (-1) _ 0 (by norm_num) (by norm_num) b2 (by norm_num)
  have SA := slo 30 _ 1 (by norm_num) a2 (by norm_num)
  have SB := slo (-1) _ 0 (by norm_num) b2 (by norm_num)
  have PB := prod (cub0 1 (-1) (if (2 : ℝ) ≤ rho then (2 : ℝ) else 3) 0) B
  have PS := prod (slo0 (-1) (if (2 : ℝ) ≤ rho then (2 : ℝ) else 3) 0) SB
  refine ⟨?_, ?_, ?_⟩
  · obtain ⟨y, hy, -⟩ := C165_pressure (e := -4) h sapExample_has fr f2 lo hi hr0 hM (big (by linarith only [B]))
      (big (by linarith only [A, PB]))
    exact ⟨y, hy⟩
  · obtain ⟨y, hy, -⟩ := C165_gruneisen h sapExample_has (.fin (-4)) fr f2 lo hi hr0 hM (big (by linarith only [B]))
    exact ⟨y, hy⟩
  · obtain ⟨y, hy, -⟩ := C165_bulk_modulus (e := -4) h sapExample_has fr f2 lo hi hr0 hM (big (by linarith only [SB]))
      (big (by
        have := mul_le_mul (by linarith only [hm] : 1 + (rho / 2 + 2) ≤ 5) (add_le_add SA PS)
          (add_nonneg (slo0 _ _ _) (mul_nonneg (nn _) (slo0 _ _ _))) (by norm_num)
        exact this.trans (by norm_num)))
    exact ⟨y, hy⟩

/-- `sapExample` is accepted and is a gas of the theorem's kind; so is the same gas with reference density 0. -/
example : sapExample.accepted ∧ ({ sapExample with rho0 := .fin 0 } : Sap).accepted :=
  ⟨by show (0 : ℝ) ≤ 2; norm_num, by show (0 : ℝ) ≤ 0; norm_num⟩

end Ieee

end Verif
