import Verif.Lemmas.Robust

/-! # C05, C06, C07: robust arithmetic helpers -/

namespace Verif.Robust

variable {K : Type*} [Field K] [LinearOrder K] [IsStrictOrderedRing K]

/-- C05: `ratio` never divides by zero, whatever the denominator. -/
theorem C05_ratio_never_divides_by_zero {σ : K} (hσ : 0 < σ) (b : K) : b + sgn b * σ ≠ 0 :=
  den_ne_zero hσ b

/-- C05: with a zero denominator the result is the finite `a / SMALL`. -/
theorem C05_ratio_zero_denominator (σ a : K) : ratio σ a 0 = a / σ := by
  rw [ratio_pos_den a le_rfl, zero_add]

/-- C05: the sign is that of `a/b`, a zero denominator counting as positive. -/
theorem C05_ratio_sign {σ : K} (hσ : 0 < σ) (a b : K) :
    (0 < ratio σ a b ↔ (0 < a ∧ 0 ≤ b) ∨ (a < 0 ∧ b < 0)) ∧
    (ratio σ a b < 0 ↔ (a < 0 ∧ 0 ≤ b) ∨ (0 < a ∧ b < 0)) ∧
    (ratio σ a b = 0 ↔ a = 0) := by
  rcases le_or_gt 0 b with hb | hb
  · rw [ratio_pos_den a hb]
    have h : 0 < b + σ := by linarith
    refine ⟨?_, ?_, ?_⟩
    · rw [div_pos_iff_of_pos_right h]; simp [hb, not_lt.mpr hb]
    · rw [div_neg_iff]; simp [hb, not_lt.mpr hb, h, not_lt.mpr h.le]
    · simp [h.ne']
  · rw [ratio_neg_den a hb]
    have h : b - σ < 0 := by linarith
    refine ⟨?_, ?_, ?_⟩
    · rw [div_pos_iff]; simp [hb, not_le.mpr hb, h, not_lt.mpr h.le]
    · rw [div_neg_iff]; simp [hb, not_le.mpr hb, h, not_lt.mpr h.le]
    · simp [h.ne]

/-- C05: the magnitude never exceeds that of the true quotient. -/
theorem C05_ratio_abs_le {σ : K} (hσ : 0 < σ) (a : K) {b : K} (hb : b ≠ 0) :
    |ratio σ a b| ≤ |a / b| := by
  rw [ratio_formula a hb hσ, abs_mul]
  have h1 : 0 < |b| + σ := by positivity
  have h2 : |(|b| / (|b| + σ))| ≤ 1 := by
    rw [abs_div, abs_abs, abs_of_pos h1, div_le_one h1]; linarith
  calc |a / b| * |(|b| / (|b| + σ))| ≤ |a / b| * 1 :=
        mul_le_mul_of_nonneg_left h2 (abs_nonneg _)
    _ = |a / b| := mul_one _

/-- C05: the deviation from the true quotient is exactly the factor `SMALL / (|b| + SMALL)`. -/
theorem C05_ratio_relative_error {σ : K} (hσ : 0 < σ) (a : K) {b : K} (hb : b ≠ 0) :
    |ratio σ a b - a / b| = |a / b| * (σ / (|b| + σ)) := by
  have h1 : 0 < |b| + σ := by positivity
  rw [ratio_formula a hb hσ]
  have : a / b * (|b| / (|b| + σ)) - a / b = -(a / b * (σ / (|b| + σ))) := by
    field_simp; ring
  rw [this, abs_neg, abs_mul, abs_of_pos (show 0 < σ / (|b| + σ) by positivity)]

/-- C05: in double precision (`SMALL = 10·2^-1022`) the deviation is below half a unit in the last place as soon as the
denominator is at least `10·2^-969 ≈ 2·10^-291`. -/
theorem C05_ratio_double_accurate (a : ℚ) {b : ℚ} (hb : 10 / 2 ^ 969 ≤ |b|) :
    |ratio SMALL a b - a / b| ≤ |a / b| / 2 ^ 53 := by
  have h0 : (0 : ℚ) < SMALL := by norm_num [SMALL]
  have hb0 : (0 : ℚ) < |b| := lt_of_lt_of_le (by norm_num) hb
  have hs : SMALL * 2 ^ 53 ≤ |b| := by
    refine le_trans (le_of_eq ?_) hb
    rw [SMALL, show (1022 : ℕ) = 969 + 53 from rfl, pow_add]
    field_simp
  rw [C05_ratio_relative_error h0 a (abs_pos.mp hb0), div_eq_mul_inv |a / b|]
  refine mul_le_mul_of_nonneg_left ?_ (abs_nonneg _)
  have h1 : 0 < |b| + SMALL := by positivity
  rw [div_le_iff₀ h1, inv_mul_eq_div, le_div_iff₀ (by positivity)]
  linarith

/-- C05: over a zero denominator the value stays in the range of doubles (below `2^1024`) exactly for numerators smaller
than 40 in magnitude: a zero denominator gives an infinity for larger ones. -/
theorem C05_ratio_double_zero_denominator (a : ℚ) : |ratio SMALL a 0| < 2 ^ 1024 ↔ |a| < 40 := by
  have h0 : (0 : ℚ) < SMALL := by norm_num [SMALL]
  have h1 : (2 : ℚ) ^ 1024 * SMALL = 40 := by
    rw [SMALL, show (1024 : ℕ) = 1022 + 2 from rfl, pow_add]
    field_simp
    norm_num
  rw [C05_ratio_zero_denominator, abs_div, abs_of_pos h0, div_lt_iff₀ h0, h1]

/-- C05 non-vacuity: the double constant is positive and the value at a concrete point. -/
example : (0 : ℚ) < SMALL ∧ ratio (1 : ℚ) 6 (-2) = -2 ∧ ratio (1 : ℚ) 6 0 = 6 := by
  refine ⟨by norm_num [SMALL], ?_, ?_⟩ <;> norm_num [ratio, sgn]

/-- C06: `make_positive` is at least `EPS`, fixes anything at least `EPS`, and is monotone. -/
theorem C06_makePositive {ε : K} (v w : K) :
    ε ≤ makePositive ε v ∧ (ε ≤ v → makePositive ε v = v) ∧
    (v < ε → makePositive ε v = ε) ∧ (v ≤ w → makePositive ε v ≤ makePositive ε w) :=
  ⟨le_max_right _ _, fun h => max_eq_left h, fun h => max_eq_right h.le,
    fun h => max_le_max h le_rfl⟩

/-- C06: for a non-empty shrunk interval `make_bounded` is the projection onto
`[vmin + EPS, vmax (1 - EPS)]`: it lands there and fixes every point of it. -/
theorem C06_makeBounded_projection {ε vmin vmax : K} (h : vmin + ε ≤ vmax * (1 - ε)) (v : K) :
    vmin + ε ≤ makeBounded ε v vmin vmax ∧ makeBounded ε v vmin vmax ≤ vmax * (1 - ε) ∧
    (vmin + ε ≤ v → v ≤ vmax * (1 - ε) → makeBounded ε v vmin vmax = v) ∧
    (v ≤ vmin + ε → makeBounded ε v vmin vmax = vmin + ε) ∧
    (vmax * (1 - ε) ≤ v → makeBounded ε v vmin vmax = vmax * (1 - ε)) := by
  unfold makeBounded
  refine ⟨le_min (le_max_right _ _) h, min_le_right _ _, ?_, ?_, ?_⟩
  · intro h1 h2; rw [max_eq_left h1, min_eq_left h2]
  · intro h1; rw [max_eq_right h1, min_eq_left h]
  · intro h1; exact min_eq_right (le_trans h1 (le_max_left _ _))

/-- C06: `make_bounded` is monotone in its argument. -/
theorem C06_makeBounded_monotone {ε vmin vmax v w : K} (h : v ≤ w) :
    makeBounded ε v vmin vmax ≤ makeBounded ε w vmin vmax :=
  min_le_min (max_le_max h le_rfl) le_rfl

/-- C06: for a positive upper bound the result is strictly inside `(vmin, vmax)`. For negative
upper bounds this is false (next theorem). -/
theorem C06_makeBounded_strictly_inside {ε vmin vmax : K} (hε : 0 < ε) (hv : 0 < vmax)
    (h : vmin + ε ≤ vmax * (1 - ε)) (v : K) :
    vmin < makeBounded ε v vmin vmax ∧ makeBounded ε v vmin vmax < vmax := by
  obtain ⟨h1, h2, _⟩ := C06_makeBounded_projection h v
  refine ⟨by linarith, lt_of_le_of_lt h2 ?_⟩
  nlinarith

/-- C06 violated for negative upper bounds: `vmax*(1-EPS)` is then above `vmax`, so the clamped value
can leave `[vmin, vmax]`, for every `EPS > 0` small enough. -/
theorem C06_makeBounded_exceeds_negative_bound_violated {ε : K} (hε : 0 < ε) (hε' : ε ≤ 1 / 2) :
    -1 < makeBounded ε 0 (-2) (-1) := by
  unfold makeBounded
  refine lt_min (lt_of_lt_of_le (by linarith) (le_max_left _ _)) (by linarith)

example : (0 : ℚ) + EPS ≤ 1 * (1 - EPS) ∧ (0 : ℚ) < EPS ∧ EPS ≤ 1 / 2 := by
  refine ⟨?_, ?_, ?_⟩ <;> norm_num [EPS]

/-- Order on results: finite values by size, infinity on top. -/
def ExpOut.le : ExpOut → ExpOut → Prop
  | .fin x, .fin y => x ≤ y
  | _, .inf => True
  | .inf, .fin _ => False

/-- C06: `safe_arg_exp` is the exponential inside the representable exponent range, zero below and
infinity above, hence never negative and monotone over all arguments. -/
theorem C06_safeArgExp {lo hi : ℝ} (hlh : lo ≤ hi) (x y : ℝ) :
    (lo ≤ x → x ≤ hi → safeArgExp lo hi x = .fin (Real.exp x)) ∧
    (x < lo → safeArgExp lo hi x = .fin 0) ∧
    (hi < x → safeArgExp lo hi x = .inf) ∧
    (x ≤ y → (safeArgExp lo hi x).le (safeArgExp lo hi y)) := by
  refine ⟨?_, ?_, ?_, ?_⟩
  · intro h1 h2; simp [safeArgExp, not_lt.mpr h1, not_lt.mpr h2]
  · intro h; simp [safeArgExp, h]
  · intro h; simp [safeArgExp, h, not_lt.mpr (hlh.trans h.le)]
  · intro h
    unfold safeArgExp
    split_ifs <;> simp only [ExpOut.le] <;>
      first
      | trivial
      | exact le_rfl
      | exact (Real.exp_pos _).le
      | exact Real.exp_le_exp.mpr h
      | linarith

/-- C06: at the double limits the value returned in the finite branch is a normal double:
between `2^-1022` and `2^1024`. -/
theorem C06_safeArgExp_range (x r : ℝ) (h : safeArgExp minExpArg maxExpArg x = .fin r) :
    r = 0 ∨ ((2 : ℝ) ^ (-1022 : ℤ) ≤ r ∧ r ≤ 2 ^ (1024 : ℤ)) := by
  unfold safeArgExp at h
  split_ifs at h with h1 h2
  · left; injection h with h; exact h.symm
  · right
    injection h with h; subst h
    have e : ∀ n : ℤ, (2 : ℝ) ^ n = Real.exp (n * Real.log 2) := by
      intro n
      rw [← Real.log_zpow, Real.exp_log (by positivity)]
    rw [e, e]
    constructor
    · apply Real.exp_le_exp.mpr; simp only [minExpArg, not_lt] at h1
      refine le_trans (le_of_eq ?_) h1; push_cast; ring
    · apply Real.exp_le_exp.mpr; simp only [maxExpArg, gt_iff_lt, not_lt] at h2
      push_cast; exact h2

example : minExpArg ≤ maxExpArg := by
  have := Real.log_pos (show (1 : ℝ) < 2 by norm_num)
  unfold minExpArg maxExpArg; linarith

omit [IsStrictOrderedRing K] in
/-- C07: `pow<P>(x) = x^P` for every integer exponent. -/
theorem C07_pow_eq_zpow (P : Int) (x : K) : powInt P x = x ^ P := by
  unfold powInt
  split_ifs with h
  · rw [powNat_eq, ← zpow_natCast, Int.natAbs_of_nonneg h]
  · rw [powNat_eq, one_div, ← zpow_natCast, ← zpow_neg]
    congr 1; omega

example : powInt (K := ℚ) (-3) 2 = 1 / 8 ∧ powInt (K := ℚ) 11 2 = 2048 := by
  rw [C07_pow_eq_zpow, C07_pow_eq_zpow]; norm_num

end Verif.Robust
