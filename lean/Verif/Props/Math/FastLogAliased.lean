import Verif.Props.Math.FastLog

set_option linter.unusedSectionVars false

/-! # C57: the integer-aliased versions (the default build) -/

namespace Verif.FastLog

/-- A rounding to nearest: relative error at most `2^-53`. -/
def Rounds (rnd : ℝ → ℝ) : Prop := ∀ x, |rnd x - x| ≤ 1 / 2 ^ 53 * |x|

/-- Exact arithmetic is a rounding. -/
example : Rounds id := fun x => by simp

theorem P_real : ((P : ℤ) : ℝ) = 2 ^ 52 := by norm_num [P]

theorem value_eq (n : ℤ) : ∃ t : ℝ, 0 ≤ t ∧ t < 1 ∧ t = (n % P : ℤ) / (2:ℝ) ^ 52 ∧
    value n = (1 + t) * 2 ^ (n / P - 1023) := by
  have hP : (0:ℤ) < P := by norm_num [P]
  have h0 : (0:ℝ) ≤ (n % P : ℤ) := by exact_mod_cast Int.emod_nonneg n hP.ne'
  have h1 : ((n % P : ℤ) : ℝ) < 2 ^ 52 := by rw [← P_real]; exact_mod_cast Int.emod_lt_of_pos n hP
  refine ⟨(n % P : ℤ) / 2 ^ 52, by positivity, ?_, rfl, ?_⟩
  · rw [div_lt_one (by norm_num)]; exact h1
  · unfold value; rw [P_real]

theorem n_real (n : ℤ) : (n : ℝ) = (n / P : ℤ) * 2 ^ 52 + (n % P : ℤ) := by
  rw [← P_real]
  have := Int.mul_ediv_add_emod n P
  have h : (n : ℝ) = ((P * (n / P) + n % P : ℤ) : ℝ) := by rw [this]
  rw [h]; push_cast; ring

/-- The value of a double is strictly increasing in its bit pattern, so comparing bit patterns is comparing values. -/
theorem value_strictMono : StrictMono value := by
  intro m n h
  obtain ⟨s, s0, s1, sd, hs⟩ := value_eq m
  obtain ⟨t, t0, t1, td, ht⟩ := value_eq n
  by_contra hc
  rcases eq_or_lt_of_le (not_lt.1 hc) with hc | hc
  · have h1 : lgO1 (value n) = lgO1 (value m) := by rw [hc]
    rw [hs, ht, lgO1_of s0 s1, lgO1_of t0 t1, sd, td] at h1
    have := n_real m
    have := n_real n
    have : (m:ℝ) < n := by exact_mod_cast h
    push_cast at h1
    linarith
  · rw [hs, ht] at hc
    have hm := n_real m
    have hn := n_real n
    have h' : (m:ℝ) < n := by exact_mod_cast h
    have sm : ((m % P : ℤ) : ℝ) = s * 2 ^ 52 := by rw [sd]; field_simp
    have tn : ((n % P : ℤ) : ℝ) = t * 2 ^ 52 := by rw [td]; field_simp
    rcases binade_lt t0 s1 s0 hc with h1 | ⟨h1, h2⟩
    · have : ((n / P : ℤ) : ℝ) + 1 ≤ (m / P : ℤ) := by
        have : n / P + 1 ≤ m / P := by omega
        exact_mod_cast this
      rw [hm, hn, sm, tn] at h'
      nlinarith
    · have : n / P = m / P := by omega
      rw [hm, hn, sm, tn, this] at h'
      nlinarith

/-- C57: in exact arithmetic with the exact scale `2^-52`, the aliased linear logarithm of a double is the portable
one, and the aliased exponential takes it back to the same double, for every bit pattern. -/
theorem C57_aliased_linear_exact (n : ℤ) :
    lgO1Aliased id (1 / 2 ^ 52) n = lgO1 (value n) ∧ pow2O1Aliased (lgO1Aliased id (1 / 2 ^ 52) n) = n := by
  constructor
  · obtain ⟨t, t0, t1, td, ht⟩ := value_eq n
    rw [ht, lgO1_of t0 t1, td]
    have hn := n_real n
    simp only [lgO1Aliased, oneAsInt, id]
    push_cast
    rw [hn]; ring
  · simp only [lgO1Aliased, pow2O1Aliased, id]
    rw [show (((n - oneAsInt : ℤ) : ℝ) * (1 / 2 ^ 52) * 2 ^ 52) = ((n - oneAsInt : ℤ) : ℝ) from by ring]
    unfold trunc
    split_ifs <;> simp

/-- C57 violated: the literal `scale_down` has only 15 digits, so it is not `2^-52`; with it, taking the logarithm of
a double and exponentiating back loses the value: every double above one comes back smaller, every double below
one comes back larger, whatever the rounding of the products. -/
theorem C57_aliased_roundtrip_violated (rnd : ℝ → ℝ) (hr : Rounds rnd) (s : ℝ)
    (hs : |s - scaleDown| ≤ 1 / 2 ^ 53 * scaleDown) (n : ℤ) :
    (oneAsInt < n → value (pow2O1Aliased (lgO1Aliased rnd s n)) < value n) ∧
    (n < oneAsInt → value n < value (pow2O1Aliased (lgO1Aliased rnd s n))) := by
  have hsc : scaleDown = 2.22044604925031e-16 := rfl
  obtain ⟨s1, s2⟩ := abs_le.1 hs
  have hs0 : 0 < s := by rw [hsc] at s1; norm_num at s1 ⊢; linarith
  have key : ∀ k : ℝ, 0 < k → ∀ y : ℝ, |y - k| ≤ 1 / 2 ^ 53 * k → ∀ w : ℝ, |w - y * s| ≤ 1 / 2 ^ 53 * |y * s| →
      0 ≤ w * 2 ^ 52 ∧ w * 2 ^ 52 < k := by
    intro k hk y hy w hw
    obtain ⟨y1, y2⟩ := abs_le.1 hy
    have hy0 : 0 < y := by norm_num at y1; linarith
    rw [abs_of_pos (mul_pos hy0 hs0)] at hw
    obtain ⟨w1, w2⟩ := abs_le.1 hw
    have hys := mul_pos hy0 hs0
    constructor
    · norm_num at w1 ⊢; nlinarith
    · have a1 : w ≤ y * s * (1 + 1 / 2 ^ 53) := by linarith
      have a2 : y ≤ k * (1 + 1 / 2 ^ 53) := by linarith
      have a3 : s ≤ 2.22044604925031e-16 * (1 + 1 / 2 ^ 53) := by rw [hsc] at s2; linarith
      have a4 : y * s ≤ k * (1 + 1 / 2 ^ 53) * (2.22044604925031e-16 * (1 + 1 / 2 ^ 53)) :=
        mul_le_mul a2 a3 hs0.le (by positivity)
      have a5 : w ≤ k * (1 + 1 / 2 ^ 53) * (2.22044604925031e-16 * (1 + 1 / 2 ^ 53)) * (1 + 1 / 2 ^ 53) :=
        le_trans a1 (mul_le_mul_of_nonneg_right a4 (by norm_num))
      have a6 : (1 + 1 / 2 ^ 53) * (2.22044604925031e-16 * (1 + 1 / 2 ^ 53)) * (1 + 1 / 2 ^ 53) * (2:ℝ) ^ 52 < 1 := by
        norm_num
      nlinarith
  have hrnd := hr ((n - oneAsInt : ℤ) : ℝ)
  have hrnd2 := hr (rnd ((n - oneAsInt : ℤ) : ℝ) * s)
  constructor
  · intro hn
    apply value_strictMono
    have hk : (0:ℝ) < ((n - oneAsInt : ℤ) : ℝ) := by exact_mod_cast sub_pos.2 hn
    rw [abs_of_pos hk] at hrnd
    obtain ⟨w0, w1⟩ := key _ hk _ hrnd _ hrnd2
    unfold pow2O1Aliased lgO1Aliased trunc
    rw [if_pos w0]
    have : ⌊rnd (rnd ((n - oneAsInt : ℤ) : ℝ) * s) * 2 ^ 52⌋ < n - oneAsInt := Int.floor_lt.2 w1
    omega
  · intro hn
    apply value_strictMono
    have hk : (0:ℝ) < ((oneAsInt - n : ℤ) : ℝ) := by exact_mod_cast sub_pos.2 hn
    have hneg : ((n - oneAsInt : ℤ) : ℝ) = -((oneAsInt - n : ℤ) : ℝ) := by push_cast; ring
    rw [hneg, abs_neg, abs_of_pos hk] at hrnd
    rw [hneg] at hrnd2
    obtain ⟨w0, w1⟩ := key _ hk (-rnd (-((oneAsInt - n : ℤ) : ℝ)))
      (by rw [← abs_neg]; convert hrnd using 2; ring) (-rnd (rnd (-((oneAsInt - n : ℤ) : ℝ)) * s))
      (by rw [← abs_neg, show -rnd (-((oneAsInt - n : ℤ) : ℝ)) * s = -(rnd (-((oneAsInt - n : ℤ) : ℝ)) * s) from by ring,
            abs_neg (rnd (-((oneAsInt - n : ℤ) : ℝ)) * s)]
          convert hrnd2 using 2; ring)
    have hc : n - oneAsInt < ⌈rnd (rnd ((n - oneAsInt : ℤ) : ℝ) * s) * 2 ^ 52⌉ := by
      rw [Int.lt_ceil, hneg]; linarith
    unfold pow2O1Aliased lgO1Aliased trunc
    split_ifs with h
    · have : (0:ℤ) ≤ ⌊rnd (rnd ((n - oneAsInt : ℤ) : ℝ) * s) * 2 ^ 52⌋ := Int.floor_nonneg.2 h
      omega
    · omega

/-! ## Second order -/

/-- `frac_squared` is the square of the fraction, truncated, to less than two units. -/
theorem fracSquared_bounds {f : ℤ} (h0 : 0 ≤ f) (h1 : f < P) :
    P * fracSquared f ≤ f * f ∧ f * f < P * fracSquared f + 2 * P := by
  simp only [fracSquared, shr, andMask, P] at *
  have e1 := Int.mul_ediv_add_emod f (2 ^ 26)
  have b1 := Int.emod_nonneg f (show (2:ℤ) ^ 26 ≠ 0 by norm_num)
  have b2 := Int.emod_lt_of_pos f (show (0:ℤ) < 2 ^ 26 by norm_num)
  have b3 : 0 ≤ f / 2 ^ 26 := Int.ediv_nonneg h0 (by norm_num)
  have b4 : f / 2 ^ 26 < 2 ^ 26 := by omega
  generalize f / 2 ^ 26 = hi at *
  generalize f % 2 ^ 26 = lo at *
  have e2 := Int.mul_ediv_add_emod (hi * lo) (2 ^ 25)
  have c1 := Int.emod_nonneg (hi * lo) (show (2:ℤ) ^ 25 ≠ 0 by norm_num)
  have c2 := Int.emod_lt_of_pos (hi * lo) (show (0:ℤ) < 2 ^ 25 by norm_num)
  generalize hi * lo / 2 ^ 25 = q at *
  generalize (hi * lo) % 2 ^ 25 = w at *
  subst e1
  have hff : (2 ^ 26 * hi + lo) * (2 ^ 26 * hi + lo) = 2 ^ 52 * (hi * hi + q) + 2 ^ 27 * w + lo * lo := by
    have : hi * lo = 2 ^ 25 * q + w := e2.symm
    linear_combination 2 ^ 27 * this
  have d1 : 0 ≤ lo * lo := mul_nonneg b1 b1
  have d2 : lo * lo < 2 ^ 52 := by nlinarith
  constructor
  · rw [hff]; nlinarith
  · rw [hff]; nlinarith

theorem fracSquared_le {f : ℤ} (h0 : 0 ≤ f) (h1 : f < P) : fracSquared f ≤ f := by
  have hP : (0:ℤ) < P := by norm_num [P]
  have := (fracSquared_bounds h0 h1).1
  nlinarith

/-- The mantissa part of the quadratic aliased logarithm. -/
def gInt (f : ℤ) : ℤ := f + (f - fracSquared f) / 3

/-- It stays in `[0, 2^52)`: the logarithm never leaves the binade. -/
theorem gInt_range {f : ℤ} (h0 : 0 ≤ f) (h1 : f < P) : 0 ≤ gInt f ∧ gInt f < P := by
  have hP : (0:ℤ) < P := by norm_num [P]
  have hle := fracSquared_le h0 h1
  obtain ⟨k1, k2⟩ := fracSquared_bounds h0 h1
  unfold gInt
  constructor
  · omega
  · have hk : P * (f - fracSquared f) < f * (P - f) + 2 * P := by linarith
    have hk2 : f * (P - f) ≤ P * (P - f) := by nlinarith
    have : f - fracSquared f < (P - f) + 2 := by nlinarith
    omega

theorem lgO2Int_split (n : ℤ) : lgO2Int n = P * ((n - oneAsInt) / P) + gInt ((n - oneAsInt) % P) := by
  have := Int.mul_ediv_add_emod (n - oneAsInt) P
  simp only [lgO2Int, andMask, gInt]
  rw [show (2:ℤ) ^ 52 = P from rfl]
  omega

theorem fracSquared_step {f : ℤ} (h0 : 0 ≤ f) (h1 : f + 1 < P) : fracSquared (f + 1) ≤ fracSquared f + 3 := by
  obtain ⟨a1, a2⟩ := fracSquared_bounds h0 (by omega)
  obtain ⟨b1, b2⟩ := fracSquared_bounds (f := f + 1) (by omega) h1
  have hP : (0:ℤ) < P := by norm_num [P]
  have : P * fracSquared (f + 1) < P * (fracSquared f + 4) := by nlinarith
  have := lt_of_mul_lt_mul_left this hP.le
  omega

theorem gInt_step {f : ℤ} (h0 : 0 ≤ f) (h1 : f + 1 < P) : gInt f ≤ gInt (f + 1) := by
  have := fracSquared_step h0 h1
  unfold gInt; omega

/-- C57: the default (aliased, second order) logarithm never decreases from one double to the next, at every bit
pattern, including across powers of two. -/
theorem C57_aliased_quadratic_monotone (m n : ℤ) (h : m ≤ n) : lgO2Int m ≤ lgO2Int n := by
  have hP : (0:ℤ) < P := by norm_num [P]
  have step : ∀ m : ℤ, lgO2Int m ≤ lgO2Int (m + 1) := by
    intro m
    rw [lgO2Int_split, lgO2Int_split]
    have a0 := Int.emod_nonneg (m - oneAsInt) hP.ne'
    have a1 := Int.emod_lt_of_pos (m - oneAsInt) hP
    have a2 := Int.mul_ediv_add_emod (m - oneAsInt) P
    have e : m + 1 - oneAsInt = (m - oneAsInt) + 1 := by ring
    rw [e]
    generalize m - oneAsInt = x at *
    by_cases hc : x % P + 1 < P
    · have h1 : (x + 1) % P = x % P + 1 := by
        rw [show x + 1 = (x % P + 1) + P * (x / P) from by omega, Int.add_mul_emod_self_left,
          Int.emod_eq_of_lt (by omega) hc]
      have h2 : (x + 1) / P = x / P := by
        rw [show x + 1 = (x % P + 1) + P * (x / P) from by omega, Int.add_mul_ediv_left _ _ hP.ne',
          Int.ediv_eq_zero_of_lt (by omega) hc]; omega
      rw [h1, h2]
      have := gInt_step a0 hc
      omega
    · have hx : x + 1 = P * (x / P + 1) := by rw [mul_add]; omega
      have h1 : (x + 1) % P = 0 := by rw [hx]; exact Int.mul_emod_right _ _
      have h2 : (x + 1) / P = x / P + 1 := by rw [hx]; exact Int.mul_ediv_cancel_left _ hP.ne'
      rw [h1, h2]
      have r1 := (gInt_range a0 a1).2
      have r2 := (gInt_range le_rfl hP).1
      rw [mul_add]
      omega
  obtain ⟨k, rfl⟩ := Int.le.dest h
  induction k with
  | zero => simp
  | succ k ih =>
    refine le_trans (ih (by omega)) ?_
    have := step (m + k)
    push_cast
    rw [← add_assoc]; exact this

/-- C57: and it is the portable quadratic logarithm of the double to one unit of `2^-52`. -/
theorem C57_aliased_quadratic_accuracy (n : ℤ) :
    |(lgO2Int n : ℝ) / 2 ^ 52 - lgO2 (value n)| < 1 / 2 ^ 52 := by
  have hP : (0:ℤ) < P := by norm_num [P]
  obtain ⟨t, t0, t1, td, ht⟩ := value_eq n
  rw [ht, lgO2_of t0 t1]
  have hmod : (n - oneAsInt) % P = n % P := by
    rw [show n - oneAsInt = n + P * (-1023) from by norm_num [oneAsInt, P]; ring, Int.add_mul_emod_self_left]
  have hdiv : (n - oneAsInt) / P = n / P - 1023 := by
    rw [show n - oneAsInt = n + P * (-1023) from by norm_num [oneAsInt, P]; ring, Int.add_mul_ediv_left _ _ hP.ne']
    ring
  rw [lgO2Int_split, hmod, hdiv]
  have a0 := Int.emod_nonneg n hP.ne'
  have a1 := Int.emod_lt_of_pos n hP
  obtain ⟨k1, k2⟩ := fracSquared_bounds a0 a1
  generalize n % P = f at *
  have e1 := Int.mul_ediv_add_emod (f - fracSquared f) 3
  have c1 := Int.emod_nonneg (f - fracSquared f) (show (3:ℤ) ≠ 0 by norm_num)
  have c2 : (f - fracSquared f) % 3 ≤ 2 := by omega
  unfold gInt
  generalize (f - fracSquared f) / 3 = q at *
  generalize (f - fracSquared f) % 3 = r at *
  have hq : (3:ℝ) * q + r = f - fracSquared f := by exact_mod_cast e1
  have k1' : (2:ℝ) ^ 52 * fracSquared f ≤ f * f := by rw [← P_real]; exact_mod_cast k1
  have k2' : (f:ℝ) * f < 2 ^ 52 * fracSquared f + 2 * 2 ^ 52 := by rw [← P_real]; exact_mod_cast k2
  have c1' : (0:ℝ) ≤ r := by exact_mod_cast c1
  have c2' : (r:ℝ) ≤ 2 := by exact_mod_cast c2
  have hf : (f:ℝ) = t * 2 ^ 52 := by rw [td]; field_simp
  push_cast
  rw [P_real]
  rw [hf] at hq k1' k2' ⊢
  generalize (fracSquared f : ℝ) = F at *
  have goal : (2 ^ 52 * ((n / P : ℤ) - 1023 : ℝ) + (t * 2 ^ 52 + q)) / 2 ^ 52 -
      ((n / P : ℤ) - 1023 + (t + (t - t ^ 2) / 3)) = (t ^ 2 * 2 ^ 52 - F - r) / 3 / 2 ^ 52 := by
    have : (q:ℝ) = (t * 2 ^ 52 - F - r) / 3 := by linarith
    rw [this]; field_simp; ring
  rw [goal, abs_lt]
  have hF1 : F ≤ t ^ 2 * 2 ^ 52 := by nlinarith
  have hF2 : t ^ 2 * 2 ^ 52 < F + 2 := by nlinarith
  constructor
  · rw [neg_lt_iff_pos_add, ← add_div]; apply div_pos <;> linarith
  · rw [div_lt_div_iff_of_pos_right (by norm_num)]; linarith

/-- C57 violated: in the upper half of every binade the default logarithm has slope below one unit per unit, so it is
not injective: in every binade two adjacent doubles have the same logarithm, and no exponential can tell them
apart. -/
theorem C57_aliased_quadratic_not_injective_violated (e : ℤ) :
    let n := oneAsInt + P * e + (P - 5)
    lgO2Int n = lgO2Int (n + 1) ∧ value n ≠ value (n + 1) := by
  intro n
  refine ⟨?_, (value_strictMono (show n < n + 1 by omega)).ne⟩
  have hP : (0:ℤ) < P := by norm_num [P]
  have h1 : (n - oneAsInt) = (P - 5) + P * e := by simp only [n]; ring
  have h2 : (n + 1 - oneAsInt) = (P - 4) + P * e := by simp only [n]; ring
  rw [lgO2Int_split, lgO2Int_split, h1, h2, Int.add_mul_ediv_left _ _ hP.ne', Int.add_mul_ediv_left _ _ hP.ne',
    Int.add_mul_emod_self_left, Int.add_mul_emod_self_left, show (P - 5) % P = P - 5 from by norm_num [P],
    show (P - 4) % P = P - 4 from by norm_num [P], show (P - 5) / P = 0 from by norm_num [P],
    show (P - 4) / P = 0 from by norm_num [P]]
  norm_num [gInt, fracSquared, shr, andMask, P]

/-- C57: nevertheless the round trip of the default pair is within four doubles of the input, for every double and
any rounding of the square root, if the scale is exact. -/
theorem C57_aliased_quadratic_roundtrip_exact_scale (rnd : ℝ → ℝ) (hr : Rounds rnd) (n : ℤ) :
    |pow2O2Aliased rnd ((lgO2Int n : ℝ) / 2 ^ 52) - n| ≤ 4 := by
  have hP : (0:ℤ) < P := by norm_num [P]
  have hx : trunc ((lgO2Int n : ℝ) / 2 ^ 52 * 2 ^ 52) = lgO2Int n := by
    rw [div_mul_cancel₀ _ (by norm_num)]
    unfold trunc; split_ifs <;> simp
  have hn := Int.mul_ediv_add_emod (n - oneAsInt) P
  have a0 := Int.emod_nonneg (n - oneAsInt) hP.ne'
  have a1 := Int.emod_lt_of_pos (n - oneAsInt) hP
  have hs := lgO2Int_split n
  obtain ⟨g0, g1⟩ := gInt_range a0 a1
  have hfrac : andMask (lgO2Int n) 52 = gInt ((n - oneAsInt) % P) := by
    unfold andMask
    rw [show (2:ℤ) ^ 52 = P from rfl, hs, add_comm, Int.add_mul_emod_self_left, Int.emod_eq_of_lt g0 g1]
  unfold pow2O2Aliased
  simp only [hx, hfrac]
  rw [hs]
  obtain ⟨k1, k2⟩ := fracSquared_bounds a0 a1
  generalize hfd : (n - oneAsInt) % P = f at *
  have e1 := Int.mul_ediv_add_emod (f - fracSquared f) 3
  have c1 := Int.emod_nonneg (f - fracSquared f) (show (3:ℤ) ≠ 0 by norm_num)
  have c2 : (f - fracSquared f) % 3 ≤ 2 := by omega
  -- the radicand
  have hc : 4 * 2 ^ 52 - 3 * gInt f = 4 * P - 4 * f + fracSquared f + (f - fracSquared f) % 3 := by
    unfold gInt; simp only [P] at *; omega
  set c : ℤ := 4 * 2 ^ 52 - 3 * gInt f with hcdef
  generalize (f - fracSquared f) % 3 = r at *
  set A : ℝ := 2 * 2 ^ 52 - f with hA
  have hfr : (f:ℝ) < 2 ^ 52 := by rw [← P_real]; exact_mod_cast a1
  have hf0 : (0:ℝ) ≤ f := by exact_mod_cast a0
  have k1' : (2:ℝ) ^ 52 * fracSquared f ≤ f * f := by rw [← P_real]; exact_mod_cast k1
  have k2' : (f:ℝ) * f < 2 ^ 52 * fracSquared f + 2 * 2 ^ 52 := by rw [← P_real]; exact_mod_cast k2
  have c1' : (0:ℝ) ≤ r := by exact_mod_cast c1
  have c2' : (r:ℝ) ≤ 2 := by exact_mod_cast c2
  have hcr : (c:ℝ) = 4 * 2 ^ 52 - 4 * f + fracSquared f + r := by
    rw [hc]; push_cast; rw [P_real]
  have hsq1 : (2:ℝ) ^ 52 * c ≤ A ^ 2 + 2 * 2 ^ 52 := by rw [hcr, hA]; nlinarith
  have hsq2 : A ^ 2 - 2 * 2 ^ 52 ≤ (2:ℝ) ^ 52 * c := by rw [hcr, hA]; nlinarith
  have hA1 : 2 ^ 52 < A := by rw [hA]; linarith
  have hA2 : A ≤ 2 * 2 ^ 52 := by rw [hA]; linarith
  have hcpos : (0:ℝ) < c := by
    have : (0:ℝ) < 2 ^ 52 * c := by nlinarith
    nlinarith
  set S : ℝ := 2 ^ 26 * Real.sqrt c with hS
  have hS0 : 0 < S := mul_pos (by norm_num) (Real.sqrt_pos.2 hcpos)
  have hS2 : S ^ 2 = 2 ^ 52 * c := by rw [hS, mul_pow, Real.sq_sqrt hcpos.le]; norm_num
  have hSA1 : S ≤ A + 1 := by nlinarith
  have hSA2 : A - 1 - 1 / 2 ^ 20 ≤ S := by
    by_contra h
    push Not at h
    have : S ^ 2 < (A - 1 - 1 / 2 ^ 20) ^ 2 := by
      apply pow_lt_pow_left₀ h hS0.le (by norm_num)
    have h3 : (A - 1 - 1 / 2 ^ 20) ^ 2 ≤ A ^ 2 - 2 * 2 ^ 52 := by norm_num at hA1 ⊢; nlinarith
    linarith
  -- the rounding
  have r1 := hr (c : ℝ)
  rw [abs_of_pos hcpos] at r1
  obtain ⟨r1a, r1b⟩ := abs_le.1 r1
  have hu : (1:ℝ) / 2 ^ 53 > 0 := by norm_num
  have sq1 : Real.sqrt (rnd c) ≤ Real.sqrt c * (1 + 1 / 2 ^ 53) := by
    rw [← Real.sqrt_sq (show (0:ℝ) ≤ 1 + 1 / 2 ^ 53 by norm_num), ← Real.sqrt_mul hcpos.le]
    apply Real.sqrt_le_sqrt
    nlinarith
  have sq2 : Real.sqrt c * (1 - 1 / 2 ^ 53) ≤ Real.sqrt (rnd c) := by
    rw [← Real.sqrt_sq (show (0:ℝ) ≤ 1 - 1 / 2 ^ 53 by norm_num), ← Real.sqrt_mul hcpos.le]
    apply Real.sqrt_le_sqrt
    nlinarith
  have r2 := hr (Real.sqrt (rnd c))
  rw [abs_of_nonneg (Real.sqrt_nonneg _)] at r2
  obtain ⟨r2a, r2b⟩ := abs_le.1 r2
  set R : ℝ := 2 ^ 26 * rnd (Real.sqrt (rnd c)) with hR
  have hR1 : R ≤ S * (1 + 1 / 2 ^ 53) * (1 + 1 / 2 ^ 53) := by
    rw [hR, hS]
    have : rnd (Real.sqrt (rnd c)) ≤ Real.sqrt (rnd c) * (1 + 1 / 2 ^ 53) := by linarith
    have : rnd (Real.sqrt (rnd c)) ≤ Real.sqrt c * (1 + 1 / 2 ^ 53) * (1 + 1 / 2 ^ 53) :=
      le_trans this (mul_le_mul_of_nonneg_right sq1 (by norm_num))
    linarith
  have hR2 : S * (1 - 1 / 2 ^ 53) * (1 - 1 / 2 ^ 53) ≤ R := by
    rw [hR, hS]
    have : Real.sqrt (rnd c) * (1 - 1 / 2 ^ 53) ≤ rnd (Real.sqrt (rnd c)) := by linarith
    have : Real.sqrt c * (1 - 1 / 2 ^ 53) * (1 - 1 / 2 ^ 53) ≤ rnd (Real.sqrt (rnd c)) :=
      le_trans (mul_le_mul_of_nonneg_right sq2 (by norm_num)) this
    linarith
  have hR0 : 0 ≤ R := le_trans (by have := hS0.le; norm_num; positivity) hR2
  have hlo : A - 4 < R := by norm_num at hR2 hSA2 hA2 hA1 ⊢; nlinarith
  have hhi : R < A + 4 := by norm_num at hR1 hSA1 hA2 ⊢; nlinarith
  have ht : trunc R = ⌊R⌋ := by unfold trunc; rw [if_pos hR0]
  rw [ht]
  have hf1 : 2 * 2 ^ 52 - f - 4 ≤ ⌊R⌋ := by
    rw [Int.le_floor]; push_cast; rw [hA] at hlo; linarith
  have hf2 : ⌊R⌋ < 2 * 2 ^ 52 - f + 4 := by
    rw [Int.floor_lt]; push_cast; rw [hA] at hhi; linarith
  rw [abs_le]
  simp only [P] at *
  constructor <;> omega

end Verif.FastLog
