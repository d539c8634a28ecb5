import Verif.Props.Math.FastLogAliased

set_option linter.unusedSectionVars false

/-! # C57: accuracy of the default exponential, and the round trip with the literal scale -/

namespace Verif.FastLog

/-- The quadratic logarithm rises at least two thirds as fast as the linear one. -/
theorem lg_rise {x y : ℝ} (hx : 0 < x) (hy : 0 < y) : |lgO1 x - lgO1 y| ≤ 3 / 2 * |lgO2 x - lgO2 y| := by
  have key : ∀ {x y : ℝ}, 0 < x → 0 < y → x < y → lgO1 y - lgO1 x ≤ 3 / 2 * (lgO2 y - lgO2 x) ∧ lgO1 x ≤ lgO1 y := by
    intro x y hx hy h
    refine ⟨?_, (C57_strictly_increasing.1 hx hy h).le⟩
    obtain ⟨d, s, s0, s1, rfl⟩ := decompose hx
    obtain ⟨e, t, t0, t1, rfl⟩ := decompose hy
    rw [lgO1_of s0 s1, lgO1_of t0 t1, lgO2_of s0 s1, lgO2_of t0 t1]
    rcases binade_lt s0 t1 t0 h with h1 | ⟨rfl, h1⟩
    · have h2 : (d:ℝ) + 1 ≤ e := by exact_mod_cast h1
      nlinarith [mul_nonneg t0 (sub_nonneg.2 t1.le), mul_nonneg s0 (sub_nonneg.2 s1.le), sq_nonneg (1 - s)]
    · nlinarith [mul_nonneg (sub_nonneg.2 h1.le) (sub_nonneg.2 t1.le), mul_nonneg (sub_nonneg.2 h1.le) (sub_nonneg.2 s1.le)]
  rcases lt_trichotomy x y with h | rfl | h
  · obtain ⟨h1, h2⟩ := key hx hy h
    rw [abs_sub_comm, abs_of_nonneg (by linarith : 0 ≤ lgO1 y - lgO1 x), abs_sub_comm]
    exact h1.trans (mul_le_mul_of_nonneg_left (le_abs_self _) (by norm_num))
  · simp
  · obtain ⟨h1, h2⟩ := key hy hx h
    rw [abs_of_nonneg (by linarith : 0 ≤ lgO1 x - lgO1 y)]
    exact h1.trans (mul_le_mul_of_nonneg_left (le_abs_self _) (by norm_num))

theorem value_pos (n : ℤ) : 0 < value n := by
  obtain ⟨t, t0, t1, _, ht⟩ := value_eq n
  rw [ht]; positivity

/-- The bit pattern is the linear logarithm, shifted and scaled. -/
theorem lgO1_value (n : ℤ) : (n : ℝ) = oneAsInt + 2 ^ 52 * lgO1 (value n) := by
  obtain ⟨t, t0, t1, td, ht⟩ := value_eq n
  rw [ht, lgO1_of t0 t1, td]
  have hn := n_real n
  simp only [oneAsInt]
  push_cast
  rw [hn]; ring

/-- C57: the default (aliased, second order) exponential is accurate: its bit pattern is less than four from that of the
exact exponential of the (truncated) argument, for every argument and any rounding. -/
theorem C57_aliased_pow2_accuracy (rnd : ℝ → ℝ) (hr : Rounds rnd) (x : ℝ) :
    |(pow2O2Aliased rnd x : ℝ) - (oneAsInt + 2 ^ 52 * lgO1 (pow2O2 ((trunc (x * 2 ^ 52) : ℤ) / 2 ^ 52)))| < 4 := by
  have hP : (0:ℤ) < P := by norm_num [P]
  unfold pow2O2Aliased
  generalize trunc (x * 2 ^ 52) = X
  have hX := Int.mul_ediv_add_emod X P
  have a0 := Int.emod_nonneg X hP.ne'
  have a1 := Int.emod_lt_of_pos X hP
  simp only [andMask]
  rw [show (2:ℤ) ^ 52 = P from rfl]
  have hXr := n_real X
  generalize X % P = u at *
  generalize X / P = e at *
  have u0 : (0:ℝ) ≤ u := by exact_mod_cast a0
  have u1 : (u:ℝ) < 2 ^ 52 := by rw [← P_real]; exact_mod_cast a1
  set v : ℝ := u / 2 ^ 52 with hv
  have v0 : 0 ≤ v := by positivity
  have v1 : v < 1 := by rw [hv, div_lt_one (by norm_num)]; exact u1
  have huv : (u:ℝ) = v * 2 ^ 52 := by rw [hv]; field_simp
  have hXv : (X:ℝ) / 2 ^ 52 = e + v := by rw [hXr, hv]; field_simp
  obtain ⟨q0, q1⟩ := quad_inv_range v0 v1
  rw [hXv, pow2O2_of v0 v1, lgO1_of q0 q1]
  set c : ℤ := 4 * P - 3 * u with hc
  have hcr : (c:ℝ) = 2 ^ 52 * (4 - 3 * v) := by
    rw [hc]; push_cast; rw [P_real, huv]; ring
  have hcpos : (0:ℝ) < c := by rw [hcr]; nlinarith
  set w := Real.sqrt (4 - 3 * v) with hw
  have hw2 : w ≤ 2 := by linarith
  have hw1 : 1 < w := by linarith
  have hsc : Real.sqrt c = 2 ^ 26 * w := by
    rw [hcr, Real.sqrt_mul (by norm_num), show (2:ℝ) ^ 52 = (2 ^ 26) ^ 2 from by norm_num, Real.sqrt_sq (by norm_num)]
  have r1 := hr (c : ℝ)
  rw [abs_of_pos hcpos] at r1
  obtain ⟨r1a, r1b⟩ := abs_le.1 r1
  have sq1 : Real.sqrt (rnd c) ≤ Real.sqrt c * (1 + 1 / 2 ^ 53) := by
    rw [← Real.sqrt_sq (show (0:ℝ) ≤ 1 + 1 / 2 ^ 53 by norm_num), ← Real.sqrt_mul hcpos.le]
    apply Real.sqrt_le_sqrt
    nlinarith
  have sq2 : Real.sqrt c * (1 - 1 / 2 ^ 53) ≤ Real.sqrt (rnd c) := by
    rw [← Real.sqrt_sq (show (0:ℝ) ≤ 1 - 1 / 2 ^ 53 by norm_num), ← Real.sqrt_mul hcpos.le]
    apply Real.sqrt_le_sqrt
    nlinarith
  have r2 := hr (Real.sqrt (rnd c))
  rw [abs_of_nonneg (Real.sqrt_nonneg _)] at r2
  obtain ⟨r2a, r2b⟩ := abs_le.1 r2
  rw [hsc] at sq1 sq2
  generalize hR : rnd (Real.sqrt (rnd c)) = R at *
  generalize Real.sqrt (rnd c) = q at *
  have hR1 : 2 ^ 26 * R ≤ 2 ^ 52 * w + 5 / 2 := by norm_num at *; nlinarith
  have hR2 : 2 ^ 52 * w - 5 / 2 ≤ 2 ^ 26 * R := by norm_num at *; nlinarith
  have hR0 : 0 ≤ 2 ^ 26 * R := by norm_num at *; linarith
  have ht : trunc (2 ^ 26 * R) = ⌊2 ^ 26 * R⌋ := by unfold trunc; rw [if_pos hR0]
  rw [ht]
  have f1 := Int.floor_le (2 ^ 26 * R)
  have f2 := Int.lt_floor_add_one (2 ^ 26 * R)
  have : (((X + 2 * P - ⌊2 ^ 26 * R⌋ - u + oneAsInt : ℤ) : ℝ) - (oneAsInt + 2 ^ 52 * (e + (2 - w))))
      = 2 ^ 52 * w - ⌊2 ^ 26 * R⌋ := by
    push_cast
    rw [hXr, P_real]
    ring
  rw [this, abs_lt]
  constructor <;> linarith

/-- C57: the round trip of the default pair with the scale of the code (15 digits, any rounding of it to `double`): the
result is within `7 + |lg| 2^-48` doubles of the input, `lg` the logarithm in units of `2^-52`: within 7 doubles near 1, within
16391 for every finite double. -/
theorem C57_aliased_quadratic_roundtrip_literal (rnd : ℝ → ℝ) (hr : Rounds rnd) (s : ℝ)
    (hs : |s - scaleDown| ≤ 1 / 2 ^ 53 * scaleDown) (n : ℤ) :
    |(pow2O2Aliased rnd (lgO2Aliased rnd s n) : ℝ) - n| ≤ 7 + |(lgO2Int n : ℝ)| / 2 ^ 48 ∧
    (0 ≤ n → n < 2047 * 2 ^ 52 → |pow2O2Aliased rnd (lgO2Aliased rnd s n) - n| ≤ 16391) := by
  have main : |(pow2O2Aliased rnd (lgO2Aliased rnd s n) : ℝ) - n| ≤ 7 + |(lgO2Int n : ℝ)| / 2 ^ 48 := by
    have hsc : scaleDown = 2.22044604925031e-16 := rfl
    obtain ⟨s1, s2⟩ := abs_le.1 hs
    have acc := C57_aliased_pow2_accuracy rnd hr (lgO2Aliased rnd s n)
    have hlg := C57_aliased_quadratic_accuracy n
    have hrt := lg_rise (C57_inverse.2.2.2 ((trunc (lgO2Aliased rnd s n * 2 ^ 52) : ℤ) / 2 ^ 52)).1 (value_pos n)
    rw [(C57_inverse.2.2.2 ((trunc (lgO2Aliased rnd s n * 2 ^ 52) : ℤ) / 2 ^ 52)).2] at hrt
    have hn := lgO1_value n
    have htr : |((trunc (lgO2Aliased rnd s n * 2 ^ 52) : ℤ) : ℝ) - lgO2Aliased rnd s n * 2 ^ 52| ≤ 1 := by
      unfold trunc
      split
      · rw [abs_le]
        constructor <;> linarith [Int.floor_le (lgO2Aliased rnd s n * 2 ^ 52), Int.lt_floor_add_one (lgO2Aliased rnd s n * 2 ^ 52)]
      · rw [abs_le]
        constructor <;> linarith [Int.le_ceil (lgO2Aliased rnd s n * 2 ^ 52), Int.ceil_lt_add_one (lgO2Aliased rnd s n * 2 ^ 52)]
    -- the scaling
    have hy : |lgO2Aliased rnd s n * 2 ^ 52 - lgO2Int n| ≤ 2 / 10 ^ 15 * |(lgO2Int n : ℝ)| := by
      unfold lgO2Aliased
      have a := hr (lgO2Int n : ℝ)
      generalize (lgO2Int n : ℝ) = z at *
      generalize rnd z = p at *
      have b := hr (p * s)
      generalize rnd (p * s) = r at *
      have hp : |p| ≤ (1 + 1 / 2 ^ 53) * |z| := by
        have := abs_sub_abs_le_abs_sub p z
        linarith
      have hs0 : 0 ≤ s := by rw [hsc] at s1; norm_num at s1 ⊢; linarith
      have hsb : |s * 2 ^ 52 - 1| ≤ 16 / 10 ^ 16 := by
        rw [hsc] at s1 s2
        rw [abs_le]
        constructor <;> norm_num at s1 s2 ⊢ <;> linarith
      have hsb2 : s * 2 ^ 52 ≤ 1 + 16 / 10 ^ 16 := by linarith [(abs_le.1 hsb).2]
      have e1 : |r * 2 ^ 52 - p * s * 2 ^ 52| ≤ 1 / 2 ^ 53 * (|p| * (1 + 16 / 10 ^ 16)) := by
        rw [← sub_mul, abs_mul, abs_of_pos (show (0:ℝ) < 2 ^ 52 by norm_num)]
        calc |r - p * s| * 2 ^ 52 ≤ 1 / 2 ^ 53 * |p * s| * 2 ^ 52 := mul_le_mul_of_nonneg_right b (by norm_num)
          _ = 1 / 2 ^ 53 * (|p| * (s * 2 ^ 52)) := by rw [abs_mul, abs_of_nonneg hs0]; ring
          _ ≤ _ := by
            apply mul_le_mul_of_nonneg_left _ (by norm_num)
            exact mul_le_mul_of_nonneg_left hsb2 (abs_nonneg _)
      have e2 : |p * s * 2 ^ 52 - p| ≤ |p| * (16 / 10 ^ 16) := by
        rw [show p * s * 2 ^ 52 - p = p * (s * 2 ^ 52 - 1) from by ring, abs_mul]
        exact mul_le_mul_of_nonneg_left hsb (abs_nonneg _)
      have tri : |r * 2 ^ 52 - z| ≤ |r * 2 ^ 52 - p * s * 2 ^ 52| + |p * s * 2 ^ 52 - p| + |p - z| := by
        have h1 := abs_add_le (r * 2 ^ 52 - p * s * 2 ^ 52) (p * s * 2 ^ 52 - p)
        have h2 := abs_add_le (r * 2 ^ 52 - p * s * 2 ^ 52 + (p * s * 2 ^ 52 - p)) (p - z)
        rw [show r * 2 ^ 52 - p * s * 2 ^ 52 + (p * s * 2 ^ 52 - p) + (p - z) = r * 2 ^ 52 - z from by ring] at h2
        linarith
      have hz := abs_nonneg z
      have hp0 := abs_nonneg p
      clear b hsb
      generalize |r * 2 ^ 52 - p * s * 2 ^ 52| = A at *
      generalize |p * s * 2 ^ 52 - p| = B at *
      generalize |r * 2 ^ 52 - z| = C at *
      generalize |p - z| = D at *
      generalize |p| = pa at *
      generalize |z| = za at *
      clear acc hrt htr hs hsb2 s1 s2 hsc hlg
      norm_num at *
      linarith
    generalize pow2O2Aliased rnd (lgO2Aliased rnd s n) = out at *
    generalize lgO1 (pow2O2 ((trunc (lgO2Aliased rnd s n * 2 ^ 52) : ℤ) / 2 ^ 52)) = g at *
    generalize ((trunc (lgO2Aliased rnd s n * 2 ^ 52) : ℤ) : ℝ) = X at *
    generalize lgO2Aliased rnd s n = y at *
    generalize (lgO2Int n : ℝ) = z at *
    generalize lgO1 (value n) = l1 at *
    generalize lgO2 (value n) = l2 at *
    have d : |X / 2 ^ 52 - l2| ≤ (2 + 2 / 10 ^ 15 * |z|) / 2 ^ 52 := by
      have h1 : |X / 2 ^ 52 - z / 2 ^ 52| ≤ (1 + 2 / 10 ^ 15 * |z|) / 2 ^ 52 := by
        rw [← sub_div, abs_div, abs_of_pos (show (0:ℝ) < 2 ^ 52 by norm_num)]
        apply div_le_div_of_nonneg_right _ (by norm_num)
        have := abs_add_le (X - y * 2 ^ 52) (y * 2 ^ 52 - z)
        rw [show X - y * 2 ^ 52 + (y * 2 ^ 52 - z) = X - z from by ring] at this
        exact this.trans (add_le_add htr hy)
      have := abs_add_le (X / 2 ^ 52 - z / 2 ^ 52) (z / 2 ^ 52 - l2)
      rw [show X / 2 ^ 52 - z / 2 ^ 52 + (z / 2 ^ 52 - l2) = X / 2 ^ 52 - l2 from by ring] at this
      have e : (2 + 2 / 10 ^ 15 * |z|) / 2 ^ 52 = (1 + 2 / 10 ^ 15 * |z|) / 2 ^ 52 + 1 / 2 ^ 52 := by ring
      rw [e]
      generalize (1 + 2 / 10 ^ 15 * |z|) / 2 ^ 52 = A at *
      generalize |X / 2 ^ 52 - z / 2 ^ 52| = B at *
      generalize |z / 2 ^ 52 - l2| = C at *
      linarith
    have h2 : |g - l1| * 2 ^ 52 ≤ 3 / 2 * (2 + 2 / 10 ^ 15 * |z|) := by
      have : |g - l1| ≤ 3 / 2 * ((2 + 2 / 10 ^ 15 * |z|) / 2 ^ 52) := hrt.trans (mul_le_mul_of_nonneg_left d (by norm_num))
      calc |g - l1| * 2 ^ 52 ≤ 3 / 2 * ((2 + 2 / 10 ^ 15 * |z|) / 2 ^ 52) * 2 ^ 52 :=
            mul_le_mul_of_nonneg_right this (by norm_num)
        _ = _ := by ring
    have tri := abs_add_le ((out:ℝ) - (oneAsInt + 2 ^ 52 * g)) (2 ^ 52 * (g - l1))
    rw [show (out:ℝ) - (oneAsInt + 2 ^ 52 * g) + 2 ^ 52 * (g - l1) = out - n from by rw [hn]; ring, abs_mul,
      abs_of_pos (show (0:ℝ) < 2 ^ 52 by norm_num)] at tri
    have hz := abs_nonneg z
    generalize |(out:ℝ) - (oneAsInt + 2 ^ 52 * g)| = A at *
    generalize |g - l1| = B at *
    generalize |(out:ℝ) - n| = C at *
    generalize |z| = D at *
    clear hs hsc s1 s2 htr hlg hrt d hy hn
    norm_num at *
    linarith
  refine ⟨main, ?_⟩
  intro h0 h1
  have hP : (0:ℤ) < P := by norm_num [P]
  have hb : |(lgO2Int n : ℝ)| ≤ 2 ^ 62 := by
    have hs := lgO2Int_split n
    have hn := Int.mul_ediv_add_emod (n - oneAsInt) P
    have a0 := Int.emod_nonneg (n - oneAsInt) hP.ne'
    have a1 := Int.emod_lt_of_pos (n - oneAsInt) hP
    obtain ⟨g0, g1⟩ := gInt_range a0 a1
    have hi : |lgO2Int n| ≤ 2 ^ 62 := by
      rw [abs_le]
      simp only [P, oneAsInt] at *
      constructor <;> omega
    exact_mod_cast hi
  have : |(pow2O2Aliased rnd (lgO2Aliased rnd s n) : ℝ) - n| ≤ 16391 := by
    refine main.trans ?_
    have : |(lgO2Int n : ℝ)| / 2 ^ 48 ≤ 2 ^ 62 / 2 ^ 48 := div_le_div_of_nonneg_right hb (by norm_num)
    norm_num at this ⊢
    linarith
  exact_mod_cast this

/-- The scale of the code and exact arithmetic meet the hypotheses; the input is the double 1024. -/
example : |(pow2O2Aliased id (lgO2Aliased id scaleDown (1033 * 2 ^ 52)) : ℤ) - 1033 * 2 ^ 52| ≤ 16391 :=
  (C57_aliased_quadratic_roundtrip_literal id (fun x => by simp) scaleDown
    (by simp only [sub_self, abs_zero, scaleDown]; norm_num) _).2 (by norm_num) (by norm_num)

end Verif.FastLog
