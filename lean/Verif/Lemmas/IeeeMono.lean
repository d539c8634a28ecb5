import Verif.Props.IeeeIdeal
import Verif.Model.IeeeStiff

/-! # Order and absolute errors of machine arithmetic -/

namespace Verif

open Ieee Rounding

namespace Ieee

variable {rnd : ℝ → ℝ}

/-- The unit round-off of double precision. -/
noncomputable def u : ℝ := 1 / 2 ^ 53

theorem u_pos : 0 < u := by unfold u; positivity

theorem ofReal_fin {Ω r : ℝ} (h : |rnd r| ≤ Ω) : ofReal rnd Ω r = .fin (rnd r) := by
  unfold ofReal
  rw [if_neg (not_lt.mpr h)]

/-- A real result is monotone, signs included. -/
theorem ofReal_mono' (h : Dbl rnd) {r s : ℝ} (hrs : r ≤ s) : le (ofReal rnd maxDouble r) (ofReal rnd maxDouble s) := by
  have h1 := rnd_mono h hrs
  have hM := maxDouble_pos
  have sg : ∀ t : ℝ, t < 0 → rnd t ≤ 0 := fun t ht => rnd_le h isFloat_zero ht.le
  have sg' : ∀ t : ℝ, ¬ t < 0 → 0 ≤ rnd t := fun t ht => rnd_nonneg h (not_lt.mp ht)
  unfold ofReal
  split_ifs with c1 c2 c2
  · by_cases hr : r < 0
    · simp [le, hr]
    · have : ¬ s < 0 := not_lt.mpr ((not_lt.mp hr).trans hrs)
      simp [le, this]
  · by_cases hr : r < 0
    · simp [le, hr]
    · have e1 := sg' r hr
      rw [abs_of_nonneg e1] at c1
      rw [abs_of_nonneg (e1.trans h1)] at c2
      exact absurd (lt_of_lt_of_le c1 h1) c2
  · by_cases hs : s < 0
    · have e1 := sg s hs
      rw [abs_of_nonpos e1] at c2
      rw [abs_of_nonpos (h1.trans e1)] at c1
      exact absurd (by linarith) c1
    · simp [le, hs]
  · exact h1

/-- Adding a finite number is monotone. -/
theorem add_mono (h : Dbl rnd) {x x' : Ext} (y : ℝ) (hx : le x x') :
    le (add rnd maxDouble x (.fin y)) (add rnd maxDouble x' (.fin y)) := by
  rcases x with _ | s | x <;> rcases x' with _ | t | x' <;> simp only [le] at hx
  · simpa [add, le] using hx
  · subst hx
    simp only [add, ofReal]
    split_ifs <;> simp [le]
  · subst hx
    simp only [add, ofReal]
    split_ifs <;> simp [le]
  · exact ofReal_mono' h (by linarith)

theorem sub_mono (h : Dbl rnd) {x x' : Ext} (y : ℝ) (hx : le x x') :
    le (sub rnd maxDouble x (.fin y)) (sub rnd maxDouble x' (.fin y)) := add_mono h (-y) hx

/-- Multiplying by a positive finite number is monotone. -/
theorem mul_mono_fin (h : Dbl rnd) {x x' : Ext} {y : ℝ} (hy : 0 < y) (hx : le x x') :
    le (mul rnd maxDouble (.fin y) x) (mul rnd maxDouble (.fin y) x') := by
  have hyn : ¬ y < 0 := not_lt.mpr hy.le
  rcases x with _ | s | x <;> rcases x' with _ | t | x' <;> simp only [le] at hx
  · simpa [mul, le, hy.ne', hyn] using hx
  · subst hx
    simp only [mul, ofReal, if_neg hy.ne', hyn]
    split_ifs <;> simp [le]
  · subst hx
    simp only [mul, ofReal, if_neg hy.ne', hyn]
    split_ifs <;> simp [le]
  · exact ofReal_mono' h (mul_le_mul_of_nonneg_left hx hy.le)

/-- Dividing by a positive finite number is monotone. -/
theorem div_mono_fin (h : Dbl rnd) {x x' : Ext} {y : ℝ} (hy : 0 < y) (hx : le x x') :
    le (div rnd maxDouble x (.fin y)) (div rnd maxDouble x' (.fin y)) := by
  have hyn : ¬ y < 0 := not_lt.mpr hy.le
  rcases x with _ | s | x <;> rcases x' with _ | t | x' <;> simp only [le] at hx
  · simpa [div, le, hyn] using hx
  · subst hx
    simp only [div, ofReal, if_neg hy.ne', hyn]
    split_ifs <;> simp [le]
  · subst hx
    simp only [div, ofReal, if_neg hy.ne', hyn]
    split_ifs <;> simp [le]
  · simp only [div, if_neg hy.ne']
    exact ofReal_mono' h (div_le_div_of_nonneg_right hx hy.le)

/-- `ratio` with a finite denominator that is not negative is monotone in the numerator. -/
theorem ratio_mono (h : Dbl rnd) {x x' : Ext} {y : ℝ} (hy : 0 ≤ y) (hf : IsFloat 53 (-1074) y) (hm : y ≤ maxDouble) (hx : le x x') :
    le (ratio rnd maxDouble x (.fin y)) (ratio rnd maxDouble x' (.fin y)) := by
  obtain ⟨h1, -, -, h4, -, -⟩ := den_rnd h hf (by rwa [abs_of_nonneg hy])
  unfold ratio
  rw [add_small_fin h, ofReal_fin h1]
  exact div_mono_fin h (h4 hy) hx

/-- `ratio` with an infinite denominator is 0 or NaN. -/
theorem ratio_inf (h : Dbl rnd) (x : Ext) (t : Bool) :
    ratio rnd maxDouble x (.inf t) = .fin 0 ∨ ratio rnd maxDouble x (.inf t) = .nan := by
  unfold ratio
  rw [add_small_inf h]
  rcases x with _ | s | x <;> simp [div]

/-- The larger of a number and anything is at least that number. -/
theorem le_stdMax {f : Ext} (hf : f ≠ .nan) (x : Ext) : le f (stdMax f x) := by
  unfold stdMax
  split_ifs with c
  · rcases f with _ | s | f <;> rcases x with _ | t | x <;> simp_all [lt, le]
    linarith
  · exact le_refl_of hf

theorem stdMax_nan (f : Ext) : stdMax f .nan = f := by
  unfold stdMax
  rw [if_neg]
  cases f <;> simp [lt]

theorem stdMax_of_not_lt {f x : Ext} (hx : ¬ lt f x) : stdMax f x = f := by
  unfold stdMax
  rw [if_neg hx]

theorem stdMax_fin (a b : ℝ) : stdMax (.fin a) (.fin b) = .fin (max a b) := by
  unfold stdMax
  by_cases c : a < b
  · rw [max_eq_right c.le]
    exact if_pos c
  · rw [max_eq_left (not_lt.mp c)]
    exact if_neg c

theorem le_of_lt' {x y : Ext} (h : lt x y) : le x y := by
  rcases x with _ | s | x <;> rcases y with _ | t | y <;> simp_all [lt, le]
  linarith

theorem lt_of_lt_of_le' {x y z : Ext} (h : lt x y) (h' : le y z) : lt x z := by
  rcases x with _ | s | x <;> rcases y with _ | t | y <;> rcases z with _ | r | z <;> simp_all [lt, le]
  linarith

theorem stdMax_mono {f x x' : Ext} (hf : f ≠ .nan) (hx : le x x') : le (stdMax f x) (stdMax f x') := by
  by_cases c : lt f x
  · have c' := lt_of_lt_of_le' c hx
    unfold stdMax
    rw [if_pos c, if_pos c']
    exact hx
  · rw [stdMax_of_not_lt c]
    exact le_stdMax hf x'

/-- The product of two positive finite numbers is a finite number that is not negative, or `+inf`. -/
theorem mul_pos_cases (h : Dbl rnd) {a b : ℝ} (ha : 0 < a) (hb : 0 < b) :
    (∃ d, mul rnd maxDouble (.fin a) (.fin b) = .fin d ∧ 0 ≤ d ∧ IsFloat 53 (-1074) d ∧ d ≤ maxDouble) ∨
      mul rnd maxDouble (.fin a) (.fin b) = .inf false := by
  have hn := rnd_nonneg h (mul_pos ha hb).le
  have h0 : ¬ a * b < 0 := not_lt.mpr (mul_pos ha hb).le
  simp only [mul, ofReal]
  rw [abs_of_nonneg hn]
  split_ifs with c
  · right; simp [h0]
  · left; exact ⟨_, rfl, hn, h.isFloat _, not_lt.mp c⟩

/-- Every rounding: relative error `2^{-53}`, or absolute error `2^{-1075}` below the normal numbers. -/
theorem rnd_abs (h : Dbl rnd) (x : ℝ) : |rnd x - x| ≤ u * |x| + (2 : ℝ) ^ (-1075 : ℤ) := by
  have key : ∀ (rnd : ℝ → ℝ), Dbl rnd → ∀ x : ℝ, 0 ≤ x → |rnd x - x| ≤ u * |x| + (2 : ℝ) ^ (-1075 : ℤ) := by
    intro rnd h x hx
    have hη : (0 : ℝ) < 2 ^ (-1075 : ℤ) := two_zpow_pos _
    have hu := Ieee.u_pos
    rcases le_or_gt ((2 : ℝ) ^ (-1022 : ℤ)) x with hb | hb
    · have := rnd_rel h hb
      rw [abs_sub_comm, abs_of_nonneg hx]
      have e : u = 1 / 2 ^ 53 := rfl
      rw [e]
      linarith
    · have hE : (0 : ℝ) < 2 ^ (-1074 : ℤ) := two_zpow_pos _
      set m : ℤ := round (x / 2 ^ (-1074 : ℤ)) with hm
      have hr : |x / 2 ^ (-1074 : ℤ) - m| ≤ 1 / 2 := abs_sub_round _
      have hd0 : 0 ≤ x / (2 : ℝ) ^ (-1074 : ℤ) := by positivity
      have hd : x / (2 : ℝ) ^ (-1074 : ℤ) < 2 ^ 52 := by
        rw [div_lt_iff₀ hE]
        have : (2 : ℝ) ^ 52 * 2 ^ (-1074 : ℤ) = 2 ^ (-1022 : ℤ) := by
          have : (2 : ℝ) ^ 52 = 2 ^ (52 : ℤ) := by norm_num
          rw [this, ← two_zpow_add]; norm_num
        rwa [this]
      have hf : IsFloat 53 (-1074) ((m : ℝ) * 2 ^ (-1074 : ℤ)) := by
        refine isFloat_of_mult (by norm_num) (e := -1074) le_rfl ⟨m, rfl⟩ ?_
        have h1 := abs_le.mp hr
        have h2 : |(m : ℝ)| ≤ 2 ^ 53 := by
          have h3 : (2 : ℝ) ^ 52 + 1 ≤ 2 ^ 53 := by norm_num
          rw [abs_le]
          constructor <;> linarith [h1.1, h1.2]
        rw [abs_mul, abs_of_pos hE]
        exact mul_le_mul_of_nonneg_right h2 hE.le
      have hn := h.nearest x _ hf
      have hb2 : |x - m * 2 ^ (-1074 : ℤ)| ≤ 2 ^ (-1075 : ℤ) := by
        have : x - m * 2 ^ (-1074 : ℤ) = (x / 2 ^ (-1074 : ℤ) - m) * 2 ^ (-1074 : ℤ) := by
          rw [sub_mul, div_mul_cancel₀ _ hE.ne']
        rw [this, abs_mul, abs_of_pos hE]
        have e : (2 : ℝ) ^ (-1075 : ℤ) = 1 / 2 * 2 ^ (-1074 : ℤ) := by
          have : (-1075 : ℤ) = -1 + -1074 := by norm_num
          rw [this, two_zpow_add]; norm_num
        rw [e]
        exact mul_le_mul_of_nonneg_right hr hE.le
      rw [abs_sub_comm]
      have : 0 ≤ u * |x| := by positivity
      linarith
  rcases le_or_gt 0 x with hx | hx
  · exact key rnd h x hx
  · have := key _ h.mirror (-x) (by linarith)
    simp only [neg_neg, abs_neg] at this
    have e : -rnd x - -x = -(rnd x - x) := by ring
    rwa [e, abs_neg] at this

/-- A sum or difference of two doubles: relative error `2^{-53}`, signs included. -/
theorem rnd_sum (h : Dbl rnd) {x : ℝ} (hx : Mult (-1074) x) : |rnd x - x| ≤ u * |x| := by
  have := h.rel_error (by norm_num) hx
  rwa [abs_sub_comm]

/-- Rounding up to the floor `SMALL`: the error is relative, below the normal numbers too. -/
theorem max_small_rnd (h : Dbl rnd) (q : ℝ) : |max small (rnd q) - max small q| ≤ u * |q| := by
  have hs : (2 : ℝ) ^ (-1022 : ℤ) ≤ small := by
    unfold small
    have := two_zpow_pos (-1022)
    linarith
  rcases le_or_gt ((2 : ℝ) ^ (-1022 : ℤ)) q with hb | hb
  · have h1 := rnd_rel h hb
    have hq : 0 < q := lt_of_lt_of_le (two_zpow_pos _) hb
    have h2 := abs_max_sub_max_le_abs (rnd q) q small
    rw [max_comm small, max_comm small]
    refine h2.trans ?_
    rw [abs_sub_comm, abs_of_pos hq]
    exact h1
  · have hf : IsFloat 53 (-1074) ((2 : ℝ) ^ (-1022 : ℤ)) := ⟨1, -1022, by norm_num, by norm_num, by norm_num⟩
    have h1 := rnd_le h hf hb.le
    rw [max_eq_left (by linarith), max_eq_left (by linarith)]
    simp only [sub_self, abs_zero]
    have := Ieee.u_pos
    positivity

end Ieee

end Verif
