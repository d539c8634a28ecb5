import Verif.Props.IeeeRobust
import Verif.Spec.IeeeIdeal
import Mathlib.Algebra.Order.Round

/-! # Rounded arithmetic with overflow: relative errors and monotonicity -/

namespace Verif

open Ieee Rounding

namespace Ieee

variable {rnd : ℝ → ℝ}

/-- The shortest name for `1 - 2^{-53}`. -/
noncomputable def w : ℝ := 1 - 1 / 2 ^ 53

theorem w_pos : 0 < w := by unfold w; norm_num

theorem w_le : w ≤ 1 := by unfold w; norm_num

theorem wk_pos (k : ℕ) : 0 < w ^ k := pow_pos w_pos k

theorem wk_le (k : ℕ) : w ^ k ≤ 1 := pow_le_one₀ w_pos.le w_le

theorem wk_half {k : ℕ} (hk : k ≤ 64) : 1 / 2 ≤ w ^ k := by
  have h1 : w ^ 64 ≤ w ^ k := pow_le_pow_of_le_one w_pos.le w_le hk
  have h2 : (1 : ℝ) / 2 ≤ w ^ 64 := by
    have : 1 + ((64 : ℕ) : ℝ) * (-(1 / 2 ^ 53)) ≤ (1 + -(1 / 2 ^ 53 : ℝ)) ^ 64 :=
      one_add_mul_le_pow (by norm_num) 64
    have h3 : (1 + -(1 / 2 ^ 53 : ℝ)) = w := by unfold w; ring
    rw [h3] at this
    refine le_trans ?_ this
    norm_num
  exact h2.trans h1

theorem within_iff {k : ℕ} {x y : ℝ} : Within k x y ↔ w ^ k * x ≤ y ∧ w ^ k * y ≤ x := Iff.rfl

theorem Within.refl {x : ℝ} (hx : 0 ≤ x) : Within 0 x x := by
  rw [within_iff]; simp

theorem Within.symm {k : ℕ} {x y : ℝ} (h : Within k x y) : Within k y x := ⟨h.2, h.1⟩

theorem Within.trans {k l : ℕ} {x y z : ℝ} (h : Within k x y) (h' : Within l y z) : Within (k + l) x z := by
  rw [within_iff] at *
  constructor
  · calc w ^ (k + l) * x = w ^ l * (w ^ k * x) := by rw [pow_add]; ring
      _ ≤ w ^ l * y := mul_le_mul_of_nonneg_left h.1 (wk_pos l).le
      _ ≤ z := h'.1
  · calc w ^ (k + l) * z = w ^ k * (w ^ l * z) := by rw [pow_add]; ring
      _ ≤ w ^ k * y := mul_le_mul_of_nonneg_left h'.2 (wk_pos k).le
      _ ≤ x := h.2

theorem Within.pos {k : ℕ} {x y : ℝ} (h : Within k x y) (hx : 0 < x) : 0 < y := by
  rw [within_iff] at h
  exact lt_of_lt_of_le (mul_pos (wk_pos k) hx) h.1

theorem Within.mono {k l : ℕ} (hkl : k ≤ l) {x y : ℝ} (hx : 0 < x) (h : Within k x y) : Within l x y := by
  have hy := h.pos hx
  have hw := pow_le_pow_of_le_one w_pos.le w_le hkl
  rw [within_iff] at *
  exact ⟨(mul_le_mul_of_nonneg_right hw hx.le).trans h.1, (mul_le_mul_of_nonneg_right hw hy.le).trans h.2⟩

theorem Within.mul {k l : ℕ} {a a' b b' : ℝ} (ha : 0 < a) (hb : 0 < b) (h : Within k a a') (h' : Within l b b') :
    Within (k + l) (a * b) (a' * b') := by
  have ha' := h.pos ha
  have hb' := h'.pos hb
  rw [within_iff] at *
  rw [pow_add]
  constructor
  · calc w ^ k * w ^ l * (a * b) = (w ^ k * a) * (w ^ l * b) := by ring
      _ ≤ a' * b' := mul_le_mul h.1 h'.1 (mul_pos (wk_pos l) hb).le ha'.le
  · calc w ^ k * w ^ l * (a' * b') = (w ^ k * a') * (w ^ l * b') := by ring
      _ ≤ a * b := mul_le_mul h.2 h'.2 (mul_pos (wk_pos l) hb').le ha.le

theorem Within.inv {l : ℕ} {b b' : ℝ} (hb : 0 < b) (h' : Within l b b') : Within l b⁻¹ b'⁻¹ := by
  have hb' := h'.pos hb
  rw [within_iff] at *
  constructor
  · rw [le_inv_comm₀ (mul_pos (wk_pos l) (inv_pos.mpr hb)) hb', mul_inv, inv_inv]
    rw [← div_eq_inv_mul, le_div_iff₀ (wk_pos l)]
    linarith [h'.2]
  · rw [le_inv_comm₀ (mul_pos (wk_pos l) (inv_pos.mpr hb')) hb, mul_inv, inv_inv]
    rw [← div_eq_inv_mul, le_div_iff₀ (wk_pos l)]
    linarith [h'.1]

theorem Within.div {k l : ℕ} {a a' b b' : ℝ} (ha : 0 < a) (hb : 0 < b) (h : Within k a a') (h' : Within l b b') :
    Within (k + l) (a / b) (a' / b') := by
  rw [div_eq_mul_inv, div_eq_mul_inv]
  exact h.mul ha (inv_pos.mpr hb) (h'.inv hb)

theorem Within.add {k l : ℕ} {a a' b b' : ℝ} (ha : 0 < a) (hb : 0 < b) (h : Within k a a') (h' : Within l b b') :
    Within (max k l) (a + b) (a' + b') := by
  have h1 := h.mono (le_max_left k l) ha
  have h2 := h'.mono (le_max_right k l) hb
  rw [within_iff] at *
  exact ⟨by rw [mul_add]; linarith [h1.1, h2.1], by rw [mul_add]; linarith [h1.2, h2.2]⟩

/-- Rounding is monotone. -/
theorem rnd_mono (h : Dbl rnd) {x y : ℝ} (hxy : x ≤ y) : rnd x ≤ rnd y := by
  rcases eq_or_lt_of_le hxy with rfl | hlt
  · exact le_rfl
  by_contra hc
  push Not at hc
  have h1 := h.nearest x _ (h.isFloat y)
  have h2 := h.nearest y _ (h.isFloat x)
  rcases abs_cases (x - rnd x) with ⟨e1, c1⟩ | ⟨e1, c1⟩ <;> rcases abs_cases (x - rnd y) with ⟨e2, c2⟩ | ⟨e2, c2⟩ <;>
    rcases abs_cases (y - rnd x) with ⟨e3, c3⟩ | ⟨e3, c3⟩ <;> rcases abs_cases (y - rnd y) with ⟨e4, c4⟩ | ⟨e4, c4⟩ <;>
    rw [e1, e2] at h1 <;> rw [e3, e4] at h2 <;> linarith

theorem rnd_zero (h : Dbl rnd) : rnd 0 = 0 := h.exact isFloat_zero

theorem rnd_nonneg (h : Dbl rnd) {x : ℝ} (hx : 0 ≤ x) : 0 ≤ rnd x := rnd_ge h isFloat_zero hx

/-- One rounding of a positive number in the normal range has a relative error of at most `2^{-53}`. -/
theorem rnd_rel (h : Dbl rnd) {x : ℝ} (hx : (2 : ℝ) ^ (-1022 : ℤ) ≤ x) : |x - rnd x| ≤ 1 / 2 ^ 53 * x := by
  have hx0 : 0 < x := lt_of_lt_of_le (two_zpow_pos _) hx
  set g := Int.log 2 x with hg
  have hlo : (2 : ℝ) ^ g ≤ x := by
    have := Int.zpow_log_le_self (b := 2) (by norm_num) hx0
    exact_mod_cast this
  have hhi : x < (2 : ℝ) ^ (g + 1) := by
    have := Int.lt_zpow_succ_log_self (b := 2) (by norm_num) x
    exact_mod_cast this
  have hg22 : -1022 ≤ g := by
    by_contra hc
    push Not at hc
    have : (2 : ℝ) ^ (g + 1) ≤ 2 ^ (-1022 : ℤ) := zpow_le_zpow_right₀ one_le_two (by omega)
    linarith
  set e := g - 52 with he
  have hpe : (2 : ℝ) ^ (g + 1) = 2 ^ 53 * 2 ^ e := by
    have : (2 : ℝ) ^ 53 = 2 ^ (53 : ℤ) := by norm_num
    rw [this, ← two_zpow_add]
    congr 1
    omega
  have hpe' : (2 : ℝ) ^ g = 2 ^ 52 * 2 ^ e := by
    have : (2 : ℝ) ^ 52 = 2 ^ (52 : ℤ) := by norm_num
    rw [this, ← two_zpow_add]
    congr 1
    omega
  have hE := two_zpow_pos e
  set m : ℤ := round (x / 2 ^ e) with hm
  have hr : |x / 2 ^ e - m| ≤ 1 / 2 := abs_sub_round _
  have hd : x / 2 ^ e < 2 ^ 53 := by rw [div_lt_iff₀ hE]; linarith
  have hd0 : 0 ≤ x / 2 ^ e := by positivity
  have hm1 : m ≤ 2 ^ 53 := by
    have h1 := (abs_le.mp hr).1
    have h2 : (m : ℝ) < 2 ^ 53 + 1 := by linarith
    have h3 : m < 2 ^ 53 + 1 := by exact_mod_cast h2
    omega
  have hm0 : 0 ≤ m := by
    have h1 := (abs_le.mp hr).2
    have h2 : (-1 : ℝ) < m := by linarith
    have h3 : (-1 : ℤ) < m := by exact_mod_cast h2
    omega
  have hf : IsFloat 53 (-1074) ((m : ℝ) * 2 ^ e) := by
    refine isFloat_of_mult (by norm_num) (e := e) (by omega) ⟨m, rfl⟩ ?_
    have h0 : (0 : ℝ) ≤ m := by exact_mod_cast hm0
    have h1 : (m : ℝ) ≤ 2 ^ 53 := by exact_mod_cast hm1
    rw [abs_of_nonneg (by positivity)]
    exact mul_le_mul_of_nonneg_right h1 hE.le
  have hn := h.nearest x _ hf
  have hb : |x - m * 2 ^ e| ≤ 1 / 2 * 2 ^ e := by
    have : x - m * 2 ^ e = (x / 2 ^ e - m) * 2 ^ e := by
      rw [sub_mul, div_mul_cancel₀ _ hE.ne']
    rw [this, abs_mul, abs_of_pos hE]
    exact mul_le_mul_of_nonneg_right hr hE.le
  calc |x - rnd x| ≤ 1 / 2 * 2 ^ e := hn.trans hb
    _ = 1 / 2 ^ 53 * (2 ^ 52 * 2 ^ e) := by norm_num; ring
    _ ≤ 1 / 2 ^ 53 * x := by rw [← hpe']; exact mul_le_mul_of_nonneg_left hlo (by positivity)

theorem rnd_within (h : Dbl rnd) {x : ℝ} (hx : (2 : ℝ) ^ (-1022 : ℤ) ≤ x) : Within 1 x (rnd x) := by
  have hx0 : 0 < x := lt_of_lt_of_le (two_zpow_pos _) hx
  have h1 := abs_le.mp (rnd_rel h hx)
  rw [within_iff, pow_one]
  unfold w
  constructor
  · linarith [h1.2]
  · have h3 : rnd x ≤ (1 + 1 / 2 ^ 53) * x := by linarith [h1.1]
    have h4 : (1 - 1 / 2 ^ 53 : ℝ) * ((1 + 1 / 2 ^ 53) * x) ≤ x := by
      have : (1 - 1 / 2 ^ 53 : ℝ) * ((1 + 1 / 2 ^ 53) * x) = x - (1 / 2 ^ 53) ^ 2 * x := by ring
      rw [this]
      have : 0 ≤ (1 / 2 ^ 53 : ℝ) ^ 2 * x := by positivity
      linarith
    exact (mul_le_mul_of_nonneg_left h3 (by norm_num)).trans h4

/-- A real close to a number in range rounds to a finite number close to it. -/
theorem ofReal_approx (h : Dbl rnd) {k : ℕ} (hk : k ≤ 64) {x z : ℝ} (hx : InRange x) (hz : Within k x z) :
    Approx (k + 1) x (ofReal rnd maxDouble z) := by
  have hx0 : 0 < x := lt_of_lt_of_le (two_zpow_pos _) hx.1
  have hz0 := hz.pos hx0
  have hw := wk_half hk
  have h2 : (2 : ℝ) ^ (-1021 : ℤ) = 2 * 2 ^ (-1022 : ℤ) := by
    have : (-1021 : ℤ) = 1 + -1022 := by norm_num
    rw [this, two_zpow_add]; norm_num
  have hzl : (2 : ℝ) ^ (-1022 : ℤ) ≤ z := by
    have h3 := (within_iff.mp hz).1
    have h4 : 1 / 2 * x ≤ w ^ k * x := mul_le_mul_of_nonneg_right hw hx0.le
    have := hx.1
    rw [h2] at this
    linarith
  have hzu : z ≤ maxDouble := by
    have h3 := (within_iff.mp hz).2
    have h4 : 1 / 2 * z ≤ w ^ k * z := mul_le_mul_of_nonneg_right hw hz0.le
    have := hx.2
    linarith
  have hle : |rnd z| ≤ maxDouble := abs_rnd_le h maxDouble_float (by rwa [abs_of_pos hz0])
  refine ⟨rnd z, ?_, hz.trans (rnd_within h hzl)⟩
  unfold ofReal
  rw [if_neg (not_lt.mpr hle)]

theorem Approx.mul (h : Dbl rnd) {k l : ℕ} {a b : ℝ} {v v' : Ext} (ha : 0 < a) (hb : 0 < b) (hv : Approx k a v)
    (hv' : Approx l b v') (hr : InRange (a * b)) (hk : k + l ≤ 64) :
    Approx (k + l + 1) (a * b) (Ieee.mul rnd maxDouble v v') := by
  obtain ⟨y, rfl, hy⟩ := hv
  obtain ⟨y', rfl, hy'⟩ := hv'
  exact ofReal_approx h hk hr (hy.mul ha hb hy')

theorem Approx.div (h : Dbl rnd) {k l : ℕ} {a b : ℝ} {v v' : Ext} (ha : 0 < a) (hb : 0 < b) (hv : Approx k a v)
    (hv' : Approx l b v') (hr : InRange (a / b)) (hk : k + l ≤ 64) :
    Approx (k + l + 1) (a / b) (Ieee.div rnd maxDouble v v') := by
  obtain ⟨y, rfl, hy⟩ := hv
  obtain ⟨y', rfl, hy'⟩ := hv'
  have hy0 := hy'.pos hb
  unfold Ieee.div
  simp only [if_neg hy0.ne']
  exact ofReal_approx h hk hr (hy.div ha hb hy')

theorem Approx.add (h : Dbl rnd) {k l : ℕ} {a b : ℝ} {v v' : Ext} (ha : 0 < a) (hb : 0 < b) (hv : Approx k a v)
    (hv' : Approx l b v') (hr : InRange (a + b)) (hk : max k l ≤ 64) :
    Approx (max k l + 1) (a + b) (Ieee.add rnd maxDouble v v') := by
  obtain ⟨y, rfl, hy⟩ := hv
  obtain ⟨y', rfl, hy'⟩ := hv'
  exact ofReal_approx h hk hr (hy.add ha hb hy')

theorem Approx.exact {x : ℝ} (hx : 0 < x) : Approx 0 x (.fin x) := ⟨x, rfl, Within.refl hx.le⟩

theorem Approx.trans {k l : ℕ} {x y : ℝ} {v : Ext} (h : Within k x y) (hv : Approx l y v) : Approx (k + l) x v := by
  obtain ⟨z, rfl, hz⟩ := hv
  exact ⟨z, rfl, h.trans hz⟩

theorem Approx.mono {k l : ℕ} (hkl : k ≤ l) {x : ℝ} {v : Ext} (hx : 0 < x) (hv : Approx k x v) : Approx l x v := by
  obtain ⟨z, rfl, hz⟩ := hv
  exact ⟨z, rfl, hz.mono hkl hx⟩

/-- `k` roundings are a relative difference of at most `2 k 2^{-53}` for `k ≤ 64`. -/
theorem Within.rel {k : ℕ} (hk : k ≤ 64) {x y : ℝ} (hx : 0 < x) (h : Within k x y) : |y - x| ≤ 2 * k / 2 ^ 53 * x := by
  have hb : 1 - (k : ℝ) / 2 ^ 53 ≤ w ^ k := by
    have := one_add_mul_le_pow (a := -(1 / 2 ^ 53 : ℝ)) (by norm_num) k
    have h3 : (1 + -(1 / 2 ^ 53 : ℝ)) = w := by unfold w; ring
    rw [h3] at this
    linarith
  have hy := h.pos hx
  have hh := wk_half hk
  rw [within_iff] at h
  have hk0 : (0 : ℝ) ≤ k := Nat.cast_nonneg k
  have hy2 : y ≤ 2 * x := by nlinarith [h.2]
  rw [abs_le]
  constructor
  · have : (1 - (k : ℝ) / 2 ^ 53) * x ≤ y := (mul_le_mul_of_nonneg_right hb hx.le).trans h.1
    have h5 : 0 ≤ (k : ℝ) / 2 ^ 53 * x := by positivity
    have h6 : 2 * (k : ℝ) / 2 ^ 53 * x = 2 * ((k : ℝ) / 2 ^ 53 * x) := by ring
    rw [h6]
    linarith
  · have h4 : (1 - (k : ℝ) / 2 ^ 53) * y ≤ x := (mul_le_mul_of_nonneg_right hb hy.le).trans h.2
    have h5 : (k : ℝ) / 2 ^ 53 * y ≤ (k : ℝ) / 2 ^ 53 * (2 * x) := mul_le_mul_of_nonneg_left hy2 (by positivity)
    have h6 : 2 * (k : ℝ) / 2 ^ 53 * x = (k : ℝ) / 2 ^ 53 * (2 * x) := by ring
    rw [h6]
    linarith

end Ieee

end Verif
