import Verif.Props.IeeePTEDriver

/-! # C147: the step fraction of the line search, on machine numbers -/

namespace Verif

open Ieee PTE Classical Rounding

namespace Ieee

variable {rnd : ℝ → ℝ}

/-- Two numbers of the format within a factor of two of each other have an exact difference. -/
theorem exact_sub {x y : ℝ} (hx : IsFloat 53 (-1074) x) (hy : IsFloat 53 (-1074) y) (h1 : y ≤ 2 * x) (h2 : x ≤ 2 * y) :
    IsFloat 53 (-1074) (x - y) := by
  have hx0 : 0 ≤ x := by linarith
  have hy0 : 0 ≤ y := by linarith
  obtain ⟨a, e, ha, he, rfl⟩ := hx
  obtain ⟨b, f, hb, hf, rfl⟩ := hy
  rcases le_total e f with hef | hef
  · obtain ⟨k, hk⟩ : Mult e ((b : ℝ) * 2 ^ f) := Mult.mono hef ⟨b, rfl⟩
    have hE := two_zpow_pos e
    rw [hk] at h1 h2 hy0 ⊢
    refine ⟨a - k, e, ?_, he, by push_cast; ring⟩
    have q1 : (k : ℝ) ≤ 2 * a := by
      by_contra hc; push Not at hc; nlinarith
    have q2 : (a : ℝ) ≤ 2 * k := by
      by_contra hc; push Not at hc; nlinarith
    have q1' : k ≤ 2 * a := by exact_mod_cast q1
    have q2' : a ≤ 2 * k := by exact_mod_cast q2
    rw [abs_lt] at ha ⊢
    constructor <;> omega
  · obtain ⟨k, hk⟩ : Mult f ((a : ℝ) * 2 ^ e) := Mult.mono hef ⟨a, rfl⟩
    have hE := two_zpow_pos f
    rw [hk] at h1 h2 hx0 ⊢
    refine ⟨k - b, f, ?_, hf, by push_cast; ring⟩
    have q1 : (b : ℝ) ≤ 2 * k := by
      by_contra hc; push Not at hc; nlinarith
    have q2 : (k : ℝ) ≤ 2 * b := by
      by_contra hc; push Not at hc; nlinarith
    have q1' : b ≤ 2 * k := by exact_mod_cast q1
    have q2' : k ≤ 2 * b := by exact_mod_cast q2
    rw [abs_lt] at hb ⊢
    constructor <;> omega

/-- Two roundings to nearest, possibly with different rules for ties, keep strict order. -/
theorem rnd_lt (h : Dbl rnd) {rnd' : ℝ → ℝ} (h' : Dbl rnd') {x y : ℝ} (hxy : x < y) : rnd' x ≤ rnd y := by
  by_contra hc
  push Not at hc
  have a := h'.nearest x (rnd y) (h.isFloat y)
  have b := h.nearest y (rnd' x) (h'.isFloat x)
  have a' : (x - rnd' x) ^ 2 ≤ (x - rnd y) ^ 2 := sq_le_sq.2 a
  have b' : (y - rnd y) ^ 2 ≤ (y - rnd' x) ^ 2 := sq_le_sq.2 b
  nlinarith

theorem double_float {x : ℝ} (hx : IsFloat 53 (-1074) x) : IsFloat 53 (-1074) (2 * x) := by
  obtain ⟨a, e, ha, he, rfl⟩ := hx
  exact ⟨a, e + 1, ha, by omega, by rw [zpow_add₀ (by norm_num)]; norm_num; ring⟩

/-- The last two operations: `0.75 + 0.5 * q`. -/
theorem parabola_tail (h : Dbl rnd) {q : ℝ} (h1 : -(1 + 1 / 2 ^ 50) ≤ q) (h2 : q ≤ 0) :
    ∃ s, add rnd maxDouble (.fin (3 / 4)) (mul rnd maxDouble (.fin (1 / 2)) (.fin q)) = .fin s ∧ 1 / 4 - 1 / 2 ^ 51 ≤ s ∧ s ≤ 3 / 4 ∧
      (-1 ≤ q → 1 / 4 ≤ s) := by
  have f34 : IsFloat 53 (-1074) (3 / 4) := ⟨3, -2, by norm_num, by norm_num, by norm_num⟩
  have f14 : IsFloat 53 (-1074) (1 / 4) := ⟨1, -2, by norm_num, by norm_num, by norm_num⟩
  have f12 : IsFloat 53 (-1074) (-(1 / 2)) := ⟨-1, -1, by norm_num, by norm_num, by norm_num⟩
  have fl : IsFloat 53 (-1074) (1 / 4 - 1 / 2 ^ 51) := ⟨2 ^ 49 - 1, -51, by norm_num, by norm_num, by norm_num⟩
  have fh : IsFloat 53 (-1074) (-(1 / 2 + 1 / 2 ^ 51)) := ⟨-(2 ^ 50 + 1), -51, by norm_num, by norm_num, by norm_num⟩
  have a1 : -(1 / 2 + 1 / 2 ^ 51) ≤ rnd (1 / 2 * q) := rnd_ge h fh (by linarith)
  have a2 : rnd (1 / 2 * q) ≤ 0 := rnd_le h isFloat_zero (by linarith)
  have a3 : (1 : ℝ) / 2 ^ 51 ≤ 1 := by norm_num
  have a4 : (1 : ℝ) / 2 ^ 50 ≤ 1 := by norm_num
  have m : mul rnd maxDouble (.fin (1 / 2)) (.fin q) = .fin (rnd (1 / 2 * q)) :=
    ofReal_small h (by rw [abs_le]; constructor <;> linarith)
  have a : add rnd maxDouble (.fin (3 / 4)) (.fin (rnd (1 / 2 * q))) = .fin (rnd (3 / 4 + rnd (1 / 2 * q))) :=
    ofReal_small h (by rw [abs_le]; constructor <;> linarith)
  refine ⟨rnd (3 / 4 + rnd (1 / 2 * q)), by rw [m, a], rnd_ge h fl (by linarith), rnd_le h f34 (by linarith), fun hq => ?_⟩
  have a5 : -(1 / 2) ≤ rnd (1 / 2 * q) := rnd_ge h f12 (by linarith)
  exact rnd_ge h f14 (by linarith)

/-- The quotient of the parabola: the numerator is at most the denominator, up to rounding. -/
theorem parabola_quot (h : Dbl rnd) {rnd' : ℝ → ℝ} (h' : Dbl rnd') {e m o : ℝ} (he : IsFloat 53 (-1074) e) (hm : IsFloat 53 (-1074) m)
    (ho : IsFloat 53 (-1074) o) (hm0 : 0 ≤ m) (h1 : m < e) (h2 : m < o) :
    0 ≤ rnd (rnd (e - 2 * m) + o) ∧ rnd' (e - m) ≤ (1 + 1 / 2 ^ 51) * rnd (rnd (e - 2 * m) + o) ∧
      (e ≤ 4 * m → rnd' (e - m) ≤ rnd (rnd (e - 2 * m) + o)) := by
  have hge : -m ≤ rnd (e - 2 * m) := rnd_ge h hm.neg (by linarith)
  have hd0 : 0 ≤ rnd (rnd (e - 2 * m) + o) := Ieee.rnd_nonneg h (by linarith)
  rcases le_or_gt e (4 * m) with hc | hc
  · have ex : rnd (e - 2 * m) = e - 2 * m := h.exact (exact_sub he (double_float hm) (by linarith) (by linarith))
    have k : rnd' (e - m) ≤ rnd (rnd (e - 2 * m) + o) := by
      rw [ex]; exact rnd_lt h h' (by linarith)
    refine ⟨hd0, le_trans k ?_, fun _ => k⟩
    have : (0 : ℝ) ≤ 1 / 2 ^ 51 := by norm_num
    nlinarith
  · refine ⟨hd0, ?_, fun hn => absurd hn (not_le.2 hc)⟩
    have bs : ∀ {rnd : ℝ → ℝ}, Dbl rnd → ∀ {z : ℝ}, Mult (-1074) z → 0 ≤ z → (1 - u) * z ≤ rnd z ∧ rnd z ≤ (1 + u) * z := by
      intro rnd h z hz h0
      have := rnd_sum h hz
      rw [abs_of_nonneg h0, abs_le] at this
      constructor <;> linarith [this.1, this.2]
    have b1 := bs h (he.mult.sub (double_float hm).mult) (by linarith : (0 : ℝ) ≤ e - 2 * m)
    have b2 := bs h' (he.mult.sub hm.mult) (by linarith : (0 : ℝ) ≤ e - m)
    have b3 := bs h ((h.isFloat (e - 2 * m)).mult.add ho.mult) (by linarith : (0 : ℝ) ≤ rnd (e - 2 * m) + o)
    have hu : u = 1 / 2 ^ 53 := rfl
    have hs : (1 - u) * (e - m) ≤ rnd (e - 2 * m) + o := by
      have := b1.1
      have : u * m ≥ 0 := mul_nonneg u_pos.le hm0
      linarith
    have hd : (1 - u) * ((1 - u) * (e - m)) ≤ rnd (rnd (e - 2 * m) + o) :=
      le_trans (mul_le_mul_of_nonneg_left hs (by rw [hu]; norm_num)) b3.1
    have hnum : (1 + u) ≤ (1 + 1 / 2 ^ 51) * ((1 - u) * (1 - u)) := by rw [hu]; norm_num
    have hem : 0 ≤ e - m := by linarith
    calc rnd' (e - m) ≤ (1 + u) * (e - m) := b2.2
      _ ≤ (1 + 1 / 2 ^ 51) * ((1 - u) * (1 - u)) * (e - m) := mul_le_mul_of_nonneg_right hnum hem
      _ = (1 + 1 / 2 ^ 51) * ((1 - u) * ((1 - u) * (e - m))) := by ring
      _ ≤ _ := mul_le_mul_of_nonneg_left hd (by norm_num)

end Ieee

variable {rnd : ℝ → ℝ}

/-- C147: whenever the line search fits its parabola to finite errors, the step fraction is a finite number between `1/4 - 2^-51` and
`3/4` — overflow of the intermediate results included — and not below `1/4` unless the full step's error is more than four times the
half step's. -/
theorem C147_parabola_range (h : ToNearest 53 (-1074) rnd) {e m o : ℝ} (he : IsFloat 53 (-1074) e) (hm : IsFloat 53 (-1074) m)
    (ho : IsFloat 53 (-1074) o) (heM : e ≤ maxDouble) (hm0 : 0 ≤ m) (h1 : lt (.fin m) (.fin e)) (h2 : lt (.fin m) (.fin o)) :
    ∃ s, parabolaE rnd maxDouble (.fin e) (.fin m) (.fin o) = .fin s ∧ 1 / 4 - 1 / 2 ^ 51 ≤ s ∧ s ≤ 3 / 4 ∧ (e ≤ 4 * m → 1 / 4 ≤ s) := by
  replace h1 : m < e := h1
  replace h2 : m < o := h2
  have hM := maxDouble_pos
  have hnum : sub rnd maxDouble (.fin m) (.fin e) = .fin (rnd (m - e)) := by
    simp only [sub, neg, add]
    rw [← sub_eq_add_neg]
    exact ofReal_fin (abs_rnd_le h maxDouble_float (by rw [abs_le]; constructor <;> linarith))
  have hneg : rnd (m - e) ≤ 0 := rnd_le h isFloat_zero (by linarith)
  have zero : ∃ s, add rnd maxDouble (.fin (3 / 4)) (mul rnd maxDouble (.fin (1 / 2)) (.fin 0)) = .fin s ∧ 1 / 4 - 1 / 2 ^ 51 ≤ s ∧
      s ≤ 3 / 4 ∧ (e ≤ 4 * m → 1 / 4 ≤ s) := by
    obtain ⟨s, a, b, c, d⟩ := parabola_tail h (q := 0) (by norm_num) le_rfl
    exact ⟨s, a, b, c, fun _ => d (by norm_num)⟩
  have rinf : ∀ t x, ratio rnd maxDouble (.fin x) (.inf t) = .fin 0 := by
    intro t x
    unfold ratio
    rw [add_small_inf h]
    rfl
  unfold parabolaE
  rw [hnum]
  by_cases c1 : maxDouble < |rnd (2 * m)|
  · have e1 : mul rnd maxDouble (.fin 2) (.fin m) = .inf false := by
      simp only [mul, ofReal]
      rw [if_pos c1, decide_eq_false (by linarith)]
    have e2 : add rnd maxDouble (sub rnd maxDouble (.fin e) (.inf false)) (.fin o) = .inf true := rfl
    rw [e1, e2, rinf]
    exact zero
  · have ex2 : rnd (2 * m) = 2 * m := h.exact (double_float hm)
    have e1 : mul rnd maxDouble (.fin 2) (.fin m) = .fin (2 * m) := by
      simp only [mul, ofReal]
      rw [if_neg c1, ex2]
    have e2 : sub rnd maxDouble (.fin e) (.fin (2 * m)) = .fin (rnd (e - 2 * m)) := by
      simp only [sub, neg, add]
      rw [← sub_eq_add_neg]
      exact ofReal_fin (abs_rnd_le h maxDouble_float (by rw [abs_le]; constructor <;> linarith))
    rw [e1, e2]
    obtain ⟨q0, q1, q2⟩ := parabola_quot h (Dbl.mirror h) he hm ho hm0 h1 h2
    have hge : -m ≤ rnd (e - 2 * m) := rnd_ge h hm.neg (by linarith)
    rw [neg_sub] at q1 q2
    by_cases c2 : maxDouble < |rnd (rnd (e - 2 * m) + o)|
    · have e3 : add rnd maxDouble (.fin (rnd (e - 2 * m))) (.fin o) = .inf false := by
        simp only [add, ofReal]
        rw [if_pos c2, decide_eq_false (by linarith)]
      rw [e3, rinf]
      exact zero
    · have e3 : add rnd maxDouble (.fin (rnd (e - 2 * m))) (.fin o) = .fin (rnd (rnd (e - 2 * m) + o)) := by
        simp only [add, ofReal]
        rw [if_neg c2]
      rw [e3]
      set d := rnd (rnd (e - 2 * m) + o) with hd
      have hdf : IsFloat 53 (-1074) d := h.isFloat _
      obtain ⟨r1, r2, r3, r4, -, -⟩ := den_rnd h hdf (not_lt.1 c2)
      have hden := r4 q0
      rw [abs_of_nonneg q0, abs_of_pos hden] at r2
      have hlo : -(1 + 1 / 2 ^ 51) ≤ rnd (m - e) / rnd (den d) := by
        rw [le_div_iff₀ hden]
        have : (1 + 1 / 2 ^ 51) * d ≤ (1 + 1 / 2 ^ 51) * rnd (den d) := mul_le_mul_of_nonneg_left r2 (by norm_num)
        linarith [q1]
      have hhi : rnd (m - e) / rnd (den d) ≤ 0 := div_nonpos_of_nonpos_of_nonneg hneg hden.le
      have hr : ratio rnd maxDouble (.fin (rnd (m - e))) (.fin d) = .fin (rnd (rnd (m - e) / rnd (den d))) := by
        rw [ratio_eq h hdf (not_lt.1 c2)]
        exact ofReal_small h (by
          have : (1 : ℝ) / 2 ^ 51 ≤ 1 := by norm_num
          rw [abs_le]; constructor <;> linarith)
      rw [hr]
      have f1 : IsFloat 53 (-1074) (-(1 + 1 / 2 ^ 51)) := ⟨-(2 ^ 51 + 1), -51, by norm_num, by norm_num, by norm_num⟩
      have g1 := rnd_ge h f1 hlo
      have g2 := rnd_le h isFloat_zero hhi
      obtain ⟨s, a, b, c, dd⟩ := parabola_tail h (q := rnd (rnd (m - e) / rnd (den d))) (le_trans (by norm_num) g1) g2
      refine ⟨s, a, b, c, fun h4 => dd ?_⟩
      refine rnd_ge h ⟨-1, 0, by norm_num, by norm_num, by norm_num⟩ ?_
      rw [le_div_iff₀ hden]
      linarith [q2 h4]

/-- Full step 8, half step 1, old error 2: the fraction is `0.75 - 0.5 * 7/8`, between the bounds. -/
example (h : ToNearest 53 (-1074) rnd) : ∃ s, parabolaE rnd maxDouble (.fin 8) (.fin 1) (.fin 2) = .fin s ∧ 1 / 4 - 1 / 2 ^ 51 ≤ s ∧
    s ≤ 3 / 4 := by
  obtain ⟨s, a, b, c, -⟩ := C147_parabola_range h (e := 8) (m := 1) (o := 2) ⟨1, 3, by norm_num, by norm_num, by norm_num⟩
    ⟨1, 0, by norm_num, by norm_num, by norm_num⟩ ⟨1, 1, by norm_num, by norm_num, by norm_num⟩
    (le_trans (by norm_num) maxDouble_large) (by norm_num) (by simp [lt]) (by simp [lt])
  exact ⟨s, a, b, c⟩

/-- C147 is violated by an infinite error: if the full step's error is `+inf`, the half step being an improvement, the step fraction
is NaN. -/
theorem C147_parabola_inf_violated (h : ToNearest 53 (-1074) rnd) (m o : ℝ) (hm : |m| ≤ 2 ^ 98) :
    parabolaE rnd maxDouble (.inf false) (.fin m) (.fin o) = .nan := by
  have f : IsFloat 53 (-1074) (2 ^ 99) := ⟨1, 99, by norm_num, by norm_num, by norm_num⟩
  have e1 : mul rnd maxDouble (.fin 2) (.fin m) = .fin (rnd (2 * m)) :=
    ofReal_fin (le_trans (abs_rnd_le h f (by rw [abs_mul]; norm_num; norm_num at hm; linarith)) (le_trans (by norm_num) maxDouble_large))
  unfold parabolaE ratio
  rw [e1]
  have e2 : add rnd maxDouble (sub rnd maxDouble (.inf false) (.fin (rnd (2 * m)))) (.fin o) = .inf false := rfl
  rw [e2, add_small_inf h]
  rfl

end Verif
