import Verif.Model.IeeeCarnahan
import Verif.Props.IeeeNoble
import Verif.Props.IeeeRootFind

set_option linter.unusedVariables false

/-! # C163: the Carnahan-Starling gas in double precision -/

namespace Verif

open Ieee Rounding

namespace Ieee

variable {rnd : ℝ → ℝ}

/-- `c - x` for `x ≤ 2`, `4 ≤ c`, loses one rounding more than `x`. -/
theorem within_sub {c x x' : ℝ} (hc : 4 ≤ c) (hx : 0 < x) (hx2 : x ≤ 2) (h : Within 2 x x') : Within 3 (c - x) (c - x') := by
  have hx' := h.pos hx
  rw [within_iff] at *
  obtain ⟨h1, h2⟩ := h
  have w1 : w ^ 2 = 1 - 2 * u + u ^ 2 := by unfold w u; ring
  have w2 : w ^ 3 = 1 - 3 * u + 3 * u ^ 2 - u ^ 3 := by unfold w u; ring
  have u0 := Ieee.u_pos
  have u1 : u ≤ 1 / 1000 := by unfold u; norm_num
  have u2 : u ^ 2 ≤ u / 1000 := by nlinarith
  have u2' : 0 ≤ u ^ 2 := by positivity
  have u3 : u ^ 3 ≤ u ^ 2 := by nlinarith
  have u3' : 0 ≤ u ^ 3 := by positivity
  rw [w1] at h1 h2
  rw [w2]
  set a := u ^ 2
  set b := u ^ 3
  have k1 : x' ≤ (1 + 2 * u + 1 / 2 * u) * x := by
    have : (1 - 2 * u + a) * x' ≤ (1 - 2 * u + a) * ((1 + 2 * u + 1 / 2 * u) * x) := by
      refine h2.trans ?_
      have : (1 : ℝ) ≤ (1 - 2 * u + a) * (1 + 2 * u + 1 / 2 * u) := by nlinarith
      nlinarith
    exact le_of_mul_le_mul_left this (by linarith)
  have k2 : (1 - 2 * u) * x ≤ x' := by nlinarith
  constructor
  · have : (1 - 3 * u + 3 * a - b) * (c - x) ≤ (1 - 3 * u + 3 * a) * (c - x) := by nlinarith
    have t1 : 3 * a * (c - x) ≤ 3 / 1000 * u * (c - x) := by nlinarith
    nlinarith
  · have h5 : 0 ≤ c - x' := by nlinarith
    have : (1 - 3 * u + 3 * a - b) * (c - x') ≤ (1 - 3 * u + 3 * a) * (c - x') := by nlinarith
    have t1 : 3 * a * (c - x') ≤ 3 / 1000 * u * (c - x') := by nlinarith
    nlinarith

/-- A number in range with room to spare: a factor 2 further away from underflow and overflow. -/
theorem inRange_half {x : ℝ} (h : InRange (x / 2)) (h' : InRange (2 * x)) {y : ℝ} (h1 : x ≤ 2 * y) (h2 : y ≤ 2 * x) : InRange y :=
  ⟨by have := h.1; linarith, by have := h'.2; linarith⟩

/-- Powers of the quotient of two close numbers. -/
theorem pow_close {F f δ : ℝ} (hF : 0 < F) (hd : 0 ≤ δ) (hd1 : δ ≤ 1 / 1000) (h : |f - F| ≤ δ * F) :
    0 < f ∧ |(F / f) ^ 3 - 1| ≤ 4 * δ ∧ |(F / f) ^ 4 - 1| ≤ 5 * δ := by
  obtain ⟨h1, h2⟩ := abs_le.mp h
  have hf : 0 < f := by nlinarith
  set t := F / f with ht
  have t1 : |t - 1| ≤ 1002 / 1000 * δ := by
    have e : t - 1 = (F - f) / f := by rw [ht]; field_simp
    rw [e, abs_div, abs_of_pos hf, div_le_iff₀ hf, abs_sub_comm]
    nlinarith
  obtain ⟨a1, a2⟩ := abs_le.mp t1
  have b1 : t ≤ 1 + 2 / 1000 := by linarith
  have b0 : 0 < t := div_pos hF hf
  have q0 : 0 ≤ |t - 1| := abs_nonneg _
  refine ⟨hf, ?_, ?_⟩
  · have e : t ^ 3 - 1 = (t - 1) * (t ^ 2 + t + 1) := by ring
    rw [e, abs_mul, abs_of_pos (show 0 < t ^ 2 + t + 1 by positivity)]
    have : t ^ 2 + t + 1 ≤ 302 / 100 := by nlinarith
    calc |t - 1| * (t ^ 2 + t + 1) ≤ (1002 / 1000 * δ) * (302 / 100) := mul_le_mul t1 this (by positivity) (by positivity)
      _ ≤ 4 * δ := by linarith
  · have e : t ^ 4 - 1 = (t - 1) * ((t ^ 2 + 1) * (t + 1)) := by ring
    rw [e, abs_mul, abs_of_pos (show 0 < (t ^ 2 + 1) * (t + 1) by positivity)]
    have : (t ^ 2 + 1) * (t + 1) ≤ 403 / 100 := by
      have : t ^ 2 ≤ 1005 / 1000 := by nlinarith
      nlinarith
    calc |t - 1| * ((t ^ 2 + 1) * (t + 1)) ≤ (1002 / 1000 * δ) * (403 / 100) := mul_le_mul t1 this (by positivity) (by positivity)
      _ ≤ 5 * δ := by linarith

/-- A value within `k` roundings of a number that is close to `X`. -/
theorem close_of_approx {k : ℕ} {X Xf ε : ℝ} {v : Ext} (hk : k ≤ 64) (hX : 0 < X) (hv : Approx k Xf v) (he : |Xf - X| ≤ ε * X)
    (he1 : ε ≤ 1 / 4) : ∃ y, v = .fin y ∧ |y - X| ≤ (5 / 2 * k * u + ε) * X := by
  obtain ⟨y, rfl, hy⟩ := hv
  obtain ⟨h1, h2⟩ := abs_le.mp he
  have hf : 0 < Xf := by nlinarith
  refine ⟨y, rfl, ?_⟩
  have r := hy.rel hk hf
  have t := abs_sub_le y Xf X
  have k0 : (0 : ℝ) ≤ k := Nat.cast_nonneg k
  have e1 : 2 * (k : ℝ) / 2 ^ 53 * Xf = 2 * k * u * Xf := by unfold u; ring
  rw [e1] at r
  have : 2 * (k : ℝ) * u * Xf ≤ 2 * k * u * (5 / 4 * X) :=
    mul_le_mul_of_nonneg_left (by nlinarith) (by have := Ieee.u_pos; positivity)
  linarith

theorem floor_close {y X a : ℝ} (h : |y - X| ≤ a) : |max small y - max small X| ≤ a := by
  rw [max_comm small, max_comm small]
  exact (abs_max_sub_max_le_abs _ _ _).trans h

end Ieee

open Ieee.Carnahan

namespace Ieee.Carnahan

variable {rnd : ℝ → ℝ}

set_option maxHeartbeats 1600000 in
/-- What is known of the computed compressibility and of the bracket of the bulk modulus. -/
theorem zed_core (h : Dbl rnd) {bb rho : ℝ} (gm1 Cv qq : Ext) (hb : 0 < bb) (hr : 0 < rho) (he : InRange (bb * rho))
    (hF : 1 / 2 ^ 40 ≤ 1 - bb * rho) :
    ∃ f Zf Yf : ℝ, |f - (1 - bb * rho)| ≤ 2 * u / (1 - bb * rho) * (1 - bb * rho) ∧
      Zf = 1 + bb * rho * (4 - 2 * (bb * rho)) / (1 - bb * rho) ^ 3 * ((1 - bb * rho) / f) ^ 3 ∧
      Yf = 1 + bb * rho * (8 - 2 * (bb * rho)) / (1 - bb * rho) ^ 4 * ((1 - bb * rho) / f) ^ 4 ∧
      Approx 10 Zf (zed rnd maxDouble ⟨gm1, Cv, .fin bb, qq⟩ (.fin rho)) ∧
      Approx 11 Yf (dzed rnd maxDouble ⟨gm1, Cv, .fin bb, qq⟩ (.fin rho)) := by
  have hu := Ieee.u_pos
  have hu1 : u ≤ 1 / 2 ^ 50 := by unfold u; norm_num
  have hM := maxDouble_large
  set e := bb * rho with hee
  have e0 : 0 < e := mul_pos hb hr
  set F := 1 - e with hFe
  have F0 : 0 < F := lt_of_lt_of_le (by norm_num) hF
  have F1 : F < 1 := by linarith
  have e1 : e < 1 := by linarith
  obtain ⟨f, hf, ff, f0, f1, ef⟩ := free_err h gm1 Cv qq hb.le hr (by linarith [hee] : bb * rho ≤ 1)
  rw [← hee, ← hFe] at ef
  have hf' : sub rnd maxDouble (.fin 1) (mul rnd maxDouble (.fin bb) (.fin rho)) = .fin f := hf
  have dlt : 2 * u / F ≤ 1 / 1000 := by
    rw [div_le_iff₀ F0]
    have : (1 : ℝ) / 1000 * (1 / 2 ^ 40) ≤ 1 / 1000 * F := by linarith
    refine le_trans ?_ this
    unfold u; norm_num
  have ef' : |f - F| ≤ 2 * u / F * F := by
    rw [div_mul_cancel₀ _ F0.ne']; exact ef
  have hf0 : 0 < f := (pow_close F0 (by positivity) dlt ef').1
  have hfl : F / 2 ≤ f := by
    have := (abs_le.mp ef').1
    have : 2 * u / F * F ≤ 1 / 1000 * F := mul_le_mul_of_nonneg_right dlt F0.le
    linarith
  have hfl' : (1 : ℝ) / 2 ^ 41 ≤ f := by
    refine le_trans ?_ hfl
    have : (1 : ℝ) / 2 ^ 41 = (1 / 2 ^ 40) / 2 := by norm_num
    linarith
  have tiny : (2 : ℝ) ^ (-1021 : ℤ) ≤ 1 / 2 ^ 200 := by
    have h1 : (2 : ℝ) ^ (-1021 : ℤ) ≤ 2 ^ (-200 : ℤ) := zpow_le_zpow_right₀ one_le_two (by norm_num)
    refine h1.trans (le_of_eq ?_)
    norm_num
  have rng : ∀ {x : ℝ}, 1 / 2 ^ 200 ≤ x → x ≤ 2 ^ 98 → InRange x := fun a b =>
    ⟨tiny.trans a, by
      have : (2 : ℝ) ^ 98 ≤ maxDouble / 2 := by
        have : (2 : ℝ) ^ 99 ≤ maxDouble := le_trans (by norm_num) hM
        linarith
      exact b.trans this⟩
  -- eta
  have E : Approx 1 e (mul rnd maxDouble (.fin bb) (.fin rho)) :=
    (Approx.exact hb).mul h hb hr (Approx.exact hr) he (by norm_num)
  obtain ⟨y, hy, wy⟩ := E
  -- 2 eta
  have E2 : Approx 2 (2 * e) (mul rnd maxDouble (.fin 2) (.fin y)) :=
    (Approx.exact two_pos).mul h two_pos e0 ⟨y, rfl, wy⟩ ⟨by have := he.1; linarith, by
      have : (2 : ℝ) ≤ maxDouble / 2 := by linarith
      linarith⟩ (by norm_num)
  obtain ⟨y2, hy2, wy2⟩ := E2
  have S : ∀ c : ℝ, 4 ≤ c → c ≤ 8 → Approx 4 (c - 2 * e) (sub rnd maxDouble (.fin c) (.fin y2)) := by
    intro c hc hc'
    have := within_sub hc (by linarith) (by linarith) wy2
    have k := ofReal_approx h (by norm_num) (rng (x := c - 2 * e) (by norm_num; linarith) (by norm_num; linarith)) this
    exact k
  have N : ∀ c : ℝ, 4 ≤ c → c ≤ 8 → Approx 6 (e * (c - 2 * e)) (mul rnd maxDouble (.fin y) (sub rnd maxDouble (.fin c) (.fin y2))) := by
    intro c hc hc'
    exact Approx.mul h e0 (by linarith) ⟨y, rfl, wy⟩ (S c hc hc') ⟨by have := he.1; nlinarith, by
      have : (8 : ℝ) ≤ maxDouble / 2 := by linarith
      nlinarith⟩ (by norm_num)
  have hf2 : sub rnd maxDouble (.fin 1) (.fin y) = .fin f := by rw [← hy]; exact hf'
  -- powers of f
  have P2 : Approx 1 (f * f) (mul rnd maxDouble (.fin f) (.fin f)) :=
    (Approx.exact hf0).mul h hf0 hf0 (Approx.exact hf0) (rng (by
      have : (1 : ℝ) / 2 ^ 41 * (1 / 2 ^ 41) ≤ f * f := mul_le_mul hfl' hfl' (by positivity) f0
      refine le_trans (by norm_num) this) (by
        have : f * f ≤ 1 := by nlinarith
        exact this.trans (by norm_num))) (by norm_num)
  have f2l : (1 : ℝ) / 2 ^ 82 ≤ f * f := by
    have : (1 : ℝ) / 2 ^ 41 * (1 / 2 ^ 41) ≤ f * f := mul_le_mul hfl' hfl' (by positivity) f0
    exact le_trans (by norm_num) this
  have f3l : (1 : ℝ) / 2 ^ 123 ≤ f * (f * f) := by
    have : (1 : ℝ) / 2 ^ 41 * (1 / 2 ^ 82) ≤ f * (f * f) := mul_le_mul hfl' f2l (by positivity) f0
    exact le_trans (by norm_num) this
  have f4l : (1 : ℝ) / 2 ^ 164 ≤ f * f * (f * f) := by
    have : (1 : ℝ) / 2 ^ 82 * (1 / 2 ^ 82) ≤ f * f * (f * f) := mul_le_mul f2l f2l (by positivity) (mul_nonneg f0 f0)
    exact le_trans (by norm_num) this
  have f2u : f * f ≤ 1 := by nlinarith
  have f3u : f * (f * f) ≤ 1 := by nlinarith
  have f4u : f * f * (f * f) ≤ 1 := by nlinarith [mul_pos hf0 hf0]
  have P3 : Approx 2 (f * (f * f)) (pow3 rnd maxDouble (.fin f)) :=
    Approx.mul h hf0 (mul_pos hf0 hf0) (Approx.exact hf0) P2 (rng (le_trans (by norm_num) f3l) (f3u.trans (by norm_num))) (by norm_num)
  have P4 : Approx 3 (f * f * (f * f)) (pow4 rnd maxDouble (.fin f)) :=
    Approx.mul h (mul_pos hf0 hf0) (mul_pos hf0 hf0) P2 P2 (rng (le_trans (by norm_num) f4l) (f4u.trans (by norm_num))) (by norm_num)
  have sml : 2 ^ 55 * small ≤ 1 / 2 ^ 190 := by
    unfold small
    have h1 : (2 : ℝ) ^ (-1022 : ℤ) ≤ 2 ^ (-250 : ℤ) := zpow_le_zpow_right₀ one_le_two (by norm_num)
    calc (2 : ℝ) ^ 55 * (10 * 2 ^ (-1022 : ℤ)) ≤ 2 ^ 55 * (10 * 2 ^ (-250 : ℤ)) := by gcongr
      _ ≤ 1 / 2 ^ 190 := by norm_num
  -- quotients
  have Q : ∀ (c d : ℝ) (l : ℕ) (v : Ext), 4 ≤ c → c ≤ 8 → 1 / 2 ^ 164 ≤ d → d ≤ 1 → l ≤ 3 → Approx l d v →
      (∀ y, v = .fin y → IsFloat 53 (-1074) y) → e * (c - 2 * e) / d ≤ 2 ^ 250 →
      Approx (6 + l + 1) (e * (c - 2 * e) / d)
        (ratio rnd maxDouble (mul rnd maxDouble (.fin y) (sub rnd maxDouble (.fin c) (.fin y2))) v) ∧ InRange (1 + e * (c - 2 * e) / d) := by
    intro c d l v hc hc' hd hd' hl hv hfl hup
    have d0 : 0 < d := lt_of_lt_of_le (by positivity) hd
    have n0 : e ≤ e * (c - 2 * e) := by nlinarith
    have hbig : (2 : ℝ) ^ 250 ≤ maxDouble / 4 := by
      have : (2 : ℝ) ^ (252 : ℤ) ≤ 2 ^ (1000 : ℤ) := zpow_le_zpow_right₀ one_le_two (by norm_num)
      have h2 : (2 : ℝ) ^ (1000 : ℤ) ≤ maxDouble := by
        unfold maxDouble
        have h3 : (2 : ℝ) ^ (1000 : ℤ) = 2 ^ 29 * 2 ^ 971 := by
          rw [← pow_add, ← zpow_natCast]; rfl
        rw [h3]
        exact mul_le_mul_of_nonneg_right (by norm_num) (by positivity)
      have h3 : (2 : ℝ) ^ (252 : ℤ) = 4 * 2 ^ 250 := by
        rw [show (252 : ℤ) = 2 + 250 by norm_num, zpow_add₀ (by norm_num)]
        norm_num
      have h4 : (2 : ℝ) ^ (252 : ℤ) ≤ maxDouble := this.trans h2
      rw [h3] at h4
      clear this h2 h3
      rw [le_div_iff₀ (by norm_num)]
      linarith
    have hM4 : (2 : ℝ) ≤ maxDouble / 2 := by
      have : (4 : ℝ) ≤ 2 ^ 100 := by norm_num
      linarith
    refine ⟨Approx.ratio h (lt_of_lt_of_le e0 n0) (sml.trans (le_trans (by norm_num) hd)) (hd'.trans (by linarith)) (N c hc hc') hv hfl
      ⟨?_, ?_⟩ (by omega), ?_, ?_⟩
    · have : e ≤ e * (c - 2 * e) / d := by
        rw [le_div_iff₀ d0]
        nlinarith
      exact he.1.trans this
    · have : (0 : ℝ) ≤ maxDouble := by linarith
      linarith
    · have : 0 ≤ e * (c - 2 * e) / d := div_nonneg (by linarith) d0.le
      refine tiny.trans ?_
      have : (1 : ℝ) / 2 ^ 200 ≤ 1 := by norm_num
      linarith
    · have : (4 : ℝ) ≤ maxDouble := by linarith
      linarith
  have up : ∀ (c d : ℝ), 4 ≤ c → c ≤ 8 → 1 / 2 ^ 164 ≤ d → e * (c - 2 * e) / d ≤ 2 ^ 250 := by
    intro c d hc hc' hd
    have d0 : 0 < d := lt_of_lt_of_le (by positivity) hd
    rw [div_le_iff₀ d0]
    have h1 : e * (c - 2 * e) ≤ 8 := by nlinarith
    have h2 : (2 : ℝ) ^ 250 * (1 / 2 ^ 164) ≤ 2 ^ 250 * d := mul_le_mul_of_nonneg_left hd (by positivity)
    have h3 : (8 : ℝ) ≤ 2 ^ 250 * (1 / 2 ^ 164) := by norm_num
    linarith
  have f3l' : (1 : ℝ) / 2 ^ 164 ≤ f * (f * f) := le_trans (by norm_num) f3l
  have fl3 : ∀ y, pow3 rnd maxDouble (.fin f) = .fin y → IsFloat 53 (-1074) y := fun y hy => mul_isFloat h hy
  have fl4 : ∀ y, pow4 rnd maxDouble (.fin f) = .fin y → IsFloat 53 (-1074) y := fun y hy => mul_isFloat h hy
  obtain ⟨q3, r3⟩ := Q 4 _ 2 _ le_rfl (by norm_num) f3l' f3u (by norm_num) P3 fl3 (up 4 _ le_rfl (by norm_num) f3l')
  obtain ⟨q4, r4⟩ := Q 8 _ 3 _ (by norm_num) le_rfl f4l f4u (by norm_num) P4 fl4 (up 8 _ (by norm_num) le_rfl f4l)
  refine ⟨f, _, _, ef', rfl, rfl, ?_, ?_⟩
  · have A := Approx.add h one_pos (div_pos (mul_pos e0 (by linarith)) (by positivity)) (Approx.exact one_pos) q3 r3 (by norm_num)
    have eq : 1 + e * (4 - 2 * e) / F ^ 3 * (F / f) ^ 3 = 1 + e * (4 - 2 * e) / (f * (f * f)) := by
      field_simp
    rw [eq]
    show Approx 10 _ (zed rnd maxDouble _ _)
    unfold zed
    simp only [hy, hy2, hf2]
    exact A
  · have A := Approx.add h one_pos (div_pos (mul_pos e0 (by linarith)) (by positivity)) (Approx.exact one_pos) q4 r4 (by norm_num)
    have eq : 1 + e * (8 - 2 * e) / F ^ 4 * (F / f) ^ 4 = 1 + e * (8 - 2 * e) / (f * f * (f * f)) := by
      field_simp
    rw [eq]
    show Approx 11 _ (dzed rnd maxDouble _ _)
    unfold dzed
    simp only [hy, hy2, hf2]
    exact A

end Ieee.Carnahan

end Verif
