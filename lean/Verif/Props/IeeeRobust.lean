import Verif.Model.IeeeRobust
import Verif.Lemmas.FloatSum

/-! # C135: the robust helpers on machine numbers (rounding, overflow, infinities, NaN) -/

namespace Verif

open Ieee Rounding

namespace Ieee

variable {rnd : ℝ → ℝ}

/-- A double precision rounding. -/
abbrev Dbl (rnd : ℝ → ℝ) : Prop := ToNearest 53 (-1074) rnd

theorem small_float : IsFloat 53 (-1074) small :=
  ⟨10, -1022, by norm_num, by norm_num, by unfold small; norm_num⟩

theorem small_pos : 0 < small := by unfold small; positivity

theorem maxDouble_pos : 0 < maxDouble := by
  unfold maxDouble
  have : (0 : ℝ) < 2 ^ 53 - 1 := by norm_num
  positivity

theorem maxDouble_large : (2 : ℝ) ^ 100 ≤ maxDouble := by
  unfold maxDouble
  have h1 : (2 : ℝ) ^ 100 ≤ 2 ^ 971 := pow_le_pow_right₀ one_le_two (by norm_num)
  have h2 : (0 : ℝ) < 2 ^ 971 := by positivity
  have h3 : (1 : ℝ) ≤ 2 ^ 53 - 1 := by norm_num
  calc (2 : ℝ) ^ 100 ≤ 1 * 2 ^ 971 := by rw [one_mul]; exact h1
    _ ≤ (2 ^ 53 - 1) * 2 ^ 971 := mul_le_mul_of_nonneg_right h3 h2.le

theorem small_le : small ≤ 10 := by
  unfold small
  have h1 : (2 : ℝ) ^ (-1022 : ℤ) ≤ 1 := zpow_le_one_of_nonpos₀ (by norm_num) (by norm_num)
  linarith

theorem small_le_max : small ≤ maxDouble := by
  have h1 := maxDouble_large
  have h2 := small_le
  have h3 : (10 : ℝ) ≤ 2 ^ 100 := by norm_num
  linarith

theorem maxDouble_float : IsFloat 53 (-1074) maxDouble :=
  ⟨2 ^ 53 - 1, 971, by norm_num, by norm_num, by
    unfold maxDouble
    have : (2 : ℝ) ^ (971 : ℤ) = 2 ^ 971 := by rw [← zpow_natCast]; rfl
    rw [this]
    push_cast
    ring⟩

/-- Rounding to nearest is at least as large as any number of the format below. -/
theorem rnd_ge (h : Dbl rnd) {x y : ℝ} (hy : IsFloat 53 (-1074) y) (hxy : y ≤ x) : y ≤ rnd x := by
  by_contra hc
  push Not at hc
  have := h.nearest x y hy
  rw [abs_of_nonneg (by linarith), abs_of_nonneg (by linarith)] at this
  linarith

theorem rnd_le (h : Dbl rnd) {x y : ℝ} (hy : IsFloat 53 (-1074) y) (hxy : x ≤ y) : rnd x ≤ y := by
  by_contra hc
  push Not at hc
  have := h.nearest x y hy
  rw [abs_of_nonpos (by linarith), abs_of_nonpos (by linarith)] at this
  linarith

theorem abs_rnd_le (h : Dbl rnd) {x y : ℝ} (hy : IsFloat 53 (-1074) y) (hxy : |x| ≤ y) : |rnd x| ≤ y := by
  have := abs_le.mp hxy
  exact abs_le.mpr ⟨rnd_ge h hy.neg this.1, rnd_le h hy this.2⟩

/-- A double above another of full precision `2^e` is above it by `2^e`. -/
theorem gap_above {b z : ℝ} {e : ℤ} (hb : Mult e b) (hbl : (2 : ℝ) ^ (52 + e) ≤ b) (hz : IsFloat 53 (-1074) z) (hlt : b < z) :
    b + 2 ^ e ≤ z := by
  have hz0 : 2 ^ 53 * (2 : ℝ) ^ (e - 1) ≤ |z| := by
    have h1 : (2 : ℝ) ^ 53 * 2 ^ (e - 1) = 2 ^ (52 + e) := by
      have : (2 : ℝ) ^ 53 = 2 ^ (53 : ℤ) := by norm_num
      rw [this, ← two_zpow_add]
      congr 1
      ring
    rw [h1]
    exact (hbl.trans hlt.le).trans (le_abs_self z)
  obtain ⟨k, hk⟩ := hz.mult_of_large hz0
  rw [sub_add_cancel] at hk
  obtain ⟨m, hm⟩ := hb
  have h2 := two_zpow_pos e
  rw [hk, hm] at hlt ⊢
  have : (m : ℝ) < k := lt_of_mul_lt_mul_right hlt h2.le
  have : m + 1 ≤ k := by exact_mod_cast this
  have : (m : ℝ) + 1 ≤ k := by exact_mod_cast this
  nlinarith

/-- Adding less than half the spacing to a positive double gives it back. -/
theorem rnd_absorb_pos (h : Dbl rnd) {b d : ℝ} (hb : IsFloat 53 (-1074) b) (hd : 0 ≤ d) (hbd : 2 ^ 54 * d ≤ b) (hd0 : 0 < b) :
    rnd (b + d) = b := by
  set g := Int.log 2 b with hg
  have hlo : (2 : ℝ) ^ g ≤ b := by
    have := Int.zpow_log_le_self (b := 2) (by norm_num) hd0
    exact_mod_cast this
  have hhi : b < (2 : ℝ) ^ (g + 1) := by
    have := Int.lt_zpow_succ_log_self (b := 2) (by norm_num) b
    exact_mod_cast this
  set e := g - 52 with he
  have hge : g = 52 + e := by omega
  have hpe : (2 : ℝ) ^ (g + 1) = 2 ^ 53 * 2 ^ e := by
    have : (2 : ℝ) ^ 53 = 2 ^ (53 : ℤ) := by norm_num
    rw [this, ← two_zpow_add]
    congr 1
    omega
  have hm : Mult e b := by
    have := hb.mult_of_large (e := e - 1) (by
      have h1 : (2 : ℝ) ^ 53 * 2 ^ (e - 1) = 2 ^ g := by
        have : (2 : ℝ) ^ 53 = 2 ^ (53 : ℤ) := by norm_num
        rw [this, ← two_zpow_add]
        congr 1
        omega
      rw [h1, abs_of_pos hd0]
      exact hlo)
    rwa [sub_add_cancel] at this
  have h2e := two_zpow_pos e
  have hde : 2 * d < 2 ^ e := by
    rw [hpe] at hhi
    have : (2 : ℝ) ^ 53 * (2 * d) < 2 ^ 53 * 2 ^ e := by linarith
    exact lt_of_mul_lt_mul_left this (by positivity)
  have h1 : b ≤ rnd (b + d) := rnd_ge h hb (by linarith)
  by_contra hne
  have hlt : b < rnd (b + d) := lt_of_le_of_ne h1 (Ne.symm hne)
  have hgap := gap_above hm (hge ▸ hlo) (h.isFloat (b + d)) hlt
  have hn := h.nearest (b + d) b hb
  rw [add_sub_cancel_left, abs_of_nonneg hd] at hn
  have := (abs_le.mp hn).1
  linarith

/-- A rounding to nearest mirrored at zero is one. -/
theorem Dbl.mirror (h : Dbl rnd) : Dbl (fun x => -rnd (-x)) where
  isFloat x := (h.isFloat (-x)).neg
  nearest x y hy := by
    have := h.nearest (-x) (-y) hy.neg
    have e1 : x - -rnd (-x) = -(-x - rnd (-x)) := by ring
    have e2 : x - y = -(-x - -y) := by ring
    rw [e1, e2, abs_neg, abs_neg]
    exact this

/-- The denominator of `ratio` for a finite `b`. -/
noncomputable def den (b : ℝ) : ℝ := b + (if 0 ≤ b then small else -small)

theorem mul_small (h : Dbl rnd) (n : Bool) :
    mul rnd maxDouble (.fin (if n then -1 else 1)) (.fin small) = .fin (if n then -small else small) := by
  have hle := not_lt.mpr small_le_max
  cases n
  · simp [Ieee.mul, ofReal, h.exact small_float, abs_of_pos small_pos, hle]
  · simp [Ieee.mul, ofReal, h.exact small_float.neg, abs_of_pos small_pos, hle]

theorem sgn_fin (b : ℝ) : sgn (.fin b) = .fin (if decide (b < 0) then -1 else 1) := by
  rcases lt_or_ge b 0 with hb | hb
  · simp [sgn, le, lt, hb, not_le.mpr hb]
  · simp [sgn, le, lt, hb, not_lt.mpr hb]

theorem sgn_inf (t : Bool) : sgn (.inf t) = .fin (if t then -1 else 1) := by
  cases t <;> simp [sgn, le, lt]

theorem add_small_fin (h : Dbl rnd) (b : ℝ) :
    add rnd maxDouble (.fin b) (mul rnd maxDouble (sgn (.fin b)) (.fin small)) = ofReal rnd maxDouble (den b) := by
  rw [sgn_fin, mul_small h]
  unfold den
  rcases lt_or_ge b 0 with hb | hb
  · simp [Ieee.add, hb, not_le.mpr hb]
  · simp [Ieee.add, hb, not_lt.mpr hb]

theorem add_small_inf (h : Dbl rnd) (t : Bool) :
    add rnd maxDouble (.inf t) (mul rnd maxDouble (sgn (.inf t)) (.fin small)) = .inf t := by
  rw [sgn_inf, mul_small h]
  rfl

theorem ratio_fin (h : Dbl rnd) {a b : ℝ} :
    ratio rnd maxDouble (.fin a) (.fin b) =
      div rnd maxDouble (.fin a) (ofReal rnd maxDouble (den b)) := by
  unfold ratio
  rw [add_small_fin h]

/-- The rounded denominator: finite, not zero, of the sign of `b`, and at least as large as `b` and `SMALL`. -/
theorem den_rnd (h : Dbl rnd) {b : ℝ} (hb : IsFloat 53 (-1074) b) (hbm : |b| ≤ maxDouble) :
    |rnd (den b)| ≤ maxDouble ∧ |b| ≤ |rnd (den b)| ∧ small ≤ |rnd (den b)| ∧ (0 ≤ b → 0 < rnd (den b)) ∧
      (b < 0 → rnd (den b) < 0) ∧ (2 ^ 54 * small ≤ |b| → rnd (den b) = b) := by
  have hsp := small_pos
  -- reduce to non-negative `b`
  have pos : ∀ {r : ℝ → ℝ} {b : ℝ}, Dbl r → IsFloat 53 (-1074) b → 0 ≤ b → b ≤ maxDouble →
      |r (b + small)| ≤ maxDouble ∧ b ≤ r (b + small) ∧ small ≤ r (b + small) ∧ (2 ^ 54 * small ≤ b → r (b + small) = b) := by
    intro r b h hb hb0 hbm
    have h1 : b ≤ r (b + small) := rnd_ge h hb (by linarith)
    have h2 : small ≤ r (b + small) := rnd_ge h small_float (by linarith)
    have h3 : 2 ^ 54 * small ≤ b → r (b + small) = b := fun hl =>
      rnd_absorb_pos h hb hsp.le hl (lt_of_lt_of_le (by positivity) hl)
    refine ⟨?_, h1, h2, h3⟩
    rw [abs_of_pos (lt_of_lt_of_le hsp h2)]
    rcases le_or_gt (2 ^ 54 * small) b with hl | hl
    · rw [h3 hl]
      exact hbm
    · refine rnd_le h maxDouble_float ?_
      have h4 : 2 ^ 54 * small + small ≤ maxDouble := by
        have h5 := maxDouble_large
        have h6 := small_le
        have h7 : ((2 : ℝ) ^ 54 + 1) * 10 ≤ 2 ^ 100 := by norm_num
        linarith
      linarith
  rcases le_or_gt 0 b with hb0 | hb0
  · have hd : den b = b + small := by unfold den; rw [if_pos hb0]
    rw [hd]
    rw [abs_of_nonneg hb0] at hbm
    obtain ⟨h1, h2, h3, h4⟩ := pos h hb hb0 hbm
    refine ⟨h1, ?_, ?_, fun _ => lt_of_lt_of_le hsp h3, fun hn => absurd hn (not_lt.mpr hb0), fun hl => h4 (by rwa [abs_of_nonneg hb0] at hl)⟩
    · rw [abs_of_nonneg hb0]
      exact h2.trans (le_abs_self _)
    · exact h3.trans (le_abs_self _)
  · have hd : den b = -(-b + small) := by unfold den; rw [if_neg (not_le.mpr hb0)]; ring
    rw [abs_of_neg hb0] at hbm
    obtain ⟨h1, h2, h3, h4⟩ := pos h.mirror hb.neg (by linarith) hbm
    rw [abs_neg] at h1
    rw [hd]
    refine ⟨h1, ?_, ?_, fun hn => absurd hb0 (not_lt.mpr hn), fun _ => by linarith, fun hl => ?_⟩
    · rw [abs_of_neg hb0, ← abs_neg]
      exact h2.trans (le_abs_self _)
    · rw [← abs_neg]
      exact h3.trans (le_abs_self _)
    · rw [abs_of_neg hb0] at hl
      have := h4 hl
      linarith

theorem ratio_eq (h : Dbl rnd) {a b : ℝ} (hb : IsFloat 53 (-1074) b) (hbm : |b| ≤ maxDouble) :
    ratio rnd maxDouble (.fin a) (.fin b) = ofReal rnd maxDouble (a / rnd (den b)) := by
  obtain ⟨h1, h2, h3, h4, h5, -⟩ := den_rnd h hb hbm
  rw [ratio_fin h]
  unfold ofReal
  rw [if_neg (not_lt.mpr h1)]
  have hne : rnd (den b) ≠ 0 := by
    rcases le_or_gt 0 b with h0 | h0
    · exact (h4 h0).ne'
    · exact (h5 h0).ne
  unfold Ieee.div ofReal
  dsimp only
  rw [if_neg hne]

end Ieee

/-- C135: on machine numbers `ratio(a,b)` is NaN exactly when an argument is NaN or both are infinite: never for finite
arguments, `0/0` included. -/
theorem C135_ratio_nan_iff {rnd : ℝ → ℝ} (h : ToNearest 53 (-1074) rnd) (a b : Ext)
    (hb : ∀ y, b = .fin y → IsFloat 53 (-1074) y ∧ |y| ≤ maxDouble) :
    ratio rnd maxDouble a b = .nan ↔ a = .nan ∨ b = .nan ∨ ((∃ s, a = .inf s) ∧ ∃ t, b = .inf t) := by
  cases b with
  | nan =>
    have : ratio rnd maxDouble a .nan = .nan := by cases a <;> rfl
    simp [this]
  | inf t =>
    unfold ratio
    rw [add_small_inf h]
    cases a <;> simp [Ieee.div]
  | fin y =>
    obtain ⟨hy, hym⟩ := hb y rfl
    have hf := (den_rnd h hy hym).1
    cases a with
    | nan =>
      have : ratio rnd maxDouble .nan (.fin y) = .nan := rfl
      simp [this]
    | inf s =>
      unfold ratio
      rw [add_small_fin h]
      unfold ofReal
      rw [if_neg (not_lt.mpr hf)]
      simp [Ieee.div]
    | fin x =>
      rw [ratio_eq h hy hym]
      unfold ofReal
      split_ifs <;> simp

/-- C135: for finite arguments, `ratio(a,b)` with `|a| ≤ |b|` is finite and at most 1 in size. -/
theorem C135_ratio_le_one {rnd : ℝ → ℝ} (h : ToNearest 53 (-1074) rnd) {a b : ℝ} (hb : IsFloat 53 (-1074) b)
    (hbm : |b| ≤ maxDouble) (hab : |a| ≤ |b|) : ∃ r, ratio rnd maxDouble (.fin a) (.fin b) = .fin r ∧ |r| ≤ 1 := by
  obtain ⟨-, h2, h3, -, -, -⟩ := den_rnd h hb hbm
  have hd : 0 < |rnd (den b)| := lt_of_lt_of_le small_pos h3
  have hq : |a / rnd (den b)| ≤ 1 := by
    rw [abs_div, div_le_one hd]
    exact hab.trans h2
  have h1f : IsFloat 53 (-1074) 1 := ⟨1, 0, by norm_num, by norm_num, by norm_num⟩
  have hr := abs_rnd_le h h1f hq
  have h1m : (1 : ℝ) ≤ maxDouble := by
    have := maxDouble_large
    have h3 : (1 : ℝ) ≤ 2 ^ 100 := by norm_num
    linarith
  refine ⟨rnd (a / rnd (den b)), ?_, hr⟩
  rw [ratio_eq h hb hbm]
  unfold ofReal
  rw [if_neg (not_lt.mpr (hr.trans h1m))]

/-- C135: for a `b` of more than about `4·10^{-291}` the guard changes nothing: `ratio(a,b)` is the correctly rounded `a/b`. -/
theorem C135_ratio_is_rounded_quotient {rnd : ℝ → ℝ} (h : ToNearest 53 (-1074) rnd) {a b : ℝ} (hb : IsFloat 53 (-1074) b)
    (hbm : |b| ≤ maxDouble) (hbs : 2 ^ 54 * small ≤ |b|) :
    ratio rnd maxDouble (.fin a) (.fin b) = div rnd maxDouble (.fin a) (.fin b) := by
  have hne : b ≠ 0 := by
    rintro rfl
    rw [abs_zero] at hbs
    have := small_pos
    linarith
  rw [ratio_eq h hb hbm, (den_rnd h hb hbm).2.2.2.2.2 hbs]
  unfold Ieee.div
  dsimp only
  rw [if_neg hne]

/-- C135: `ratio` of finite arguments is finite when `|a| ≤ 39`, whatever `b`; and for a larger `a` when `|a| ≤ |b| Ω`. -/
theorem C135_ratio_finite_partial {rnd : ℝ → ℝ} (h : ToNearest 53 (-1074) rnd) {a b : ℝ} (hb : IsFloat 53 (-1074) b)
    (hbm : |b| ≤ maxDouble) (ha : |a| ≤ 39 ∨ |a| ≤ |b| * maxDouble) : ∃ r, ratio rnd maxDouble (.fin a) (.fin b) = .fin r := by
  obtain ⟨-, h2, h3, -, -, -⟩ := den_rnd h hb hbm
  have hd : 0 < |rnd (den b)| := lt_of_lt_of_le small_pos h3
  have hq : |a / rnd (den b)| ≤ maxDouble := by
    rw [abs_div, div_le_iff₀ hd]
    rcases ha with ha | ha
    · have h4 : 39 ≤ maxDouble * small := by
        unfold maxDouble small
        have : (2 : ℝ) ^ 971 * 2 ^ (-1022 : ℤ) = 1 / 2 ^ 51 := by
          have : (2 : ℝ) ^ 971 = 2 ^ (971 : ℤ) := by rw [← zpow_natCast]; rfl
          rw [this, ← two_zpow_add]
          norm_num
        have e : (2 ^ 53 - 1) * (2 : ℝ) ^ 971 * (10 * 2 ^ (-1022 : ℤ)) = (2 ^ 53 - 1) * 10 * (2 ^ 971 * 2 ^ (-1022 : ℤ)) := by ring
        rw [e, this]
        norm_num
      exact (ha.trans h4).trans (mul_le_mul_of_nonneg_left h3 maxDouble_pos.le)
    · exact ha.trans (by rw [mul_comm]; exact mul_le_mul_of_nonneg_left h2 maxDouble_pos.le)
  refine ⟨rnd (a / rnd (den b)), ?_⟩
  rw [ratio_eq h hb hbm]
  unfold ofReal
  rw [if_neg (not_lt.mpr (abs_rnd_le h maxDouble_float hq))]

/-- C135 fails in one point: `ratio(41, 0)` overflows to infinity, so "robust" does not mean finite. -/
theorem C135_ratio_finite_violated {rnd : ℝ → ℝ} (h : ToNearest 53 (-1074) rnd) :
    ratio rnd maxDouble (.fin 41) (.fin 0) = .inf false := by
  have hm : |(0 : ℝ)| ≤ maxDouble := by rw [abs_zero]; exact maxDouble_pos.le
  rw [ratio_eq h isFloat_zero hm]
  have hden : den 0 = small := by unfold den; rw [if_pos le_rfl, zero_add]
  rw [hden, h.exact small_float]
  have hbig : (2 : ℝ) ^ (1024 : ℤ) ≤ 41 / small := by
    rw [le_div_iff₀ small_pos]
    unfold small
    have e : (2 : ℝ) ^ (1024 : ℤ) * (10 * 2 ^ (-1022 : ℤ)) = 10 * (2 ^ (1024 : ℤ) * 2 ^ (-1022 : ℤ)) := by ring
    rw [e, ← two_zpow_add]
    norm_num
  have h1024 : IsFloat 53 (-1074) ((2 : ℝ) ^ (1024 : ℤ)) := ⟨1, 1024, by norm_num, by norm_num, by rw [Int.cast_one, one_mul]⟩
  have h1 := rnd_ge h h1024 hbig
  have h2 : maxDouble < (2 : ℝ) ^ (1024 : ℤ) := by
    unfold maxDouble
    have : (2 : ℝ) ^ (1024 : ℤ) = 2 ^ 53 * 2 ^ 971 := by
      rw [← pow_add, ← zpow_natCast]
      rfl
    rw [this]
    exact mul_lt_mul_of_pos_right (by norm_num) (by positivity)
  unfold ofReal
  have h3 : (0 : ℝ) < 41 / small := div_pos (by norm_num) small_pos
  rw [if_pos (lt_of_lt_of_le h2 (h1.trans (le_abs_self _)))]
  simp [not_lt.mpr h3.le]

/-- C135: `make_positive` passes NaN on (`std::max(NaN, EPS)` is NaN); every other argument gives at least `EPS`. -/
theorem C135_make_positive (v : Ext) :
    (v = .nan → makePositive v = .nan) ∧ (v ≠ .nan → le (.fin eps) (makePositive v)) := by
  have hle : le (.fin eps) (.fin eps) := le_refl eps
  refine ⟨?_, ?_⟩
  · rintro rfl
    simp [makePositive, stdMax, lt]
  · intro hv
    unfold makePositive stdMax
    cases v with
    | nan => exact absurd rfl hv
    | inf s => cases s <;> simp [lt, le]
    | fin x =>
      by_cases hx : x < eps
      · simp [lt, le, hx]
      · simp [lt, le, hx, not_lt.mp hx]

/-- C135 fails in another: in floating point `make_bounded` need not be strictly inside the interval. For `vmin = 64` the `EPS` is
lost and `make_bounded(0, 64, 128)` is `64`. (In exact arithmetic C06 says strictly inside.) -/
theorem C135_make_bounded_strict_violated {rnd : ℝ → ℝ} (h : ToNearest 53 (-1074) rnd) :
    makeBounded rnd maxDouble (.fin 0) (.fin 64) (.fin 128) = .fin 64 := by
  have heps : eps = 10 / 2 ^ 52 := by unfold eps; norm_num
  have hf64 : IsFloat 53 (-1074) 64 := ⟨1, 6, by norm_num, by norm_num, by norm_num⟩
  have hadd : add rnd maxDouble (.fin 64) (.fin eps) = .fin 64 := by
    have : rnd (64 + eps) = 64 := by
      have h1 : (64 : ℝ) ≤ rnd (64 + eps) := rnd_ge h hf64 (by rw [heps]; norm_num)
      by_contra hne
      have hlt : 64 < rnd (64 + eps) := lt_of_le_of_ne h1 (Ne.symm hne)
      have hgap := gap_above (b := 64) (e := -46) ⟨2 ^ 52, by norm_num⟩ (by norm_num) (h.isFloat _) hlt
      have hn := h.nearest (64 + eps) 64 hf64
      rw [add_sub_cancel_left, heps] at hn
      have h3 := (abs_le.mp hn).1
      rw [abs_of_pos (by norm_num : (0 : ℝ) < 10 / 2 ^ 52)] at h3
      rw [heps] at hgap
      norm_num at h3 hgap
      linarith
    have hm : ¬maxDouble < |(64 : ℝ)| := by
      have := maxDouble_large
      have h3 : (64 : ℝ) ≤ 2 ^ 100 := by norm_num
      rw [abs_of_pos (by norm_num)]
      linarith
    simp only [Ieee.add, ofReal, this, if_neg hm]
  have hmul : ∃ z, mul rnd maxDouble (.fin 128) (.fin (1 - eps)) = .fin z ∧ 64 < z := by
    have h100 : IsFloat 53 (-1074) 100 := ⟨100, 0, by norm_num, by norm_num, by norm_num⟩
    have h128 : IsFloat 53 (-1074) 128 := ⟨1, 7, by norm_num, by norm_num, by norm_num⟩
    have g1 : 100 ≤ rnd (128 * (1 - eps)) := rnd_ge h h100 (by rw [heps]; norm_num)
    have g2 : rnd (128 * (1 - eps)) ≤ 128 := rnd_le h h128 (by rw [heps]; norm_num)
    refine ⟨_, ?_, by linarith⟩
    have hm : ¬maxDouble < |rnd (128 * (1 - eps))| := by
      rw [abs_of_pos (by linarith)]
      have := maxDouble_large
      have h3 : (128 : ℝ) ≤ 2 ^ 100 := by norm_num
      linarith
    simp only [Ieee.mul, ofReal, if_neg hm]
  obtain ⟨z, hz, hz64⟩ := hmul
  unfold makeBounded
  rw [hadd, hz]
  simp [stdMax, stdMin, lt, not_lt.mpr hz64.le]

/-- The hypotheses are met: `ratio(0, 0)` and `ratio(1, 3)` for a double rounding. -/
example : ∃ rnd, ToNearest 53 (-1074) rnd ∧ ratio rnd maxDouble (.fin 0) (.fin 0) ≠ .nan ∧
    ∃ r, ratio rnd maxDouble (.fin 1) (.fin 3) = .fin r ∧ |r| ≤ 1 := by
  obtain ⟨rnd, hr⟩ := exists_toNearest (p := 53) (emin := -1074) (by norm_num)
  refine ⟨rnd, hr, fun hc => ?_, ?_⟩
  · have := (C135_ratio_nan_iff hr (.fin 0) (.fin 0) (fun y hy => by
      have : y = 0 := by injection hy with h; exact h.symm
      subst this
      exact ⟨isFloat_zero, by rw [abs_zero]; exact maxDouble_pos.le⟩)).mp hc
    simp at this
  · refine C135_ratio_le_one hr ⟨3, 0, by norm_num, by norm_num, by norm_num⟩ ?_ (by norm_num)
    have := maxDouble_large
    have h3 : (3 : ℝ) ≤ 2 ^ 100 := by norm_num
    rw [abs_of_pos (by norm_num)]
    linarith

end Verif
