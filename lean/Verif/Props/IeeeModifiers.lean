import Verif.Props.IeeeIdeal
import Verif.Props.FloatRootFind
import Verif.Model.IeeeModifiers

/-! # C138: the scale and shift modifiers in machine arithmetic -/

namespace Verif

open Ieee Rounding

/-- C138: in range, the equation of state wrapped by `ScaledEOS` is called with the scaled density up to one rounding and the
scaled energy up to two, and the energies returned have one more rounding. (The energy lookup passes the density unscaled, see C66.) -/
theorem C138_scaled_lookups {rnd : ℝ → ℝ} (h : ToNearest 53 (-1074) rnd) (t : MEos) {s rho e : ℝ} (hs : 0 < s) (hr : 0 < rho)
    (he : 0 < e) (T : Ext) (h1 : InRange (1 / s)) (h2 : InRange (s * rho)) (h3 : InRange (e / s)) :
    ∃ r x : Ext, Approx 1 (s * rho) r ∧ Approx 2 (e / s) x ∧
      (scaled rnd maxDouble (.fin s) t).temperature (.fin rho) (.fin e) = t.temperature r x ∧
      (scaled rnd maxDouble (.fin s) t).pressureE (.fin rho) (.fin e) = t.pressureE r x ∧
      (scaled rnd maxDouble (.fin s) t).pressureT (.fin rho) T = t.pressureT r T ∧
      (scaled rnd maxDouble (.fin s) t).minEnergy (.fin rho) = t.minEnergy r ∧
      ∀ y, 0 < y → InRange (s * y) → t.energy (.fin rho) T = .fin y →
        Approx 1 (s * y) ((scaled rnd maxDouble (.fin s) t).energy (.fin rho) T) := by
  have As := Approx.exact hs
  have e1 : 1 / s * e = e / s := by ring
  have Ai := (Approx.exact (zero_lt_one (α := ℝ))).div h zero_lt_one hs As h1 (by norm_num)
  have Ax := Ai.mul h h1.pos he (Approx.exact he) (by rw [e1]; exact h3) (by norm_num)
  rw [e1] at Ax
  refine ⟨_, _, As.mul h hs hr (Approx.exact hr) h2 (by norm_num), Ax, rfl, rfl, rfl, rfl, ?_⟩
  intro y hy hsy hty
  unfold scaled
  dsimp only
  rw [hty]
  exact As.mul h hs hy (Approx.exact hy) hsy (by norm_num)

/-- C138: the density bounds that `ScaledEOS` reports are the wrapped ones over the scale, up to two roundings. -/
theorem C138_scaled_bounds {rnd : ℝ → ℝ} (h : ToNearest 53 (-1074) rnd) (t : MEos) {s lo hi : ℝ} (hs : 0 < s)
    (hlo : t.minDensity = .fin lo) (hhi : t.maxDensity = .fin hi) (h0 : 0 < lo) (h0' : 0 < hi) (h1 : InRange (1 / s))
    (h2 : InRange (lo / s)) (h3 : InRange (hi / s)) :
    Approx 2 (lo / s) (scaled rnd maxDouble (.fin s) t).minDensity ∧
      Approx 2 (hi / s) (scaled rnd maxDouble (.fin s) t).maxDensity := by
  have Ai := (Approx.exact (zero_lt_one (α := ℝ))).div h zero_lt_one hs (Approx.exact hs) h1 (by norm_num)
  have e1 : 1 / s * lo = lo / s := by ring
  have e2 : 1 / s * hi = hi / s := by ring
  unfold scaled
  dsimp only
  rw [hlo, hhi]
  constructor
  · rw [← e1]; exact Ai.mul h h1.pos h0 (Approx.exact h0) (by rw [e1]; exact h2) (by norm_num)
  · rw [← e2]; exact Ai.mul h h1.pos h0' (Approx.exact h0') (by rw [e2]; exact h3) (by norm_num)

/-- C138: density and energy returned by `ScaledEOS` from pressure and temperature, when used again as arguments, reach the wrapped
equation of state as the density and energy it returned, up to three roundings each; the energy per volume is unchanged up to
three. -/
theorem C138_scaled_round_trip {rnd : ℝ → ℝ} (h : ToNearest 53 (-1074) rnd) (t : MEos) {s rho e : ℝ} (hs : 0 < s)
    (P T : Ext) (ht : t.densityEnergy P T = (.fin rho, .fin e)) (h1 : InRange (1 / s)) (hr : InRange rho)
    (he : InRange e) (h2 : InRange (rho / s)) (h3 : InRange (e * s)) :
    ∃ rho' e' : ℝ, (scaled rnd maxDouble (.fin s) t).densityEnergy P T = (.fin rho', .fin e') ∧
      Within 3 (rho * e) (rho' * e') ∧
      ∃ r x : Ext, Approx 3 rho r ∧ Approx 3 e x ∧
        (scaled rnd maxDouble (.fin s) t).pressureE (.fin rho') (.fin e') = t.pressureE r x := by
  have As := Approx.exact hs
  have A1 := Approx.exact (zero_lt_one (α := ℝ))
  have Ai := A1.div h zero_lt_one hs As h1 (by norm_num)
  have e1 : rho * (1 / s) = rho / s := by ring
  obtain ⟨r', hr', hrw⟩ := (Approx.exact hr.pos).mul h hr.pos h1.pos Ai (by rw [e1]; exact h2) (by norm_num)
  rw [e1] at hrw
  obtain ⟨x', hx', hxw⟩ := (Approx.exact he.pos).mul h he.pos hs As h3 (by norm_num)
  refine ⟨r', x', ?_, ?_, ?_⟩
  · unfold scaled
    dsimp only
    rw [ht]
    exact Prod.ext hr' hx'
  · have := hrw.mul h2.pos h3.pos hxw
    have e2 : rho / s * (e * s) = rho * e := by field_simp
    rw [e2] at this
    exact this
  · have e3 : s * (rho / s) = rho := by field_simp
    have e4 : 1 / s * (e * s) = e := by field_simp
    have Ar := As.mul h hs h2.pos ⟨r', rfl, hrw⟩ (by rw [e3]; exact hr) (by norm_num)
    rw [e3] at Ar
    have Ax := Ai.mul h h1.pos h3.pos ⟨x', rfl, hxw⟩ (by rw [e4]; exact he) (by norm_num)
    rw [e4] at Ax
    exact ⟨_, _, Ar, Ax, rfl⟩

/-- C138: for a scale that is a power of two, `ScaledEOS` makes no rounding error at all: the wrapped equation of state is called
with exactly the scaled density and energy. -/
theorem C138_scaled_power_of_two {rnd : ℝ → ℝ} (h : ToNearest 53 (-1074) rnd) (t : MEos) (k : ℤ) {m n a b : ℤ}
    (hm : |m| < 2 ^ 53) (hn : |n| < 2 ^ 53) (hk : -1000 ≤ k ∧ k ≤ 1000) (ha : -1074 ≤ a + k ∧ a + k ≤ 971)
    (hb : -1074 ≤ b - k ∧ b - k ≤ 971) :
    let s : ℝ := 2 ^ k
    let rho : ℝ := m * 2 ^ a
    let e : ℝ := n * 2 ^ b
    (scaled rnd maxDouble (.fin s) t).pressureE (.fin rho) (.fin e) = t.pressureE (.fin (s * rho)) (.fin (e / s)) := by
  intro s rho e
  have hmax : ∀ (j c : ℤ), |j| < 2 ^ 53 → c ≤ 971 → |(j : ℝ) * 2 ^ c| ≤ maxDouble := by
    intro j c hj hc
    rw [abs_mul, abs_of_pos (two_zpow_pos c)]
    have h1 : |j| ≤ 2 ^ 53 - 1 := by omega
    have h2 : |(j : ℝ)| ≤ 2 ^ 53 - 1 := by exact_mod_cast h1
    have h3 : (2 : ℝ) ^ c ≤ 2 ^ 971 := by
      have := zpow_le_zpow_right₀ (one_le_two (α := ℝ)) hc
      refine this.trans (le_of_eq ?_)
      rw [← zpow_natCast]; rfl
    unfold maxDouble
    exact mul_le_mul h2 h3 (two_zpow_pos c).le (by norm_num)
  have hex : ∀ (j c : ℤ), |j| < 2 ^ 53 → -1074 ≤ c → c ≤ 971 → ∀ z : ℝ, z = j * 2 ^ c → ofReal rnd maxDouble z = .fin z := by
    intro j c hj hc0 hc z hz
    have hf : IsFloat 53 (-1074) z := ⟨j, c, hj, hc0, hz⟩
    unfold ofReal
    rw [h.exact hf, hz, if_neg (not_lt.mpr (hmax j c hj hc))]
  have hs0 : s ≠ 0 := (two_zpow_pos k).ne'
  have hinv : invScale rnd maxDouble (.fin s) = .fin (2 ^ (-k)) := by
    unfold invScale
    simp only [div, if_neg hs0]
    by_cases hk' : -1074 ≤ -k ∧ -k ≤ 971
    · rw [hex 1 (-k) (by norm_num) hk'.1 hk'.2 _ (by simp only [s]; rw [zpow_neg]; simp)]
      simp only [s]; rw [zpow_neg]; simp
    · -- `k` between -1000 and -972: write the power as `2^29 · 2^(-k-29)`
      have : (1 : ℝ) / s = ((2 ^ 29 : ℤ) : ℝ) * 2 ^ (-k - 29) := by
        have h29 : ((2 ^ 29 : ℤ) : ℝ) = 2 ^ (29 : ℤ) := by norm_num
        rw [h29, ← two_zpow_add]
        simp only [s]
        rw [one_div, ← zpow_neg]
        congr 1
        ring
      rw [hex (2 ^ 29) (-k - 29) (by norm_num) (by omega) (by omega) _ this]
      simp only [s]; rw [zpow_neg]; simp
  unfold scaled
  dsimp only
  rw [hinv]
  simp only [mul]
  rw [hex m (a + k) hm ha.1 ha.2 (s * rho) (by simp only [s, rho]; rw [two_zpow_add]; ring)]
  have e2 : (2 : ℝ) ^ (-k) * e = e / s := by simp only [s]; rw [zpow_neg]; field_simp
  rw [e2, hex n (b - k) hn hb.1 hb.2 (e / s) (by
    simp only [s, e]; rw [sub_eq_add_neg, two_zpow_add, zpow_neg]; field_simp)]

/-- C138: the energy that `ShiftedEOS` passes on is the exact difference up to one rounding, of any sign and size. -/
theorem C138_shifted_lookups {rnd : ℝ → ℝ} (h : ToNearest 53 (-1074) rnd) (t : MEos) {s e : ℝ} (hs : IsFloat 53 (-1074) s)
    (he : IsFloat 53 (-1074) e) (hm : |e - s| ≤ maxDouble) (rho : Ext) :
    ∃ x, |x - (e - s)| ≤ 1 / 2 ^ 53 * |e - s| ∧
      (shifted rnd maxDouble (.fin s) t).temperature rho (.fin e) = t.temperature rho (.fin x) ∧
      (shifted rnd maxDouble (.fin s) t).pressureE rho (.fin e) = t.pressureE rho (.fin x) := by
  have hmu : Mult (-1074) (e - s) := he.mult.sub hs.mult
  have hx := h.rel_error (by norm_num) hmu
  have hsub : sub rnd maxDouble (.fin e) (.fin s) = .fin (rnd (e - s)) := by
    simp only [sub, neg, add, ofReal, ← sub_eq_add_neg]
    rw [if_neg (not_lt.mpr (abs_rnd_le h maxDouble_float hm))]
  refine ⟨rnd (e - s), ?_, ?_, ?_⟩
  · rw [abs_sub_comm] at hx
    first
      | exact hx
      | (rw [abs_sub_comm]; exact hx)
  · unfold shifted; dsimp only; rw [hsub]
  · unfold shifted; dsimp only; rw [hsub]

/-- C138: the energies that `ShiftedEOS` returns (from temperature, from pressure and temperature, and the smallest one) are the exact
sums up to one rounding; densities, density bounds and the pressure of a temperature are those of the wrapped equation of state. -/
theorem C138_shifted_results {rnd : ℝ → ℝ} (h : ToNearest 53 (-1074) rnd) (t : MEos) {s : ℝ} (hs : IsFloat 53 (-1074) s)
    (rho T P : Ext) :
    let g := shifted rnd maxDouble (.fin s) t
    (∀ E, IsFloat 53 (-1074) E → |E + s| ≤ maxDouble → ∃ y, |y - (E + s)| ≤ 1 / 2 ^ 53 * |E + s| ∧
      (t.energy rho T = .fin E → g.energy rho T = .fin y) ∧ (t.minEnergy rho = .fin E → g.minEnergy rho = .fin y) ∧
      ((t.densityEnergy P T).2 = .fin E → (g.densityEnergy P T).2 = .fin y)) ∧
    (g.densityEnergy P T).1 = (t.densityEnergy P T).1 ∧ g.pressureT rho T = t.pressureT rho T ∧
    g.minDensity = t.minDensity ∧ g.maxDensity = t.maxDensity := by
  refine ⟨?_, rfl, rfl, rfl, rfl⟩
  intro E hE hm
  have hx := h.rel_error (by norm_num) (hE.mult.add hs.mult)
  have e1 : add rnd maxDouble (.fin E) (.fin s) = .fin (rnd (E + s)) := by
    simp only [add, ofReal]
    rw [if_neg (not_lt.mpr (abs_rnd_le h maxDouble_float hm))]
  refine ⟨rnd (E + s), ?_, ?_, ?_, ?_⟩
  · rw [abs_sub_comm]; exact hx
  all_goals
    intro h1
    unfold shifted
    dsimp only
    rw [h1, e1]

/-- C138: what a round trip through `ShiftedEOS` does to an energy of the wrapped equation of state: `E` is returned as `E + shift`
and reaches it again as a number within `3 · 2^{-53} (|E| + |shift|)`: an absolute error, of the size of the shift. -/
theorem C138_shifted_round_trip {rnd : ℝ → ℝ} (h : ToNearest 53 (-1074) rnd) (t : MEos) {s E : ℝ} (hs : IsFloat 53 (-1074) s)
    (hE : IsFloat 53 (-1074) E) (hm : |E| + |s| ≤ maxDouble / 2) (rho rho' T : Ext) (ht : t.energy rho T = .fin E) :
    ∃ x, |x - E| ≤ 3 / 2 ^ 53 * (|E| + |s|) ∧
      (shifted rnd maxDouble (.fin s) t).temperature rho' ((shifted rnd maxDouble (.fin s) t).energy rho T) =
        t.temperature rho' (.fin x) := by
  have hu : unitRoundoff 53 = 1 / 2 ^ 53 := rfl
  have r1 := h.rel_error (by norm_num) (hE.mult.add hs.mult)
  set A := rnd (E + s) with hA
  have r2 := h.rel_error (by norm_num) ((h.isFloat (E + s)).mult.sub hs.mult)
  rw [← hA] at r2
  rw [hu] at r1 r2
  have t1 : |E + s| ≤ |E| + |s| := abs_add_le _ _
  have hN := abs_nonneg (E + s)
  have t2 : |A - s| ≤ |E| + 1 / 2 ^ 53 * |E + s| := by
    have : A - s = E + -(E + s - A) := by ring
    rw [this]
    refine (abs_add_le _ _).trans ?_
    rw [abs_neg]
    linarith
  have hA0 : |A| ≤ maxDouble := abs_rnd_le h maxDouble_float (by linarith [maxDouble_pos])
  have hB0 : |rnd (A - s)| ≤ maxDouble := by
    refine abs_rnd_le h maxDouble_float (t2.trans ?_)
    have : 1 / 2 ^ 53 * |E + s| ≤ |E + s| := by nlinarith
    linarith [abs_nonneg s]
  refine ⟨rnd (A - s), ?_, ?_⟩
  · have : rnd (A - s) - E = -(A - s - rnd (A - s)) + -(E + s - A) := by ring
    rw [this]
    refine (abs_add_le _ _).trans ?_
    rw [abs_neg, abs_neg]
    have hE0 := abs_nonneg E
    have hs0 := abs_nonneg s
    generalize |E| = x1 at *
    generalize |s| = x2 at *
    generalize |E + s| = x3 at *
    generalize |A - s| = x4 at *
    generalize |A - s - rnd (A - s)| = x5 at *
    generalize |E + s - A| = x6 at *
    norm_num at r1 r2 t2 ⊢
    linarith
  · unfold shifted
    dsimp only
    rw [ht]
    have e1 : add rnd maxDouble (.fin E) (.fin s) = .fin A := by
      simp only [add, ofReal, ← hA]
      rw [if_neg (not_lt.mpr hA0)]
    rw [e1]
    have e2 : sub rnd maxDouble (.fin A) (.fin s) = .fin (rnd (A - s)) := by
      simp only [sub, neg, add, ofReal, ← sub_eq_add_neg]
      rw [if_neg (not_lt.mpr hB0)]
    rw [e2]

/-- C138: no error at all when energy and shift are multiples of a common power of two with a sum that fits: for example integers up
to `2^52` in size. -/
theorem C138_shifted_exact {rnd : ℝ → ℝ} (h : ToNearest 53 (-1074) rnd) (t : MEos) {m n q : ℤ} (hmn : |m| + |n| ≤ 2 ^ 53 - 1)
    (hq : -1074 ≤ q ∧ q ≤ 971) (rho rho' T : Ext) (ht : t.energy rho T = .fin (m * 2 ^ q)) :
    (shifted rnd maxDouble (.fin (n * 2 ^ q)) t).temperature rho' ((shifted rnd maxDouble (.fin (n * 2 ^ q)) t).energy rho T) =
      t.temperature rho' (.fin (m * 2 ^ q)) := by
  have hex : ∀ j : ℤ, |j| ≤ 2 ^ 53 - 1 → ofReal rnd maxDouble (j * 2 ^ q) = .fin (j * 2 ^ q) := by
    intro j hj
    have hf : IsFloat 53 (-1074) ((j : ℝ) * 2 ^ q) := ⟨j, q, by omega, hq.1, rfl⟩
    have hle : |(j : ℝ) * 2 ^ q| ≤ maxDouble := by
      rw [abs_mul, abs_of_pos (two_zpow_pos q)]
      have h2 : |(j : ℝ)| ≤ 2 ^ 53 - 1 := by exact_mod_cast hj
      have h3 : (2 : ℝ) ^ q ≤ 2 ^ 971 := by
        have := zpow_le_zpow_right₀ (one_le_two (α := ℝ)) hq.2
        refine this.trans (le_of_eq ?_)
        rw [← zpow_natCast]; rfl
      unfold maxDouble
      exact mul_le_mul h2 h3 (two_zpow_pos q).le (by norm_num)
    unfold ofReal
    rw [h.exact hf, if_neg (not_lt.mpr hle)]
  have a1 : |m + n| ≤ 2 ^ 53 - 1 := (abs_add_le m n).trans hmn
  have a2 : |m| ≤ 2 ^ 53 - 1 := by have := abs_nonneg n; linarith
  unfold shifted
  dsimp only
  rw [ht]
  have e1 : add rnd maxDouble (.fin ((m : ℝ) * 2 ^ q)) (.fin (n * 2 ^ q)) = .fin (((m + n : ℤ) : ℝ) * 2 ^ q) := by
    rw [← hex _ a1]
    simp only [add]
    congr 1
    push_cast
    ring
  have e2 : sub rnd maxDouble (.fin (((m + n : ℤ) : ℝ) * 2 ^ q)) (.fin (n * 2 ^ q)) = .fin (m * 2 ^ q) := by
    rw [← hex _ a2]
    simp only [sub, neg, add]
    congr 1
    push_cast
    ring
  rw [e1, e2]

/-- C138: the energy passed on is monotone in the energy given, so a monotone temperature stays monotone under a shift. -/
theorem C138_shifted_monotone {rnd : ℝ → ℝ} (h : ToNearest 53 (-1074) rnd) {s e e' : ℝ} (hee : e ≤ e')
    (hm : |e - s| ≤ maxDouble) (hm' : |e' - s| ≤ maxDouble) (t : MEos) (rho : Ext)
    (ht : ∀ x x', le x x' → le (t.temperature rho x) (t.temperature rho x')) :
    le ((shifted rnd maxDouble (.fin s) t).temperature rho (.fin e))
      ((shifted rnd maxDouble (.fin s) t).temperature rho (.fin e')) := by
  have hsub : ∀ y : ℝ, |y - s| ≤ maxDouble → sub rnd maxDouble (.fin y) (.fin s) = .fin (rnd (y - s)) := by
    intro y hy
    simp only [sub, neg, add, ofReal, ← sub_eq_add_neg]
    rw [if_neg (not_lt.mpr (abs_rnd_le h maxDouble_float hy))]
  unfold shifted
  dsimp only
  rw [hsub e hm, hsub e' hm']
  exact ht _ _ (rnd_mono h (by linarith))

/-- The ideal gas with `gm1` and `Cv` as an equation of state of machine numbers (no density bounds: 0 and the largest number). -/
noncomputable def Ieee.idealMEos (rnd : ℝ → ℝ) (g : Ideal) : MEos where
  temperature := g.temperature rnd maxDouble
  energy := g.energy rnd maxDouble
  pressureT := g.pressureT rnd maxDouble
  pressureE := g.pressureE rnd maxDouble
  minEnergy := fun _ => .fin 0
  densityEnergy := g.densityEnergy rnd maxDouble
  minDensity := .fin 0
  maxDensity := .fin maxDouble

/-- C138 fails in one point: a large shift loses the energy. An ideal gas with `Cv = 1` shifted by `2^60`: temperature 1 to energy and
back gives temperature 0. -/
theorem C138_shifted_loses_energy_violated {rnd : ℝ → ℝ} (h : ToNearest 53 (-1074) rnd) (gm1 rho : Ext) :
    let g := shifted rnd maxDouble (.fin (2 ^ 60)) (idealMEos rnd ⟨gm1, .fin 1⟩)
    g.energy rho (.fin 1) = .fin (2 ^ 60) ∧ g.temperature rho (g.energy rho (.fin 1)) = .fin 0 := by
  intro g
  have hf1 : IsFloat 53 (-1074) (1 : ℝ) := ⟨1, 0, by norm_num, by norm_num, by norm_num⟩
  have hf60 : IsFloat 53 (-1074) ((2 : ℝ) ^ 60) := ⟨1, 60, by norm_num, by norm_num, by norm_num⟩
  have hl := maxDouble_large
  have h60 : ¬ maxDouble < |(2 : ℝ) ^ 60| := by
    rw [abs_of_pos (by positivity)]
    have : (2 : ℝ) ^ 60 ≤ 2 ^ 100 := by norm_num
    exact not_lt.mpr (this.trans hl)
  have h1 : ¬ maxDouble < |(1 : ℝ)| := by
    rw [abs_one]
    have : (1 : ℝ) ≤ 2 ^ 100 := by norm_num
    exact not_lt.mpr (this.trans hl)
  have hab : rnd (1 + 2 ^ 60) = 2 ^ 60 := by
    rw [add_comm]
    exact rnd_absorb_pos h hf60 zero_le_one (by norm_num) (by positivity)
  have e1 : (idealMEos rnd ⟨gm1, .fin 1⟩).energy rho (.fin 1) = .fin 1 := by
    change max0 (mul rnd maxDouble (.fin 1) (.fin 1)) = _
    simp only [mul, ofReal, mul_one, h.exact hf1, if_neg h1]
    exact max0_of_nonNeg (by simp [NonNeg, le])
  have e2 : g.energy rho (.fin 1) = .fin (2 ^ 60) := by
    change add rnd maxDouble ((idealMEos rnd ⟨gm1, .fin 1⟩).energy rho (.fin 1)) (.fin (2 ^ 60)) = _
    rw [e1]
    simp only [add, ofReal, hab, if_neg h60]
  refine ⟨e2, ?_⟩
  rw [e2]
  change max0 (div rnd maxDouble (sub rnd maxDouble (.fin (2 ^ 60)) (.fin (2 ^ 60))) (.fin 1)) = _
  have e3 : sub rnd maxDouble (.fin ((2 : ℝ) ^ 60)) (.fin (2 ^ 60)) = .fin 0 := by
    simp only [sub, neg, add, ofReal, add_neg_cancel, rnd_zero h, abs_zero, if_neg (not_lt.mpr maxDouble_pos.le)]
  rw [e3]
  have e4 : div rnd maxDouble (.fin 0) (.fin 1) = .fin 0 := by
    simp only [div, one_ne_zero, if_false, zero_div, ofReal, rnd_zero h, abs_zero, if_neg (not_lt.mpr maxDouble_pos.le)]
  rw [e4]
  exact max0_of_nonpos (by simp [le])

/-- C138 fails in another: the density bounds that `ScaledEOS` reports are not inside the wrapped domain. With scale 3 and a wrapped
minimum of 7, the density at the reported minimum reaches the wrapped equation of state as `7 - 2^{-50}`. -/
theorem C138_scaled_bound_violated {rnd : ℝ → ℝ} (h : ToNearest 53 (-1074) rnd) (t : MEos) (ht : t.minDensity = .fin 7) (T : Ext) :
    (scaled rnd maxDouble (.fin 3) t).pressureT (scaled rnd maxDouble (.fin 3) t).minDensity T =
      t.pressureT (.fin (7 - 1 / 2 ^ 50)) T := by
  have z54 : (2 : ℝ) ^ (-54 : ℤ) = 1 / 2 ^ 54 := by rw [zpow_neg, one_div]; norm_cast
  have z51 : (2 : ℝ) ^ (-51 : ℤ) = 1 / 2 ^ 51 := by rw [zpow_neg, one_div]; norm_cast
  have z50 : (2 : ℝ) ^ (-50 : ℤ) = 1 / 2 ^ 50 := by rw [zpow_neg, one_div]; norm_cast
  have r1 : rnd (1 / 3) = 6004799503160661 * (2 : ℝ) ^ (-54 : ℤ) := by
    have := h.eq_of_close (m := 6004799503160661) (e := -54) (x := 1 / 3) (by norm_num) (by norm_num) (by norm_num)
      (by rw [z54, abs_lt]; push_cast; constructor <;> norm_num)
    rw [this]; push_cast; rfl
  have r2 : rnd (6004799503160661 * (2 : ℝ) ^ (-54 : ℤ) * 7) = 5254199565265578 * (2 : ℝ) ^ (-51 : ℤ) := by
    have := h.eq_of_close (m := 5254199565265578) (e := -51) (x := 6004799503160661 * (2 : ℝ) ^ (-54 : ℤ) * 7) (by norm_num)
      (by norm_num) (by norm_num) (by rw [z51, z54, abs_lt]; push_cast; constructor <;> norm_num)
    rw [this]; push_cast; rfl
  have r3 : rnd (3 * (5254199565265578 * (2 : ℝ) ^ (-51 : ℤ))) = 7881299347898367 * (2 : ℝ) ^ (-50 : ℤ) := by
    have := h.eq_of_close (m := 7881299347898367) (e := -50) (x := 3 * (5254199565265578 * (2 : ℝ) ^ (-51 : ℤ))) (by norm_num)
      (by norm_num) (by norm_num) (by rw [z51, z50, abs_lt]; push_cast; constructor <;> norm_num)
    rw [this]; push_cast; rfl
  have hl := maxDouble_large
  have hsm : ∀ x : ℝ, 0 ≤ x → x ≤ 10 → ¬ maxDouble < |x| := by
    intro x h0 h1
    rw [abs_of_nonneg h0]
    have : (10 : ℝ) ≤ 2 ^ 100 := by norm_num
    exact not_lt.mpr (h1.trans (this.trans hl))
  have e1 : invScale rnd maxDouble (.fin 3) = .fin (6004799503160661 * (2 : ℝ) ^ (-54 : ℤ)) := by
    simp only [invScale, div, ofReal, r1]
    rw [if_neg (by norm_num), if_neg (hsm _ (by rw [z54]; norm_num) (by rw [z54]; norm_num))]
  have e2 : (scaled rnd maxDouble (.fin 3) t).minDensity = .fin (5254199565265578 * (2 : ℝ) ^ (-51 : ℤ)) := by
    unfold scaled
    dsimp only
    rw [e1, ht]
    simp only [mul, ofReal, r2]
    rw [if_neg (hsm _ (by rw [z51]; norm_num) (by rw [z51]; norm_num))]
  have e3 : mul rnd maxDouble (.fin 3) (.fin (5254199565265578 * (2 : ℝ) ^ (-51 : ℤ))) = .fin (7 - 1 / 2 ^ 50) := by
    simp only [mul, ofReal, r3]
    rw [if_neg (hsm _ (by rw [z50]; norm_num) (by rw [z50]; norm_num)), z50]
    congr 1
    norm_num
  rw [e2]
  unfold scaled
  dsimp only
  rw [e3]

/-- The hypotheses are met: an ideal gas of `Cv = 2`, scaled by 3 and shifted by 5, for a double rounding. -/
example : ∃ rnd, ToNearest 53 (-1074) rnd ∧
    (∃ r x : Ext, Approx 1 (3 * 2) r ∧ Approx 2 (10 / 3) x ∧
      (scaled rnd maxDouble (.fin 3) (idealMEos rnd ⟨.fin (1 / 2), .fin 2⟩)).temperature (.fin 2) (.fin 10) =
        (idealMEos rnd ⟨.fin (1 / 2), .fin 2⟩).temperature r x) ∧
    (shifted rnd maxDouble (.fin ((5 : ℤ) * 2 ^ (0 : ℤ))) (idealMEos rnd ⟨.fin (1 / 2), .fin 2⟩)).temperature .nan
      ((shifted rnd maxDouble (.fin ((5 : ℤ) * 2 ^ (0 : ℤ))) (idealMEos rnd ⟨.fin (1 / 2), .fin 2⟩)).energy .nan (.fin 3)) =
        (idealMEos rnd ⟨.fin (1 / 2), .fin 2⟩).temperature .nan (.fin ((6 : ℤ) * 2 ^ (0 : ℤ))) := by
  obtain ⟨rnd, h⟩ := exists_toNearest (p := 53) (emin := -1074) (by norm_num)
  refine ⟨rnd, h, ?_, ?_⟩
  · obtain ⟨r, x, a1, a2, a3, -⟩ := C138_scaled_lookups h (idealMEos rnd ⟨.fin (1 / 2), .fin 2⟩) (s := 3) (rho := 2) (e := 10)
      (by norm_num) (by norm_num) (by norm_num) .nan (inRange_of (by norm_num) (by norm_num)) (inRange_of (by norm_num) (by norm_num))
      (inRange_of (by norm_num) (by norm_num))
    exact ⟨r, x, a1, a2, a3⟩
  · refine C138_shifted_exact h _ (by norm_num) (by norm_num) _ _ _ ?_
    change max0 (mul rnd maxDouble (.fin 2) (.fin 3)) = _
    have hf6 : IsFloat 53 (-1074) (2 * 3 : ℝ) := ⟨6, 0, by norm_num, by norm_num, by norm_num⟩
    have hl := maxDouble_large
    have h6 : ¬ maxDouble < |(2 * 3 : ℝ)| := by
      rw [abs_of_pos (by norm_num)]
      have : (2 * 3 : ℝ) ≤ 2 ^ 100 := by norm_num
      exact not_lt.mpr (this.trans hl)
    simp only [mul, ofReal, h.exact hf6, if_neg h6]
    rw [max0_of_nonNeg (by simp [NonNeg, le])]
    norm_num

end Verif
