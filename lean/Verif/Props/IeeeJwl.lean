import Verif.Model.IeeeJwl
import Verif.Props.IeeeSap
import Verif.Props.IeeeElectrons

set_option linter.unusedVariables false

/-! # C167: `JWL` in machine arithmetic -/

namespace Verif

open Ieee Rounding Classical

namespace Ieee

section
variable {rnd : ℝ → ℝ} {E : Ext → Ext} {g : Jwl} {rho : Ext} {C T e r : ℝ}

/-- The energy of a temperature. -/
theorem jwl_energy_near (h : Dbl rnd) (hC : g.Cv = .fin C) (hr : Jwl.refEnergy rnd maxDouble E g rho = .fin r)
    (hT : (2 : ℝ) ^ (-900 : ℤ) ≤ C * T) (hM : 2 * |r| + C * T ≤ 2 ^ (1000 : ℤ)) :
    Near 2 (|r| + C * T) (r + C * T) (Jwl.energy rnd maxDouble E g rho (.fin T)) := by
  have lo : (2 : ℝ) ^ (-1000 : ℤ) ≤ 2 ^ (-900 : ℤ) := zpow_le_zpow_right₀ (by norm_num) (by norm_num)
  have ha := abs_nonneg r
  have hp : (0 : ℝ) < 2 ^ (-900 : ℤ) := zpow_pos (by norm_num) _
  have hCT : 0 < C * T := lt_of_lt_of_le hp hT
  unfold Jwl.energy
  rw [hr, hC]
  have a : Near 1 (C * T) (C * T) (mul rnd maxDouble (.fin C) (.fin T)) := by
    show Near (0 + 1) _ _ (ofReal rnd maxDouble (C * T))
    refine near_round h (by norm_num) (lo.trans hT) (le_trans (by linarith only [ha]) hM) (by rw [abs_of_pos hCT]) (by simp)
  have b : Near 1 |r| r (.fin r) := (Near.exact le_rfl).mono (by norm_num)
  exact b.add h (by norm_num) a (le_trans (lo.trans hT) (by linarith only [ha])) (le_trans (by linarith only [ha]) hM)

/-- The thermal energy recovered from it. -/
theorem jwl_thermal_near (h : Dbl rnd) (hC : g.Cv = .fin C) (hr : Jwl.refEnergy rnd maxDouble E g rho = .fin r)
    (hT : (2 : ℝ) ^ (-900 : ℤ) ≤ C * T) (hM : 2 * |r| + C * T ≤ 2 ^ (1000 : ℤ)) :
    Near 3 (2 * |r| + C * T) (C * T)
      (sub rnd maxDouble (Jwl.energy rnd maxDouble E g rho (.fin T)) (Jwl.refEnergy rnd maxDouble E g rho)) := by
  have lo : (2 : ℝ) ^ (-1000 : ℤ) ≤ 2 ^ (-900 : ℤ) := zpow_le_zpow_right₀ (by norm_num) (by norm_num)
  have ha := abs_nonneg r
  have b : Near 2 |r| (-r) (.fin (-r)) := (Near.exact (by rw [abs_neg])).mono (by norm_num)
  have := (jwl_energy_near h hC hr hT hM).add h (by norm_num) b (le_trans (lo.trans hT) (by linarith only [ha]))
    (le_trans (by linarith only [ha]) hM)
  unfold sub
  rw [hr]
  simp only [neg]
  convert this using 1 <;> ring

/-- C167: whatever the exponentials are, temperature to energy and back returns the temperature up to `2^-48` of `T + 2 |e_r| / C_v`, with
`e_r` the reference energy at the density: the thermal energy is lost to rounding as it becomes small against the reference energy. -/
theorem C167_temperature_round_trip (h : ToNearest 53 (-1074) rnd) (hC : g.Cv = .fin C)
    (hr : Jwl.refEnergy rnd maxDouble E g rho = .fin r) (hfC : IsFloat 53 (-1074) C) (hC0 : 2 ^ 54 * small ≤ C) (hCm : C ≤ maxDouble)
    (hT : (2 : ℝ) ^ (-900 : ℤ) ≤ C * T) (hM : 2 * |r| + C * T ≤ 2 ^ (1000 : ℤ))
    (hq : (2 : ℝ) ^ (-1000 : ℤ) ≤ (2 * |r| + C * T) / C) (hq' : (2 * |r| + C * T) / C ≤ 2 ^ (1000 : ℤ)) :
    ∃ y, Jwl.temperature rnd maxDouble E g rho (Jwl.energy rnd maxDouble E g rho (.fin T)) = .fin y ∧
      |y - T| ≤ (2 * |r| + C * T) / C / 2 ^ 48 := by
  have hp : 0 < C := lt_of_lt_of_le (by have := small_pos; positivity) hC0
  have N := jwl_thermal_near h hC hr hT hM
  obtain ⟨h1, y, hy, h2⟩ := N
  unfold Jwl.temperature
  rw [hy, hC, C135_ratio_is_rounded_quotient h hfC (by rwa [abs_of_pos hp]) (by rwa [abs_of_pos hp])]
  have e : div rnd maxDouble (.fin y) (.fin C) = ofReal rnd maxDouble (y / C) := by simp [div, hp.ne']
  rw [e]
  refine (near_round h (k := 3) (x := T) (by norm_num) hq hq' ?_ ?_).close (by norm_num)
  · have : |T| = |C * T| / C := by rw [abs_mul, abs_of_pos hp]; field_simp
    rw [this]
    exact div_le_div_of_nonneg_right h1 hp.le
  · have : y / C - T = (y - C * T) / C := by field_simp
    rw [this, abs_div, abs_of_pos hp, ← mul_div_assoc]
    exact div_le_div_of_nonneg_right h2 hp.le

/-- C167: the pressure at density `d` and temperature `T` is the reference pressure plus `w d C_v T`, up to `2^-48` of the sum of
`|P_r|` and `w d (2 |e_r| + C_v T)`. -/
theorem C167_pressure (h : ToNearest 53 (-1074) rnd) {w d p : ℝ} (hC : g.Cv = .fin C) (hw : g.w = .fin w)
    (hr : Jwl.refEnergy rnd maxDouble E g (.fin d) = .fin r) (hP : Jwl.refPressure rnd maxDouble E g (.fin d) = .fin p)
    (hT : (2 : ℝ) ^ (-900 : ℤ) ≤ C * T) (hM : 2 * |r| + C * T ≤ 2 ^ (1000 : ℤ))
    (hw1 : (2 : ℝ) ^ (-900 : ℤ) ≤ w * d) (hw2 : w * d ≤ 2 ^ (1000 : ℤ)) (hS : (2 : ℝ) ^ (-900 : ℤ) ≤ w * d * (2 * |r| + C * T))
    (hS' : |p| + w * d * (2 * |r| + C * T) ≤ 2 ^ (1000 : ℤ)) :
    ∃ y, Jwl.pressureT rnd maxDouble E g (.fin d) (.fin T) = .fin y ∧
      |y - (p + w * d * (C * T))| ≤ (|p| + w * d * (2 * |r| + C * T)) / 2 ^ 48 := by
  have lo : (2 : ℝ) ^ (-1000 : ℤ) ≤ 2 ^ (-900 : ℤ) := zpow_le_zpow_right₀ (by norm_num) (by norm_num)
  have hp0 := abs_nonneg p
  have hz : (0 : ℝ) < 2 ^ (-900 : ℤ) := zpow_pos (by norm_num) _
  have hwd : 0 < w * d := lt_of_lt_of_le hz hw1
  have a : Near 1 (w * d) (w * d) (mul rnd maxDouble (.fin w) (.fin d)) := by
    show Near (0 + 1) _ _ (ofReal rnd maxDouble (w * d))
    exact near_round h (by norm_num) (lo.trans hw1) hw2 (by rw [abs_of_pos hwd]) (by simp)
  have b := a.mul h (by norm_num) (jwl_thermal_near h hC hr hT hM) (lo.trans hS) (le_trans (by linarith only [hp0]) hS')
  have c : Near 5 |p| p (.fin p) := (Near.exact le_rfl).mono (by norm_num)
  unfold Jwl.pressureT Jwl.pressureE
  rw [hP, hw]
  exact (c.add h (by norm_num) b (le_trans (lo.trans hS) (by linarith only [hp0])) hS').close (by norm_num)

/-- C167: the pressure for which `DensityEnergyFromPressureTemperature` searches a density is the same sum, up to `2^-48` of its terms (here
the reference energy does not enter). -/
theorem C167_searched_pressure (h : ToNearest 53 (-1074) rnd) {w d p : ℝ} (hC : g.Cv = .fin C) (hw : g.w = .fin w)
    (hP : Jwl.refPressure rnd maxDouble E g (.fin d) = .fin p) (hT : (2 : ℝ) ^ (-900 : ℤ) ≤ C * T) (hT' : C * T ≤ 2 ^ (1000 : ℤ))
    (h1 : (2 : ℝ) ^ (-900 : ℤ) ≤ C * T * d) (h1' : C * T * d ≤ 2 ^ (1000 : ℤ)) (h2 : (2 : ℝ) ^ (-900 : ℤ) ≤ C * T * d * w)
    (hS' : C * T * d * w + |p| ≤ 2 ^ (1000 : ℤ)) (hd : 0 < d) (hw0 : 0 < w) :
    ∃ y, Jwl.searched rnd maxDouble E g (.fin T) (.fin d) = .fin y ∧ |y - (p + w * d * (C * T))| ≤ (|p| + w * d * (C * T)) / 2 ^ 48 := by
  have lo : (2 : ℝ) ^ (-1000 : ℤ) ≤ 2 ^ (-900 : ℤ) := zpow_le_zpow_right₀ (by norm_num) (by norm_num)
  have hp0 := abs_nonneg p
  have hz : (0 : ℝ) < 2 ^ (-900 : ℤ) := zpow_pos (by norm_num) _
  have hCT : 0 < C * T := lt_of_lt_of_le hz hT
  have a : Near 1 (C * T) (C * T) (mul rnd maxDouble (.fin C) (.fin T)) := by
    show Near (0 + 1) _ _ (ofReal rnd maxDouble (C * T))
    exact near_round h (by norm_num) (lo.trans hT) hT' (by rw [abs_of_pos hCT]) (by simp)
  have b := a.mul h (by norm_num) (Near.exact (x := d) (by rw [abs_of_pos hd])) (lo.trans h1) h1'
  have b' := b.mul h (by norm_num) (Near.exact (x := w) (by rw [abs_of_pos hw0])) (lo.trans h2) (le_trans (by linarith only [hp0]) hS')
  have c : Near 3 |p| p (.fin p) := (Near.exact le_rfl).mono (by norm_num)
  have := (b'.add h (by norm_num) c (le_trans (lo.trans h2) (by linarith only [hp0])) hS').close (by norm_num)
  unfold Jwl.searched
  rw [hP, hw, hC]
  have e1 : C * T * d * w + p = p + w * d * (C * T) := by ring
  have e2 : C * T * d * w + |p| = |p| + w * d * (C * T) := by ring
  rwa [e1, e2] at this

/-- C167: an ordinary number is returned only for ordinary arguments, whatever the exponentials are: a NaN or infinite temperature shows in
the energy, a NaN or infinite energy in the temperature, either of energy and density in the pressure. -/
theorem C167_nothing_masked (rnd : ℝ → ℝ) (Ω : ℝ) (E : Ext → Ext) (g : Jwl) (rho x : Ext) :
    (IsFin (Jwl.energy rnd Ω E g rho x) → IsFin x) ∧ (IsFin (Jwl.temperature rnd Ω E g rho x) → IsFin x) ∧
    (IsFin (Jwl.pressureE rnd Ω E g rho x) → IsFin x ∧ IsFin rho) ∧ (IsFin (Jwl.pressureT rnd Ω E g rho x) → IsFin x ∧ IsFin rho) ∧
    (IsFin (Jwl.searched rnd Ω E g x rho) → IsFin x ∧ IsFin rho) := by
  have en {y : Ext} (h : IsFin (Jwl.energy rnd Ω E g rho y)) : IsFin y := h.of_add.2.of_mul.2
  have pr {y : Ext} (h : IsFin (Jwl.pressureE rnd Ω E g rho y)) : IsFin y ∧ IsFin rho :=
    ⟨h.of_add.2.of_mul.2.of_sub.1, h.of_add.2.of_mul.1.of_mul.2⟩
  exact ⟨en, fun h => (isFin_of_div h).1.of_sub.1, pr, fun h => ⟨en (pr h).1, (pr h).2⟩,
    fun h => ⟨h.of_add.1.of_mul.1.of_mul.1.of_mul.2, h.of_add.1.of_mul.1.of_mul.2⟩⟩

/-- C167 fails: when the reference energy is a float of at least `2^54` times the rounded `C_v T`, the energy of the temperature is the reference
energy itself, so that temperature comes back as 0. -/
theorem C167_temperature_lost_violated (h : ToNearest 53 (-1074) rnd) (hC : g.Cv = .fin C)
    (hr : Jwl.refEnergy rnd maxDouble E g rho = .fin r) (hfr : IsFloat 53 (-1074) r) (hr0 : 0 < r) (hrm : r ≤ maxDouble)
    (hfC : IsFloat 53 (-1074) C) (hC0 : 2 ^ 54 * small ≤ C) (hCm : C ≤ maxDouble) (hT : 0 ≤ C * T) (hs : 2 ^ 54 * rnd (C * T) ≤ r) :
    Jwl.energy rnd maxDouble E g rho (.fin T) = .fin r ∧
    Jwl.temperature rnd maxDouble E g rho (Jwl.energy rnd maxDouble E g rho (.fin T)) = .fin 0 := by
  have hp : 0 < C := lt_of_lt_of_le (by have := small_pos; positivity) hC0
  have d0 := rnd_nonneg h hT
  have e : Jwl.energy rnd maxDouble E g rho (.fin T) = .fin r := by
    unfold Jwl.energy
    rw [hr, hC]
    have m : mul rnd maxDouble (.fin C) (.fin T) = .fin (rnd (C * T)) := by
      show ofReal rnd maxDouble (C * T) = _
      apply ofReal_fin
      rw [abs_of_nonneg d0]
      linarith only [d0, hs, hrm]
    rw [m]
    show ofReal rnd maxDouble (r + rnd (C * T)) = _
    have z := rnd_absorb_pos h hfr d0 hs hr0
    rw [ofReal_fin, z]
    rw [z, abs_of_pos hr0]
    exact hrm
  refine ⟨e, ?_⟩
  rw [e]
  unfold Jwl.temperature sub
  have z := ofReal_zero h
  have s0 : add rnd maxDouble (.fin r) (neg (.fin r)) = .fin 0 := by simp [neg, add, z]
  rw [hr, hC, s0, C135_ratio_is_rounded_quotient h hfC (by rwa [abs_of_pos hp]) (by rwa [abs_of_pos hp])]
  simp [z, div, hp.ne']

theorem jwl_arg (h : Dbl rnd) {R x : ℝ} {v : Ext} (hR : 0 < R) (hv : Near 1 x x v) (h1 : (2 : ℝ) ^ (-1000 : ℤ) ≤ R * x)
    (h2 : R * x ≤ 2 ^ (1000 : ℤ)) : ∃ t, mul rnd maxDouble (neg (.fin R)) v = .fin t ∧ |t - -(R * x)| ≤ R * x / 2 ^ 48 := by
  have a : Near 0 R (-R) (.fin (-R)) := Near.exact (by rw [abs_neg, abs_of_pos hR])
  have := (a.mul h (by norm_num) hv h1 h2).close (by norm_num)
  simp only [neg]
  rwa [neg_mul] at this

theorem jwl_two (h : Dbl rnd) {A B y1 y2 : ℝ} (hS : mag A * mag y1 + mag B * mag y2 ≤ 2 ^ (1000 : ℤ)) :
    ∃ y, add rnd maxDouble (mul rnd maxDouble (.fin A) (.fin y1)) (mul rnd maxDouble (.fin B) (.fin y2)) = .fin y ∧
      |y - (A * y1 + B * y2)| ≤ (mag A * mag y1 + mag B * mag y2) / 2 ^ 48 := by
  have n (c : ℝ) : Near 0 (mag c) c (.fin c) := Near.exact (abs_le_mag c)
  have p (a b : ℝ) : 0 ≤ mag a * mag b := mul_nonneg (mag_pos a).le (mag_pos b).le
  have l (a b : ℝ) := lo_mul (mag_ge a) (mag_ge b)
  have a := (n A).mul h (by norm_num) (n y1) (l _ _) (le_trans (by linarith only [p B y2]) hS)
  have b := (n B).mul h (by norm_num) (n y2) (l _ _) (le_trans (by linarith only [p A y1]) hS)
  exact (a.add h (by norm_num) b (le_trans (l A y1) (by linarith only [p B y2])) hS).close (by norm_num)

/-- C167: at density `d` both reference functions evaluate the exponential at two arguments equal to `-R1 rho0/d` and `-R2 rho0/d` up to `2^-48`
of themselves; if its results there are the ordinary numbers `y1` and `y2`, the reference pressure is `A y1 + B y2` and the reference energy
`c1 y1 + c2 y2`, up to `2^-48` of the sum of the magnitudes of their terms. -/
theorem C167_reference (h : ToNearest 53 (-1074) rnd) {A B R1 R2 d0 c1 c2 d : ℝ} (hA : g.A = .fin A) (hB : g.B = .fin B)
    (hR1 : g.R1 = .fin R1) (hR2 : g.R2 = .fin R2) (h0 : g.rho0 = .fin d0) (hc1 : g.c1 = .fin c1) (hc2 : g.c2 = .fin c2)
    (p1 : 0 < R1) (p2 : 0 < R2) (p0 : 0 < d0) (hfd : IsFloat 53 (-1074) d) (hd : 2 ^ 54 * small ≤ d) (hdm : d ≤ maxDouble)
    (hx : (2 : ℝ) ^ (-1000 : ℤ) ≤ d0 / d) (hx' : d0 / d ≤ 2 ^ (1000 : ℤ))
    (h1 : (2 : ℝ) ^ (-1000 : ℤ) ≤ R1 * (d0 / d)) (h1' : R1 * (d0 / d) ≤ 2 ^ (1000 : ℤ))
    (h2 : (2 : ℝ) ^ (-1000 : ℤ) ≤ R2 * (d0 / d)) (h2' : R2 * (d0 / d) ≤ 2 ^ (1000 : ℤ)) :
    ∃ t1 t2, |t1 - -(R1 * (d0 / d))| ≤ R1 * (d0 / d) / 2 ^ 48 ∧ |t2 - -(R2 * (d0 / d))| ≤ R2 * (d0 / d) / 2 ^ 48 ∧
      ∀ y1 y2, E (.fin t1) = .fin y1 → E (.fin t2) = .fin y2 →
        (mag A * mag y1 + mag B * mag y2 ≤ 2 ^ (1000 : ℤ) → ∃ y, Jwl.refPressure rnd maxDouble E g (.fin d) = .fin y ∧
          |y - (A * y1 + B * y2)| ≤ (mag A * mag y1 + mag B * mag y2) / 2 ^ 48) ∧
        (mag c1 * mag y1 + mag c2 * mag y2 ≤ 2 ^ (1000 : ℤ) → ∃ y, Jwl.refEnergy rnd maxDouble E g (.fin d) = .fin y ∧
          |y - (c1 * y1 + c2 * y2)| ≤ (mag c1 * mag y1 + mag c2 * mag y2) / 2 ^ 48) := by
  have hp : 0 < d := lt_of_lt_of_le (by have := small_pos; positivity) hd
  have q0 : 0 < d0 / d := div_pos p0 hp
  have q : Near 1 (d0 / d) (d0 / d) (ratio rnd maxDouble (.fin d0) (.fin d)) := by
    rw [C135_ratio_is_rounded_quotient h hfd (by rwa [abs_of_pos hp]) (by rwa [abs_of_pos hp])]
    rw [show div rnd maxDouble (.fin d0) (.fin d) = ofReal rnd maxDouble (d0 / d) by simp [div, hp.ne']]
    exact near_round h (k := 0) (by norm_num) hx hx' (by rw [abs_of_pos q0]) (by simp)
  obtain ⟨t1, e1, b1⟩ := jwl_arg h p1 q h1 h1'
  obtain ⟨t2, e2, b2⟩ := jwl_arg h p2 q h2 h2'
  refine ⟨t1, t2, b1, b2, fun y1 y2 z1 z2 => ⟨fun hS => ?_, fun hS => ?_⟩⟩
  · unfold Jwl.refPressure
    simp only [hA, hB, hR1, hR2, h0, e1, e2, z1, z2]
    exact jwl_two h hS
  · unfold Jwl.refEnergy
    simp only [hc1, hc2, hR1, hR2, h0, e1, e2, z1, z2]
    exact jwl_two h hS

end

/-- A JWL gas with heat capacity 7 and `w = 1/2` whose exponentials are 1: reference energy 5, reference pressure 3. -/
noncomputable def jwlExample : Jwl :=
  { A := .fin 3
    B := .fin 0
    R1 := .fin 4
    R2 := .fin 1
    w := .fin (1 / 2)
    rho0 := .fin 2
    Cv := .fin 7
    c1 := .fin 5
    c2 := .fin 0 }

theorem jwlExample_ref {rnd : ℝ → ℝ} (h : ToNearest 53 (-1074) rnd) (rho : Ext) :
    Jwl.refEnergy rnd maxDouble (fun _ => .fin 1) jwlExample rho = .fin 5 ∧
    Jwl.refPressure rnd maxDouble (fun _ => .fin 1) jwlExample rho = .fin 3 := by
  have f {k : ℤ} (hk : |k| < 2 ^ 53) (hm : |(k : ℝ)| ≤ maxDouble) : ofReal rnd maxDouble k = .fin k := by
    have e : rnd (k : ℝ) = k := h.exact ⟨k, 0, hk, by norm_num, by simp⟩
    rw [ofReal_fin, e]
    rwa [e]
  have hM := maxDouble_large
  have b : (5 : ℝ) ≤ maxDouble := le_trans (by norm_num) hM
  have f5 := f (k := 5) (by norm_num) (by norm_num; exact b)
  have f3 := f (k := 3) (by norm_num) (by norm_num; linarith)
  have f0 := f (k := 0) (by norm_num) (by norm_num; linarith)
  push_cast at f5 f3 f0
  constructor
  · simp [Jwl.refEnergy, jwlExample, mul, add, f5, f0]
  · simp [Jwl.refPressure, jwlExample, mul, add, f3, f0]

/-- The hypotheses of the three accuracy theorems are met, at density 2 and temperature 300. -/
example : ∃ rnd, ToNearest 53 (-1074) rnd ∧
    (∃ y, Jwl.temperature rnd maxDouble (fun _ => .fin 1) jwlExample (.fin 2)
      (Jwl.energy rnd maxDouble (fun _ => .fin 1) jwlExample (.fin 2) (.fin 300)) = .fin y ∧
      |y - 300| ≤ (2 * |5| + 7 * 300) / 7 / 2 ^ 48) ∧
    (∃ y, Jwl.pressureT rnd maxDouble (fun _ => .fin 1) jwlExample (.fin 2) (.fin 300) = .fin y ∧
      |y - (3 + 1 / 2 * 2 * (7 * 300))| ≤ (|3| + 1 / 2 * 2 * (2 * |5| + 7 * 300)) / 2 ^ 48) ∧
    (∃ y, Jwl.searched rnd maxDouble (fun _ => .fin 1) jwlExample (.fin 300) (.fin 2) = .fin y ∧
      |y - (3 + 1 / 2 * 2 * (7 * 300))| ≤ (|3| + 1 / 2 * 2 * (7 * 300)) / 2 ^ 48) := by
  obtain ⟨rnd, h⟩ := exists_toNearest (p := 53) (emin := -1074) (by norm_num)
  have lo1 {x : ℝ} (hx : 1 ≤ x) : (2 : ℝ) ^ (-900 : ℤ) ≤ x := (zpow_le_one_of_nonpos₀ (by norm_num) (by norm_num)).trans hx
  have lo2 {x : ℝ} (hx : 1 ≤ x) : (2 : ℝ) ^ (-1000 : ℤ) ≤ x := (zpow_le_one_of_nonpos₀ (by norm_num) (by norm_num)).trans hx
  have hi {x : ℝ} (hx : x ≤ 2 ^ 30) : x ≤ (2 : ℝ) ^ (1000 : ℤ) := (big_le hx).2
  obtain ⟨hr, hP⟩ := jwlExample_ref h (.fin 2)
  have a5 : |(5 : ℝ)| = 5 := by norm_num
  have a3 : |(3 : ℝ)| = 3 := by norm_num
  refine ⟨rnd, h, ?_, ?_, ?_⟩
  · refine C167_temperature_round_trip h rfl hr ⟨7, 0, by norm_num, by norm_num, by norm_num⟩ ?_ (le_trans (by norm_num) maxDouble_large)
      (lo1 (by norm_num)) (hi (by rw [a5]; norm_num)) (lo2 (by rw [a5]; norm_num)) (hi (by rw [a5]; norm_num))
    have : (2 : ℝ) ^ (-1022 : ℤ) ≤ 1 / 2 ^ 100 := by
      refine le_trans (zpow_le_zpow_right₀ (by norm_num) (by norm_num) : (2 : ℝ) ^ (-1022 : ℤ) ≤ 2 ^ (-100 : ℤ)) (le_of_eq ?_)
      rw [zpow_neg, one_div]
      norm_cast
    unfold small
    generalize (2 : ℝ) ^ (-1022 : ℤ) = t at this
    refine le_trans (by linarith : (2 : ℝ) ^ 54 * (10 * t) ≤ 2 ^ 54 * (10 * (1 / 2 ^ 100))) (by norm_num)
  · exact C167_pressure h rfl rfl hr hP (lo1 (by norm_num)) (hi (by rw [a5]; norm_num)) (lo1 (by norm_num)) (hi (by norm_num))
      (lo1 (by rw [a5]; norm_num)) (hi (by rw [a5, a3]; norm_num))
  · exact C167_searched_pressure h rfl rfl hP (lo1 (by norm_num)) (hi (by norm_num)) (lo1 (by norm_num)) (hi (by norm_num))
      (lo1 (by norm_num)) (hi (by rw [a3]; norm_num)) (by norm_num) (by norm_num)

/-- The hypotheses of the loss are met: the same gas at a temperature of `2^-60`. -/
example : ∃ rnd, ToNearest 53 (-1074) rnd ∧
    Jwl.temperature rnd maxDouble (fun _ => .fin 1) jwlExample (.fin 2)
      (Jwl.energy rnd maxDouble (fun _ => .fin 1) jwlExample (.fin 2) (.fin (1 / 2 ^ 60))) = .fin 0 := by
  obtain ⟨rnd, h⟩ := exists_toNearest (p := 53) (emin := -1074) (by norm_num)
  obtain ⟨hr, -⟩ := jwlExample_ref h (.fin 2)
  refine ⟨rnd, h, (C167_temperature_lost_violated (C := 7) (T := 1 / 2 ^ 60) h rfl hr ⟨5, 0, by norm_num, by norm_num, by norm_num⟩
    (by norm_num) (le_trans (by norm_num) maxDouble_large) ⟨7, 0, by norm_num, by norm_num, by norm_num⟩ ?_
    (le_trans (by norm_num) maxDouble_large) (by positivity) ?_).2⟩
  · have : (2 : ℝ) ^ (-1022 : ℤ) ≤ 1 / 2 ^ 100 := by
      refine le_trans (zpow_le_zpow_right₀ (by norm_num) (by norm_num) : (2 : ℝ) ^ (-1022 : ℤ) ≤ 2 ^ (-100 : ℤ)) (le_of_eq ?_)
      rw [zpow_neg, one_div]
      norm_cast
    unfold small
    generalize (2 : ℝ) ^ (-1022 : ℤ) = t at this
    refine le_trans (by linarith : (2 : ℝ) ^ 54 * (10 * t) ≤ 2 ^ 54 * (10 * (1 / 2 ^ 100))) (by norm_num)
  · have e : rnd (7 * (1 / 2 ^ 60)) = 7 * (1 / 2 ^ 60) :=
      h.exact ⟨7, -60, by norm_num, by norm_num, by rw [zpow_neg]; norm_num⟩
    rw [e]
    norm_num

/-- The hypotheses of the reference theorem are met by the same gas at density 1. -/
example : ∃ rnd, ToNearest 53 (-1074) rnd ∧ ∃ t1 : ℝ, |t1 - -(4 * (2 / 1))| ≤ 4 * (2 / 1) / 2 ^ 48 ∧
    ∃ y, Jwl.refPressure rnd maxDouble (fun _ => .fin 1) jwlExample (.fin 1) = .fin y ∧
      |y - (3 * 1 + 0 * 1)| ≤ (mag 3 * mag 1 + mag 0 * mag 1) / 2 ^ 48 := by
  obtain ⟨rnd, h⟩ := exists_toNearest (p := 53) (emin := -1074) (by norm_num)
  have lo {x : ℝ} (hx : 1 ≤ x) : (2 : ℝ) ^ (-1000 : ℤ) ≤ x := (zpow_le_one_of_nonpos₀ (by norm_num) (by norm_num)).trans hx
  have hi {x : ℝ} (hx : x ≤ 2 ^ 30) : x ≤ (2 : ℝ) ^ (1000 : ℤ) := (big_le hx).2
  have hs : 2 ^ 54 * small ≤ (1 : ℝ) := by
    have : (2 : ℝ) ^ (-1022 : ℤ) ≤ 1 / 2 ^ 100 := by
      refine le_trans (zpow_le_zpow_right₀ (by norm_num) (by norm_num) : (2 : ℝ) ^ (-1022 : ℤ) ≤ 2 ^ (-100 : ℤ)) (le_of_eq ?_)
      rw [zpow_neg, one_div]
      norm_cast
    unfold small
    generalize (2 : ℝ) ^ (-1022 : ℤ) = t at this
    refine le_trans (by linarith : (2 : ℝ) ^ 54 * (10 * t) ≤ 2 ^ 54 * (10 * (1 / 2 ^ 100))) (by norm_num)
  obtain ⟨t1, t2, b1, -, H⟩ := C167_reference (E := fun _ => .fin 1) (g := jwlExample) h rfl rfl rfl rfl rfl rfl rfl
    (by norm_num) (by norm_num) (by norm_num) (d := 1) ⟨1, 0, by norm_num, by norm_num, by norm_num⟩ hs
    (le_trans (by norm_num) maxDouble_large) (lo (by norm_num)) (hi (by norm_num)) (lo (by norm_num)) (hi (by norm_num))
    (lo (by norm_num)) (hi (by norm_num))
  refine ⟨rnd, h, t1, b1, (H 1 1 rfl rfl).1 (hi ?_)⟩
  have m (c : ℝ) (hc : |c| ≤ 3) : mag c ≤ 4 := (mag_le c).trans (by linarith only [hc])
  have a := mul_le_mul (m 3 (by norm_num)) (m 1 (by norm_num)) (mag_pos 1).le (by norm_num)
  have b := mul_le_mul (m 0 (by norm_num)) (m 1 (by norm_num)) (mag_pos 1).le (by norm_num)
  exact (add_le_add a b).trans (by norm_num)

end Ieee

end Verif
