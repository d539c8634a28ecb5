import Verif.Props.IeeeCarnahan

set_option linter.unusedVariables false

/-! # C163: the Carnahan-Starling gas in double precision -/

namespace Verif

open Ieee Rounding

namespace Ieee

variable {rnd : ℝ → ℝ}

/-- `x` is in the range of double precision with a factor two to spare at both ends. -/
def Roomy (x : ℝ) : Prop := InRange (x / 2) ∧ InRange (2 * x)

theorem Roomy.pos {x : ℝ} (h : Roomy x) : 0 < x := by
  have := h.1.pos
  linarith

theorem Roomy.inRange {x y ε : ℝ} (h : Roomy x) (hd : |y - x| ≤ ε * x) (he : ε ≤ 1 / 4) : InRange y ∧ 0 < y := by
  have h0 := h.pos
  obtain ⟨h1, h2⟩ := abs_le.mp hd
  have : ε * x ≤ 1 / 4 * x := mul_le_mul_of_nonneg_right he h0.le
  exact ⟨inRange_half h.1 h.2 (by linarith) (by linarith), by linarith⟩

theorem rel_mul {x y c ε : ℝ} (hc : 0 < c) (hd : |y - x| ≤ ε * x) : |y * c - x * c| ≤ ε * (x * c) := by
  rw [← sub_mul, abs_mul, abs_of_pos hc, ← mul_assoc]
  exact mul_le_mul_of_nonneg_right hd hc.le

theorem mul_mono_right (h : Dbl rnd) {x x' : Ext} {y : ℝ} (hy : 0 < y) (hx : le x x') :
    le (mul rnd maxDouble x (.fin y)) (mul rnd maxDouble x' (.fin y)) := by
  rw [mul_comm_ext x, mul_comm_ext x']
  exact mul_mono_fin h hy hx

end Ieee

open Ieee.Carnahan

namespace Ieee.Carnahan

variable {rnd : ℝ → ℝ}

/-- The computed compressibility, the computed bracket of its derivative and their distance from the true ones. -/
theorem zed_close (h : Dbl rnd) {bb rho : ℝ} (gm1 Cv qq : Ext) (hb : 0 < bb) (hr : 0 < rho) (he : InRange (bb * rho))
    (hF : 1 / 2 ^ 40 ≤ 1 - bb * rho) :
    ∃ Zf Yf : ℝ, 1 ≤ Zf ∧ 1 ≤ Yf ∧
      |Zf - (1 + bb * rho * (4 - 2 * (bb * rho)) / (1 - bb * rho) ^ 3)|
        ≤ 8 * u / (1 - bb * rho) * (1 + bb * rho * (4 - 2 * (bb * rho)) / (1 - bb * rho) ^ 3) ∧
      |Yf - (1 + bb * rho * (8 - 2 * (bb * rho)) / (1 - bb * rho) ^ 4)|
        ≤ 10 * u / (1 - bb * rho) * (1 + bb * rho * (8 - 2 * (bb * rho)) / (1 - bb * rho) ^ 4) ∧
      Approx 10 Zf (zed rnd maxDouble ⟨gm1, Cv, .fin bb, qq⟩ (.fin rho)) ∧
      Approx 11 Yf (dzed rnd maxDouble ⟨gm1, Cv, .fin bb, qq⟩ (.fin rho)) := by
  obtain ⟨f, Zf, Yf, h1, h2, h3, h4, h5⟩ := zed_core h gm1 Cv qq hb hr he hF
  have hu := Ieee.u_pos
  set e := bb * rho with hee
  have e0 : 0 < e := mul_pos hb hr
  set F := 1 - e with hFe
  have F0 : 0 < F := lt_of_lt_of_le (by norm_num) hF
  have dlt : 2 * u / F ≤ 1 / 1000 := by
    rw [div_le_iff₀ F0]
    have : (1 : ℝ) / 1000 * (1 / 2 ^ 40) ≤ 1 / 1000 * F := by linarith
    refine le_trans ?_ this
    unfold u; norm_num
  obtain ⟨f0, p3, p4⟩ := pow_close F0 (by positivity) dlt h1
  set t := F / f with ht
  have t0 : 0 < t := div_pos F0 f0
  have a3 : 0 < e * (4 - 2 * e) / F ^ 3 := div_pos (mul_pos e0 (by linarith)) (by positivity)
  have a4 : 0 < e * (8 - 2 * e) / F ^ 4 := div_pos (mul_pos e0 (by linarith)) (by positivity)
  generalize e * (4 - 2 * e) / F ^ 3 = A at *
  generalize e * (8 - 2 * e) / F ^ 4 = B at *
  have e8 : 8 * u / F = 4 * (2 * u / F) := by ring
  have e10 : 10 * u / F = 5 * (2 * u / F) := by ring
  have d0 : 0 ≤ 2 * u / F := by positivity
  refine ⟨Zf, Yf, ?_, ?_, ?_, ?_, h4, h5⟩
  · rw [h2]
    have := mul_pos a3 (pow_pos t0 3)
    linarith
  · rw [h3]
    have := mul_pos a4 (pow_pos t0 4)
    linarith
  · rw [h2, e8, show 1 + A * t ^ 3 - (1 + A) = A * (t ^ 3 - 1) by ring, abs_mul, abs_of_pos a3]
    have := mul_le_mul_of_nonneg_left p3 a3.le
    nlinarith
  · rw [h3, e10, show 1 + B * t ^ 4 - (1 + B) = B * (t ^ 4 - 1) by ring, abs_mul, abs_of_pos a4]
    have := mul_le_mul_of_nonneg_left p4 a4.le
    nlinarith

theorem small_u {F : ℝ} (hF : 1 / 2 ^ 40 ≤ F) (hF1 : F ≤ 1) : u ≤ u / F ∧ u / F ≤ 1 / 2 ^ 13 := by
  have hu := Ieee.u_pos
  have F0 : 0 < F := lt_of_lt_of_le (by norm_num) hF
  constructor
  · rw [le_div_iff₀ F0]
    nlinarith
  · rw [div_le_iff₀ F0]
    have : (1 : ℝ) / 2 ^ 13 * (1 / 2 ^ 40) ≤ 1 / 2 ^ 13 * F := by linarith
    refine le_trans (le_of_eq ?_) this
    unfold u; norm_num

/-- The computed bracket of the bulk modulus is within 23 roundings of a number close to the true one. -/
theorem stiff_close (h : Dbl rnd) {bb rho gm1 : ℝ} (Cv qq : Ext) (hg : 0 < gm1) (hb : 0 < bb) (hr : 0 < rho) (he : InRange (bb * rho))
    (hF : 1 / 2 ^ 40 ≤ 1 - bb * rho) :
    let g : Carnahan := ⟨.fin gm1, Cv, .fin bb, qq⟩
    let F := 1 - bb * rho
    let Z := 1 + bb * rho * (4 - 2 * (bb * rho)) / F ^ 3
    let Y := 1 + bb * rho * (8 - 2 * (bb * rho)) / F ^ 4
    Roomy (Z * Z) → Roomy (Z * Z * gm1) → Roomy (Y + Z * Z * gm1) →
    ∃ Sf, |Sf - (Y + Z * Z * gm1)| ≤ 17 * (u / F) * (Y + Z * Z * gm1) ∧ 0 < Sf ∧ Approx 23 Sf (stiffness rnd maxDouble g (.fin rho)) := by
  intro g F Z Y r1 r2 r3
  have hu := Ieee.u_pos
  obtain ⟨Zf, Yf, z1, y1, hz, hy, az, ay⟩ := zed_close h (.fin gm1) Cv qq hb hr he hF
  have e0 : 0 < bb * rho := mul_pos hb hr
  obtain ⟨uF, uF'⟩ := small_u hF (by linarith)
  have hz' : |Zf - Z| ≤ 8 * (u / F) * Z := hz.trans (le_of_eq (by ring))
  have hy' : |Yf - Y| ≤ 10 * (u / F) * Y := hy.trans (le_of_eq (by ring))
  clear hz hy
  change u ≤ u / F at uF
  change u / F ≤ _ at uF'
  set δ := u / F with hδ
  have F0 : 0 < F := lt_of_lt_of_le (by norm_num) hF
  have Z1 : 1 ≤ Z := by
    have : 0 < bb * rho * (4 - 2 * (bb * rho)) / F ^ 3 := div_pos (mul_pos e0 (by
      have : bb * rho < 1 := by have := hF; norm_num at this ⊢; linarith
      linarith)) (by positivity)
    show 1 ≤ 1 + _
    linarith
  have Y1 : 1 ≤ Y := by
    have : 0 < bb * rho * (8 - 2 * (bb * rho)) / F ^ 4 := div_pos (mul_pos e0 (by
      have : bb * rho < 1 := by have := hF; norm_num at this ⊢; linarith
      linarith)) (by positivity)
    show 1 ≤ 1 + _
    linarith
  have az' : Approx 10 Zf (zed rnd maxDouble g (.fin rho)) := az
  have ay' : Approx 11 Yf (dzed rnd maxDouble g (.fin rho)) := ay
  clear_value Z Y δ
  have uF8 : δ ≤ 1 / 8192 := uF'.trans (by norm_num)
  have d0 : 0 ≤ δ := hu.le.trans uF
  have q : |Zf * Zf - Z * Z| ≤ 17 * δ * (Z * Z) := by
    have e : Zf * Zf - Z * Z = (Zf - Z) * (Zf + Z) := by ring
    have b1 : Zf + Z ≤ (2 + 8 * δ) * Z := by linarith [(abs_le.mp hz').2]
    rw [e, abs_mul, abs_of_pos (show 0 < Zf + Z by linarith)]
    calc |Zf - Z| * (Zf + Z) ≤ (8 * δ * Z) * ((2 + 8 * δ) * Z) := mul_le_mul hz' b1 (by linarith) (by positivity)
      _ = (16 + 64 * δ) * δ * (Z * Z) := by ring
      _ ≤ 17 * δ * (Z * Z) := by
        refine mul_le_mul_of_nonneg_right (mul_le_mul_of_nonneg_right (by linarith) d0) (by positivity)
  have q2 := rel_mul hg q
  have q3 : |Yf + Zf * Zf * gm1 - (Y + Z * Z * gm1)| ≤ 17 * δ * (Y + Z * Z * gm1) := by
    have t := abs_add_le (Yf - Y) (Zf * Zf * gm1 - Z * Z * gm1)
    have e : Yf - Y + (Zf * Zf * gm1 - Z * Z * gm1) = Yf + Zf * Zf * gm1 - (Y + Z * Z * gm1) := by ring
    rw [e] at t
    have : 10 * δ * Y ≤ 17 * δ * Y := mul_le_mul_of_nonneg_right (by linarith) (by linarith)
    linarith
  have c4 : 17 * δ ≤ 1 / 4 := by linarith
  obtain ⟨i1, p1⟩ := r1.inRange q c4
  obtain ⟨i2, p2⟩ := r2.inRange q2 c4
  obtain ⟨i3, p3⟩ := r3.inRange q3 c4
  have A1 := az'.mul h (by linarith) (by linarith) az' i1 (by norm_num)
  have A2 := A1.mul h p1 hg (Approx.exact hg) i2 (by norm_num)
  have A3 := ay'.add h (by linarith) p2 A2 i3 (by norm_num)
  exact ⟨_, q3, p3, A3⟩

end Ieee.Carnahan

/-- C163: the floors hold for every argument, NaN and infinities included: temperature, pressure and bulk modulus are at least `SMALL`,
the energy at least `q`. -/
theorem C163_floors (rnd : ℝ → ℝ) (Ω : ℝ) (g : Carnahan) (hq : g.qq ≠ .nan) (x y : Ext) :
    (∀ r ∈ [temperature rnd Ω g x y, pressureT rnd Ω g x y, pressureE rnd Ω g x y, bulkModulusT rnd Ω g x y,
      bulkModulusE rnd Ω g x y], le (.fin small) r) ∧ le g.qq (energy rnd Ω g x y) := by
  refine ⟨?_, le_stdMax hq _⟩
  intro r hr
  simp only [List.mem_cons, List.not_mem_nil, or_false] at hr
  rcases hr with rfl | rfl | rfl | rfl | rfl <;> exact le_stdMax (by simp) _

/-- C163 (violated): a NaN energy has the temperature, pressure and bulk modulus `SMALL`, a NaN temperature the energy `q`, and a NaN
density the pressure and bulk modulus `SMALL`. -/
theorem C163_nan_violated (rnd : ℝ → ℝ) (Ω : ℝ) (g : Carnahan) (x : Ext) :
    temperature rnd Ω g x .nan = .fin small ∧ pressureE rnd Ω g x .nan = .fin small ∧ pressureT rnd Ω g x .nan = .fin small ∧
    bulkModulusE rnd Ω g x .nan = .fin small ∧ bulkModulusT rnd Ω g x .nan = .fin small ∧ energy rnd Ω g x .nan = g.qq ∧
    pressureE rnd Ω g .nan x = .fin small ∧ pressureT rnd Ω g .nan x = .fin small ∧
    bulkModulusE rnd Ω g .nan x = .fin small ∧ bulkModulusT rnd Ω g .nan x = .fin small := by
  have m1 : ∀ v, mul rnd Ω v .nan = .nan := by intro v; cases v <;> rfl
  have m2 : ∀ v, mul rnd Ω .nan v = .nan := by intro v; cases v <;> rfl
  have a1 : ∀ v, add rnd Ω .nan v = .nan := by intro v; cases v <;> rfl
  have d1 : ∀ v, div rnd Ω .nan v = .nan := by intro v; cases v <;> rfl
  simp only [temperature, pressureE, pressureT, bulkModulusE, bulkModulusT, energy, sub, m1, m2, a1, d1, stdMax_nan, and_self]

/-- C163: energy and temperature lookups: the energy is exact up to 2 roundings, the temperature up to 4 of `(e - q) / Cv`. -/
theorem C163_energy_temperature {rnd : ℝ → ℝ} (h : ToNearest 53 (-1074) rnd) {Cv qq T e : ℝ} (gm1 bb rho : Ext) (hC : 0 < Cv)
    (hqf : IsFloat 53 (-1074) qq) :
    let g : Carnahan := ⟨gm1, .fin Cv, bb, .fin qq⟩
    (0 < T → 0 ≤ qq → InRange (Cv * T) → InRange (Cv * T + qq) →
      Approx 2 (Cv * T + qq) (energy rnd maxDouble g rho (.fin T))) ∧
    (IsFloat 53 (-1074) e → qq ≤ e → 2 * (e - qq) ≤ maxDouble → 2 * ((e - qq) / Cv) ≤ maxDouble →
      ∃ t, temperature rnd maxDouble g rho (.fin e) = .fin t ∧ |t - max small ((e - qq) / Cv)| ≤ 4 / 2 ^ 53 * ((e - qq) / Cv)) :=
  C145_energy_temperature h gm1 bb rho hC hqf

/-- C163: temperature to energy and back: within 10 roundings of `T + q / Cv`. -/
theorem C163_round_trip {rnd : ℝ → ℝ} (h : ToNearest 53 (-1074) rnd) {Cv qq T : ℝ} (gm1 bb rho rho' : Ext) (hC : 0 < Cv)
    (hqf : IsFloat 53 (-1074) qq) (hq : 0 ≤ qq) (hT : small ≤ T) (h1 : InRange (Cv * T)) (h2 : 4 * (Cv * T + qq) ≤ maxDouble)
    (h3 : 4 * ((Cv * T + qq) / Cv) ≤ maxDouble) :
    let g : Carnahan := ⟨gm1, .fin Cv, bb, .fin qq⟩
    ∃ t, temperature rnd maxDouble g rho (energy rnd maxDouble g rho' (.fin T)) = .fin t ∧
      |t - T| ≤ 10 / 2 ^ 53 * (T + qq / Cv) :=
  C145_round_trip h gm1 bb rho rho' hC hqf hq hT h1 h2 h3

/-- C163: monotone: at a fixed density below the packing limit, the energy does not decrease with the temperature, nor do temperature,
pressure and bulk modulus with the energy, nor pressure and bulk modulus with the temperature, for all arguments up to the infinities. -/
theorem C163_monotone {rnd : ℝ → ℝ} (h : ToNearest 53 (-1074) rnd) {gm1 Cv bb qq rho : ℝ} (hg : 0 < gm1) (hC : 0 < Cv) (hb : 0 < bb)
    (hr : 0 < rho) (hF : 1 / 2 ^ 40 ≤ 1 - bb * rho) (he : InRange (bb * rho)) (hrC : InRange (rho * Cv)) {x x' : Ext}
    (hx : le x x') :
    let g : Carnahan := ⟨.fin gm1, .fin Cv, .fin bb, .fin qq⟩
    let Z := 1 + bb * rho * (4 - 2 * (bb * rho)) / (1 - bb * rho) ^ 3
    let Y := 1 + bb * rho * (8 - 2 * (bb * rho)) / (1 - bb * rho) ^ 4
    Roomy (Z * rho) → Roomy (Z * Z) → Roomy (Z * Z * gm1) → Roomy (Y + Z * Z * gm1) →
    le (temperature rnd maxDouble g (.fin rho) x) (temperature rnd maxDouble g (.fin rho) x') ∧
    le (energy rnd maxDouble g (.fin rho) x) (energy rnd maxDouble g (.fin rho) x') ∧
    le (pressureE rnd maxDouble g (.fin rho) x) (pressureE rnd maxDouble g (.fin rho) x') ∧
    le (pressureT rnd maxDouble g (.fin rho) x) (pressureT rnd maxDouble g (.fin rho) x') ∧
    le (bulkModulusE rnd maxDouble g (.fin rho) x) (bulkModulusE rnd maxDouble g (.fin rho) x') ∧
    le (bulkModulusT rnd maxDouble g (.fin rho) x) (bulkModulusT rnd maxDouble g (.fin rho) x') := by
  intro g Z Y r0 r1 r2 r3
  have hu := Ieee.u_pos
  obtain ⟨Zf, Yf, z1, y1, hz, hy, az, ay⟩ := zed_close h (.fin gm1) (.fin Cv) (.fin qq) hb hr he hF
  obtain ⟨Sf, -, s0, as⟩ := stiff_close h (.fin Cv) (.fin qq) hg hb hr he hF r1 r2 r3
  have az' : Approx 10 Zf (zed rnd maxDouble g (.fin rho)) := az
  have as' : Approx 23 Sf (stiffness rnd maxDouble g (.fin rho)) := as
  have uF := (small_u hF (by linarith [mul_pos hb hr])).2
  have hz' : |Zf - Z| ≤ 8 * (u / (1 - bb * rho)) * Z := hz.trans (le_of_eq (by ring))
  have c4 : 8 * (u / (1 - bb * rho)) ≤ 1 / 4 := by
    have : (1 : ℝ) / 2 ^ 13 ≤ 1 / 32 := by norm_num
    linarith
  obtain ⟨i1, p1⟩ := r0.inRange (rel_mul hr hz') c4
  have A1 := az'.mul h (by linarith) hr (Approx.exact hr) i1 (by norm_num)
  have A2 := (Approx.exact hr).mul h hr hC (Approx.exact hC) hrC (by norm_num)
  obtain ⟨a, ha, wa⟩ := A1
  obtain ⟨b, hb', wb⟩ := A2
  obtain ⟨s, hs, ws⟩ := as'
  have pa := wa.pos p1
  have pb := wb.pos hrC.pos
  have ps := ws.pos s0
  have hnq : le (sub rnd maxDouble x (.fin qq)) (sub rnd maxDouble x' (.fin qq)) := sub_mono h qq hx
  refine ⟨?_, ?_, ?_, ?_, ?_, ?_⟩
  · simp only [temperature, g]
    exact stdMax_mono (by simp) (div_mono_fin h hC hnq)
  · simp only [energy, g]
    exact stdMax_mono (by simp) (add_mono h _ (mul_mono_fin h hC hx))
  · simp only [pressureE, ha]
    simp only [g]
    exact stdMax_mono (by simp) (mul_mono_right h hg (mul_mono_fin h pa hnq))
  · simp only [pressureT, ha]
    simp only [g]
    exact stdMax_mono (by simp) (mul_mono_right h hg (mul_mono_right h hC (mul_mono_fin h pa hx)))
  · simp only [bulkModulusE, hs]
    simp only [g]
    exact stdMax_mono (by simp) (mul_mono_right h ps (mul_mono_right h hg (mul_mono_fin h hr hnq)))
  · simp only [bulkModulusT, hs]
    simp only [g, hb']
    exact stdMax_mono (by simp) (mul_mono_right h ps (mul_mono_right h hg (mul_mono_fin h pb hx)))

/-- C163: below the packing limit, compressibility, Grüneisen parameter and pressure are the rounded closed forms: the relative error
is at most 44 roundings divided by the free fraction `1 - b rho`. -/
theorem C163_pressure {rnd : ℝ → ℝ} (h : ToNearest 53 (-1074) rnd) {gm1 Cv bb qq rho T e : ℝ} (hg : 0 < gm1) (hC : 0 < Cv)
    (hb : 0 < bb) (hr : 0 < rho) (hF : 1 / 2 ^ 40 ≤ 1 - bb * rho) (he : InRange (bb * rho)) :
    let g : Carnahan := ⟨.fin gm1, .fin Cv, .fin bb, .fin qq⟩
    let F := 1 - bb * rho
    let Z := 1 + bb * rho * (4 - 2 * (bb * rho)) / F ^ 3
    (∃ z, zed rnd maxDouble g (.fin rho) = .fin z ∧ |z - Z| ≤ 33 / 2 ^ 53 / F * Z) ∧
    (Roomy (Z * gm1) → ∃ G, gruneisen rnd maxDouble g (.fin rho) = .fin G ∧ |G - Z * gm1| ≤ 36 / 2 ^ 53 / F * (Z * gm1)) ∧
    (0 < T → Roomy (Z * rho) → Roomy (Z * rho * T) → Roomy (Z * rho * T * Cv) → Roomy (Z * rho * T * Cv * gm1) →
      ∃ p, pressureT rnd maxDouble g (.fin rho) (.fin T) = .fin p ∧
        |p - max small (Z * rho * T * Cv * gm1)| ≤ 44 / 2 ^ 53 / F * (Z * rho * T * Cv * gm1)) ∧
    (InRange (e - qq) → Roomy (Z * rho) → Roomy (Z * rho * (e - qq)) → Roomy (Z * rho * (e - qq) * gm1) →
      ∃ p, pressureE rnd maxDouble g (.fin rho) (.fin e) = .fin p ∧
        |p - max small (Z * rho * (e - qq) * gm1)| ≤ 44 / 2 ^ 53 / F * (Z * rho * (e - qq) * gm1)) := by
  intro g F Z
  have hu := Ieee.u_pos
  obtain ⟨Zf, Yf, z1, y1, hz, hy, az, ay⟩ := zed_close h (.fin gm1) (.fin Cv) (.fin qq) hb hr he hF
  have az' : Approx 10 Zf (zed rnd maxDouble g (.fin rho)) := az
  have e0 := mul_pos hb hr
  obtain ⟨uF, uF'⟩ := small_u hF (by linarith)
  have hz' : |Zf - Z| ≤ 8 * (u / F) * Z := hz.trans (le_of_eq (by ring))
  have F0 : 0 < F := lt_of_lt_of_le (by norm_num) hF
  have Z1 : 1 ≤ Z := by
    have : 0 < bb * rho * (4 - 2 * (bb * rho)) / F ^ 3 := div_pos (mul_pos e0 (by
      have : bb * rho < 1 := by have := hF; norm_num at this ⊢; linarith
      linarith)) (by positivity)
    show 1 ≤ 1 + _
    linarith
  change u ≤ u / F at uF
  change u / F ≤ _ at uF'
  have k33 : ∀ c : ℝ, c / 2 ^ 53 / F = c * (u / F) := by intro c; unfold u; ring
  simp only [k33]
  set δ := u / F with hδ
  clear_value Z δ
  have uF8 : δ ≤ 1 / 8192 := uF'.trans (by norm_num)
  have d0 : 0 ≤ δ := hu.le.trans uF
  have c4 : 8 * δ ≤ 1 / 4 := by linarith
  have fin : ∀ {k : ℕ} {X Xf c : ℝ} {v : Ext}, k ≤ 64 → 0 < X → Approx k Xf v → |Xf - X| ≤ 8 * δ * X → (5 / 2 : ℝ) * k + 8 ≤ c →
      ∃ y, v = .fin y ∧ |y - X| ≤ c * δ * X := by
    intro k X Xf c v hk hX hv hd hc
    obtain ⟨y, hy, ey⟩ := close_of_approx hk hX hv hd c4
    refine ⟨y, hy, ey.trans (mul_le_mul_of_nonneg_right ?_ hX.le)⟩
    have k0 : (0 : ℝ) ≤ k := Nat.cast_nonneg k
    have : (5 / 2 : ℝ) * k * u ≤ 5 / 2 * k * δ := mul_le_mul_of_nonneg_left uF (by positivity)
    have : ((5 / 2 : ℝ) * k + 8) * δ ≤ c * δ := mul_le_mul_of_nonneg_right hc d0
    linarith
  refine ⟨fin (by norm_num) (by linarith) az' hz' (by norm_num), ?_, ?_, ?_⟩
  · intro r
    have hd := rel_mul hg hz'
    obtain ⟨i, p⟩ := r.inRange hd c4
    exact fin (by norm_num) r.pos (az'.mul h (by linarith) hg (Approx.exact hg) i (by norm_num)) hd (by norm_num)
  · intro hT r1 r2 r3 r4
    have d1 := rel_mul hr hz'
    have d2 := rel_mul hT d1
    have d3 := rel_mul hC d2
    have d4 := rel_mul hg d3
    obtain ⟨i1, p1⟩ := r1.inRange d1 c4
    obtain ⟨i2, p2⟩ := r2.inRange d2 c4
    obtain ⟨i3, p3⟩ := r3.inRange d3 c4
    obtain ⟨i4, p4⟩ := r4.inRange d4 c4
    have A1 := az'.mul h (by linarith) hr (Approx.exact hr) i1 (by norm_num)
    have A2 := A1.mul h p1 hT (Approx.exact hT) i2 (by norm_num)
    have A3 := A2.mul h p2 hC (Approx.exact hC) i3 (by norm_num)
    have A4 := A3.mul h p3 hg (Approx.exact hg) i4 (by norm_num)
    obtain ⟨y, hy, ey⟩ := fin (c := 44) (by norm_num) r4.pos A4 d4 (by norm_num)
    refine ⟨max small y, ?_, floor_close ey⟩
    change stdMax _ (mul rnd maxDouble _ (.fin gm1)) = _
    rw [hy, stdMax_fin]
  · intro h0 r1 r2 r3
    have d1 := rel_mul hr hz'
    have d2 := rel_mul h0.pos d1
    have d3 := rel_mul hg d2
    obtain ⟨i1, p1⟩ := r1.inRange d1 c4
    obtain ⟨i2, p2⟩ := r2.inRange d2 c4
    obtain ⟨i3, p3⟩ := r3.inRange d3 c4
    have As : Approx 1 (e - qq) (sub rnd maxDouble (.fin e) (.fin qq)) := by
      have := ofReal_approx h (k := 0) (by norm_num) h0 (Within.refl h0.pos.le)
      simpa [sub, neg, add, sub_eq_add_neg] using this
    have A1 := az'.mul h (by linarith) hr (Approx.exact hr) i1 (by norm_num)
    have A2 := A1.mul h p1 h0.pos As i2 (by norm_num)
    have A3 := A2.mul h p2 hg (Approx.exact hg) i3 (by norm_num)
    obtain ⟨y, hy, ey⟩ := fin (c := 44) (by norm_num) r3.pos A3 d3 (by norm_num)
    refine ⟨max small y, ?_, floor_close ey⟩
    change stdMax _ (mul rnd maxDouble _ (.fin gm1)) = _
    rw [hy, stdMax_fin]

/-- C163: the bulk modulus likewise, within 85 roundings divided by the free fraction. -/
theorem C163_bulk_modulus {rnd : ℝ → ℝ} (h : ToNearest 53 (-1074) rnd) {gm1 Cv bb qq rho T e : ℝ} (hg : 0 < gm1) (hC : 0 < Cv)
    (hb : 0 < bb) (hr : 0 < rho) (hF : 1 / 2 ^ 40 ≤ 1 - bb * rho) (he : InRange (bb * rho)) :
    let g : Carnahan := ⟨.fin gm1, .fin Cv, .fin bb, .fin qq⟩
    let F := 1 - bb * rho
    let Z := 1 + bb * rho * (4 - 2 * (bb * rho)) / F ^ 3
    let Y := 1 + bb * rho * (8 - 2 * (bb * rho)) / F ^ 4
    Roomy (Z * Z) → Roomy (Z * Z * gm1) → Roomy (Y + Z * Z * gm1) →
    (0 < T → InRange (rho * Cv) → InRange (rho * Cv * T) → InRange (rho * Cv * T * gm1) →
      Roomy (rho * Cv * T * gm1 * (Y + Z * Z * gm1)) →
      ∃ B, bulkModulusT rnd maxDouble g (.fin rho) (.fin T) = .fin B ∧
        |B - max small (rho * Cv * T * gm1 * (Y + Z * Z * gm1))| ≤ 85 / 2 ^ 53 / F * (rho * Cv * T * gm1 * (Y + Z * Z * gm1))) ∧
    (InRange (e - qq) → InRange (rho * (e - qq)) → InRange (rho * (e - qq) * gm1) →
      Roomy (rho * (e - qq) * gm1 * (Y + Z * Z * gm1)) →
      ∃ B, bulkModulusE rnd maxDouble g (.fin rho) (.fin e) = .fin B ∧
        |B - max small (rho * (e - qq) * gm1 * (Y + Z * Z * gm1))| ≤ 85 / 2 ^ 53 / F * (rho * (e - qq) * gm1 * (Y + Z * Z * gm1))) := by
  intro g F Z Y r1 r2 r3
  have hu := Ieee.u_pos
  obtain ⟨Sf, hs, s0, as⟩ := stiff_close h (.fin Cv) (.fin qq) hg hb hr he hF r1 r2 r3
  have as' : Approx 23 Sf (stiffness rnd maxDouble g (.fin rho)) := as
  have e0 := mul_pos hb hr
  obtain ⟨uF, uF'⟩ := small_u hF (by linarith)
  change |Sf - (Y + Z * Z * gm1)| ≤ 17 * (u / F) * (Y + Z * Z * gm1) at hs
  have S0 := r3.pos
  set S := Y + Z * Z * gm1 with hS
  change u ≤ u / F at uF
  change u / F ≤ _ at uF'
  have k33 : ∀ c : ℝ, c / 2 ^ 53 / F = c * (u / F) := by intro c; unfold u; ring
  simp only [k33]
  set δ := u / F with hδ
  clear_value S δ
  have uF8 : δ ≤ 1 / 8192 := uF'.trans (by norm_num)
  have d0 : 0 ≤ δ := hu.le.trans uF
  have c4 : 17 * δ ≤ 1 / 4 := by linarith
  have key : ∀ {P : ℝ} {v : Ext}, 0 < P → Approx 3 P v → Roomy (P * S) →
      ∃ B, stdMax (.fin small) (mul rnd maxDouble v (stiffness rnd maxDouble g (.fin rho))) = .fin B ∧
        |B - max small (P * S)| ≤ 85 * δ * (P * S) := by
    intro P v hP hv r
    have d : |P * Sf - P * S| ≤ 17 * δ * (P * S) := by
      have := rel_mul hP hs
      rwa [mul_comm P Sf, mul_comm P S]
    obtain ⟨i, p⟩ := r.inRange d c4
    have A := hv.mul h hP s0 as' i (by norm_num)
    obtain ⟨y, hy, ey⟩ := close_of_approx (by norm_num) r.pos A d c4
    refine ⟨max small y, by rw [hy, stdMax_fin], floor_close (ey.trans (mul_le_mul_of_nonneg_right ?_ r.pos.le))⟩
    push_cast
    linarith
  constructor
  · intro hT i1 i2 i3 r
    have A1 := (Approx.exact hr).mul h hr hC (Approx.exact hC) i1 (by norm_num)
    have A2 := A1.mul h i1.pos hT (Approx.exact hT) i2 (by norm_num)
    have A3 := A2.mul h i2.pos hg (Approx.exact hg) i3 (by norm_num)
    exact key i3.pos A3 r
  · intro h0 i1 i2 r
    have As : Approx 1 (e - qq) (sub rnd maxDouble (.fin e) (.fin qq)) := by
      have := ofReal_approx h (k := 0) (by norm_num) h0 (Within.refl h0.pos.le)
      simpa [sub, neg, add, sub_eq_add_neg] using this
    have A1 := (Approx.exact hr).mul h hr h0.pos As i1 (by norm_num)
    have A2 := A1.mul h i1.pos hg (Approx.exact hg) i2 (by norm_num)
    exact key i2.pos A2 r

namespace Ieee.Carnahan

variable {rnd : ℝ → ℝ}

theorem mul_nan_right (x : Ext) : mul rnd maxDouble x .nan = .nan := by cases x <;> rfl

theorem mul_nan_left (x : Ext) : mul rnd maxDouble .nan x = .nan := by cases x <;> rfl

theorem add_nan_right (x : Ext) : add rnd maxDouble x .nan = .nan := by cases x <;> rfl

theorem add_nan_left (x : Ext) : add rnd maxDouble .nan x = .nan := by cases x <;> rfl

theorem div_nan_right (x : Ext) : div rnd maxDouble x .nan = .nan := by cases x <;> rfl

theorem div_nan_left (x : Ext) : div rnd maxDouble .nan x = .nan := by cases x <;> rfl

theorem ratio_nan_right (x : Ext) : ratio rnd maxDouble x .nan = .nan := by
  unfold ratio
  rw [add_nan_left, div_nan_right]

theorem ratio_nan_left (x : Ext) : ratio rnd maxDouble .nan x = .nan := by
  unfold ratio
  rw [div_nan_left]

theorem sub_nan_right (x : Ext) : sub rnd maxDouble x .nan = .nan := by cases x <;> rfl

/-- No bracket around a guess at which the function is NaN. -/
theorem initBracket_nan (f : Ext → Ext) (guess a b : Ext) (hg : f guess = .nan) : initBracketE rnd maxDouble f guess a b = none := by
  have c1 : ∀ v, ¬ checkBracketE rnd maxDouble v .nan := fun v => by unfold checkBracketE; rw [mul_nan_right]; simp [le]
  have c2 : ∀ v, ¬ checkBracketE rnd maxDouble .nan v := fun v => by unfold checkBracketE; rw [mul_nan_left]; simp [le]
  have l : ∀ (n i : Nat) (a dx g : Ext), levelSearchE rnd maxDouble f a dx g .nan i n = none := by
    intro n
    induction n with
    | zero => intros; rfl
    | succ n ih =>
      intro i a dx g
      unfold levelSearchE
      dsimp only
      rw [if_neg (c1 _), ih]
  have ls : ∀ (n level : Nat) (a dx g : Ext), levelsE rnd maxDouble f a dx g .nan level n = none := by
    intro n
    induction n with
    | zero => intros; rfl
    | succ n ih =>
      intro i a dx g
      unfold levelsE
      rw [l, ih]
  unfold initBracketE
  dsimp only
  rw [hg, if_neg (c1 _), if_neg (c2 _)]
  unfold setBracketE
  exact ls _ _ _ _ _

theorem residual_nan (g : Carnahan) (press temp x : Ext) (hn : press = .nan ∨ temp = .nan ∨ x = .nan) :
    residual rnd maxDouble g press temp x = .nan := by
  unfold residual
  dsimp only
  rcases hn with rfl | rfl | rfl
  · rw [mul_nan_left, ratio_nan_left, sub_nan_right]
  · rw [mul_nan_right, ratio_nan_right, sub_nan_right]
  · rw [mul_nan_left]
    cases mul rnd maxDouble (mul rnd maxDouble g.Cv g.gm1) temp <;> simp [sub, add]

end Ieee.Carnahan

/-- C163: without a covolume the gas is the ideal gas, to the last bit: at a finite density the compressibility is exactly 1, and
pressure and Grüneisen parameter are the products of the ideal gas, evaluated left to right. -/
theorem C163_no_covolume {rnd : ℝ → ℝ} (h : ToNearest 53 (-1074) rnd) {rho : ℝ} (gm1 : ℝ) (Cv qq : Ext) (hgf : IsFloat 53 (-1074) gm1)
    (hgm : |gm1| ≤ maxDouble) (hrf : IsFloat 53 (-1074) rho) (hrm : |rho| ≤ maxDouble) (x : Ext) :
    let g : Carnahan := ⟨.fin gm1, Cv, .fin 0, qq⟩
    zed rnd maxDouble g (.fin rho) = .fin 1 ∧ dzed rnd maxDouble g (.fin rho) = .fin 1 ∧
    gruneisen rnd maxDouble g (.fin rho) = .fin gm1 ∧
    pressureT rnd maxDouble g (.fin rho) x =
      stdMax (.fin small) (mul rnd maxDouble (mul rnd maxDouble (mul rnd maxDouble (.fin rho) x) Cv) (.fin gm1)) ∧
    pressureE rnd maxDouble g (.fin rho) x =
      stdMax (.fin small) (mul rnd maxDouble (mul rnd maxDouble (.fin rho) (sub rnd maxDouble x qq)) (.fin gm1)) := by
  intro g
  have c0 : ofReal rnd maxDouble 0 = .fin 0 := ofReal_dy h 0 0 (by norm_num) (by norm_num) (by norm_num)
  have c1 : ofReal rnd maxDouble 1 = .fin 1 := ofReal_dy h 1 0 (by norm_num) (by norm_num) (by norm_num)
  have c4 : ofReal rnd maxDouble 4 = .fin 4 := ofReal_dy h 4 0 (by norm_num) (by norm_num) (by norm_num)
  have c8 : ofReal rnd maxDouble 8 = .fin 8 := ofReal_dy h 8 0 (by norm_num) (by norm_num) (by norm_num)
  have r0 : ratio rnd maxDouble (.fin 0) (.fin 1) = .fin 0 := by
    have : div rnd maxDouble (.fin 0) (.fin 1) = .fin 0 := by simp [div, c0]
    rw [C135_ratio_is_rounded_quotient h (by exact_mod_cast isFloat_nat 1 (by norm_num)) (by
      rw [abs_one]; exact le_maxD (by norm_num)) (by
        rw [abs_one]
        have := guard_le (le_refl 1)
        have := small_pos
        have e : (2 : ℝ) ^ 55 * small = 2 * (2 ^ 54 * small) := by ring
        nlinarith), this]
  have z : zed rnd maxDouble g (.fin rho) = .fin 1 := by
    simp [zed, g, mul, sub, neg, add, pow3, c0, c1, c4, r0]
  have y : dzed rnd maxDouble g (.fin rho) = .fin 1 := by
    simp [dzed, g, mul, sub, neg, add, pow4, c0, c1, c8, r0]
  have one : ∀ v : ℝ, IsFloat 53 (-1074) v → |v| ≤ maxDouble → mul rnd maxDouble (.fin 1) (.fin v) = .fin v := by
    intro v hv hm
    simp only [mul, one_mul]
    exact ofReal_exact h hv hm
  refine ⟨z, y, ?_, ?_, ?_⟩
  · simp only [gruneisen, z]
    exact one _ hgf hgm
  · simp only [pressureT, z, one _ hrf hrm, g]
  · simp only [pressureE, z, one _ hrf hrm, g]

/-- C163: what the density lookup does: a temperature of at most the least normal number gives the density 0; a covolume of at most
that the rounded density of the ideal gas; otherwise the search ends, with an abort or with a density that is at least zero, never
NaN, and that is the larger of zero and the computed midpoint of two densities `p`, `q` as described by the stop rule: they are
computed to be no more than 2·10⁻⁹ apart, or the computed residual at one of them is no more than 10⁻⁹ (or NaN), or they coincide
(both tolerances are absolute; not above: at most, or not comparable). -/
theorem C163_density {rnd : ℝ → ℝ} (h : ToNearest 53 (-1074) rnd) (g : Carnahan) (press temp guess : Ext) :
    (le temp (.fin (2 ^ (-1022 : ℤ))) → density rnd maxDouble g press temp guess = some (.fin 0)) ∧
    (¬ le temp (.fin (2 ^ (-1022 : ℤ))) → le g.bb (.fin (2 ^ (-1022 : ℤ))) → density rnd maxDouble g press temp guess =
      some (ratio rnd maxDouble press (mul rnd maxDouble (mul rnd maxDouble g.Cv g.gm1) temp))) ∧
    (¬ le temp (.fin (2 ^ (-1022 : ℤ))) → ¬ le g.bb (.fin (2 ^ (-1022 : ℤ))) →
      (∃ r, regulaFalsiE rnd maxDouble 1001 (residual rnd maxDouble g press temp) (.fin 0) guess (.fin 0) (div rnd maxDouble (.fin 1) g.bb)
        (lit rnd (1 / 10 ^ 9)) (lit rnd (1 / 10 ^ 9)) = some r) ∧
      ∀ rho, density rnd maxDouble g press temp guess = some rho → le (.fin 0) rho ∧
        ∃ p q, rho = stdMax (.fin 0) (mul rnd maxDouble (.fin (1 / 2)) (add rnd maxDouble p q)) ∧
          (p = q ∨ ¬ lt (mul rnd maxDouble (.fin 2) (lit rnd (1 / 10 ^ 9))) (sub rnd maxDouble q p) ∨
            ∃ x, (x = p ∨ x = q) ∧
              ¬ lt (lit rnd (1 / 10 ^ 9)) (absE (sub rnd maxDouble (residual rnd maxDouble g press temp x) (.fin 0))))) := by
  have ht : ¬ lt (lit rnd (1 / 10 ^ 9)) (.fin 0) := not_lt.mpr (rnd_nonneg h (by norm_num))
  refine ⟨fun h1 => by unfold density; rw [if_pos h1], fun h1 h2 => by unfold density; rw [if_neg h1, if_pos h2], fun h1 h2 =>
    ⟨C146_regula_falsi_terminates h _ _ _ _ _ _ _ ht, fun rho hd => ?_⟩⟩
  unfold density at hd
  rw [if_neg h1, if_neg h2] at hd
  split at hd
  · rename_i x hx
    cases hd
    refine ⟨le_stdMax (by simp) _, ?_⟩
    obtain ⟨p, q, e1, e2⟩ := C146_regula_falsi_stop_rule h 1001 _ _ _ _ _ _ _ ht hx
    refine ⟨p, q, by rw [e1], ?_⟩
    rcases e2 with e2 | ⟨e2, -⟩
    · rcases e2 rfl with k | k | k
      · exact Or.inr (Or.inl k)
      · exact Or.inr (Or.inr ⟨p, Or.inl rfl, k⟩)
      · exact Or.inr (Or.inr ⟨q, Or.inr rfl, k⟩)
    · exact Or.inl e2
  · exact absurd hd (by simp)

/-- C163: a NaN pressure, temperature or starting guess aborts the density lookup of a gas with a covolume; it never returns a density. -/
theorem C163_density_nan {rnd : ℝ → ℝ} (h : ToNearest 53 (-1074) rnd) (g : Carnahan) (press temp guess : Ext)
    (ht : ¬ le temp (.fin (2 ^ (-1022 : ℤ)))) (hb : ¬ le g.bb (.fin (2 ^ (-1022 : ℤ))))
    (hn : press = .nan ∨ temp = .nan ∨ guess = .nan) : density rnd maxDouble g press temp guess = none := by
  have e : regulaFalsiE rnd maxDouble 1001 (residual rnd maxDouble g press temp) (.fin 0) guess (.fin 0) (div rnd maxDouble (.fin 1) g.bb)
        (lit rnd (1 / 10 ^ 9)) (lit rnd (1 / 10 ^ 9)) = some ⟨.fail, none⟩ := by
    unfold regulaFalsiE
    dsimp only
    rw [initBracket_nan _ _ _ _ (by rw [residual_nan g _ _ _ hn]; rfl)]
  unfold density
  rw [if_neg ht, if_neg hb, e]

/-- C163 (violated): the tolerances of the density search are absolute, so for a thin gas the answer is half the starting guess, whatever
the pressure: with `b = gm1 = Cv = T = 1` and any guess `2 H` up to `2^-30`, every pressure from 0 up to the guess has the "density" `H`
(the true density is at most the pressure, so it can be smaller by any factor). -/
theorem C163_thin_gas_violated {rnd : ℝ → ℝ} (h : ToNearest 53 (-1074) rnd) (qq : Ext) {H P : ℝ} (hH : IsFloat 53 (-1074) H) (h0 : 0 < H)
    (h1 : 2 * H ≤ 1 / 2 ^ 30) (hP : IsFloat 53 (-1074) P) (hP0 : 0 ≤ P) (hPH : P ≤ 2 * H) :
    density rnd maxDouble ⟨.fin 1, .fin 1, .fin 1, qq⟩ (.fin P) (.fin 1) (.fin (2 * H)) = some (.fin H) := by
  set g : Carnahan := ⟨.fin 1, .fin 1, .fin 1, qq⟩ with hg
  set G := 2 * H with hGdef
  have G0 : 0 < G := by linarith
  have hG : IsFloat 53 (-1074) G := by
    obtain ⟨m, e, a1, a2, a3⟩ := hH
    refine ⟨m, e + 1, a1, by linarith, ?_⟩
    rw [hGdef, a3, zpow_add_one₀ (by norm_num)]
    ring
  have G1 : G ≤ 1 / 2 := h1.trans (by norm_num)
  have P1 : P ≤ 1 := by linarith
  have M1 : (2 : ℝ) ≤ maxDouble := le_maxD (by norm_num)
  have f1 : IsFloat 53 (-1074) (1 : ℝ) := by exact_mod_cast isFloat_nat 1 (by norm_num)
  have f2 : IsFloat 53 (-1074) (2 : ℝ) := by exact_mod_cast isFloat_nat 2 (by norm_num)
  have f0 : IsFloat 53 (-1074) (0 : ℝ) := isFloat_zero
  have c0 : ofReal rnd maxDouble 0 = .fin 0 := ofReal_dy h 0 0 (by norm_num) (by norm_num) (by norm_num)
  have c1 : ofReal rnd maxDouble 1 = .fin 1 := ofReal_dy h 1 0 (by norm_num) (by norm_num) (by norm_num)
  have cx : ∀ {x : ℝ}, IsFloat 53 (-1074) x → 0 ≤ x → x ≤ 2 → ofReal rnd maxDouble x = .fin x := fun hx a b =>
    ofReal_exact h hx (by rw [abs_of_nonneg a]; linarith)
  -- a value between two floats rounds to one between them
  have bt : ∀ {x a b : ℝ}, IsFloat 53 (-1074) a → IsFloat 53 (-1074) b → 0 ≤ a → b ≤ 2 → a ≤ x → x ≤ b →
      ∃ y, ofReal rnd maxDouble x = .fin y ∧ a ≤ y ∧ y ≤ b := by
    intro x a b ha hb a0 b2 h1 h2
    have k1 := rnd_ge h ha h1
    have k2 := rnd_le h hb h2
    exact ⟨rnd x, ofReal_fin (by rw [abs_of_nonneg (a0.trans k1)]; linarith), k1, k2⟩
  have r1 : ∀ {y : ℝ}, IsFloat 53 (-1074) y → 0 ≤ y → y ≤ 2 → ratio rnd maxDouble (.fin y) (.fin 1) = .fin y := by
    intro y hy y0 y2
    rw [C135_ratio_is_rounded_quotient h f1 (by rw [abs_one]; linarith) (by
      rw [abs_one]
      have := guard_le (le_refl 1)
      have := small_pos
      have e : (2 : ℝ) ^ 55 * small = 2 * (2 ^ 54 * small) := by ring
      nlinarith)]
    simp [div, cx hy y0 y2]
  have tiny : (2 : ℝ) ^ (-1022 : ℤ) < 1 := by
    have := normal_tiny
    have : (1 : ℝ) / 2 ^ 100 < 1 := by norm_num
    linarith
  have res0 : residual rnd maxDouble g (.fin P) (.fin 1) (.fin 0) = .fin (-P) := by
    have r := r1 hP hP0 (by linarith)
    have hn : ofReal rnd maxDouble (-P) = .fin (-P) := ofReal_exact h (IsFloat.neg' hP) (by rw [abs_neg, abs_of_nonneg hP0]; linarith)
    simp [residual, hg, mul, sub, neg, add, pow3, c0, c1, cx hP hP0 (by linarith), r, hn]
  have resG : ∃ y, residual rnd maxDouble g (.fin P) (.fin 1) (.fin G) = .fin y ∧ 0 ≤ y ∧ y ≤ 1 ∧ IsFloat 53 (-1074) y := by
    obtain ⟨f, ef, fa, fb⟩ := bt (x := 1 + -G) f0 f1 le_rfl (by norm_num) (by linarith) (by linarith)
    obtain ⟨ff, eff, ffa, ffb⟩ := bt (x := f * f) f0 f1 le_rfl (by norm_num) (by positivity) (by nlinarith)
    obtain ⟨p3, e3, p3a, p3b⟩ := bt (x := f * ff) f0 f1 le_rfl (by norm_num) (by positivity) (by nlinarith)
    obtain ⟨n, en, na, nb⟩ := bt (x := P * p3) f0 hP le_rfl (by linarith) (by positivity) (by nlinarith)
    obtain ⟨a, ea, aa, ab⟩ := bt (x := G * f) f0 hG le_rfl (by linarith) (by positivity) (by nlinarith)
    obtain ⟨b, eb, ba, bb⟩ := bt (x := 1 + a) f1 f2 (by norm_num) le_rfl (by linarith) (by linarith)
    obtain ⟨c, ec, ca, cb⟩ := bt (x := G * b) f0 f1 le_rfl (by norm_num) (by positivity) (by nlinarith)
    obtain ⟨d, ed, da, db⟩ := bt (x := 1 + c) f1 f2 (by norm_num) le_rfl (by linarith) (by linarith)
    obtain ⟨t, et, ta, tb⟩ := bt (x := G * d) hG f1 G0.le (by norm_num) (by nlinarith) (by nlinarith)
    have fn : IsFloat 53 (-1074) n := ofReal_isFloat h en
    have r := r1 fn na (by linarith)
    obtain ⟨y, ey, ya, yb⟩ := bt (x := t + -n) f0 f1 le_rfl (by norm_num) (by linarith) (by linarith)
    refine ⟨y, ?_, ya, yb, ofReal_isFloat h ey⟩
    simp only [residual, hg, pow3, mul, sub, neg, add, one_mul, cx hG G0.le (by linarith), ef, eff, e3, en, ea, eb, ec, ed, et, c1, r, ey]
  obtain ⟨y, ey, y0, y1, yf⟩ := resG
  have s0 : ∀ x : ℝ, IsFloat 53 (-1074) x → |x| ≤ 2 → sub rnd maxDouble (.fin x) (.fin 0) = .fin x := by
    intro x hx hm
    simp only [sub, neg, add, neg_zero, add_zero]
    exact ofReal_exact h hx (hm.trans M1)
  have fa : sub rnd maxDouble (residual rnd maxDouble g (.fin P) (.fin 1) (.fin 0)) (.fin 0) = .fin (-P) := by
    rw [res0]
    exact s0 _ (IsFloat.neg' hP) (by rw [abs_neg, abs_of_nonneg hP0]; linarith)
  have fg : sub rnd maxDouble (residual rnd maxDouble g (.fin P) (.fin 1) (.fin G)) (.fin 0) = .fin y := by
    rw [ey]
    exact s0 _ yf (by rw [abs_of_nonneg y0]; linarith)
  have chk : checkBracketE rnd maxDouble (.fin (-P)) (.fin y) := by
    unfold checkBracketE
    have hle : -P * y ≤ 0 := by nlinarith
    have hge : -1 ≤ -P * y := by nlinarith
    have k1 := rnd_le h f0 hle
    have k2 := rnd_ge h (IsFloat.neg' f1) hge
    simp only [mul]
    rw [ofReal_fin (by rw [abs_of_nonpos k1]; linarith)]
    exact k1
  have hib : initBracketE rnd maxDouble (fun x => sub rnd maxDouble (residual rnd maxDouble g (.fin P) (.fin 1) x) (.fin 0)) (.fin G) (.fin 0)
      (div rnd maxDouble (.fin 1) g.bb) = some ⟨.fin 0, .fin G, .fin (-P), .fin y⟩ := by
    unfold initBracketE
    dsimp only
    rw [fa, fg, if_pos chk]
  -- the tolerance is wider than the bracket
  have tol : ∀ (s : RootFind.RF Ext), s.a = .fin 0 → s.b = .fin G → ¬ rfCondE rnd maxDouble (lit rnd (1 / 10 ^ 9)) (lit rnd (1 / 10 ^ 9)) s := by
    intro s ha hb hc
    have hc := hc.1
    rw [ha, hb, s0 G hG (by rw [abs_of_pos G0]; linarith)] at hc
    have k1 : (1 : ℝ) / 2 ^ 30 ≤ rnd (1 / 10 ^ 9) := rnd_ge h ⟨1, -30, by norm_num, by norm_num, by norm_num⟩ (by norm_num)
    have k2 : rnd (1 / 10 ^ 9) ≤ 1 := rnd_le h f1 (by norm_num)
    have k3 : (1 : ℝ) / 2 ^ 30 ≤ rnd (2 * rnd (1 / 10 ^ 9)) := rnd_ge h ⟨1, -30, by norm_num, by norm_num, by norm_num⟩ (by linarith)
    have k4 : rnd (2 * rnd (1 / 10 ^ 9)) ≤ 2 := rnd_le h f2 (by linarith)
    simp only [lit, mul] at hc
    rw [ofReal_fin (by rw [abs_of_nonneg (le_trans (by norm_num) k3)]; linarith)] at hc
    simp only [lt] at hc
    linarith
  have half : mul rnd maxDouble (.fin (1 / 2)) (add rnd maxDouble (.fin 0) (.fin G)) = .fin H := by
    simp only [add, zero_add, cx hG G0.le (by linarith), mul]
    rw [show (1 : ℝ) / 2 * G = H by rw [hGdef]; ring]
    exact cx hH h0.le (by linarith)
  have run : regulaFalsiE rnd maxDouble 1001 (residual rnd maxDouble g (.fin P) (.fin 1)) (.fin 0) (.fin G) (.fin 0)
      (div rnd maxDouble (.fin 1) g.bb) (lit rnd (1 / 10 ^ 9)) (lit rnd (1 / 10 ^ 9)) = some ⟨.success, some (.fin H)⟩ := by
    unfold regulaFalsiE
    dsimp only
    rw [hib]
    dsimp only
    unfold rfStartE
    dsimp only
    rw [rfLoopE, if_neg (tol _ rfl rfl)]
    dsimp only
    rw [half]
    simp
  unfold density
  rw [if_neg (by simp only [le]; exact not_le.mpr tiny), if_neg (by simp only [hg, le]; exact not_le.mpr tiny), run]
  simp only [stdMax_fin, max_eq_right h0.le]

/-- The hypotheses of C163 are met: `gm1 = Cv = 1`, `b = 1/2` at density 1 and temperature 1: half the packing density, where the
compressibility is 13. -/
example : ∃ rnd, ToNearest 53 (-1074) rnd ∧
    (∃ z, zed rnd maxDouble ⟨.fin 1, .fin 1, .fin (1 / 2), .fin 0⟩ (.fin 1) = .fin z ∧ |z - 13| ≤ 1 / 10 ^ 12) ∧
    (∃ p, pressureT rnd maxDouble ⟨.fin 1, .fin 1, .fin (1 / 2), .fin 0⟩ (.fin 1) (.fin 1) = .fin p ∧ |p - 13| ≤ 1 / 10 ^ 12) ∧
    (∃ p, pressureE rnd maxDouble ⟨.fin 1, .fin 1, .fin (1 / 2), .fin 0⟩ (.fin 1) (.fin 1) = .fin p ∧ |p - 13| ≤ 1 / 10 ^ 12) ∧
    (∃ B, bulkModulusT rnd maxDouble ⟨.fin 1, .fin 1, .fin (1 / 2), .fin 0⟩ (.fin 1) (.fin 1) = .fin B ∧ |B - 226| ≤ 1 / 10 ^ 11) ∧
    le (pressureT rnd maxDouble ⟨.fin 1, .fin 1, .fin (1 / 2), .fin 0⟩ (.fin 1) (.fin 1))
      (pressureT rnd maxDouble ⟨.fin 1, .fin 1, .fin (1 / 2), .fin 0⟩ (.fin 1) (.inf false)) := by
  obtain ⟨rnd, h⟩ := exists_toNearest (p := 53) (emin := -1074) (by norm_num)
  have hs1 : small ≤ 1 := by
    have := small_le_of (le_refl 1)
    linarith [small_pos]
  have room : ∀ {x : ℝ}, 1 ≤ x → x ≤ 1000 → Roomy x := fun a b =>
    ⟨inRange_of (by linarith) (by linarith), inRange_of (by linarith) (by linarith)⟩
  have P := C163_pressure h (gm1 := 1) (Cv := 1) (bb := 1 / 2) (qq := 0) (rho := 1) (T := 1) (e := 1) one_pos one_pos (by norm_num) one_pos
    (by norm_num) (inRange_of (by norm_num) (by norm_num))
  have B := C163_bulk_modulus h (gm1 := 1) (Cv := 1) (bb := 1 / 2) (qq := 0) (rho := 1) (T := 1) (e := 1) one_pos one_pos (by norm_num)
    one_pos (by norm_num) (inRange_of (by norm_num) (by norm_num))
  have M := C163_monotone h (gm1 := 1) (Cv := 1) (bb := 1 / 2) (qq := 0) (rho := 1) (x := .fin 1) (x' := .inf false) one_pos one_pos
    (by norm_num) one_pos (by norm_num) (inRange_of (by norm_num) (by norm_num)) (inRange_of (by norm_num) (by norm_num)) (by simp [le])
  dsimp only at P B M
  obtain ⟨P1, -, P2, P3⟩ := P
  refine ⟨rnd, h, ?_, ?_, ?_, ?_, ?_⟩
  · obtain ⟨z, h1, h2⟩ := P1
    refine ⟨z, h1, ?_⟩
    norm_num at h2 ⊢
    linarith
  · obtain ⟨p, h1, h2⟩ := P2 one_pos (room (by norm_num) (by norm_num)) (room (by norm_num) (by norm_num))
      (room (by norm_num) (by norm_num)) (room (by norm_num) (by norm_num))
    refine ⟨p, h1, ?_⟩
    rw [max_eq_right (hs1.trans (by norm_num))] at h2
    norm_num at h2 ⊢
    linarith
  · obtain ⟨p, h1, h2⟩ := P3 (inRange_of (by norm_num) (by norm_num)) (room (by norm_num) (by norm_num)) (room (by norm_num) (by norm_num))
      (room (by norm_num) (by norm_num))
    refine ⟨p, h1, ?_⟩
    rw [max_eq_right (hs1.trans (by norm_num))] at h2
    norm_num at h2 ⊢
    linarith
  · obtain ⟨p, h1, h2⟩ := (B (room (by norm_num) (by norm_num)) (room (by norm_num) (by norm_num)) (room (by norm_num) (by norm_num))).1
      one_pos (inRange_of (by norm_num) (by norm_num)) (inRange_of (by norm_num) (by norm_num)) (inRange_of (by norm_num) (by norm_num))
      (room (by norm_num) (by norm_num))
    refine ⟨p, h1, ?_⟩
    rw [max_eq_right (hs1.trans (by norm_num))] at h2
    norm_num at h2 ⊢
    linarith
  · exact (M (room (by norm_num) (by norm_num)) (room (by norm_num) (by norm_num)) (room (by norm_num) (by norm_num))
      (room (by norm_num) (by norm_num))).2.2.2.1

/-- The hypotheses of `C163_thin_gas_violated` are met: the guess `2^-39` is answered by `2^-40` for the pressures `2^-39` and 0. -/
example : ∃ rnd, ToNearest 53 (-1074) rnd ∧ ∀ P ∈ [(1 : ℝ) / 2 ^ 39, 0],
    density rnd maxDouble ⟨.fin 1, .fin 1, .fin 1, .fin 0⟩ (.fin P) (.fin 1) (.fin (2 * (1 / 2 ^ 40))) = some (.fin (1 / 2 ^ 40)) := by
  obtain ⟨rnd, h⟩ := exists_toNearest (p := 53) (emin := -1074) (by norm_num)
  have fH : IsFloat 53 (-1074) ((1 : ℝ) / 2 ^ 40) := ⟨1, -40, by norm_num, by norm_num, by norm_num⟩
  have fP : IsFloat 53 (-1074) ((1 : ℝ) / 2 ^ 39) := ⟨1, -39, by norm_num, by norm_num, by norm_num⟩
  refine ⟨rnd, h, fun P hP => ?_⟩
  simp only [List.mem_cons, List.not_mem_nil, or_false] at hP
  rcases hP with rfl | rfl
  · exact C163_thin_gas_violated h _ fH (by norm_num) (by norm_num) fP (by norm_num) (by norm_num)
  · exact C163_thin_gas_violated h _ fH (by norm_num) (by norm_num) isFloat_zero le_rfl (by norm_num)

/-- The hypotheses of `C163_density` and `C163_density_nan` are met: a NaN pressure at temperature 1. -/
example : ∃ rnd, ToNearest 53 (-1074) rnd ∧
    density rnd maxDouble ⟨.fin 1, .fin 1, .fin 1, .fin 0⟩ .nan (.fin 1) (.fin small) = none := by
  obtain ⟨rnd, h⟩ := exists_toNearest (p := 53) (emin := -1074) (by norm_num)
  have tiny : (2 : ℝ) ^ (-1022 : ℤ) < 1 := by
    have := normal_tiny
    have : (1 : ℝ) / 2 ^ 100 < 1 := by norm_num
    linarith
  exact ⟨rnd, h, C163_density_nan h _ _ _ _ (by simp only [le]; exact not_le.mpr tiny) (by simp only [le]; exact not_le.mpr tiny) (Or.inl rfl)⟩

end Verif
