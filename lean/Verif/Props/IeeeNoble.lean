import Verif.Props.IeeeStiff

/-! # C145: the Noble-Abel gas in double precision -/

namespace Verif

open Ieee Rounding

namespace Ieee

variable {rnd : ℝ → ℝ}

theorem normal_tiny : (2 : ℝ) ^ (-1022 : ℤ) ≤ 1 / 2 ^ 100 := by
  have h1 : (2 : ℝ) ^ (-1022 : ℤ) ≤ 2 ^ (-100 : ℤ) := zpow_le_zpow_right₀ one_le_two (by norm_num)
  refine h1.trans (le_of_eq ?_)
  norm_num

theorem small_tiny : 2 ^ 54 * small ≤ 1 / 2 ^ 96 := by
  unfold small
  have h1 : (2 : ℝ) ^ (-1022 : ℤ) ≤ 2 ^ (-180 : ℤ) := zpow_le_zpow_right₀ one_le_two (by norm_num)
  calc (2 : ℝ) ^ 54 * (10 * 2 ^ (-1022 : ℤ)) ≤ 2 ^ 54 * (10 * 2 ^ (-180 : ℤ)) := by gcongr
    _ ≤ 1 / 2 ^ 96 := by norm_num

/-- A quotient of two numbers with small relative errors, rounded and floored at `SMALL`. -/
theorem quot_err (h : Dbl rnd) {n d N D a b : ℝ} (hN : 0 ≤ N) (hD : 0 < D) (ha : |n - N| ≤ a * N) (hb : |d - D| ≤ b * D)
    (ha1 : a ≤ 1 / 4) (hb1 : b ≤ 1 / 4) (ha0 : 0 ≤ a) (hb0 : 0 ≤ b) :
    3 / 4 * D ≤ d ∧ |n / d - N / D| ≤ (2 * a + 2 * b) * (N / D) ∧ |n / d| ≤ 2 * (N / D) ∧
      |max small (rnd (n / d)) - max small (N / D)| ≤ (2 * a + 2 * b + 2 * u) * (N / D) := by
  have hu := Ieee.u_pos
  have k0 : b * D ≤ 1 / 4 * D := mul_le_mul_of_nonneg_right hb1 hD.le
  have hd : 3 / 4 * D ≤ d := by linarith [(abs_le.mp hb).1]
  have hd0 : 0 < d := by linarith
  have hQ : 0 ≤ N / D := by positivity
  have k1 : |n / d - N / D| ≤ (2 * a + 2 * b) * (N / D) := by
    have e1 : n / d - N / D = ((n - N) * D + N * (D - d)) / (d * D) := by field_simp; ring
    rw [e1, abs_div, abs_of_pos (mul_pos hd0 hD), div_le_iff₀ (mul_pos hd0 hD)]
    have e2 : (2 * a + 2 * b) * (N / D) * (d * D) = (2 * a + 2 * b) * N * d := by field_simp
    rw [e2]
    refine (abs_add_le _ _).trans ?_
    rw [abs_mul, abs_mul, abs_of_pos hD, abs_of_nonneg hN, abs_sub_comm D d]
    have e3 := mul_le_mul_of_nonneg_right ha hD.le
    have e4 := mul_le_mul_of_nonneg_left hb hN
    have e5 : (a + b) * N * D ≤ (a + b) * N * (2 * d) := mul_le_mul_of_nonneg_left (by linarith) (by positivity)
    nlinarith
  have k2 : (2 * a + 2 * b) * (N / D) ≤ 1 * (N / D) := mul_le_mul_of_nonneg_right (by linarith) hQ
  have k3 : |n / d| ≤ 2 * (N / D) := by
    have := abs_sub_abs_le_abs_sub (n / d) (N / D)
    rw [abs_of_nonneg hQ] at this
    linarith
  refine ⟨hd, k1, k3, ?_⟩
  have m1 := max_small_rnd h (n / d)
  have m2 : |max small (n / d) - max small (N / D)| ≤ |n / d - N / D| := by
    rw [max_comm small, max_comm small]
    exact abs_max_sub_max_le_abs _ _ _
  have m3 := abs_sub_le (max small (rnd (n / d))) (max small (n / d)) (max small (N / D))
  have m4 := mul_le_mul_of_nonneg_left k3 hu.le
  linarith

/-- The free volume `1 - b rho`. -/
theorem free_err (h : Dbl rnd) {bb rho : ℝ} (gm1 Cv qq : Ext) (hb : 0 ≤ bb) (hr : 0 < rho) (hF : bb * rho ≤ 1) :
    ∃ f, Noble.free rnd maxDouble ⟨gm1, Cv, .fin bb, qq⟩ (.fin rho) = .fin f ∧ IsFloat 53 (-1074) f ∧ 0 ≤ f ∧ f ≤ 1 ∧
      |f - (1 - bb * rho)| ≤ 2 * u := by
  have hu := Ieee.u_pos
  have f1 : IsFloat 53 (-1074) 1 := ⟨1, 0, by norm_num, by norm_num, by norm_num⟩
  have hM : (1 : ℝ) ≤ maxDouble := le_trans (by norm_num) maxDouble_large
  have p0 : 0 ≤ bb * rho := mul_nonneg hb hr.le
  set p := rnd (bb * rho) with hp
  have pn : 0 ≤ p := rnd_nonneg h p0
  have p1 : p ≤ 1 := rnd_le h f1 hF
  have e1 : |p - bb * rho| ≤ u := by
    rcases le_or_gt ((2 : ℝ) ^ (-1022 : ℤ)) (bb * rho) with hc | hc
    · have := rnd_rel h hc
      rw [abs_sub_comm]
      refine this.trans ?_
      have : u * (bb * rho) ≤ u * 1 := mul_le_mul_of_nonneg_left hF hu.le
      change u * (bb * rho) ≤ u
      linarith
    · have hf : IsFloat 53 (-1074) ((2 : ℝ) ^ (-1022 : ℤ)) := ⟨1, -1022, by norm_num, by norm_num, by norm_num⟩
      have := rnd_le h hf hc.le
      have h2 : (2 : ℝ) ^ (-1022 : ℤ) ≤ 2 ^ (-53 : ℤ) := zpow_le_zpow_right₀ one_le_two (by norm_num)
      have h3 : (2 : ℝ) ^ (-53 : ℤ) = u := by unfold u; norm_num
      rw [abs_le]
      constructor <;> linarith
  set z := 1 - p with hz
  have z0 : 0 ≤ z := by linarith
  have z1 : z ≤ 1 := by linarith
  have e2 : |rnd z - z| ≤ u := by
    have := rnd_sum h (x := z) (f1.mult.sub (h.isFloat _).mult)
    rw [abs_of_nonneg z0] at this
    nlinarith
  have fz0 : 0 ≤ rnd z := rnd_nonneg h z0
  have fz1 : rnd z ≤ 1 := rnd_le h f1 z1
  refine ⟨rnd z, ?_, h.isFloat _, fz0, fz1, ?_⟩
  · have q1 : mul rnd maxDouble (.fin bb) (.fin rho) = .fin p := ofReal_fin (by rw [abs_of_nonneg pn]; linarith)
    simp only [Noble.free]
    rw [q1]
    exact ofReal_fin (r := 1 + -p) (by
      have : (1 : ℝ) + -p = z := by rw [hz]; ring
      rw [this, abs_of_nonneg fz0]
      linarith)
  · have := abs_sub_le (rnd z) z (1 - bb * rho)
    have e3 : |z - (1 - bb * rho)| = |p - bb * rho| := by
      rw [← abs_neg]; congr 1; rw [hz]; ring
    linarith

end Ieee

open Ieee.Noble

/-- C145: the floors hold for every argument, NaN and infinities included: temperature, pressure, bulk modulus and density are at
least `SMALL`, the energy at least `q`. -/
theorem C145_floors (rnd : ℝ → ℝ) (Ω : ℝ) (g : Noble) (hq : g.qq ≠ .nan) (x y : Ext) :
    (∀ r ∈ [temperature rnd Ω g x y, pressureT rnd Ω g x y, pressureE rnd Ω g x y, bulkModulusT rnd Ω g x y,
      bulkModulusE rnd Ω g x y, (densityEnergy rnd Ω g x y).1], le (.fin small) r) ∧
    ∀ r ∈ [energy rnd Ω g x y, (densityEnergy rnd Ω g x y).2], le g.qq r := by
  refine ⟨?_, ?_⟩ <;> intro r hr <;> simp only [List.mem_cons, List.not_mem_nil, or_false] at hr
  · rcases hr with rfl | rfl | rfl | rfl | rfl | rfl <;> exact le_stdMax (by simp) _
  · rcases hr with rfl | rfl <;> exact le_stdMax hq _

/-- C145 (violated): a NaN energy has the temperature, pressure and bulk modulus `SMALL`, a NaN temperature the energy `q`. -/
theorem C145_nan_violated (rnd : ℝ → ℝ) (Ω : ℝ) (g : Noble) (x : Ext) :
    temperature rnd Ω g x .nan = .fin small ∧ pressureE rnd Ω g x .nan = .fin small ∧ pressureT rnd Ω g x .nan = .fin small ∧
    bulkModulusE rnd Ω g x .nan = .fin small ∧ bulkModulusT rnd Ω g x .nan = .fin small ∧ energy rnd Ω g x .nan = g.qq := by
  have m1 : ∀ v, mul rnd Ω v .nan = .nan := by intro v; cases v <;> rfl
  have a1 : ∀ v, add rnd Ω .nan v = .nan := by intro v; cases v <;> rfl
  have d1 : ∀ v, div rnd Ω .nan v = .nan := by intro v; cases v <;> rfl
  simp only [temperature, pressureE, pressureT, bulkModulusE, bulkModulusT, energy, sub, ratio, m1, a1, d1, stdMax_nan, and_self]

/-- C145: monotone: at a fixed density with `b rho ≤ 1`, the energy does not decrease with the temperature, nor do temperature, pressure
and bulk modulus with the energy, nor pressure and bulk modulus with the temperature, for all arguments up to the infinities. -/
theorem C145_monotone {rnd : ℝ → ℝ} (h : ToNearest 53 (-1074) rnd) {gm1 Cv bb qq rho : ℝ} (hg : 0 < gm1) (hC : 0 < Cv) (hb : 0 ≤ bb)
    (hr : 0 < rho) (hF : bb * rho ≤ 1) (h1 : InRange (gm1 * rho)) (h2 : InRange (gm1 * rho * Cv)) (h3 : InRange (gm1 + 1))
    (h4 : InRange (gm1 * (gm1 + 1))) (h5 : InRange (gm1 * (gm1 + 1) * rho)) (h6 : InRange (gm1 * (gm1 + 1) * rho * Cv)) {x x' : Ext}
    (hx : le x x') :
    let g : Noble := ⟨.fin gm1, .fin Cv, .fin bb, .fin qq⟩
    le (temperature rnd maxDouble g (.fin rho) x) (temperature rnd maxDouble g (.fin rho) x') ∧
    le (energy rnd maxDouble g (.fin rho) x) (energy rnd maxDouble g (.fin rho) x') ∧
    le (pressureE rnd maxDouble g (.fin rho) x) (pressureE rnd maxDouble g (.fin rho) x') ∧
    le (pressureT rnd maxDouble g (.fin rho) x) (pressureT rnd maxDouble g (.fin rho) x') ∧
    le (bulkModulusE rnd maxDouble g (.fin rho) x) (bulkModulusE rnd maxDouble g (.fin rho) x') ∧
    le (bulkModulusT rnd maxDouble g (.fin rho) x) (bulkModulusT rnd maxDouble g (.fin rho) x') := by
  intro g
  have hM : (1 : ℝ) ≤ maxDouble := le_trans (by norm_num) maxDouble_large
  have Ag := Approx.exact hg
  have AC := Approx.exact hC
  have Ar := Approx.exact hr
  have G1 := Ag.add h hg one_pos (Approx.exact one_pos) h3 (by norm_num)
  have GG := Ag.mul h hg h3.pos G1 h4 (by norm_num)
  have GR := GG.mul h h4.pos hr Ar h5 (by norm_num)
  have GC := GR.mul h h5.pos hC AC h6 (by norm_num)
  have R1 := Ag.mul h hg hr Ar h1 (by norm_num)
  have R2 := R1.mul h h1.pos hC AC h2 (by norm_num)
  obtain ⟨r1, hr1, w1⟩ := R1
  obtain ⟨r2, hr2, w2⟩ := R2
  obtain ⟨gr, hgr, wgr⟩ := GR
  obtain ⟨gc, hgc, wgc⟩ := GC
  have p1 := w1.pos h1.pos
  have p2 := w2.pos h2.pos
  have pgr := wgr.pos h5.pos
  have pgc := wgc.pos h6.pos
  obtain ⟨f, hf, ff, f0, f1, -⟩ := free_err h (.fin gm1) (.fin Cv) (.fin qq) hb hr hF
  have hf' : free rnd maxDouble g (.fin rho) = .fin f := hf
  have o1 : IsFloat 53 (-1074) 1 := ⟨1, 0, by norm_num, by norm_num, by norm_num⟩
  have ffl : f * f ≤ 1 := by nlinarith
  have q0 : 0 ≤ rnd (f * f) := rnd_nonneg h (mul_nonneg f0 f0)
  have q1 : rnd (f * f) ≤ maxDouble := (rnd_le h o1 ffl).trans hM
  have hq : mul rnd maxDouble (.fin f) (.fin f) = .fin (rnd (f * f)) := ofReal_fin (by rwa [abs_of_nonneg q0])
  have hnq : le (sub rnd maxDouble x (.fin qq)) (sub rnd maxDouble x' (.fin qq)) := sub_mono h qq hx
  refine ⟨?_, ?_, ?_, ?_, ?_, ?_⟩
  · simp only [temperature, g]
    exact stdMax_mono (by simp) (div_mono_fin h hC hnq)
  · simp only [energy, g]
    exact stdMax_mono (by simp) (add_mono h _ (mul_mono_fin h hC hx))
  · simp only [pressureE, hf']
    simp only [g, hr1]
    exact stdMax_mono (by simp) (ratio_mono h f0 ff (f1.trans hM) (mul_mono_fin h p1 hnq))
  · simp only [pressureT, hf']
    simp only [g, hr2]
    exact stdMax_mono (by simp) (ratio_mono h f0 ff (f1.trans hM) (mul_mono_fin h p2 hx))
  · simp only [bulkModulusE, hf', hq]
    simp only [g, hgr]
    exact stdMax_mono (by simp) (ratio_mono h q0 (h.isFloat _) q1 (mul_mono_fin h pgr hnq))
  · simp only [bulkModulusT, hf', hq]
    simp only [g, hgc]
    exact stdMax_mono (by simp) (ratio_mono h q0 (h.isFloat _) q1 (mul_mono_fin h pgc hx))

/-- C145: energy and temperature lookups: the energy is exact up to 2 roundings, the temperature up to 4 of `(e - q) / Cv`. -/
theorem C145_energy_temperature {rnd : ℝ → ℝ} (h : ToNearest 53 (-1074) rnd) {Cv qq T e : ℝ} (gm1 bb rho : Ext) (hC : 0 < Cv)
    (hqf : IsFloat 53 (-1074) qq) :
    let g : Noble := ⟨gm1, .fin Cv, bb, .fin qq⟩
    (0 < T → 0 ≤ qq → InRange (Cv * T) → InRange (Cv * T + qq) →
      Approx 2 (Cv * T + qq) (energy rnd maxDouble g rho (.fin T))) ∧
    (IsFloat 53 (-1074) e → qq ≤ e → 2 * (e - qq) ≤ maxDouble → 2 * ((e - qq) / Cv) ≤ maxDouble →
      ∃ t, temperature rnd maxDouble g rho (.fin e) = .fin t ∧ |t - max small ((e - qq) / Cv)| ≤ 4 / 2 ^ 53 * ((e - qq) / Cv)) := by
  intro g
  have hu := Ieee.u_pos
  constructor
  · intro hT hq h1 h2
    have A1 := (Approx.exact hC).mul h hC hT (Approx.exact hT) h1 (by norm_num)
    have A2 := A1.add_nonneg h h1.pos hq h2 (by norm_num)
    refine Approx.stdMax (by exact A2) ?_
    intro y hy
    obtain ⟨z, hz, wz⟩ := A1
    rw [hz] at hy
    change add rnd maxDouble (.fin z) (.fin qq) = _ at hy
    have hz0 := wz.pos h1.pos
    have : y = rnd (z + qq) := by
      simp only [add, ofReal] at hy
      split_ifs at hy
      cases hy
      rfl
    rw [this]
    exact rnd_ge h hqf (by linarith)
  · intro hef hqe h1 h2
    have hs0 : 0 ≤ e - qq := by linarith
    set s := e - qq with hs
    have e1 : |rnd s - s| ≤ u * s := by
      have := rnd_sum h (x := s) (hef.mult.sub hqf.mult)
      rwa [abs_of_nonneg hs0] at this
    have s0 : 0 ≤ rnd s := rnd_nonneg h hs0
    have sM : |rnd s| ≤ maxDouble := abs_rnd_le h maxDouble_float (by rw [abs_of_nonneg hs0]; linarith)
    obtain ⟨-, -, k3, k4⟩ := quot_err h (n := rnd s) (d := Cv) (a := u) (b := 0) hs0 hC e1 (by simp) (by unfold u; norm_num)
      (by norm_num) hu.le le_rfl
    refine ⟨max small (rnd (rnd s / Cv)), ?_, ?_⟩
    · have q1 : sub rnd maxDouble (.fin e) (.fin qq) = .fin (rnd s) := ofReal_fin (r := e + -qq) sM
      simp only [temperature, g]
      rw [q1]
      have q2 : div rnd maxDouble (.fin (rnd s)) (.fin Cv) = .fin (rnd (rnd s / Cv)) := by
        simp only [div, if_neg hC.ne']
        exact ofReal_fin (abs_rnd_le h maxDouble_float (k3.trans h2))
      rw [q2, stdMax_fin]
    · refine k4.trans (le_of_eq ?_)
      unfold u
      ring

/-- C145: temperature to energy and back: within 10 roundings of `T + q / Cv`. -/
theorem C145_round_trip {rnd : ℝ → ℝ} (h : ToNearest 53 (-1074) rnd) {Cv qq T : ℝ} (gm1 bb rho rho' : Ext) (hC : 0 < Cv)
    (hqf : IsFloat 53 (-1074) qq) (hq : 0 ≤ qq) (hT : small ≤ T) (h1 : InRange (Cv * T)) (h2 : 4 * (Cv * T + qq) ≤ maxDouble)
    (h3 : 4 * ((Cv * T + qq) / Cv) ≤ maxDouble) :
    let g : Noble := ⟨gm1, .fin Cv, bb, .fin qq⟩
    ∃ t, temperature rnd maxDouble g rho (energy rnd maxDouble g rho' (.fin T)) = .fin t ∧
      |t - T| ≤ 10 / 2 ^ 53 * (T + qq / Cv) := by
  intro g
  have hu := Ieee.u_pos
  have hu1 := u_lt
  have hs := small_pos
  have hT0 : 0 < T := lt_of_lt_of_le hs hT
  have hE1 : Cv * T ≤ Cv * T + qq := by linarith
  have A := (C145_energy_temperature h (T := T) (e := 0) gm1 bb rho' hC hqf).1 hT0 hq h1
    ⟨h1.1.trans hE1, by linarith [maxDouble_pos]⟩
  have hfl : ∀ y, energy rnd maxDouble g rho' (.fin T) = .fin y → IsFloat 53 (-1074) y := by
    intro y hy
    simp only [energy, stdMax] at hy
    split_ifs at hy
    · exact add_isFloat h hy
    · simp only [g] at hy; cases hy; exact hqf
  have hge : le (.fin qq) (energy rnd maxDouble g rho' (.fin T)) :=
    (C145_floors rnd maxDouble g (by simp [g]) rho' (.fin T)).2 _ List.mem_cons_self
  set E := Cv * T + qq with hE
  have hE0 : 0 < E := lt_of_lt_of_le h1.pos hE1
  obtain ⟨e', he, wE⟩ := A
  have he2 : energy rnd maxDouble g rho' (.fin T) = .fin e' := he
  have hef := hfl e' he
  rw [he2] at hge
  have hqe : qq ≤ e' := hge
  have eE : |e' - E| ≤ 4 * (u * E) := by
    have := wE.rel (by norm_num) hE0
    have e : 2 * ((2 : ℕ) : ℝ) / 2 ^ 53 * E = 4 * (u * E) := by unfold u; push_cast; ring
    rwa [e] at this
  have uE : u * E ≤ E / 2 ^ 50 := by nlinarith
  have e2E : e' ≤ 2 * E := by linarith [(abs_le.mp eE).2]
  have b1 : (e' - qq) / Cv ≤ 2 * (E / Cv) := by
    rw [div_le_iff₀ hC]
    have : 2 * (E / Cv) * Cv = 2 * E := by field_simp
    rw [this]
    linarith
  obtain ⟨t, ht, bt⟩ := (C145_energy_temperature h (T := T) (e := e') gm1 bb rho hC hqf).2 hef hqe (by linarith) (by linarith)
  refine ⟨t, ?_, ?_⟩
  · rw [he2]; exact ht
  · have k2 : |(e' - qq) / Cv - T| ≤ 4 * (u * (E / Cv)) := by
      have e3 : (e' - qq) / Cv - T = (e' - E) / Cv := by rw [hE]; field_simp; ring
      rw [e3, abs_div, abs_of_pos hC, div_le_iff₀ hC]
      have : 4 * (u * (E / Cv)) * Cv = 4 * (u * E) := by field_simp
      rw [this]
      exact eE
    have k3 : |max small ((e' - qq) / Cv) - max small T| ≤ |(e' - qq) / Cv - T| := by
      rw [max_comm small, max_comm small]
      exact abs_max_sub_max_le_abs _ _ _
    rw [max_eq_right hT] at k3
    have k4 := abs_sub_le t (max small ((e' - qq) / Cv)) T
    have k5 : (e' - qq) / Cv ≤ T + 4 * (u * (E / Cv)) := by linarith [(abs_le.mp k2).2]
    have hEC : E / Cv = T + qq / Cv := by rw [hE]; field_simp
    have hqC : 0 ≤ qq / Cv := by positivity
    have hQ0 : 0 ≤ E / Cv := by positivity
    have uQ : u * (E / Cv) ≤ E / Cv / 2 ^ 50 := by nlinarith
    have k6 : 4 / 2 ^ 53 * ((e' - qq) / Cv) ≤ 5 * (u * (E / Cv)) := by
      have : 4 / 2 ^ 53 * ((e' - qq) / Cv) = 4 * (u * ((e' - qq) / Cv)) := by unfold u; ring
      rw [this]
      have a1 := mul_le_mul_of_nonneg_left (show (e' - qq) / Cv ≤ 5 / 4 * (E / Cv) by linarith) hu.le
      linarith
    have k7 : 10 / 2 ^ 53 * (T + qq / Cv) = 10 * (u * (E / Cv)) := by rw [hEC]; unfold u; ring
    have k8 : 0 ≤ u * (E / Cv) := by positivity
    rw [k7]
    linarith

/-- C145: the pressure and the bulk modulus of a temperature or an energy: up to a number of roundings divided by the free volume
`1 - b rho`: full accuracy in a dilute gas, less near the packing limit. -/
theorem C145_pressure {rnd : ℝ → ℝ} (h : ToNearest 53 (-1074) rnd) {gm1 Cv bb qq rho T e : ℝ} (hg : 0 < gm1) (hC : 0 < Cv)
    (hb : 0 ≤ bb) (hr : 0 < rho) (hF : 1 / 2 ^ 48 ≤ 1 - bb * rho) (hqf : IsFloat 53 (-1074) qq) (hef : IsFloat 53 (-1074) e) :
    let g : Noble := ⟨.fin gm1, .fin Cv, .fin bb, .fin qq⟩
    let F := 1 - bb * rho
    (0 < T → InRange (gm1 * rho) → InRange (gm1 * rho * Cv) → InRange (gm1 * rho * Cv * T) →
      2 * (gm1 * rho * Cv * T / F) ≤ maxDouble →
      ∃ p, pressureT rnd maxDouble g (.fin rho) (.fin T) = .fin p ∧
        |p - max small (gm1 * rho * Cv * T / F)| ≤ 18 / 2 ^ 53 / F * (gm1 * rho * Cv * T / F)) ∧
    (InRange (e - qq) → InRange (gm1 * rho) → InRange (gm1 * rho * (e - qq)) → 2 * (gm1 * rho * (e - qq) / F) ≤ maxDouble →
      ∃ p, pressureE rnd maxDouble g (.fin rho) (.fin e) = .fin p ∧
        |p - max small (gm1 * rho * (e - qq) / F)| ≤ 18 / 2 ^ 53 / F * (gm1 * rho * (e - qq) / F)) := by
  intro g F
  have hu := Ieee.u_pos
  have hM : (1 : ℝ) ≤ maxDouble := le_trans (by norm_num) maxDouble_large
  have hbr : 0 ≤ bb * rho := mul_nonneg hb hr.le
  have hF' : (1 : ℝ) / 2 ^ 48 ≤ F := hF
  have F0 : 0 < F := lt_of_lt_of_le (by norm_num) hF'
  have F1 : F ≤ 1 := by show 1 - bb * rho ≤ 1; linarith
  obtain ⟨f, hf, ff, f0, f1, ef⟩ := free_err h (.fin gm1) (.fin Cv) (.fin qq) hb hr (by linarith [F0, show F = 1 - bb * rho from rfl])
  have hf' : free rnd maxDouble g (.fin rho) = .fin f := hf
  have uF : 2 * u / F ≤ 1 / 4 := by
    rw [div_le_iff₀ F0]
    have : 2 * u = 1 / 16 * (1 / 2 ^ 48) := by unfold u; norm_num
    rw [this]
    linarith
  have ef' : |f - F| ≤ 2 * u / F * F := by
    rw [div_mul_cancel₀ _ F0.ne']
    exact ef
  have key : ∀ {N : ℝ} {n : Ext}, 0 < N → Approx 3 N n → 2 * (N / F) ≤ maxDouble →
      ∃ p, stdMax (.fin small) (ratio rnd maxDouble n (.fin f)) = .fin p ∧ |p - max small (N / F)| ≤ 18 / 2 ^ 53 / F * (N / F) := by
    intro N n hN An hm
    obtain ⟨y, rfl, wy⟩ := An
    have ey : |y - N| ≤ 6 * u * N := by
      have := wy.rel (by norm_num) hN
      have e : 2 * ((3 : ℕ) : ℝ) / 2 ^ 53 * N = 6 * u * N := by unfold u; push_cast; ring
      rwa [e] at this
    obtain ⟨k1, -, k3, k4⟩ := quot_err h (n := y) (d := f) (a := 6 * u) (b := 2 * u / F) hN.le F0 ey ef' (by unfold u; norm_num)
      uF (by positivity) (by positivity)
    have fp : 0 < f := by linarith
    have f54 : 2 ^ 54 * small ≤ |f| := by
      rw [abs_of_pos fp]
      refine small_tiny.trans (le_trans ?_ k1)
      have : (1 : ℝ) / 2 ^ 96 ≤ 3 / 4 * (1 / 2 ^ 48) := by norm_num
      linarith
    refine ⟨max small (rnd (y / f)), ?_, ?_⟩
    · rw [C135_ratio_is_rounded_quotient h ff (by rw [abs_of_pos fp]; linarith) f54]
      have q : div rnd maxDouble (.fin y) (.fin f) = .fin (rnd (y / f)) := by
        simp only [div, if_neg fp.ne']
        exact ofReal_fin (abs_rnd_le h maxDouble_float (k3.trans hm))
      rw [q, stdMax_fin]
    · refine k4.trans (mul_le_mul_of_nonneg_right ?_ (by positivity))
      have e1 : 18 / 2 ^ 53 / F = 14 * (u / F) + 2 * (2 * u / F) := by unfold u; ring
      have e2 : u ≤ u / F := by
        rw [le_div_iff₀ F0]
        nlinarith
      rw [e1]
      linarith
  constructor
  · intro hT h1 h2 h3 hm
    have A1 := (Approx.exact hg).mul h hg hr (Approx.exact hr) h1 (by norm_num)
    have A2 := A1.mul h h1.pos hC (Approx.exact hC) h2 (by norm_num)
    have A3 := A2.mul h h2.pos hT (Approx.exact hT) h3 (by norm_num)
    simp only [pressureT, hf']
    exact key h3.pos A3 hm
  · intro h0 h1 h2 hm
    have A1 := (Approx.exact hg).mul h hg hr (Approx.exact hr) h1 (by norm_num)
    have As : Approx 1 (e - qq) (sub rnd maxDouble (.fin e) (.fin qq)) := by
      have := ofReal_approx h (k := 0) (by norm_num) h0 (Within.refl h0.pos.le)
      simpa [sub, neg, add, sub_eq_add_neg] using this
    have A3 := A1.mul h h1.pos h0.pos As h2 (by norm_num)
    simp only [pressureE, hf']
    exact key h2.pos A3 hm

/-- C145: the bulk modulus and the Grüneisen parameter likewise. -/
theorem C145_bulk_modulus {rnd : ℝ → ℝ} (h : ToNearest 53 (-1074) rnd) {gm1 Cv bb qq rho T e : ℝ} (hg : 0 < gm1) (hC : 0 < Cv)
    (hb : 0 ≤ bb) (hr : 0 < rho) (hF : 1 / 2 ^ 47 ≤ 1 - bb * rho) (hqf : IsFloat 53 (-1074) qq) (hef : IsFloat 53 (-1074) e)
    (g1 : InRange (gm1 + 1)) (g2 : InRange (gm1 * (gm1 + 1))) (g3 : InRange (gm1 * (gm1 + 1) * rho)) :
    let g : Noble := ⟨.fin gm1, .fin Cv, .fin bb, .fin qq⟩
    let F := 1 - bb * rho
    let H := gm1 * (gm1 + 1) * rho
    (0 < T → InRange (H * Cv) → InRange (H * Cv * T) → 2 * (H * Cv * T / (F * F)) ≤ maxDouble →
      ∃ p, bulkModulusT rnd maxDouble g (.fin rho) (.fin T) = .fin p ∧
        |p - max small (H * Cv * T / (F * F))| ≤ 36 / 2 ^ 53 / F * (H * Cv * T / (F * F))) ∧
    (InRange (e - qq) → InRange (H * (e - qq)) → 2 * (H * (e - qq) / (F * F)) ≤ maxDouble →
      ∃ p, bulkModulusE rnd maxDouble g (.fin rho) (.fin e) = .fin p ∧
        |p - max small (H * (e - qq) / (F * F))| ≤ 36 / 2 ^ 53 / F * (H * (e - qq) / (F * F))) ∧
    (InRange (gm1 / F) → InRange (gm1 / F / 2) → ∃ p, gruneisen rnd maxDouble g (.fin rho) = .fin p ∧
      |p - gm1 / F| ≤ 6 / 2 ^ 53 / F * (gm1 / F)) := by
  intro g F H
  have hu := Ieee.u_pos
  have hM : (1 : ℝ) ≤ maxDouble := le_trans (by norm_num) maxDouble_large
  have hbr : 0 ≤ bb * rho := mul_nonneg hb hr.le
  have hF' : (1 : ℝ) / 2 ^ 47 ≤ F := hF
  have F0 : 0 < F := lt_of_lt_of_le (by norm_num) hF'
  have F1 : F ≤ 1 := by show 1 - bb * rho ≤ 1; linarith
  obtain ⟨f, hf, ff, f0, f1, ef⟩ := free_err h (.fin gm1) (.fin Cv) (.fin qq) hb hr (by linarith [F0, show F = 1 - bb * rho from rfl])
  have hf' : free rnd maxDouble g (.fin rho) = .fin f := hf
  have e0 : u ≤ u / F := by
    rw [le_div_iff₀ F0]
    nlinarith
  have uF : u / F ≤ 1 / 64 := by
    rw [div_le_iff₀ F0]
    have : u = 1 / 64 * (1 / 2 ^ 47) := by unfold u; norm_num
    rw [this]
    linarith
  have uFF : u / F * F = u := div_mul_cancel₀ _ F0.ne'
  have fl : |f - F| ≤ 2 * (u / F) * F := by
    rw [mul_assoc, uFF]; exact ef
  have flo : 3 / 4 * F ≤ f := by
    have := mul_le_mul_of_nonneg_right uF F0.le
    linarith [(abs_le.mp fl).1]
  have fhi : f ≤ 9 / 8 * F := by
    have := mul_le_mul_of_nonneg_right uF F0.le
    linarith [(abs_le.mp fl).2]
  have fp : 0 < f := by linarith
  have FF0 : 0 < F * F := by positivity
  have hsm : ∀ {d : ℝ}, (1 : ℝ) / 2 ^ 96 ≤ d → 2 ^ 54 * small ≤ |d| := by
    intro d hd
    have : (0 : ℝ) < d := lt_of_lt_of_le (by norm_num) hd
    rw [abs_of_pos this]
    exact small_tiny.trans hd
  -- the square of the free volume
  have sq1 : |f * f - F * F| ≤ 5 * (u / F) * (F * F) := by
    have a1 : f * f - F * F = (f - F) * (f + F) := by ring
    rw [a1, abs_mul, abs_of_pos (by linarith : 0 < f + F)]
    have a2 := mul_le_mul fl (show f + F ≤ 5 / 2 * F by linarith) (by linarith) (by positivity)
    have a3 : 2 * (u / F) * F * (5 / 2 * F) = 5 * (u / F) * (F * F) := by ring
    linarith
  have ff0 : 0 < f * f := mul_pos fp fp
  have ffn : (2 : ℝ) ^ (-1022 : ℤ) ≤ f * f := by
    have h2 : (1 : ℝ) / 2 ^ 100 ≤ (3 / 4 * (1 / 2 ^ 47)) * (3 / 4 * (1 / 2 ^ 47)) := by norm_num
    have h3 : 3 / 4 * (1 / 2 ^ 47) ≤ f := by linarith
    have h4 := mul_le_mul h3 h3 (by norm_num) fp.le
    exact normal_tiny.trans (h2.trans h4)
  set d := rnd (f * f) with hd
  have ed : |d - f * f| ≤ u * (f * f) := by rw [abs_sub_comm]; exact rnd_rel h ffn
  have ffF : f * f ≤ 2 * (F * F) := by
    have := mul_le_mul fhi fhi fp.le (by positivity)
    nlinarith
  have ed2 : |d - F * F| ≤ 7 * (u / F) * (F * F) := by
    have a1 := abs_sub_le d (f * f) (F * F)
    have a2 := mul_le_mul_of_nonneg_left ffF hu.le
    have a3 := mul_le_mul_of_nonneg_right e0 FF0.le
    linarith
  have dlo : (1 : ℝ) / 2 ^ 96 ≤ d := by
    have a1 := mul_le_mul_of_nonneg_right uF FF0.le
    have a2 : 3 / 4 * (F * F) ≤ d := by linarith [(abs_le.mp ed2).1]
    have a3 := mul_le_mul hF' hF' (by norm_num) F0.le
    norm_num at a3 ⊢
    linarith
  have dp : 0 < d := lt_of_lt_of_le (by norm_num) dlo
  have o1 : IsFloat 53 (-1074) 1 := ⟨1, 0, by norm_num, by norm_num, by norm_num⟩
  have d1 : d ≤ 1 := rnd_le h o1 (by nlinarith)
  have hq : mul rnd maxDouble (.fin f) (.fin f) = .fin d := ofReal_fin (by rw [← hd, abs_of_pos dp]; linarith)
  have key : ∀ {N : ℝ} {n : Ext}, 0 < N → Approx 5 N n → 2 * (N / (F * F)) ≤ maxDouble →
      ∃ p, stdMax (.fin small) (ratio rnd maxDouble n (.fin d)) = .fin p ∧
        |p - max small (N / (F * F))| ≤ 36 / 2 ^ 53 / F * (N / (F * F)) := by
    intro N n hN An hm
    obtain ⟨y, rfl, wy⟩ := An
    have ey : |y - N| ≤ 10 * u * N := by
      have := wy.rel (by norm_num) hN
      have e : 2 * ((5 : ℕ) : ℝ) / 2 ^ 53 * N = 10 * u * N := by unfold u; push_cast; ring
      rwa [e] at this
    obtain ⟨k1, -, k3, k4⟩ := quot_err h (n := y) (d := d) (a := 10 * u) (b := 7 * (u / F)) hN.le FF0 ey ed2
      (by unfold u; norm_num) (by linarith) (by positivity) (by positivity)
    refine ⟨max small (rnd (y / d)), ?_, ?_⟩
    · rw [C135_ratio_is_rounded_quotient h (h.isFloat _) (by rw [abs_of_pos dp]; linarith) (hsm dlo)]
      have q : div rnd maxDouble (.fin y) (.fin d) = .fin (rnd (y / d)) := by
        simp only [div, if_neg dp.ne']
        exact ofReal_fin (abs_rnd_le h maxDouble_float (k3.trans hm))
      rw [q, stdMax_fin]
    · refine k4.trans (mul_le_mul_of_nonneg_right ?_ (by positivity))
      have e1 : 36 / 2 ^ 53 / F = 36 * (u / F) := by unfold u; ring
      rw [e1]
      linarith
  have G1 := (Approx.exact hg).add h hg one_pos (Approx.exact one_pos) g1 (by norm_num)
  have GG := (Approx.exact hg).mul h hg g1.pos G1 g2 (by norm_num)
  have GR := GG.mul h g2.pos hr (Approx.exact hr) g3 (by norm_num)
  refine ⟨?_, ?_, ?_⟩
  · intro hT h1 h2 hm
    have A2 := GR.mul h g3.pos hC (Approx.exact hC) h1 (by norm_num)
    have A3 := A2.mul h h1.pos hT (Approx.exact hT) h2 (by norm_num)
    simp only [bulkModulusT, hf', hq]
    exact key h2.pos A3 hm
  · intro h0 h1 hm
    have As : Approx 1 (e - qq) (sub rnd maxDouble (.fin e) (.fin qq)) := by
      have := ofReal_approx h (k := 0) (by norm_num) h0 (Within.refl h0.pos.le)
      simpa [sub, neg, add, sub_eq_add_neg] using this
    have A3 := GR.mul h g3.pos h0.pos As h1 (by norm_num)
    simp only [bulkModulusE, hf', hq]
    exact key h1.pos A3 hm
  · intro h1 h2
    obtain ⟨-, k2, k3, -⟩ := quot_err h (n := gm1) (d := f) (a := 0) (b := 2 * (u / F)) hg.le F0 (by simp) fl (by norm_num)
      (by linarith) le_rfl (by positivity)
    have q0 : 0 < gm1 / f := div_pos hg fp
    have qn : (2 : ℝ) ^ (-1022 : ℤ) ≤ gm1 / f := by
      have a1 : gm1 / F / 2 ≤ gm1 / f := by
        rw [div_div, div_le_div_iff_of_pos_left hg (by positivity) fp]
        linarith
      have a2 := h2.1
      have a3 : (2 : ℝ) ^ (-1022 : ℤ) ≤ 2 ^ (-1021 : ℤ) := zpow_le_zpow_right₀ one_le_two (by norm_num)
      linarith
    have er := rnd_rel h qn
    have qM : |gm1 / f| ≤ maxDouble := k3.trans (by linarith [h1.2])
    refine ⟨rnd (gm1 / f), ?_, ?_⟩
    · simp only [gruneisen, hf']
      simp only [g]
      rw [C135_ratio_is_rounded_quotient h ff (by rw [abs_of_pos fp]; linarith)
        (hsm (by norm_num at hF' ⊢; linarith))]
      simp only [div, if_neg fp.ne']
      exact ofReal_fin (abs_rnd_le h maxDouble_float qM)
    · have a1 := abs_sub_le (rnd (gm1 / f)) (gm1 / f) (gm1 / F)
      rw [abs_sub_comm] at er
      rw [abs_of_pos q0] at k3
      have a2 := mul_le_mul_of_nonneg_left k3 hu.le
      have a3 : 6 / 2 ^ 53 / F * (gm1 / F) = 6 * (u / F) * (gm1 / F) := by unfold u; ring
      have a4 : u * (gm1 / F) ≤ u / F * (gm1 / F) := mul_le_mul_of_nonneg_right e0 h1.pos.le
      have a5 : (1 : ℝ) / 2 ^ 53 * (gm1 / f) = u * (gm1 / f) := rfl
      rw [a5] at er
      rw [a3]
      linarith

/-- C145: density and energy of a positive pressure and temperature are exact up to 4 and 2 roundings (nothing cancels). -/
theorem C145_density_energy {rnd : ℝ → ℝ} (h : ToNearest 53 (-1074) rnd) {gm1 Cv bb P T : ℝ} (qq : Ext) (hg : 0 < gm1) (hC : 0 < Cv)
    (hb : 0 < bb) (hP : 0 < P) (hT : 0 < T) (h1 : InRange (gm1 * Cv)) (h2 : InRange (gm1 * Cv * T)) (h3 : InRange (bb * P))
    (h4 : 2 ^ 55 * small ≤ gm1 * Cv * T + bb * P) (h4' : gm1 * Cv * T + bb * P ≤ maxDouble / 2)
    (h5 : InRange (P / (gm1 * Cv * T + bb * P))) (h6 : 2 * small ≤ P / (gm1 * Cv * T + bb * P)) (x : Ext) :
    let g : Noble := ⟨.fin gm1, .fin Cv, .fin bb, qq⟩
    let r := densityEnergy rnd maxDouble g (.fin P) (.fin T)
    Approx 4 (P / (gm1 * Cv * T + bb * P)) r.1 ∧ r.2 = energy rnd maxDouble g x (.fin T) := by
  intro g r
  have A1 := (Approx.exact hg).mul h hg hC (Approx.exact hC) h1 (by norm_num)
  have A2 := A1.mul h h1.pos hT (Approx.exact hT) h2 (by norm_num)
  have A3 := (Approx.exact hb).mul h hb hP (Approx.exact hP) h3 (by norm_num)
  have A4 := A2.add h h2.pos h3.pos A3 ⟨guard_ge.trans h4, h4'⟩ (by norm_num)
  have A5 := (Approx.exact hP).ratio h hP h4 h4' A4 (fun y hy => add_isFloat h hy) h5 (by norm_num)
  exact ⟨A5.floor h6 (by norm_num), rfl⟩

/-- C145 (violated): beyond the packing limit the pressure is not large but `SMALL`: for `b = 1` and any finite density of 2 or more,
whatever the positive temperature. -/
theorem C145_overpacked_violated {rnd : ℝ → ℝ} (h : ToNearest 53 (-1074) rnd) {gm1 Cv rho T : ℝ} (qq : Ext) (hg : 0 < gm1) (hC : 0 < Cv)
    (hrf : IsFloat 53 (-1074) rho) (hr : 2 ≤ rho) (hrm : rho ≤ maxDouble) (hT : 0 < T) :
    pressureT rnd maxDouble ⟨.fin gm1, .fin Cv, .fin 1, qq⟩ (.fin rho) (.fin T) = .fin small := by
  have hr0 : 0 < rho := by linarith
  have hs := small_pos
  have e1 : mul rnd maxDouble (.fin 1) (.fin rho) = .fin rho := by
    have : ofReal rnd maxDouble rho = .fin (rnd rho) := ofReal_fin (by rw [h.exact hrf, abs_of_pos hr0]; exact hrm)
    simp only [mul, one_mul, this, h.exact hrf]
  set z := 1 - rho with hz
  have o1 : IsFloat 53 (-1074) (-1) := ⟨-1, 0, by norm_num, by norm_num, by norm_num⟩
  have z1 : rnd z ≤ -1 := rnd_le h o1 (by linarith)
  have zM : |rnd z| ≤ maxDouble := abs_rnd_le h maxDouble_float (by rw [hz, abs_le]; constructor <;> linarith [maxDouble_pos])
  have e2 : free rnd maxDouble ⟨.fin gm1, .fin Cv, .fin 1, qq⟩ (.fin rho) = .fin (rnd z) := by
    simp only [free, e1]
    exact ofReal_fin (r := 1 + -rho) zM
  simp only [pressureT, e2]
  -- the numerator is not negative (it may overflow), the denominator negative
  have nn : ∀ a b : Ext, NonNeg a → NonNeg b → mul rnd maxDouble a b = .nan ∨ NonNeg (mul rnd maxDouble a b) := fun a b => mul_nonNeg h
  have hnn : ∀ v : Ext, v = .nan ∨ NonNeg v → ∀ y : ℝ, 0 < y →
      mul rnd maxDouble v (.fin y) = .nan ∨ NonNeg (mul rnd maxDouble v (.fin y)) := by
    rintro v (rfl | hv) y hy
    · left; rfl
    · exact nn v (.fin y) hv hy.le
  have n1 := nn (.fin gm1) (.fin rho) hg.le hr0.le
  have n2 := hnn _ n1 Cv hC
  have n3 := hnn _ n2 T hT
  refine stdMax_of_not_lt ?_
  obtain ⟨d1, -, -, -, d5, -⟩ := den_rnd h (h.isFloat z) zM
  have dn := d5 (by linarith)
  unfold ratio
  rw [add_small_fin h, ofReal_fin d1]
  generalize mul rnd maxDouble (mul rnd maxDouble (mul rnd maxDouble (.fin gm1) (.fin rho)) (.fin Cv)) (.fin T) = v at n3 ⊢
  generalize rnd (den (rnd z)) = D at dn ⊢
  rcases n3 with rfl | hv
  · simp [div, lt]
  · rcases v with _ | s | v
    · simp [div, lt]
    · simp only [NonNeg, le] at hv
      subst hv
      simp [div, lt, dn]
    · simp only [NonNeg, le] at hv
      have q0 : v / D ≤ 0 := div_nonpos_of_nonneg_of_nonpos hv dn.le
      have r0 : rnd (v / D) ≤ 0 := rnd_le h isFloat_zero q0
      simp only [div, if_neg dn.ne, ofReal]
      split_ifs with c
      · by_cases c2 : v / D < 0
        · simp [lt, c2]
        · exfalso
          have : v / D = 0 := le_antisymm q0 (not_lt.mp c2)
          rw [this, rnd_zero h, abs_zero] at c
          linarith [maxDouble_pos]
      · simp only [lt]
        linarith

namespace Ieee

theorem guard_le {x : ℝ} (hx : 1 ≤ x) : 2 ^ 55 * small ≤ x := by
  have h1 := small_tiny
  have h2 : (2 : ℝ) ^ 55 * small = 2 * (2 ^ 54 * small) := by ring
  have h3 : (2 : ℝ) * (1 / 2 ^ 96) ≤ 1 := by norm_num
  linarith

theorem small_le_of {x : ℝ} (hx : 1 ≤ x) : 2 * small ≤ x := by
  have h1 := guard_le hx
  have := small_pos
  nlinarith

theorem isFloat_nat (n : ℕ) (hn : n < 2 ^ 53) : IsFloat 53 (-1074) (n : ℝ) :=
  ⟨n, 0, by rw [abs_of_nonneg (by positivity)]; exact_mod_cast hn, by norm_num, by simp⟩

theorem le_maxD {x : ℝ} (hx : x ≤ 2 ^ 99) : x ≤ maxDouble := hx.trans (le_trans (by norm_num) maxDouble_large)

end Ieee

/-- The hypotheses of C144 are met: water (`gm1 = 5/4`, `Cv = 1.8·10^7`, `Pinf = 10^{10}`, `q = 0`, `rho = 1`): the temperature 300 comes back
within 10^{-11}; its pressure, bulk modulus and density are computed too. -/
example : ∃ rnd, ToNearest 53 (-1074) rnd ∧
    (∃ t, Stiff.temperature rnd maxDouble ⟨.fin (5 / 4), .fin 18000000, .fin 10000000000, .fin 0⟩ (.fin 1)
      (Stiff.energy rnd maxDouble ⟨.fin (5 / 4), .fin 18000000, .fin 10000000000, .fin 0⟩ (.fin 1) (.fin 300)) = .fin t ∧
      |t - 300| ≤ 1 / 10 ^ 11) ∧
    (∃ p, Stiff.pressureT rnd maxDouble ⟨.fin (5 / 4), .fin 18000000, .fin 10000000000, .fin 0⟩ (.fin 1) (.fin 1000) = .fin p ∧
      |p - 12500000000| ≤ 1) ∧
    (∃ p, Stiff.pressureE rnd maxDouble ⟨.fin (5 / 4), .fin 18000000, .fin 10000000000, .fin 0⟩ (.fin 1) (.fin 28000000000) = .fin p ∧
      |p - 12500000000| ≤ 1) ∧
    (∃ b, Stiff.bulkModulusE rnd maxDouble ⟨.fin (5 / 4), .fin 18000000, .fin 10000000000, .fin 0⟩ (.fin 1) (.fin 28000000000) = .fin b ∧
      |b - 50625000000| ≤ 1) ∧
    Approx 4 (5 / 9) (Stiff.densityEnergy rnd maxDouble ⟨.fin (5 / 4), .fin 18000000, .fin 10000000000, .fin 0⟩ (.fin 2500000000)
      (.fin 1000)).1 := by
  obtain ⟨rnd, h⟩ := exists_toNearest (p := 53) (emin := -1074) (by norm_num)
  have f10 : IsFloat 53 (-1074) (10000000000 : ℝ) := by exact_mod_cast isFloat_nat 10000000000 (by norm_num)
  have fe : IsFloat 53 (-1074) (28000000000 : ℝ) := by exact_mod_cast isFloat_nat 28000000000 (by norm_num)
  have f1 : IsFloat 53 (-1074) (1 : ℝ) := by exact_mod_cast isFloat_nat 1 (by norm_num)
  have ht : (2 : ℝ) ^ (-1072 : ℤ) ≤ 1 / 2 ^ 60 := by
    have h1 : (2 : ℝ) ^ (-1072 : ℤ) ≤ 2 ^ (-60 : ℤ) := zpow_le_zpow_right₀ one_le_two (by norm_num)
    refine h1.trans (le_of_eq ?_)
    norm_num
  have hs1 : small ≤ 1 := by
    have := small_le_of (le_refl 1)
    linarith [small_pos]
  refine ⟨rnd, h, ?_, ?_, ?_, ?_, ?_⟩
  · obtain ⟨t, h1, h2⟩ := C144_round_trip h (.fin (5 / 4)) (Cv := 18000000) (Pinf := 10000000000) (qq := 0) (rho := 1) (T := 300)
      (by norm_num) (by norm_num) f10 le_rfl isFloat_zero f1 (guard_le le_rfl) (inRange_of (by norm_num) (by norm_num)).2
      (hs1.trans (by norm_num)) (guard_le (by norm_num)) (inRange_of (by norm_num) (by norm_num)).2
      (inRange_of (by norm_num) (by norm_num)) (inRange_of (by norm_num) (by norm_num)) (le_maxD (by norm_num)) (le_maxD (by norm_num))
      (le_maxD (by norm_num))
    exact ⟨t, h1, h2.trans (by norm_num)⟩
  · obtain ⟨p, h1, h2⟩ := C144_pressure_temperature h (.fin 0) (gm1 := 5 / 4) (Cv := 18000000) (Pinf := 10000000000) (rho := 1) (T := 1000)
      (by norm_num) (by norm_num) (by norm_num) f10 (le_maxD (by norm_num)) (by norm_num) (by norm_num)
      (inRange_of (by norm_num) (by norm_num)) (inRange_of (by norm_num) (by norm_num)) (inRange_of (by norm_num) (by norm_num))
    refine ⟨p, h1, ?_⟩
    norm_num at h2 ⊢
    linarith
  · obtain ⟨p, h1, h2⟩ := C144_pressure_energy h (.fin 18000000) (gm1 := 5 / 4) (Pinf := 10000000000) (qq := 0) (rho := 1)
      (e := 28000000000) (by norm_num) (by norm_num) isFloat_zero fe (by norm_num) (by norm_num)
      (inRange_of (by norm_num) (by norm_num)) (le_maxD (by norm_num)) (le_maxD (by norm_num)) (le_maxD (by norm_num)) (le_maxD (by norm_num))
    refine ⟨p, h1, ?_⟩
    have h3 : max (-10000000000 : ℝ) (5 / 4 * 1 * (28000000000 - 0) - (5 / 4 + 1) * 10000000000) = 12500000000 := by norm_num
    rw [h3] at h2
    refine h2.trans ?_
    have h4 : (8 : ℝ) / 2 ^ 53 * (5 / 4 * 1 * (28000000000 - 0) + (5 / 4 + 1) * 10000000000) ≤ 1 / 2 := by norm_num
    have h5 : (1 : ℝ) / 2 ^ 60 ≤ 1 / 2 := by norm_num
    linarith
  · obtain ⟨p, h1, h2⟩ := (C144_bulk_modulus h (gm1 := 5 / 4) (Cv := 18000000) (Pinf := 10000000000) (qq := 0) (rho := 1) (T := 1)
      (e := 28000000000) (by norm_num) (by norm_num) (by norm_num) (by norm_num) (by norm_num) f10 isFloat_zero fe (by norm_num)
      (inRange_of (by norm_num) (by norm_num)) (inRange_of (by norm_num) (by norm_num))).2 (le_maxD (by norm_num)) (le_maxD (by norm_num))
      (le_maxD (by norm_num))
    refine ⟨p, h1, ?_⟩
    have h3 : max small ((5 : ℝ) / 4 * (5 / 4 + 1) * (1 * (28000000000 - 0) - 10000000000)) = 50625000000 := by
      rw [max_eq_right (hs1.trans (by norm_num))]
      norm_num
    rw [h3] at h2
    refine h2.trans ?_
    have h4 : (5 : ℝ) / 4 * (5 / 4 + 1) * (20 / 2 ^ 53 * (1 * (28000000000 - 0) + 10000000000)) ≤ 1 / 2 := by norm_num
    have h5 : (5 : ℝ) / 4 * (5 / 4 + 1) * (1 / 2 ^ 60) ≤ 1 / 2 := by norm_num
    have h6 : (5 : ℝ) / 4 * (5 / 4 + 1) * 2 ^ (-1072 : ℤ) ≤ 5 / 4 * (5 / 4 + 1) * (1 / 2 ^ 60) := mul_le_mul_of_nonneg_left ht (by norm_num)
    rw [mul_add]
    linarith
  · have := (C144_density_energy h (gm1 := 5 / 4) (Cv := 18000000) (Pinf := 10000000000) (qq := 0) (P := 2500000000) (T := 1000)
      (by norm_num) (by norm_num) (by norm_num) le_rfl isFloat_zero (by norm_num) (by norm_num)).1 (inRange_of (by norm_num) (by norm_num))
      (inRange_of (by norm_num) (by norm_num)) (guard_le (by norm_num)) (inRange_of (by norm_num) (by norm_num)).2
      (by have := small_le_of (le_refl 1)
          have h2 := guard_le (le_refl 1)
          norm_num
          nlinarith [small_pos]) (inRange_of (by norm_num) (by norm_num))
    norm_num at this
    exact this

/-- The hypotheses of C145 are met: a gas with `b = 1/2`, `q = 1` at density 1 and temperature 300, half the packing density. -/
example : ∃ rnd, ToNearest 53 (-1074) rnd ∧
    (∃ t, temperature rnd maxDouble ⟨.fin (1 / 2), .fin 1000, .fin (1 / 2), .fin 1⟩ (.fin 1)
      (energy rnd maxDouble ⟨.fin (1 / 2), .fin 1000, .fin (1 / 2), .fin 1⟩ (.fin 1) (.fin 300)) = .fin t ∧ |t - 300| ≤ 1 / 10 ^ 12) ∧
    (∃ p, pressureT rnd maxDouble ⟨.fin (1 / 2), .fin 1000, .fin (1 / 2), .fin 1⟩ (.fin 1) (.fin 300) = .fin p ∧
      |p - 300000| ≤ 1 / 10 ^ 8) ∧
    (∃ p, bulkModulusT rnd maxDouble ⟨.fin (1 / 2), .fin 1000, .fin (1 / 2), .fin 1⟩ (.fin 1) (.fin 300) = .fin p ∧
      |p - 900000| ≤ 1 / 10 ^ 8) ∧
    Approx 4 (3 / 4) (densityEnergy rnd maxDouble ⟨.fin (1 / 2), .fin 1000, .fin (1 / 2), .fin 1⟩ (.fin 180000) (.fin 300)).1 := by
  obtain ⟨rnd, h⟩ := exists_toNearest (p := 53) (emin := -1074) (by norm_num)
  have f1 : IsFloat 53 (-1074) (1 : ℝ) := by exact_mod_cast isFloat_nat 1 (by norm_num)
  have hs1 : small ≤ 1 := by
    have := small_le_of (le_refl 1)
    linarith [small_pos]
  refine ⟨rnd, h, ?_, ?_, ?_, ?_⟩
  · obtain ⟨t, h1, h2⟩ := C145_round_trip h (.fin (1 / 2)) (.fin (1 / 2)) (.fin 1) (.fin 1) (Cv := 1000) (qq := 1) (T := 300) (by norm_num)
      f1 (by norm_num) (hs1.trans (by norm_num)) (inRange_of (by norm_num) (by norm_num)) (le_maxD (by norm_num)) (le_maxD (by norm_num))
    exact ⟨t, h1, h2.trans (by norm_num)⟩
  · obtain ⟨p, h1, h2⟩ := (C145_pressure h (gm1 := 1 / 2) (Cv := 1000) (bb := 1 / 2) (qq := 1) (rho := 1) (T := 300) (e := 1) (by norm_num)
      (by norm_num) (by norm_num) (by norm_num) (by norm_num) f1 f1).1 (by norm_num) (inRange_of (by norm_num) (by norm_num))
      (inRange_of (by norm_num) (by norm_num)) (inRange_of (by norm_num) (by norm_num)) (le_maxD (by norm_num))
    refine ⟨p, h1, ?_⟩
    rw [max_eq_right (hs1.trans (by norm_num))] at h2
    norm_num at h2 ⊢
    linarith
  · obtain ⟨p, h1, h2⟩ := (C145_bulk_modulus h (gm1 := 1 / 2) (Cv := 1000) (bb := 1 / 2) (qq := 1) (rho := 1) (T := 300) (e := 1)
      (by norm_num) (by norm_num) (by norm_num) (by norm_num) (by norm_num) f1 f1 (inRange_of (by norm_num) (by norm_num))
      (inRange_of (by norm_num) (by norm_num)) (inRange_of (by norm_num) (by norm_num))).1 (by norm_num)
      (inRange_of (by norm_num) (by norm_num)) (inRange_of (by norm_num) (by norm_num)) (le_maxD (by norm_num))
    refine ⟨p, h1, ?_⟩
    rw [max_eq_right (hs1.trans (by norm_num))] at h2
    norm_num at h2 ⊢
    linarith
  · have := (C145_density_energy h (gm1 := 1 / 2) (Cv := 1000) (bb := 1 / 2) (P := 180000) (T := 300) (.fin 1) (by norm_num) (by norm_num)
      (by norm_num) (by norm_num) (by norm_num) (inRange_of (by norm_num) (by norm_num)) (inRange_of (by norm_num) (by norm_num))
      (inRange_of (by norm_num) (by norm_num)) (guard_le (by norm_num)) (inRange_of (by norm_num) (by norm_num)).2
      (inRange_of (by norm_num) (by norm_num)) (by
          have h2 := guard_le (le_refl 1)
          norm_num
          nlinarith [small_pos]) .nan).1
    norm_num at this
    exact this

end Verif
