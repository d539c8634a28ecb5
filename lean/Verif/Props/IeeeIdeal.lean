import Verif.Lemmas.IeeeArith
import Verif.Model.IeeeIdeal

/-! # C137: the ideal gas in machine arithmetic -/

namespace Verif

open Ieee Rounding

namespace Ieee

variable {rnd : ℝ → ℝ}

theorem nonNeg_max0 (x : Ext) : max0 x = .nan ∨ NonNeg (max0 x) := by
  unfold max0 NonNeg
  rcases x with _ | s | x
  · left; simp [lt]
  · right; cases s <;> simp [lt, le]
  · right
    by_cases hx : x < 0
    · simp [lt, hx, le]
    · simp only [lt, hx, if_false, le]; linarith

theorem max0_of_nonNeg {x : Ext} (h : NonNeg x) : max0 x = x := by
  unfold max0
  rw [if_neg]
  rcases x with _ | s | x
  · simp [lt]
  · cases s
    · simp [lt]
    · simp [NonNeg, le] at h
  · simp only [NonNeg, le] at h
    simp only [lt, not_lt]; exact h

theorem max0_nan_iff (x : Ext) : max0 x = .nan ↔ x = .nan := by
  unfold max0
  split_ifs with h
  · constructor
    · intro h; cases h
    · rintro rfl; simp [lt] at h
  · rfl

theorem max0_of_nonpos {x : Ext} (h : le x (.fin 0)) : max0 x = .fin 0 := by
  unfold max0
  rcases x with _ | s | x
  · simp [le] at h
  · cases s <;> simp [le] at h
    simp [lt]
  · simp only [le] at h
    by_cases hx : x < 0
    · simp [lt, hx]
    · have : x = 0 := le_antisymm h (not_lt.mp hx)
      subst this
      simp [lt]

theorem le_refl_of {x : Ext} (h : x ≠ .nan) : le x x := by
  rcases x with _ | s | x
  · exact absurd rfl h
  · cases s <;> simp [le]
  · simp [le]

theorem le_trans' {x y z : Ext} (h : le x y) (h' : le y z) : le x z := by
  rcases x with _ | s | x <;> rcases y with _ | t | y <;> rcases z with _ | r | z <;> simp_all [le]
  · grind
  · linarith

theorem le_total_of {x y : Ext} (hx : x ≠ .nan) (hy : y ≠ .nan) : le x y ∨ le y x := by
  rcases x with _ | s | x <;> rcases y with _ | t | y <;> simp_all [le]
  · cases s <;> cases t <;> simp
  · exact _root_.le_total x y

theorem ne_nan_of_nonNeg {x : Ext} (h : NonNeg x) : x ≠ .nan := by
  rintro rfl; simp [NonNeg, le] at h

theorem ofReal_ne_nan (Ω r : ℝ) : ofReal rnd Ω r ≠ .nan := by
  unfold ofReal; split_ifs <;> simp

theorem ofReal_nonNeg (h : Dbl rnd) {Ω r : ℝ} (hr : 0 ≤ r) : NonNeg (ofReal rnd Ω r) := by
  unfold ofReal NonNeg
  split_ifs
  · simp [le, hr]
  · simp only [le]; exact rnd_nonneg h hr

theorem ofReal_mono (h : Dbl rnd) {Ω r s : ℝ} (hr : 0 ≤ r) (hrs : r ≤ s) :
    le (ofReal rnd Ω r) (ofReal rnd Ω s) := by
  have h1 := rnd_mono h hrs
  have h2 := rnd_nonneg h hr
  unfold ofReal
  rw [abs_of_nonneg h2, abs_of_nonneg (h2.trans h1)]
  have e1 : ¬ r < 0 := not_lt.mpr hr
  have e2 : ¬ s < 0 := not_lt.mpr (hr.trans hrs)
  split_ifs with c1 c2 c2
  · simp [le, e2]
  · exact absurd (lt_of_lt_of_le c1 h1) c2
  · simp [le, e2]
  · simpa [le] using h1

theorem mul_nonNeg (h : Dbl rnd) {a b : Ext} (ha : NonNeg a) (hb : NonNeg b) :
    mul rnd maxDouble a b = .nan ∨ NonNeg (mul rnd maxDouble a b) := by
  rcases a with _ | s | x <;> rcases b with _ | t | y <;> simp_all [NonNeg, le, mul]
  · by_cases hy : y = 0
    · simp [hy]
    · right
      rw [if_neg hy]
      simp [hb]
  · by_cases hy : x = 0
    · simp [hy]
    · right
      rw [if_neg hy]
      simp [ha]
  · exact Or.inr (ofReal_nonNeg h (mul_nonneg ha hb))

theorem mul_mono (h : Dbl rnd) {a b a' b' : Ext} (ha : NonNeg a) (hb : NonNeg b) (haa : le a a') (hbb : le b b')
    (hn : mul rnd maxDouble a b ≠ .nan) (hn' : mul rnd maxDouble a' b' ≠ .nan) :
    le (mul rnd maxDouble a b) (mul rnd maxDouble a' b') := by
  have hN' : NonNeg a' := le_trans' ha haa
  have hM' : NonNeg b' := le_trans' hb hbb
  -- an infinite factor makes the larger product infinite
  have hinf : ∀ c d : Ext, NonNeg c → NonNeg d → mul rnd maxDouble c d ≠ .nan → (c = .inf false ∨ d = .inf false) →
      mul rnd maxDouble c d = .inf false := by
    intro c d hc hd hcd hor
    rcases hor with rfl | rfl
    · rcases d with _ | t | y <;> simp_all [NonNeg, le, mul]
    · rcases c with _ | t | y <;> simp_all [NonNeg, le, mul]
  have htop : ∀ x : Ext, x ≠ .nan → le x (.inf false) := by
    intro x hx
    rcases x with _ | s | x
    · exact absurd rfl hx
    · simp [le]
    · simp [le]
  by_cases hc : a' = .inf false ∨ b' = .inf false
  · rw [hinf a' b' hN' hM' hn' hc]
    exact htop _ hn
  · push Not at hc
    rcases a with _ | s | x <;> rcases a' with _ | s' | x' <;> simp_all [NonNeg, le]
    rcases b with _ | t | y <;> rcases b' with _ | t' | y' <;> simp_all [le, mul]
    exact ofReal_mono h (mul_nonneg ha hb) (mul_le_mul haa hbb hb hN')

theorem mul_nonpos (h : Dbl rnd) {a b : Ext} (ha : NonNeg a) (hb : le b (.fin 0)) (hn : mul rnd maxDouble a b ≠ .nan) :
    le (mul rnd maxDouble a b) (.fin 0) := by
  rcases a with _ | s | x <;> rcases b with _ | t | y <;> simp_all [NonNeg, le, mul]
  · exact lt_of_le_of_ne hb hn
  · have hr : rnd (x * y) ≤ 0 := rnd_le h isFloat_zero (mul_nonpos_of_nonneg_of_nonpos ha hb)
    unfold ofReal
    split_ifs with c
    · have : x * y < 0 := by
        rcases lt_or_eq_of_le (mul_nonpos_of_nonneg_of_nonpos ha hb) with h1 | h1
        · exact h1
        · rw [h1, rnd_zero h, abs_zero] at c
          linarith [maxDouble_pos]
      simp [this]
    · simpa using hr

theorem max0_mul_mono (h : Dbl rnd) {a b a' b' : Ext} (ha : NonNeg a) (haa : le a a') (hbb : le b b')
    (hn : mul rnd maxDouble a b ≠ .nan) (hn' : mul rnd maxDouble a' b' ≠ .nan) :
    le (max0 (mul rnd maxDouble a b)) (max0 (mul rnd maxDouble a' b')) := by
  have hb : b ≠ .nan := by rintro rfl; simp [le] at hbb
  rcases le_total_of hb (y := .fin 0) (by simp) with hb0 | hb0
  · rw [max0_of_nonpos (mul_nonpos h ha hb0 hn)]
    rcases nonNeg_max0 (mul rnd maxDouble a' b') with h1 | h1
    · exact absurd ((max0_nan_iff _).1 h1) hn'
    · exact h1
  · have h1 := (mul_nonNeg h ha hb0).resolve_left hn
    have h2 := (mul_nonNeg h (le_trans' ha haa) (le_trans' hb0 hbb)).resolve_left hn'
    rw [max0_of_nonNeg h1, max0_of_nonNeg h2]
    exact mul_mono h ha hb0 haa hbb hn hn'

theorem mul_nan_left (x : Ext) : mul rnd maxDouble .nan x = .nan := by cases x <;> rfl

theorem Approx.max0 {k : ℕ} {x : ℝ} {v : Ext} (hx : 0 < x) (hv : Approx k x v) : Approx k x (max0 v) := by
  obtain ⟨y, rfl, hy⟩ := hv
  rw [max0_of_nonNeg]
  · exact ⟨y, rfl, hy⟩
  · simp only [NonNeg, le]; exact (hy.pos hx).le

theorem InRange.pos {x : ℝ} (h : InRange x) : 0 < x := lt_of_lt_of_le (two_zpow_pos _) h.1

end Ieee

open Ieee.Ideal

/-- C137: the temperature, energy, pressure, bulk modulus and (from pressure and temperature) density of the ideal gas are never
negative, for all arguments and parameters, NaN and infinities included; they may be NaN. -/
theorem C137_never_negative (rnd : ℝ → ℝ) (Ω : ℝ) (g : Ideal) (x y : Ext) :
    ∀ r ∈ [temperature rnd Ω g x y, energy rnd Ω g x y, pressureT rnd Ω g x y, pressureE rnd Ω g x y, bulkModulusT rnd Ω g x y,
      bulkModulusE rnd Ω g x y, (densityEnergy rnd Ω g x y).1, (densityEnergy rnd Ω g x y).2], r = .nan ∨ NonNeg r := by
  intro r hr
  simp only [List.mem_cons, List.not_mem_nil, or_false] at hr
  rcases hr with rfl | rfl | rfl | rfl | rfl | rfl | rfl | rfl <;> exact nonNeg_max0 _

/-- C137: in range, each lookup of the ideal gas is the exact value up to its number of roundings (at most 5). -/
theorem C137_lookups {rnd : ℝ → ℝ} (h : ToNearest 53 (-1074) rnd) {gm1 Cv rho T e : ℝ} (hg : 0 < gm1) (hC : 0 < Cv) (hr : 0 < rho)
    (hT : 0 < T) (he : 0 < e) :
    let g : Ideal := ⟨.fin gm1, .fin Cv⟩
    (InRange (e / Cv) → Approx 1 (e / Cv) (temperature rnd maxDouble g (.fin rho) (.fin e))) ∧
    (InRange (Cv * T) → Approx 1 (Cv * T) (energy rnd maxDouble g (.fin rho) (.fin T))) ∧
    (InRange (gm1 * rho) → InRange (gm1 * rho * e) →
      Approx 2 (gm1 * rho * e) (pressureE rnd maxDouble g (.fin rho) (.fin e))) ∧
    (InRange (gm1 * rho) → InRange (gm1 * rho * Cv) → InRange (gm1 * rho * Cv * T) →
      Approx 3 (gm1 * rho * Cv * T) (pressureT rnd maxDouble g (.fin rho) (.fin T))) ∧
    (InRange (gm1 + 1) → InRange ((gm1 + 1) * gm1) → InRange ((gm1 + 1) * gm1 * rho) → InRange ((gm1 + 1) * gm1 * rho * e) →
      Approx 4 ((gm1 + 1) * gm1 * rho * e) (bulkModulusE rnd maxDouble g (.fin rho) (.fin e))) ∧
    (InRange (gm1 + 1) → InRange ((gm1 + 1) * gm1) → InRange ((gm1 + 1) * gm1 * rho) → InRange ((gm1 + 1) * gm1 * rho * Cv) →
      InRange ((gm1 + 1) * gm1 * rho * Cv * T) →
      Approx 5 ((gm1 + 1) * gm1 * rho * Cv * T) (bulkModulusT rnd maxDouble g (.fin rho) (.fin T))) := by
  have Ag := Approx.exact hg
  have AC := Approx.exact hC
  have Ar := Approx.exact hr
  have AT := Approx.exact hT
  have Ae := Approx.exact he
  have A1 := Approx.exact (zero_lt_one (α := ℝ))
  have hg1 : 0 < gm1 + 1 := by linarith
  refine ⟨?_, ?_, ?_, ?_, ?_, ?_⟩
  · intro h1
    exact (Ae.div h he hC AC h1 (by norm_num)).max0 h1.pos
  · intro h1
    exact (AC.mul h hC hT AT h1 (by norm_num)).max0 h1.pos
  · intro h1 h2
    exact ((Ag.mul h hg hr Ar h1 (by norm_num)).mul h h1.pos he Ae h2 (by norm_num)).max0 h2.pos
  · intro h1 h2 h3
    exact (((Ag.mul h hg hr Ar h1 (by norm_num)).mul h h1.pos hC AC h2 (by norm_num)).mul h h2.pos hT AT h3
      (by norm_num)).max0 h3.pos
  · intro h0 h1 h2 h3
    exact ((((Ag.add h hg zero_lt_one A1 h0 (by norm_num)).mul h h0.pos hg Ag h1 (by norm_num)).mul h h1.pos hr Ar h2
      (by norm_num)).mul h h2.pos he Ae h3 (by norm_num)).max0 h3.pos
  · intro h0 h1 h2 h3 h4
    exact (((((Ag.add h hg zero_lt_one A1 h0 (by norm_num)).mul h h0.pos hg Ag h1 (by norm_num)).mul h h1.pos hr Ar h2
      (by norm_num)).mul h h2.pos hC AC h3 (by norm_num)).mul h h3.pos hT AT h4 (by norm_num)).max0 h4.pos

/-- C137: temperature to energy and back, and energy to temperature and back, return the start up to 2 roundings, in range. -/
theorem C137_round_trip {rnd : ℝ → ℝ} (h : ToNearest 53 (-1074) rnd) {Cv T e : ℝ} (hC : 0 < Cv) (gm1 rho rho' : Ext)
    (hT : InRange T) (he : InRange e) :
    let g : Ideal := ⟨gm1, .fin Cv⟩
    (InRange (Cv * T) → Approx 2 T (temperature rnd maxDouble g rho (energy rnd maxDouble g rho' (.fin T)))) ∧
    (InRange (e / Cv) → Approx 2 e (energy rnd maxDouble g rho (temperature rnd maxDouble g rho' (.fin e)))) := by
  have AC := Approx.exact hC
  have AT := Approx.exact hT.pos
  have Ae := Approx.exact he.pos
  constructor
  · intro h1
    have e1 : Cv * T / Cv = T := by field_simp
    have := ((AC.mul h hC hT.pos AT h1 (by norm_num)).max0 h1.pos).div h h1.pos hC AC (by rw [e1]; exact hT) (by norm_num)
    rw [e1] at this
    exact this.max0 hT.pos
  · intro h1
    have e1 : Cv * (e / Cv) = e := by field_simp
    have := AC.mul h hC h1.pos ((Ae.div h he.pos hC AC h1 (by norm_num)).max0 h1.pos) (by rw [e1]; exact he) (by norm_num)
    rw [e1] at this
    exact this.max0 he.pos

/-- C137: the pressure computed from energy and the pressure computed from the temperature of that energy agree up to 6 roundings. -/
theorem C137_pressure_routes {rnd : ℝ → ℝ} (h : ToNearest 53 (-1074) rnd) {gm1 Cv rho e : ℝ} (hg : 0 < gm1) (hC : 0 < Cv)
    (hr : 0 < rho) (he : 0 < e) (h1 : InRange (e / Cv)) (h2 : InRange (gm1 * rho)) (h3 : InRange (gm1 * rho * Cv))
    (h4 : InRange (gm1 * rho * e)) :
    ∃ P P' : ℝ, pressureE rnd maxDouble ⟨.fin gm1, .fin Cv⟩ (.fin rho) (.fin e) = .fin P ∧
      pressureT rnd maxDouble ⟨.fin gm1, .fin Cv⟩ (.fin rho)
        (temperature rnd maxDouble ⟨.fin gm1, .fin Cv⟩ (.fin rho) (.fin e)) = .fin P' ∧ Within 6 P P' := by
  have Ag := Approx.exact hg
  have AC := Approx.exact hC
  have Ar := Approx.exact hr
  have Ae := Approx.exact he
  have e1 : gm1 * rho * Cv * (e / Cv) = gm1 * rho * e := by field_simp
  obtain ⟨P, hP, hw⟩ := ((Ag.mul h hg hr Ar h2 (by norm_num)).mul h h2.pos he Ae h4 (by norm_num)).max0 h4.pos
  have A2 := ((Ag.mul h hg hr Ar h2 (by norm_num)).mul h h2.pos hC AC h3 (by norm_num)).mul h h3.pos h1.pos
    ((Ae.div h he hC AC h1 (by norm_num)).max0 h1.pos) (by rw [e1]; exact h4) (by norm_num)
  rw [e1] at A2
  obtain ⟨P', hP', hw'⟩ := A2.max0 h4.pos
  exact ⟨P, P', hP, hP', hw.symm.trans hw'⟩

/-- C137: density to pressure (at a temperature) and back by `DensityEnergyFromPressureTemperature` returns the density up to 6
roundings, and the returned energy is the one of the temperature. -/
theorem C137_density_round_trip {rnd : ℝ → ℝ} (h : ToNearest 53 (-1074) rnd) {gm1 Cv rho T : ℝ} (hg : 0 < gm1) (hC : 0 < Cv)
    (hT : 0 < T) (hr : InRange rho) (h1 : InRange (gm1 * rho)) (h2 : InRange (gm1 * rho * Cv))
    (h3 : InRange (gm1 * rho * Cv * T)) (h4 : InRange (Cv * T)) (h5 : InRange (gm1 * (Cv * T))) (x : Ext) :
    let g : Ideal := ⟨.fin gm1, .fin Cv⟩
    let r := densityEnergy rnd maxDouble g (pressureT rnd maxDouble g (.fin rho) (.fin T)) (.fin T)
    Approx 6 rho r.1 ∧ r.2 = energy rnd maxDouble g x (.fin T) := by
  have Ag := Approx.exact hg
  have AC := Approx.exact hC
  have Ar := Approx.exact hr.pos
  have AT := Approx.exact hT
  refine ⟨?_, rfl⟩
  have AP := (((Ag.mul h hg hr.pos Ar h1 (by norm_num)).mul h h1.pos hC AC h2 (by norm_num)).mul h h2.pos hT AT h3
      (by norm_num)).max0 h3.pos
  have AE := Ag.mul h hg h4.pos ((AC.mul h hC hT AT h4 (by norm_num)).max0 h4.pos) h5 (by norm_num)
  have e1 : gm1 * rho * Cv * T / (gm1 * (Cv * T)) = rho := by field_simp
  have := AP.div h h3.pos h5.pos AE (by rw [e1]; exact hr) (by norm_num)
  rw [e1] at this
  exact this.max0 hr.pos

/-- C137: pressure to energy (at a density) by `InternalEnergyFromDensityPressure` and back returns the pressure up to 2 roundings:
the rounded `gm1 ρ` is the same in both. -/
theorem C137_energy_from_pressure {rnd : ℝ → ℝ} (h : ToNearest 53 (-1074) rnd) {gm1 rho P : ℝ} (Cv : Ext) (hg : 0 < gm1)
    (hr : 0 < rho) (h1 : InRange (gm1 * rho)) (hP : InRange P) (h2 : InRange (2 * (P / (gm1 * rho))))
    (h3 : InRange (P / (gm1 * rho) / 2)) :
    let g : Ideal := ⟨.fin gm1, Cv⟩
    Approx 2 P (pressureE rnd maxDouble g (.fin rho) (energyP rnd maxDouble g (.fin rho) (.fin P))) := by
  intro g
  have Ag := Approx.exact hg
  have Ar := Approx.exact hr
  obtain ⟨q, hq, hw⟩ := Ag.mul h hg hr Ar h1 (by norm_num)
  have hq0 := hw.pos h1.pos
  have hq1 : P / (gm1 * rho) / 2 ≤ P / q ∧ P / q ≤ 2 * (P / (gm1 * rho)) := by
    have hh := wk_half (k := 1) (by norm_num)
    rw [within_iff] at hw
    simp only [Nat.zero_add] at hw
    have a1 := hw.1
    have a2 := hw.2
    have b1 : 1 / 2 * (gm1 * rho) ≤ q := (mul_le_mul_of_nonneg_right hh h1.pos.le).trans a1
    have b2 : 1 / 2 * q ≤ gm1 * rho := (mul_le_mul_of_nonneg_right hh hq0.le).trans a2
    constructor
    · rw [div_div, div_le_div_iff_of_pos_left hP.pos (by have := h1.pos; positivity) hq0]
      linarith
    · rw [← mul_div_assoc, div_le_div_iff₀ hq0 h1.pos]
      have := hP.pos
      nlinarith
  have hqr : InRange (P / q) := ⟨h3.1.trans hq1.1, hq1.2.trans h2.2⟩
  have AE := (Approx.exact hP.pos).div h hP.pos hq0 (Approx.exact hq0) hqr (by norm_num)
  have e1 : q * (P / q) = P := by field_simp
  have := (Approx.exact hq0).mul h hq0 hqr.pos AE (by rw [e1]; exact hP) (by norm_num)
  rw [e1] at this
  unfold pressureE energyP
  rw [show mul rnd maxDouble g.gm1 (.fin rho) = .fin q from hq]
  exact this.max0 hP.pos

/-- C137: the reference state of the constructor is consistent: the pressure at the reference density and temperature is the
reference pressure up to 6 roundings, the bulk modulus `γ P₀` up to 8,
`dpde` is `P₀ / sie₀` up to 4 and `dvdt` is `1 / (ρ₀ T₀)` up to 5. -/
theorem C137_reference {rnd : ℝ → ℝ} (h : ToNearest 53 (-1074) rnd) {gm1 Cv P0 T0 : ℝ} (hg : 0 < gm1) (hC : 0 < Cv) (hP : InRange P0)
    (hT : 0 < T0) (h1 : InRange (gm1 * Cv)) (h2 : InRange (gm1 * Cv * T0)) (h3 : InRange (P0 / (gm1 * Cv * T0)))
    (h4 : InRange (gm1 * (P0 / (gm1 * Cv * T0)))) (h5 : InRange (P0 / T0)) (h6 : InRange (gm1 + 1)) (h7 : InRange ((gm1 + 1) * gm1))
    (h8 : InRange ((gm1 + 1) * gm1 * (P0 / (gm1 * Cv * T0)))) (h9 : InRange ((gm1 + 1) * (P0 / T0))) (h10 : InRange ((gm1 + 1) * P0))
    (h11 : InRange (P0 / (gm1 * Cv))) (h12 : InRange (gm1 * Cv / P0)) :
    let g : Ideal := ⟨.fin gm1, .fin Cv⟩
    let r0 := rho0 rnd maxDouble g (.fin P0) (.fin T0)
    Approx 3 (P0 / (gm1 * Cv * T0)) r0 ∧ Approx 6 P0 (pressureT rnd maxDouble g r0 (.fin T0)) ∧
      Approx 8 ((gm1 + 1) * P0) (bmod0 rnd maxDouble g (.fin P0) (.fin T0)) ∧
      Approx 4 (P0 / (Cv * T0)) (dpde0 rnd maxDouble g (.fin P0) (.fin T0)) ∧
      Approx 5 (gm1 * Cv / P0) (dvdt0 rnd maxDouble g (.fin P0) (.fin T0)) ∧
      bmod0 rnd maxDouble g (.fin P0) (.fin T0) = bulkModulusT rnd maxDouble g r0 (.fin T0) ∧
      sie0 rnd maxDouble g (.fin T0) = energy rnd maxDouble g r0 (.fin T0) := by
  intro g r0
  have Ag := Approx.exact hg
  have AC := Approx.exact hC
  have AP := Approx.exact hP.pos
  have AT := Approx.exact hT
  have A1 := Approx.exact (zero_lt_one (α := ℝ))
  have A0 : Approx 3 (P0 / (gm1 * Cv * T0)) r0 :=
    AP.div h hP.pos h2.pos ((Ag.mul h hg hC AC h1 (by norm_num)).mul h h1.pos hT AT h2 (by norm_num)) h3 (by norm_num)
  have Ad := Ag.mul h hg h3.pos A0 h4 (by norm_num)
  have e1 : gm1 * (P0 / (gm1 * Cv * T0)) * Cv = P0 / T0 := by field_simp
  have e2 : P0 / T0 * T0 = P0 := by field_simp
  have Ad2 := Ad.mul h h4.pos hC AC (by rw [e1]; exact h5) (by norm_num)
  rw [e1] at Ad2
  have Ad3 := Ad2.mul h h5.pos hT AT (by rw [e2]; exact hP) (by norm_num)
  rw [e2] at Ad3
  have e3 : (gm1 + 1) * gm1 * (P0 / (gm1 * Cv * T0)) * Cv = (gm1 + 1) * (P0 / T0) := by field_simp
  have e4 : (gm1 + 1) * (P0 / T0) * T0 = (gm1 + 1) * P0 := by field_simp
  have AB := ((Ag.add h hg zero_lt_one A1 h6 (by norm_num)).mul h h6.pos hg Ag h7 (by norm_num)).mul h h7.pos h3.pos A0 h8
    (by norm_num)
  have AB2 := AB.mul h h8.pos hC AC (by rw [e3]; exact h9) (by norm_num)
  rw [e3] at AB2
  have AB3 := AB2.mul h h9.pos hT AT (by rw [e4]; exact h10) (by norm_num)
  rw [e4] at AB3
  refine ⟨A0, Ad3.max0 hP.pos, AB3, ?_, ?_, ?_, ?_⟩
  · have e5 : gm1 * (P0 / (gm1 * Cv * T0)) = P0 / (Cv * T0) := by field_simp
    rw [← e5]
    exact Ad
  · have e6 : P0 / (gm1 * Cv * T0) * T0 = P0 / (gm1 * Cv) := by field_simp
    have e7 : 1 / (P0 / (gm1 * Cv)) = gm1 * Cv / P0 := one_div_div _ _
    have Av := A0.mul h h3.pos hT AT (by rw [e6]; exact h11) (by norm_num)
    rw [e6] at Av
    have Aw := A1.div h zero_lt_one h11.pos Av (by rw [e7]; exact h12) (by norm_num)
    rw [e7] at Aw
    exact Aw
  · obtain ⟨b, hb, hbw⟩ := AB3
    unfold bulkModulusT
    rw [max0_of_nonNeg]
    · rfl
    · change NonNeg (bmod0 rnd maxDouble g (.fin P0) (.fin T0))
      unfold bmod0
      rw [show mul rnd maxDouble (mul rnd maxDouble (mul rnd maxDouble (mul rnd maxDouble (add rnd maxDouble g.gm1 (.fin 1)) g.gm1)
        (rho0 rnd maxDouble g (.fin P0) (.fin T0))) g.Cv) (.fin T0) = .fin b from hb]
      exact (hbw.pos h10.pos).le
  · unfold energy sie0
    rw [max0_of_nonNeg]
    exact ofReal_nonNeg h (mul_pos hC hT).le

/-- C137: pressure is monotone in density and in energy for all machine numbers with a density that is not negative (energies of
any sign, infinities included), as long as neither result is NaN. -/
theorem C137_pressure_monotone {rnd : ℝ → ℝ} (h : ToNearest 53 (-1074) rnd) (g : Ideal) (hg : NonNeg g.gm1) {r r' e e' : Ext}
    (hr : NonNeg r) (hrr : le r r') (hee : le e e') (hn : pressureE rnd maxDouble g r e ≠ .nan)
    (hn' : pressureE rnd maxDouble g r' e' ≠ .nan) :
    le (pressureE rnd maxDouble g r e) (pressureE rnd maxDouble g r' e') := by
  unfold pressureE at *
  have m1 : mul rnd maxDouble (mul rnd maxDouble g.gm1 r) e ≠ .nan := fun hc => hn ((max0_nan_iff _).2 hc)
  have m2 : mul rnd maxDouble (mul rnd maxDouble g.gm1 r') e' ≠ .nan := fun hc => hn' ((max0_nan_iff _).2 hc)
  have q1 : mul rnd maxDouble g.gm1 r ≠ .nan := fun hc => m1 (by rw [hc, mul_nan_left])
  have q2 : mul rnd maxDouble g.gm1 r' ≠ .nan := fun hc => m2 (by rw [hc, mul_nan_left])
  exact max0_mul_mono h ((mul_nonNeg h hg hr).resolve_left q1)
    (mul_mono h hg hr (le_refl_of (ne_nan_of_nonNeg hg)) hrr q1 q2) hee m1 m2

/-- C137: the pressure and the bulk modulus as functions of density and temperature, and the bulk modulus as a function of density and
energy, are monotone in the same way. -/
theorem C137_other_monotone {rnd : ℝ → ℝ} (h : ToNearest 53 (-1074) rnd) (g : Ideal) (hg : NonNeg g.gm1) (hC : NonNeg g.Cv)
    {r r' x x' : Ext} (hr : NonNeg r) (hrr : le r r') (hxx : le x x') :
    (pressureT rnd maxDouble g r x ≠ .nan → pressureT rnd maxDouble g r' x' ≠ .nan →
      le (pressureT rnd maxDouble g r x) (pressureT rnd maxDouble g r' x')) ∧
    (bulkModulusT rnd maxDouble g r x ≠ .nan → bulkModulusT rnd maxDouble g r' x' ≠ .nan →
      le (bulkModulusT rnd maxDouble g r x) (bulkModulusT rnd maxDouble g r' x')) ∧
    (bulkModulusE rnd maxDouble g r x ≠ .nan → bulkModulusE rnd maxDouble g r' x' ≠ .nan →
      le (bulkModulusE rnd maxDouble g r x) (bulkModulusE rnd maxDouble g r' x')) := by
  -- the two shapes `c ρ x` and `c ρ Cv x`
  have two : ∀ c : Ext, (c = .nan ∨ NonNeg c) → max0 (mul rnd maxDouble (mul rnd maxDouble c r) x) ≠ .nan →
      max0 (mul rnd maxDouble (mul rnd maxDouble c r') x') ≠ .nan →
      le (max0 (mul rnd maxDouble (mul rnd maxDouble c r) x)) (max0 (mul rnd maxDouble (mul rnd maxDouble c r') x')) := by
    intro c hc hn hn'
    have m1 : mul rnd maxDouble (mul rnd maxDouble c r) x ≠ .nan := fun hc => hn ((max0_nan_iff _).2 hc)
    have m2 : mul rnd maxDouble (mul rnd maxDouble c r') x' ≠ .nan := fun hc => hn' ((max0_nan_iff _).2 hc)
    have q1 : mul rnd maxDouble c r ≠ .nan := fun hc => m1 (by rw [hc, mul_nan_left])
    have q2 : mul rnd maxDouble c r' ≠ .nan := fun hc => m2 (by rw [hc, mul_nan_left])
    have hc0 : NonNeg c := hc.resolve_left (fun h0 => q1 (by rw [h0, mul_nan_left]))
    exact max0_mul_mono h ((mul_nonNeg h hc0 hr).resolve_left q1)
      (mul_mono h hc0 hr (le_refl_of (ne_nan_of_nonNeg hc0)) hrr q1 q2) hxx m1 m2
  have three : ∀ c : Ext, (c = .nan ∨ NonNeg c) →
      max0 (mul rnd maxDouble (mul rnd maxDouble (mul rnd maxDouble c r) g.Cv) x) ≠ .nan →
      max0 (mul rnd maxDouble (mul rnd maxDouble (mul rnd maxDouble c r') g.Cv) x') ≠ .nan →
      le (max0 (mul rnd maxDouble (mul rnd maxDouble (mul rnd maxDouble c r) g.Cv) x))
        (max0 (mul rnd maxDouble (mul rnd maxDouble (mul rnd maxDouble c r') g.Cv) x')) := by
    intro c hc hn hn'
    have m1 : mul rnd maxDouble (mul rnd maxDouble (mul rnd maxDouble c r) g.Cv) x ≠ .nan := fun hc => hn ((max0_nan_iff _).2 hc)
    have m2 : mul rnd maxDouble (mul rnd maxDouble (mul rnd maxDouble c r') g.Cv) x' ≠ .nan :=
      fun hc => hn' ((max0_nan_iff _).2 hc)
    have q1 : mul rnd maxDouble (mul rnd maxDouble c r) g.Cv ≠ .nan := fun hc => m1 (by rw [hc, mul_nan_left])
    have q2 : mul rnd maxDouble (mul rnd maxDouble c r') g.Cv ≠ .nan := fun hc => m2 (by rw [hc, mul_nan_left])
    have p1 : mul rnd maxDouble c r ≠ .nan := fun hc => q1 (by rw [hc, mul_nan_left])
    have p2 : mul rnd maxDouble c r' ≠ .nan := fun hc => q2 (by rw [hc, mul_nan_left])
    have hc0 : NonNeg c := hc.resolve_left (fun h0 => p1 (by rw [h0, mul_nan_left]))
    have n1 := (mul_nonNeg h hc0 hr).resolve_left p1
    have l1 := mul_mono h hc0 hr (le_refl_of (ne_nan_of_nonNeg hc0)) hrr p1 p2
    exact max0_mul_mono h ((mul_nonNeg h n1 hC).resolve_left q1)
      (mul_mono h n1 hC l1 (le_refl_of (ne_nan_of_nonNeg hC)) q1 q2) hxx m1 m2
  have hg1 : NonNeg (add rnd maxDouble g.gm1 (.fin 1)) := by
    rcases hgm : g.gm1 with _ | s | y
    · rw [hgm] at hg; simp [NonNeg, le] at hg
    · rw [hgm] at hg; simpa [NonNeg, le, add] using hg
    · rw [hgm] at hg
      have : 0 ≤ y := hg
      exact ofReal_nonNeg h (by linarith)
  have hgg := mul_nonNeg h hg1 hg
  exact ⟨three _ (Or.inr hg), three _ hgg, two _ hgg⟩

/-- C137: temperature is monotone in the energy, and energy in the temperature, for all finite parameters and machine numbers. -/
theorem C137_temperature_monotone {rnd : ℝ → ℝ} (h : ToNearest 53 (-1074) rnd) {Cv : ℝ} (gm1 : Ext) (hC : 0 < Cv) (r r' : Ext)
    {x x' : Ext} (hx : le x x') :
    let g : Ideal := ⟨gm1, .fin Cv⟩
    le (temperature rnd maxDouble g r x) (temperature rnd maxDouble g r' x') ∧
      le (energy rnd maxDouble g r x) (energy rnd maxDouble g r' x') := by
  have hx0 : x ≠ .nan := by rintro rfl; simp [le] at hx
  have hx1 : x' ≠ .nan := by rintro rfl; cases x <;> simp [le] at hx
  have hm : ∀ y : Ext, y ≠ .nan → mul rnd maxDouble (.fin Cv) y ≠ .nan := by
    intro y hy
    rcases y with _ | s | y
    · exact absurd rfl hy
    · simp [mul, hC.ne']
    · exact ofReal_ne_nan _ _
  have hd : ∀ y : Ext, y ≠ .nan → div rnd maxDouble y (.fin Cv) ≠ .nan := by
    intro y hy
    rcases y with _ | s | y
    · exact absurd rfl hy
    · simp [div]
    · simp only [div, if_neg hC.ne']; exact ofReal_ne_nan _ _
  have hCn : NonNeg (.fin Cv) := hC.le
  refine ⟨?_, max0_mul_mono h hCn (le_refl_of (by simp)) hx (hm x hx0) (hm x' hx1)⟩
  unfold temperature
  dsimp only
  rcases le_total_of hx0 (y := .fin 0) (by simp) with h0 | h0
  · rw [max0_of_nonpos]
    · rcases nonNeg_max0 (div rnd maxDouble x' (.fin Cv)) with h1 | h1
      · exact absurd ((max0_nan_iff _).1 h1) (hd x' hx1)
      · exact h1
    · rcases x with _ | s | x
      · exact absurd rfl hx0
      · simp only [le] at h0
        subst h0
        simp [div, not_lt.mpr hC.le, le]
      · simp only [le] at h0
        simp only [div, if_neg hC.ne']
        have hr : rnd (x / Cv) ≤ 0 := rnd_le h isFloat_zero (div_nonpos_of_nonpos_of_nonneg h0 hC.le)
        unfold ofReal
        split_ifs with c
        · have : x / Cv < 0 := by
            rcases lt_or_eq_of_le (div_nonpos_of_nonpos_of_nonneg h0 hC.le) with h1 | h1
            · exact h1
            · rw [h1, rnd_zero h, abs_zero] at c
              linarith [maxDouble_pos]
          simp [le, this]
        · simpa [le] using hr
  · rcases x with _ | s | x
    · exact absurd rfl hx0
    · have hs : s = false := by cases s <;> simp_all [le]
      subst hs
      rcases x' with _ | s' | x'
      · exact absurd rfl hx1
      · have hs : s' = false := by cases s' <;> simp_all [le]
        subst hs
        exact le_refl_of (by rw [Ne, max0_nan_iff]; exact hd _ (by simp))
      · simp [le] at hx
    · have h0' : 0 ≤ x := h0
      have n1 : NonNeg (div rnd maxDouble (.fin x) (.fin Cv)) := by
        simp only [div, if_neg hC.ne']
        exact ofReal_nonNeg h (div_nonneg h0' hC.le)
      rcases x' with _ | s' | x'
      · exact absurd rfl hx1
      · have hs : s' = false := by cases s' <;> simp_all [le]
        subst hs
        rw [max0_of_nonNeg n1]
        have : div rnd maxDouble (.inf false) (.fin Cv) = .inf false := by simp [div, not_lt.mpr hC.le]
        rw [this, max0_of_nonNeg (by simp [NonNeg, le])]
        simp only [div, if_neg hC.ne']
        unfold ofReal
        split_ifs <;> simp [le]
      · have hx' : x ≤ x' := hx
        have n2 : NonNeg (div rnd maxDouble (.fin x') (.fin Cv)) := by
          simp only [div, if_neg hC.ne']
          exact ofReal_nonNeg h (div_nonneg (h0'.trans hx') hC.le)
        rw [max0_of_nonNeg n1, max0_of_nonNeg n2]
        simp only [div, if_neg hC.ne']
        exact ofReal_mono h (div_nonneg h0' hC.le) (div_le_div_of_nonneg_right hx' hC.le)

/-- C137: for finite arguments the pressure is NaN exactly when `gm1 ρ` overflows and the energy is zero. -/
theorem C137_pressure_nan_iff {rnd : ℝ → ℝ} (gm1 rho e : ℝ) (Cv : Ext) :
    pressureE rnd maxDouble ⟨.fin gm1, Cv⟩ (.fin rho) (.fin e) = .nan ↔ maxDouble < |rnd (gm1 * rho)| ∧ e = 0 := by
  unfold pressureE
  rw [max0_nan_iff]
  change mul rnd maxDouble (ofReal rnd maxDouble (gm1 * rho)) (.fin e) = .nan ↔ _
  unfold ofReal
  split_ifs with c
  · simp only [mul, c, true_and]
    by_cases he : e = 0
    · simp [he]
    · simp [he]
  · simp only [mul, c, false_and, iff_false]
    exact ofReal_ne_nan _ _

/-- C137 fails in one point: intermediate overflow. For `gm1 = 2`, `ρ = 2^1023` and `e = 2^-1000` the exact pressure `2^24` is a
`double`, but the computed one is infinite; at zero energy it is NaN. -/
theorem C137_overflow_violated {rnd : ℝ → ℝ} (h : ToNearest 53 (-1074) rnd) (Cv : Ext) :
    pressureE rnd maxDouble ⟨.fin 2, Cv⟩ (.fin (2 ^ 1023)) (.fin (2 ^ (-1000 : ℤ))) = .inf false ∧
      (2 : ℝ) * 2 ^ 1023 * 2 ^ (-1000 : ℤ) = 2 ^ 24 ∧
      pressureE rnd maxDouble ⟨.fin 2, Cv⟩ (.fin (2 ^ 1023)) (.fin 0) = .nan := by
  have e0 : (2 : ℝ) * 2 ^ 1023 = 2 ^ (1024 : ℤ) := by
    rw [← pow_succ']; rw [← zpow_natCast]; rfl
  have hf : IsFloat 53 (-1074) ((2 : ℝ) ^ (1024 : ℤ)) := ⟨1, 1024, by norm_num, by norm_num, by simp⟩
  have hlt : maxDouble < (2 : ℝ) ^ (1024 : ℤ) := by
    have : (2 : ℝ) ^ (1024 : ℤ) = 2 ^ 53 * 2 ^ 971 := by rw [← pow_add, ← zpow_natCast]; rfl
    rw [this]
    unfold maxDouble
    have h9 : (0 : ℝ) < 2 ^ 971 := by positivity
    exact mul_lt_mul_of_pos_right (by norm_num) h9
  have ho : maxDouble < |rnd (2 * 2 ^ 1023)| := by
    rw [e0, h.exact hf, abs_of_pos (two_zpow_pos _)]; exact hlt
  refine ⟨?_, ?_, (C137_pressure_nan_iff _ _ _ _).2 ⟨ho, rfl⟩⟩
  · have h1 : mul rnd maxDouble (.fin 2) (.fin (2 ^ 1023)) = .inf false := by
      simp only [mul, ofReal, if_pos ho]
      have : ¬ ((2 : ℝ) * 2 ^ 1023 < 0) := not_lt.mpr (by positivity)
      simp only [this, decide_false]
    unfold pressureE
    dsimp only
    rw [h1]
    have h2 := two_zpow_pos (-1000)
    have : mul rnd maxDouble (.inf false) (.fin ((2 : ℝ) ^ (-1000 : ℤ))) = .inf false := by
      simp only [mul, if_neg h2.ne', not_lt.mpr h2.le, decide_false]
      rfl
    rw [this]
    exact max0_of_nonNeg (by simp [NonNeg, le])
  · rw [e0, ← two_zpow_add]
    rw [show (1024 + -1000 : ℤ) = ((24 : ℕ) : ℤ) by norm_num, zpow_natCast]

/-- C137 fails in another point: at zero pressure and zero temperature, a state of the gas, the density from pressure and temperature is
NaN; and at zero temperature and positive pressure it is infinite. -/
theorem C137_cold_density_violated {rnd : ℝ → ℝ} (h : ToNearest 53 (-1074) rnd) (gm1 Cv P : ℝ) (hP : 0 < P) :
    (densityEnergy rnd maxDouble ⟨.fin gm1, .fin Cv⟩ (.fin 0) (.fin 0)).1 = .nan ∧
      (densityEnergy rnd maxDouble ⟨.fin gm1, .fin Cv⟩ (.fin P) (.fin 0)).1 = .inf false := by
  have hz : ∀ x : ℝ, mul rnd maxDouble (.fin x) (.fin 0) = .fin 0 := by
    intro x
    simp only [mul, mul_zero, ofReal, rnd_zero h, abs_zero, if_neg (not_lt.mpr maxDouble_pos.le)]
  have hm : max0 (.fin 0) = .fin 0 := max0_of_nonpos (by simp [le])
  unfold densityEnergy
  simp only [hz, hm]
  constructor
  · rw [max0_nan_iff]; simp [div]
  · have : div rnd maxDouble (.fin P) (.fin 0) = .inf false := by simp [div, hP.ne', not_lt.mpr hP.le]
    rw [this]
    exact max0_of_nonNeg (by simp [NonNeg, le])

/-- C137 fails in a third: `CheckParams` accepts `gm1 = 0` and `Cv = 0`, and then temperature and density are NaN or infinite for
ordinary states. -/
theorem C137_zero_parameters_violated {rnd : ℝ → ℝ} (h : ToNearest 53 (-1074) rnd) (gm1 : Ext) (r : Ext) (e : ℝ) (he : 0 < e) :
    temperature rnd maxDouble ⟨gm1, .fin 0⟩ r (.fin 0) = .nan ∧ temperature rnd maxDouble ⟨gm1, .fin 0⟩ r (.fin e) = .inf false ∧
      (densityEnergy rnd maxDouble ⟨.fin 0, .fin 1⟩ (.fin 0) (.fin 1)).1 = .nan := by
  refine ⟨?_, ?_, ?_⟩
  · unfold temperature; rw [max0_nan_iff]; simp [div]
  · have : div rnd maxDouble (.fin e) (.fin 0) = .inf false := by simp [div, he.ne', not_lt.mpr he.le]
    unfold temperature
    dsimp only
    rw [this]
    exact max0_of_nonNeg (by simp [NonNeg, le])
  · unfold densityEnergy
    dsimp only
    rw [max0_nan_iff]
    have h1 : max0 (mul rnd maxDouble (.fin 1) (.fin 1)) = .fin 1 := by
      have e1 : rnd (1 * 1) = 1 := by
        rw [mul_one]; exact h.exact ⟨1, 0, by norm_num, by norm_num, by norm_num⟩
      have e2 : ¬ maxDouble < 1 := by
        have h1 := maxDouble_large
        have h3 : (1 : ℝ) ≤ 2 ^ 100 := by norm_num
        exact not_lt.mpr (h3.trans h1)
      simp only [mul, ofReal, e1, abs_one, if_neg e2]
      exact max0_of_nonNeg (by simp [NonNeg, le])
    rw [h1]
    simp only [mul, ofReal, zero_mul, rnd_zero h, abs_zero, if_neg (not_lt.mpr maxDouble_pos.le)]
    simp [div]

/-- The ordinary numbers are in range. -/
theorem Ieee.inRange_of {x : ℝ} (h1 : 1 / 2 ^ 100 ≤ x) (h2 : x ≤ 2 ^ 99) : InRange x := by
  constructor
  · refine le_trans ?_ h1
    have h3 : (2 : ℝ) ^ (-1021 : ℤ) ≤ 2 ^ (-100 : ℤ) := zpow_le_zpow_right₀ one_le_two (by norm_num)
    refine h3.trans (le_of_eq ?_)
    rw [zpow_neg, one_div]
    norm_cast
  · have := maxDouble_large
    refine h2.trans ?_
    have h4 : (2 : ℝ) ^ 100 = 2 ^ 99 * 2 := by norm_num
    linarith

/-- The hypotheses are met: air (`gm1 = 1/2`, `Cv = 7·10^6`, `ρ = 10^{-3}`, `T = 300`) for a double rounding; the density comes back
within `12 · 2^{-53}` of itself. -/
example : ∃ rnd, ToNearest 53 (-1074) rnd ∧ ∃ y,
    (densityEnergy rnd maxDouble ⟨.fin (1 / 2), .fin 7000000⟩
      (pressureT rnd maxDouble ⟨.fin (1 / 2), .fin 7000000⟩ (.fin (1 / 1000)) (.fin 300)) (.fin 300)).1 = .fin y ∧
    |y - 1 / 1000| ≤ 12 / 2 ^ 53 * (1 / 1000) := by
  obtain ⟨rnd, h⟩ := exists_toNearest (p := 53) (emin := -1074) (by norm_num)
  refine ⟨rnd, h, ?_⟩
  obtain ⟨y, hy, hw⟩ := (C137_density_round_trip h (gm1 := 1 / 2) (Cv := 7000000) (rho := 1 / 1000) (T := 300) (by norm_num)
    (by norm_num) (by norm_num) (inRange_of (by norm_num) (by norm_num)) (inRange_of (by norm_num) (by norm_num))
    (inRange_of (by norm_num) (by norm_num)) (inRange_of (by norm_num) (by norm_num)) (inRange_of (by norm_num) (by norm_num))
    (inRange_of (by norm_num) (by norm_num)) .nan).1
  refine ⟨y, hy, ?_⟩
  have := hw.rel (by norm_num) (by norm_num)
  norm_num at this ⊢
  exact this

/-- The hypotheses are met: the two routes to the pressure of the same gas, and its reference state. -/
example : ∃ rnd, ToNearest 53 (-1074) rnd ∧
    (∃ P P' : ℝ, pressureE rnd maxDouble ⟨.fin (1 / 2), .fin 7000000⟩ (.fin (1 / 1000)) (.fin 2000000000) = .fin P ∧
      pressureT rnd maxDouble ⟨.fin (1 / 2), .fin 7000000⟩ (.fin (1 / 1000))
        (temperature rnd maxDouble ⟨.fin (1 / 2), .fin 7000000⟩ (.fin (1 / 1000)) (.fin 2000000000)) = .fin P' ∧ Within 6 P P') ∧
    Approx 3 (1000000 / (1 / 2 * 7000000 * 298)) (rho0 rnd maxDouble ⟨.fin (1 / 2), .fin 7000000⟩ (.fin 1000000) (.fin 298)) := by
  obtain ⟨rnd, h⟩ := exists_toNearest (p := 53) (emin := -1074) (by norm_num)
  refine ⟨rnd, h, ?_, ?_⟩
  · exact C137_pressure_routes h (by norm_num) (by norm_num) (by norm_num) (by norm_num) (inRange_of (by norm_num) (by norm_num))
      (inRange_of (by norm_num) (by norm_num)) (inRange_of (by norm_num) (by norm_num)) (inRange_of (by norm_num) (by norm_num))
  · exact (C137_reference h (gm1 := 1 / 2) (Cv := 7000000) (P0 := 1000000) (T0 := 298) (by norm_num) (by norm_num)
      (inRange_of (by norm_num) (by norm_num)) (by norm_num) (inRange_of (by norm_num) (by norm_num))
      (inRange_of (by norm_num) (by norm_num)) (inRange_of (by norm_num) (by norm_num)) (inRange_of (by norm_num) (by norm_num))
      (inRange_of (by norm_num) (by norm_num)) (inRange_of (by norm_num) (by norm_num)) (inRange_of (by norm_num) (by norm_num))
      (inRange_of (by norm_num) (by norm_num)) (inRange_of (by norm_num) (by norm_num)) (inRange_of (by norm_num) (by norm_num))
      (inRange_of (by norm_num) (by norm_num)) (inRange_of (by norm_num) (by norm_num))).1

end Verif
