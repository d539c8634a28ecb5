import Verif.Model.IeeeElectrons
import Verif.Props.IeeeStiff

set_option linter.unusedVariables false

/-! # C166: the ideal electron gas in machine arithmetic -/

namespace Verif

open Ieee Rounding Classical

namespace Ieee

/-! ## Specification -/

/-- A number, with NaN replaced by 0. -/
noncomputable def nanToZero (x : Ext) : Ext := if x = .nan then .fin 0 else x

theorem stdMax0_eq (x : Ext) : stdMax (.fin 0) x = nanToZero (max0 x) := by
  unfold nanToZero
  rw [max0_nan_iff]
  unfold stdMax max0
  rcases x with _ | s | r
  · simp [lt]
  · cases s <;> simp [lt]
  · by_cases h0 : 0 < r
    · have : ¬ r < 0 := by linarith
      simp [lt, h0, this]
    · rcases lt_or_eq_of_le (not_lt.mp h0) with h | h
      · simp [lt, h0, h]
      · simp [lt, h]

theorem nonNeg_stdMax0 (x : Ext) : NonNeg (stdMax (.fin 0) x) := by
  rw [stdMax0_eq]
  unfold nanToZero
  split_ifs with h
  · exact le_refl (0 : ℝ)
  · exact (nonNeg_max0 x).resolve_left h

theorem stdMax0_of_nonNeg {x : Ext} (h : NonNeg x) : stdMax (.fin 0) x = x := by
  rw [stdMax0_eq, max0_of_nonNeg h, nanToZero, if_neg]
  rintro rfl
  simp [NonNeg, le] at h

theorem Approx.stdMax0 {k : ℕ} {x : ℝ} {v : Ext} (hx : 0 < x) (hv : Approx k x v) : Approx k x (Ieee.stdMax (Ext.fin 0) v) := by
  obtain ⟨y, rfl, hy⟩ := hv
  rw [stdMax0_of_nonNeg]
  · exact ⟨y, rfl, hy⟩
  · simp only [NonNeg, le]; exact (hy.pos hx).le

open Electrons

/-- C166: every lookup of the electron gas is a number that is at least 0, never NaN, for all arguments, parameters and ionization
states, NaN and infinities included, and every rounding. -/
theorem C166_never_negative_nor_nan (rnd : ℝ → ℝ) (Ω : ℝ) (g : Electrons) (x y Z : Ext) :
    ∀ r ∈ [Electrons.temperature rnd Ω g x y Z, Electrons.energy rnd Ω g x y Z, Electrons.pressureT rnd Ω g x y Z,
      Electrons.pressureE rnd Ω g x y Z, Electrons.bulkModulusT rnd Ω g x y Z, Electrons.bulkModulusE rnd Ω g x y Z,
      (Electrons.densityEnergy rnd Ω g x y Z).1, (Electrons.densityEnergy rnd Ω g x y Z).2], NonNeg r := by
  intro r hr
  simp only [List.mem_cons, List.not_mem_nil, or_false] at hr
  rcases hr with rfl | rfl | rfl | rfl | rfl | rfl | rfl | rfl <;> exact nonNeg_stdMax0 _

/-- C166: at every ionization state the electrons are, bit for bit, the ideal gas with the heat capacity of that state, except that
what is NaN there is 0 here; the density from pressure and temperature too, unless the ideal gas' energy is NaN. -/
theorem C166_ideal_gas (rnd : ℝ → ℝ) (Ω : ℝ) (g : Electrons) (x y Z : Ext) :
    let i : Ideal := ⟨g.gm1, Electrons.cv rnd Ω g Z⟩
    Electrons.temperature rnd Ω g x y Z = nanToZero (Ideal.temperature rnd Ω i x y) ∧
    Electrons.energy rnd Ω g x y Z = nanToZero (Ideal.energy rnd Ω i x y) ∧
    Electrons.pressureT rnd Ω g x y Z = nanToZero (Ideal.pressureT rnd Ω i x y) ∧
    Electrons.pressureE rnd Ω g x y Z = nanToZero (Ideal.pressureE rnd Ω i x y) ∧
    Electrons.bulkModulusT rnd Ω g x y Z = nanToZero (Ideal.bulkModulusT rnd Ω i x y) ∧
    Electrons.bulkModulusE rnd Ω g x y Z = nanToZero (Ideal.bulkModulusE rnd Ω i x y) ∧
    (Electrons.densityEnergy rnd Ω g x y Z).2 = nanToZero (Ideal.densityEnergy rnd Ω i x y).2 ∧
    ((Ideal.densityEnergy rnd Ω i x y).2 ≠ .nan →
      (Electrons.densityEnergy rnd Ω g x y Z).1 = nanToZero (Ideal.densityEnergy rnd Ω i x y).1) := by
  refine ⟨stdMax0_eq _, stdMax0_eq _, stdMax0_eq _, stdMax0_eq _, stdMax0_eq _, stdMax0_eq _, stdMax0_eq _, fun hn => ?_⟩
  have e : (Electrons.densityEnergy rnd Ω g x y Z).2 = (Ideal.densityEnergy rnd Ω ⟨g.gm1, Electrons.cv rnd Ω g Z⟩ x y).2 := by
    have hn' : max0 (mul rnd Ω (Electrons.cv rnd Ω g Z) y) ≠ .nan := hn
    show stdMax (.fin 0) _ = _
    rw [stdMax0_eq, nanToZero, if_neg hn']
    rfl
  show stdMax (.fin 0) (div rnd Ω x (mul rnd Ω g.gm1 (Electrons.densityEnergy rnd Ω g x y Z).2)) = _
  rw [e, stdMax0_eq]
  rfl

/-- C166: a negative ionization state is treated exactly as 0, and the heat capacity then is 0. -/
theorem C166_negative_state (rnd : ℝ → ℝ) (Ω : ℝ) (g : Electrons) {z : Ext} (hz : le z (.fin 0)) :
    Electrons.cv rnd Ω g z = Electrons.cv rnd Ω g (.fin 0) := by
  unfold Electrons.cv
  have : stdMax z (.fin 0) = .fin 0 := by
    rcases z with _ | s | r
    · simp [le] at hz
    · cases s
      · simp [le] at hz
      · simp [stdMax, lt]
    · rcases lt_or_eq_of_le (show r ≤ 0 from hz) with h | h
      · simp [stdMax, lt, h]
      · simp [stdMax, lt, h]
  rw [this]
  simp [stdMax, lt]

section
variable {rnd : ℝ → ℝ} {gm1 c z : ℝ}

theorem cv_approx (h : Dbl rnd) (hc : 0 < c) (hz : 0 < z) (hcz : InRange (c * z)) :
    Approx 1 (c * z) (Electrons.cv rnd maxDouble ⟨.fin gm1, .fin c⟩ (.fin z)) := by
  have : stdMax (.fin z) (.fin 0) = .fin z := by
    have : ¬ z < 0 := by linarith
    simp [stdMax, lt, this]
  unfold Electrons.cv
  rw [this]
  exact (Approx.exact hc).mul h hc hz (Approx.exact hz) hcz (by norm_num)

/-- C166: in range, with `c` the heat capacity of one electron per ion and `z` the ionization state, each lookup is the exact value for
heat capacity `c z` up to its number of roundings (at most 6). -/
theorem C166_lookups (h : ToNearest 53 (-1074) rnd) {rho T e : ℝ} (hg : 0 < gm1) (hc : 0 < c) (hz : 0 < z) (hr : 0 < rho)
    (hT : 0 < T) (he : 0 < e) (hcz : InRange (c * z)) :
    let g : Electrons := ⟨.fin gm1, .fin c⟩
    (InRange (e / (c * z)) → Approx 2 (e / (c * z)) (Electrons.temperature rnd maxDouble g (.fin rho) (.fin e) (.fin z))) ∧
    (InRange (c * z * T) → Approx 2 (c * z * T) (Electrons.energy rnd maxDouble g (.fin rho) (.fin T) (.fin z))) ∧
    (InRange (gm1 * rho) → InRange (gm1 * rho * e) →
      Approx 2 (gm1 * rho * e) (Electrons.pressureE rnd maxDouble g (.fin rho) (.fin e) (.fin z))) ∧
    (InRange (gm1 * rho) → InRange (gm1 * rho * (c * z)) → InRange (gm1 * rho * (c * z) * T) →
      Approx 4 (gm1 * rho * (c * z) * T) (Electrons.pressureT rnd maxDouble g (.fin rho) (.fin T) (.fin z))) ∧
    (InRange (gm1 + 1) → InRange ((gm1 + 1) * gm1) → InRange ((gm1 + 1) * gm1 * rho) → InRange ((gm1 + 1) * gm1 * rho * e) →
      Approx 4 ((gm1 + 1) * gm1 * rho * e) (Electrons.bulkModulusE rnd maxDouble g (.fin rho) (.fin e) (.fin z))) ∧
    (InRange (gm1 + 1) → InRange ((gm1 + 1) * gm1) → InRange ((gm1 + 1) * gm1 * rho) → InRange ((gm1 + 1) * gm1 * rho * (c * z)) →
      InRange ((gm1 + 1) * gm1 * rho * (c * z) * T) →
      Approx 6 ((gm1 + 1) * gm1 * rho * (c * z) * T) (Electrons.bulkModulusT rnd maxDouble g (.fin rho) (.fin T) (.fin z))) := by
  have Ag := Approx.exact hg
  have AC := cv_approx (gm1 := gm1) h hc hz hcz
  have Ar := Approx.exact hr
  have AT := Approx.exact hT
  have Ae := Approx.exact he
  have A1 := Approx.exact (zero_lt_one (α := ℝ))
  have hC := hcz.pos
  refine ⟨?_, ?_, ?_, ?_, ?_, ?_⟩
  · intro h1
    exact (Ae.div h he hC AC h1 (by norm_num)).stdMax0 h1.pos
  · intro h1
    exact (AC.mul h hC hT AT h1 (by norm_num)).stdMax0 h1.pos
  · intro h1 h2
    exact ((Ag.mul h hg hr Ar h1 (by norm_num)).mul h h1.pos he Ae h2 (by norm_num)).stdMax0 h2.pos
  · intro h1 h2 h3
    exact (((Ag.mul h hg hr Ar h1 (by norm_num)).mul h h1.pos hC AC h2 (by norm_num)).mul h h2.pos hT AT h3
      (by norm_num)).stdMax0 h3.pos
  · intro h0 h1 h2 h3
    exact ((((Ag.add h hg zero_lt_one A1 h0 (by norm_num)).mul h h0.pos hg Ag h1 (by norm_num)).mul h h1.pos hr Ar h2
      (by norm_num)).mul h h2.pos he Ae h3 (by norm_num)).stdMax0 h3.pos
  · intro h0 h1 h2 h3 h4
    exact (((((Ag.add h hg zero_lt_one A1 h0 (by norm_num)).mul h h0.pos hg Ag h1 (by norm_num)).mul h h1.pos hr Ar h2
      (by norm_num)).mul h h2.pos hC AC h3 (by norm_num)).mul h h3.pos hT AT h4 (by norm_num)).stdMax0 h4.pos

/-- C166: temperature to energy and back, and energy to temperature and back, at one ionization state return the start up to 4 roundings. -/
theorem C166_round_trip (h : ToNearest 53 (-1074) rnd) {T e : ℝ} (hc : 0 < c) (hz : 0 < z) (rho rho' : Ext) (hcz : InRange (c * z))
    (hT : InRange T) (he : InRange e) :
    let g : Electrons := ⟨.fin gm1, .fin c⟩
    (InRange (c * z * T) → Approx 4 T (Electrons.temperature rnd maxDouble g rho
      (Electrons.energy rnd maxDouble g rho' (.fin T) (.fin z)) (.fin z))) ∧
    (InRange (e / (c * z)) → Approx 4 e (Electrons.energy rnd maxDouble g rho
      (Electrons.temperature rnd maxDouble g rho' (.fin e) (.fin z)) (.fin z))) := by
  have AC := cv_approx (gm1 := gm1) h hc hz hcz
  have hC := hcz.pos
  have AT := Approx.exact hT.pos
  have Ae := Approx.exact he.pos
  constructor
  · intro h1
    have e1 : c * z * T / (c * z) = T := by field_simp
    have := ((AC.mul h hC hT.pos AT h1 (by norm_num)).stdMax0 h1.pos).div h h1.pos hC AC (by rw [e1]; exact hT) (by norm_num)
    rw [e1] at this
    exact this.stdMax0 hT.pos
  · intro h1
    have e1 : c * z * (e / (c * z)) = e := by field_simp
    have := AC.mul h hC h1.pos ((Ae.div h he.pos hC AC h1 (by norm_num)).stdMax0 h1.pos) (by rw [e1]; exact he) (by norm_num)
    rw [e1] at this
    exact this.stdMax0 he.pos

/-- C166: density to pressure (at a temperature) and back returns the density up to 8 roundings, with the energy of the temperature. -/
theorem C166_density_round_trip (h : ToNearest 53 (-1074) rnd) {rho T : ℝ} (hg : 0 < gm1) (hc : 0 < c) (hz : 0 < z)
    (hT : 0 < T) (hcz : InRange (c * z)) (hr : InRange rho) (h1 : InRange (gm1 * rho)) (h2 : InRange (gm1 * rho * (c * z)))
    (h3 : InRange (gm1 * rho * (c * z) * T)) (h4 : InRange (c * z * T)) (h5 : InRange (gm1 * (c * z * T))) (x : Ext) :
    let g : Electrons := ⟨.fin gm1, .fin c⟩
    let r := Electrons.densityEnergy rnd maxDouble g (Electrons.pressureT rnd maxDouble g (.fin rho) (.fin T) (.fin z)) (.fin T) (.fin z)
    Approx 8 rho r.1 ∧ r.2 = Electrons.energy rnd maxDouble g x (.fin T) (.fin z) := by
  have Ag := Approx.exact hg
  have AC := cv_approx (gm1 := gm1) h hc hz hcz
  have hC := hcz.pos
  have Ar := Approx.exact hr.pos
  have AT := Approx.exact hT
  refine ⟨?_, rfl⟩
  have AP := (((Ag.mul h hg hr.pos Ar h1 (by norm_num)).mul h h1.pos hC AC h2 (by norm_num)).mul h h2.pos hT AT h3
      (by norm_num)).stdMax0 h3.pos
  have AE := Ag.mul h hg h4.pos ((AC.mul h hC hT AT h4 (by norm_num)).stdMax0 h4.pos) h5 (by norm_num)
  have e1 : gm1 * rho * (c * z) * T / (gm1 * (c * z * T)) = rho := by field_simp
  have := AP.div h h3.pos h5.pos AE (by rw [e1]; exact hr) (by norm_num)
  rw [e1] at this
  exact this.stdMax0 hr.pos

end

theorem ofReal_zero {rnd : ℝ → ℝ} (h : Dbl rnd) : ofReal rnd maxDouble 0 = .fin 0 := by
  rw [ofReal_fin]
  · rw [rnd_zero h]
  · rw [rnd_zero h, abs_zero]; exact maxDouble_pos.le

theorem tiny_le {x : ℝ} (hx : 1 / 2 ^ 100 ≤ x) : (2 : ℝ) ^ (-1022 : ℤ) ≤ x := by
  refine le_trans ?_ hx
  have h3 : (2 : ℝ) ^ (-1022 : ℤ) ≤ 2 ^ (-100 : ℤ) := zpow_le_zpow_right₀ one_le_two (by norm_num)
  refine h3.trans (le_of_eq ?_)
  rw [zpow_neg, one_div]
  norm_cast

/-- C166: the constant `gamma - 1` of the electron gas is 2/3 up to `3 * 2^-53`. -/
theorem C166_gamma {rnd : ℝ → ℝ} (h : ToNearest 53 (-1074) rnd) :
    ∃ y, Electrons.gammaMinusOne rnd maxDouble = .fin y ∧ |y - 2 / 3| ≤ 3 / 2 ^ 53 := by
  have hM := maxDouble_large
  have a := rnd_rel h (tiny_le (x := 5 / 3) (by norm_num))
  have a' := abs_le.mp a
  have hlo : (3 : ℝ) / 5 ≤ rnd (5 / 3) - 1 := by
    have := a'.2
    norm_num at this ⊢
    linarith
  have hhi : rnd (5 / 3) - 1 ≤ 7 / 10 := by
    have := a'.1
    norm_num at this ⊢
    linarith
  have b := rnd_rel h (tiny_le (x := rnd (5 / 3) - 1) (le_trans (by norm_num) hlo))
  have b' := abs_le.mp b
  have e1 : div rnd maxDouble (.fin 5) (.fin 3) = .fin (rnd (5 / 3)) := by
    have : ofReal rnd maxDouble (5 / 3) = .fin (rnd (5 / 3)) := by
      apply ofReal_fin
      rw [abs_of_nonneg (by linarith)]
      have : (2 : ℝ) ≤ 2 ^ 100 := by norm_num
      linarith
    simp [div, this]
  have e2 : add rnd maxDouble (.fin (rnd (5 / 3))) (.fin (-1)) = .fin (rnd (rnd (5 / 3) - 1)) := by
    have : ofReal rnd maxDouble (rnd (5 / 3) - 1) = .fin (rnd (rnd (5 / 3) - 1)) := by
      apply ofReal_fin
      rw [abs_of_nonneg (rnd_nonneg h (by linarith))]
      have h1 : (1 : ℝ) / 2 ^ 53 * (rnd (5 / 3) - 1) ≤ 1 := by
        have : (1 : ℝ) / 2 ^ 53 ≤ 1 := by norm_num
        nlinarith
      have : (2 : ℝ) ≤ 2 ^ 100 := by norm_num
      linarith
    rw [← this, sub_eq_add_neg]
    rfl
  refine ⟨_, by unfold Electrons.gammaMinusOne sub; rw [e1]; simp only [neg]; exact e2, ?_⟩
  rw [abs_le]
  norm_num at a' b' ⊢
  constructor <;> linarith [a'.1, a'.2, b'.1, b'.2]

/-- C166: the heat capacity per electron is Boltzmann's constant over `gm1` times the mean atomic mass times the proton mass, up to 5
roundings. -/
theorem C166_heat_capacity {rnd : ℝ → ℝ} (h : ToNearest 53 (-1074) rnd) {gm1 A : ℝ} (hg : 0 < gm1) (hA : 0 < A) (h1 : InRange (gm1 * A))
    (h2 : InRange (gm1 * A * (167262171 / 10 ^ 32))) (h3 : 2 ^ 55 * small ≤ gm1 * A * (167262171 / 10 ^ 32))
    (h4 : InRange ((13806505 / 10 ^ 23) / (gm1 * A * (167262171 / 10 ^ 32)))) :
    Approx 5 ((13806505 / 10 ^ 23) / (gm1 * A * (167262171 / 10 ^ 32))) (Electrons.heatBase rnd maxDouble (.fin gm1) (.fin A)) := by
  have Ak : Approx 1 (13806505 / 10 ^ 23) (lit rnd (13806505 / 10 ^ 23)) := ⟨_, rfl, rnd_within h (tiny_le (by norm_num))⟩
  have Am : Approx 1 (167262171 / 10 ^ 32) (lit rnd (167262171 / 10 ^ 32)) := ⟨_, rfl, rnd_within h (tiny_le (by norm_num))⟩
  have B := ((Approx.exact hg).mul h hg hA (Approx.exact hA) h1 (by norm_num)).mul h h1.pos (by norm_num) Am h2 (by norm_num)
  refine Approx.ratio h (k := 1) (l := 3) (by norm_num) h3 h2.2 Ak B ?_ h4 (by norm_num)
  intro y hy
  obtain ⟨q, hq, -⟩ := (Approx.exact hg).mul h hg hA (Approx.exact hA) h1 (by norm_num)
  rw [hq] at hy
  simp only [lit, mul, ofReal] at hy
  split_ifs at hy
  obtain rfl : rnd _ = y := by simpa using hy
  exact h.isFloat _

/-- C166 fails at ionization state 0 (neutral atoms, an ordinary state): a positive energy has infinite temperature, a temperature does
not survive the way to energy and back, and at a positive density and energy the pressure by energy is positive and the pressure
by the temperature of that energy is 0. -/
theorem C166_neutral_violated {rnd : ℝ → ℝ} (h : ToNearest 53 (-1074) rnd) {gm1 c rho e T : ℝ} (hg : 0 < gm1) (hr : 0 < rho)
    (he : 0 < e) (h1 : InRange (gm1 * rho)) (h2 : InRange (gm1 * rho * e)) (x : Ext) :
    let g : Electrons := ⟨.fin gm1, .fin c⟩
    Electrons.temperature rnd maxDouble g x (.fin e) (.fin 0) = .inf false ∧
    Electrons.energy rnd maxDouble g x (.fin T) (.fin 0) = .fin 0 ∧
    Electrons.temperature rnd maxDouble g x (Electrons.energy rnd maxDouble g x (.fin T) (.fin 0)) (.fin 0) = .fin 0 ∧
    (∃ P, 0 < P ∧ Electrons.pressureE rnd maxDouble g (.fin rho) (.fin e) (.fin 0) = .fin P) ∧
    Electrons.pressureT rnd maxDouble g (.fin rho) (Electrons.temperature rnd maxDouble g x (.fin e) (.fin 0)) (.fin 0) = .fin 0 := by
  have z := ofReal_zero h
  have hcv : Electrons.cv rnd maxDouble ⟨.fin gm1, .fin c⟩ (.fin 0) = .fin 0 := by
    simp [Electrons.cv, stdMax, lt, mul, z]
  have ht : Electrons.temperature rnd maxDouble ⟨.fin gm1, .fin c⟩ x (.fin e) (.fin 0) = .inf false := by
    have : ¬ e < 0 := by linarith
    simp [Electrons.temperature, hcv, div, he.ne', this, stdMax, lt]
  have hE : Electrons.energy rnd maxDouble ⟨.fin gm1, .fin c⟩ x (.fin T) (.fin 0) = .fin 0 := by
    simp [Electrons.energy, hcv, mul, z, stdMax, lt]
  refine ⟨ht, hE, ?_, ?_, ?_⟩
  · rw [hE]
    have : div rnd maxDouble (.fin 0) (.fin 0) = .nan := by simp [div]
    show stdMax (.fin 0) (div rnd maxDouble (.fin 0) (Electrons.cv rnd maxDouble ⟨.fin gm1, .fin c⟩ (.fin 0))) = .fin 0
    rw [hcv, this]
    simp [stdMax, lt]
  · have := (((Approx.exact hg).mul h hg hr (Approx.exact hr) h1 (by norm_num)).mul h h1.pos he (Approx.exact he) h2
      (by norm_num)).stdMax0 h2.pos
    obtain ⟨P, hP, hw⟩ := this
    exact ⟨P, hw.pos h2.pos, hP⟩
  · rw [ht]
    obtain ⟨q, hq, -⟩ := (Approx.exact hg).mul h hg hr (Approx.exact hr) h1 (by norm_num)
    have a : mul rnd maxDouble (.fin q) (.fin 0) = .fin 0 := by simp [mul, z]
    have b : mul rnd maxDouble (.fin 0) (.inf false) = .nan := by simp [mul]
    simp only [Electrons.pressureT, hcv, hq, a, b]
    simp [stdMax, lt]

/-- C166 fails: NaN is masked. With a NaN ionization state the heat capacity is NaN, yet temperature, energy and pressure (from the
temperature) are 0 at all arguments; a NaN argument gives 0 at every ionization state. -/
theorem C166_nan_masked_violated (rnd : ℝ → ℝ) (Ω : ℝ) (g : Electrons) (x y Z : Ext) :
    Electrons.cv rnd Ω g .nan = .nan ∧
    Electrons.temperature rnd Ω g x y .nan = .fin 0 ∧ Electrons.energy rnd Ω g x y .nan = .fin 0 ∧
    Electrons.pressureT rnd Ω g x y .nan = .fin 0 ∧ Electrons.temperature rnd Ω g x .nan Z = .fin 0 ∧
    Electrons.energy rnd Ω g x .nan Z = .fin 0 ∧ Electrons.pressureE rnd Ω g .nan y Z = .fin 0 := by
  have mn (a : Ext) : mul rnd Ω a .nan = .nan := by rcases a with _ | s | r <;> rfl
  have nm (a : Ext) : mul rnd Ω .nan a = .nan := rfl
  have dn (a : Ext) : div rnd Ω a .nan = .nan := by rcases a with _ | s | r <;> rfl
  have nd (a : Ext) : div rnd Ω .nan a = .nan := rfl
  have hcv : Electrons.cv rnd Ω g .nan = .nan := by simp [Electrons.cv, stdMax, lt, mn]
  have m0 : stdMax (.fin 0) .nan = .fin 0 := by simp [stdMax, lt]
  refine ⟨hcv, ?_, ?_, ?_, ?_, ?_, ?_⟩
  · simp only [Electrons.temperature, hcv, dn, m0]
  · simp only [Electrons.energy, hcv, nm, m0]
  · simp only [Electrons.pressureT, hcv, mn, nm, m0]
  · simp only [Electrons.temperature, nd, m0]
  · simp only [Electrons.energy, mn, m0]
  · simp only [Electrons.pressureE, mn, nm, m0]

/-- The hypotheses are met: `gm1 = 2/3`, heat capacity 7 per electron, ionization state 3, density 2, temperature 300, energy 6300. -/
example : ∃ rnd, ToNearest 53 (-1074) rnd ∧
    Approx 6 ((2 / 3 + 1) * (2 / 3) * 2 * (7 * 3) * 300)
      (Electrons.bulkModulusT rnd maxDouble ⟨.fin (2 / 3), .fin 7⟩ (.fin 2) (.fin 300) (.fin 3)) ∧
    Approx 4 300 (Electrons.temperature rnd maxDouble ⟨.fin (2 / 3), .fin 7⟩ .nan
      (Electrons.energy rnd maxDouble ⟨.fin (2 / 3), .fin 7⟩ .nan (.fin 300) (.fin 3)) (.fin 3)) ∧
    Approx 8 2 (Electrons.densityEnergy rnd maxDouble ⟨.fin (2 / 3), .fin 7⟩
      (Electrons.pressureT rnd maxDouble ⟨.fin (2 / 3), .fin 7⟩ (.fin 2) (.fin 300) (.fin 3)) (.fin 300) (.fin 3)).1 ∧
    Electrons.temperature rnd maxDouble ⟨.fin (2 / 3), .fin 7⟩ .nan (.fin 6300) (.fin 0) = .inf false := by
  obtain ⟨rnd, h⟩ := exists_toNearest (p := 53) (emin := -1074) (by norm_num)
  have r {x : ℝ} (h1 : 1 / 2 ^ 100 ≤ x) (h2 : x ≤ 2 ^ 99) := inRange_of h1 h2
  refine ⟨rnd, h, ?_, ?_, ?_, ?_⟩
  · exact (C166_lookups h (gm1 := 2 / 3) (c := 7) (z := 3) (rho := 2) (T := 300) (e := 6300) (by norm_num) (by norm_num) (by norm_num)
      (by norm_num) (by norm_num) (by norm_num) (r (by norm_num) (by norm_num))).2.2.2.2.2 (r (by norm_num) (by norm_num))
      (r (by norm_num) (by norm_num)) (r (by norm_num) (by norm_num)) (r (by norm_num) (by norm_num)) (r (by norm_num) (by norm_num))
  · exact (C166_round_trip h (gm1 := 2 / 3) (c := 7) (z := 3) (T := 300) (e := 6300) (by norm_num) (by norm_num) .nan .nan
      (r (by norm_num) (by norm_num)) (r (by norm_num) (by norm_num)) (r (by norm_num) (by norm_num))).1 (r (by norm_num) (by norm_num))
  · exact (C166_density_round_trip h (gm1 := 2 / 3) (c := 7) (z := 3) (rho := 2) (T := 300) (by norm_num) (by norm_num) (by norm_num)
      (by norm_num) (r (by norm_num) (by norm_num)) (r (by norm_num) (by norm_num)) (r (by norm_num) (by norm_num))
      (r (by norm_num) (by norm_num)) (r (by norm_num) (by norm_num)) (r (by norm_num) (by norm_num)) (r (by norm_num) (by norm_num))
      .nan).1
  · exact (C166_neutral_violated h (gm1 := 2 / 3) (c := 7) (rho := 2) (e := 6300) (T := 300) (by norm_num) (by norm_num) (by norm_num)
      (r (by norm_num) (by norm_num)) (r (by norm_num) (by norm_num)) .nan).1

/-- The hypotheses of the heat capacity theorem are met: `gm1 = 2/3` and mean atomic mass 27. -/
example : ∃ rnd, ToNearest 53 (-1074) rnd ∧
    Approx 5 ((13806505 / 10 ^ 23) / (2 / 3 * 27 * (167262171 / 10 ^ 32))) (Electrons.heatBase rnd maxDouble (.fin (2 / 3)) (.fin 27)) := by
  obtain ⟨rnd, h⟩ := exists_toNearest (p := 53) (emin := -1074) (by norm_num)
  have r {x : ℝ} (h1 : 1 / 2 ^ 100 ≤ x) (h2 : x ≤ 2 ^ 99) := inRange_of h1 h2
  refine ⟨rnd, h, C166_heat_capacity h (by norm_num) (by norm_num) (r (by norm_num) (by norm_num)) (r (by norm_num) (by norm_num)) ?_
    (r (by norm_num) (by norm_num))⟩
  have e : (2 : ℝ) ^ 55 * small ≤ 2 ^ (-963 : ℤ) := by
    have : (2 : ℝ) ^ (-963 : ℤ) = 2 ^ 55 * (16 * 2 ^ (-1022 : ℤ)) := by
      rw [show (2 : ℝ) ^ 55 = 2 ^ (55 : ℤ) by norm_cast, show (16 : ℝ) = 2 ^ (4 : ℤ) by norm_num, ← zpow_add₀ (by norm_num),
        ← zpow_add₀ (by norm_num)]
      norm_num
    rw [this]
    unfold small
    have hp : (0 : ℝ) < 2 ^ (-1022 : ℤ) := zpow_pos (by norm_num) _
    generalize (2 : ℝ) ^ (-1022 : ℤ) = t at hp
    linarith
  have a : (2 : ℝ) ^ (-963 : ℤ) ≤ 2 ^ (-100 : ℤ) := zpow_le_zpow_right₀ one_le_two (by norm_num)
  refine e.trans (a.trans (le_trans (le_of_eq ?_) (by norm_num : (1 : ℝ) / 2 ^ 100 ≤ _)))
  rw [zpow_neg, one_div]
  norm_cast

end Ieee

end Verif
