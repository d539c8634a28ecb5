import Verif.Lemmas.IeeeMono

/-! # C144: the stiffened gas in double precision -/

namespace Verif

open Ieee Rounding

namespace Ieee

variable {rnd : ℝ → ℝ}

theorem ofReal_isFloat (h : Dbl rnd) {Ω r y : ℝ} (he : ofReal rnd Ω r = .fin y) : IsFloat 53 (-1074) y := by
  unfold ofReal at he
  split_ifs at he
  cases he
  exact h.isFloat _

theorem mul_isFloat (h : Dbl rnd) {Ω y : ℝ} {a b : Ext} (he : mul rnd Ω a b = .fin y) : IsFloat 53 (-1074) y := by
  rcases a with _ | s | a <;> rcases b with _ | t | b <;> simp only [mul] at he
  all_goals first
    | exact ofReal_isFloat h he
    | (split_ifs at he)
    | cases he

theorem add_isFloat (h : Dbl rnd) {Ω y : ℝ} {a b : Ext} (he : add rnd Ω a b = .fin y) : IsFloat 53 (-1074) y := by
  rcases a with _ | s | a <;> rcases b with _ | t | b <;> simp only [add] at he
  all_goals first
    | exact ofReal_isFloat h he
    | (split_ifs at he)
    | cases he

theorem Within.le_two {k : ℕ} (hk : k ≤ 64) {x y : ℝ} (h : Within k x y) (hx : 0 < x) : y ≤ 2 * x ∧ x ≤ 2 * y := by
  have hy := h.pos hx
  have hw := wk_half hk
  rw [within_iff] at h
  constructor
  · nlinarith [h.2]
  · nlinarith [h.1]

/-- `ratio` with a denominator well above the guard is one more rounding. -/
theorem Approx.ratio (h : Dbl rnd) {k l : ℕ} {a b : ℝ} {v v' : Ext} (ha : 0 < a) (hb : 2 ^ 55 * small ≤ b) (hbm : b ≤ maxDouble / 2)
    (hv : Approx k a v) (hv' : Approx l b v') (hf : ∀ y, v' = .fin y → IsFloat 53 (-1074) y) (hr : InRange (a / b)) (hk : k + l ≤ 64) :
    Approx (k + l + 1) (a / b) (Ieee.ratio rnd maxDouble v v') := by
  have hs := small_pos
  have hb0 : 0 < b := lt_of_lt_of_le (by positivity) hb
  obtain ⟨y, rfl, hy⟩ := hv
  obtain ⟨y', rfl, hy'⟩ := hv'
  have hy0 := hy'.pos hb0
  have hw := wk_half (show l ≤ 64 by omega)
  have hlo : 2 ^ 54 * small ≤ y' := by
    have := (within_iff.mp hy').1
    nlinarith
  have hhi : y' ≤ maxDouble := by
    have := (within_iff.mp hy').2
    nlinarith
  rw [C135_ratio_is_rounded_quotient h (hf y' rfl) (by rwa [abs_of_pos hy0]) (by rwa [abs_of_pos hy0])]
  exact Approx.div h ha hb0 ⟨y, rfl, hy⟩ ⟨y', rfl, hy'⟩ hr hk

/-- Adding an exact number that is not negative. -/
theorem Approx.add_nonneg (h : Dbl rnd) {k : ℕ} {a b : ℝ} {v : Ext} (ha : 0 < a) (hb : 0 ≤ b) (hv : Approx k a v)
    (hr : InRange (a + b)) (hk : k ≤ 64) : Approx (k + 1) (a + b) (Ieee.add rnd maxDouble v (.fin b)) := by
  obtain ⟨y, rfl, hy⟩ := hv
  refine ofReal_approx h hk hr ?_
  rw [within_iff] at *
  have h1 := wk_le k
  have h2 := (wk_pos k).le
  constructor
  · nlinarith [hy.1]
  · nlinarith [hy.2]

theorem Approx.stdMax {k : ℕ} {x f : ℝ} {v : Ext} (hv : Approx k x v) (hf : ∀ y, v = .fin y → f ≤ y) :
    Approx k x (stdMax (.fin f) v) := by
  obtain ⟨y, rfl, hy⟩ := hv
  rw [stdMax_fin, max_eq_right (hf y rfl)]
  exact ⟨y, rfl, hy⟩

/-- A value of at least twice `SMALL` is not affected by the floor. -/
theorem Approx.floor {k : ℕ} {x : ℝ} {v : Ext} (hx : 2 * small ≤ x) (hk : k ≤ 64) (hv : Approx k x v) :
    Approx k x (Ieee.stdMax (.fin small) v) := by
  refine hv.stdMax ?_
  intro y hy
  obtain ⟨z, rfl, hz⟩ := hv
  cases hy
  have hs := small_pos
  have := wk_half hk
  have := (within_iff.mp hz).1
  nlinarith

end Ieee

open Ieee.Stiff

/-- C144: the floors hold for every argument, NaN and infinities included: the temperature, the bulk modulus and the density are
at least `SMALL`, the pressure is at least `-Pinf`, the energy at least `q`. -/
theorem C144_floors (rnd : ℝ → ℝ) (Ω : ℝ) (g : Stiff) (hP : g.Pinf ≠ .nan) (hq : g.qq ≠ .nan) (x y : Ext) :
    (∀ r ∈ [temperature rnd Ω g x y, bulkModulusT rnd Ω g x y, bulkModulusE rnd Ω g x y, (densityEnergy rnd Ω g x y).1],
      le (.fin small) r) ∧
    (∀ r ∈ [pressureT rnd Ω g x y, pressureE rnd Ω g x y], le (neg g.Pinf) r) ∧
    ∀ r ∈ [energy rnd Ω g x y, (densityEnergy rnd Ω g x y).2], le g.qq r := by
  have hn : neg g.Pinf ≠ .nan := by
    rcases hg : g.Pinf with _ | s | p
    · exact absurd hg hP
    · simp [neg]
    · simp [neg]
  refine ⟨?_, ?_, ?_⟩ <;> intro r hr <;> simp only [List.mem_cons, List.not_mem_nil, or_false] at hr
  · rcases hr with rfl | rfl | rfl | rfl <;> exact le_stdMax (by simp) _
  · rcases hr with rfl | rfl <;> exact le_stdMax hn _
  · rcases hr with rfl | rfl <;> exact le_stdMax hq _

/-- C144 (violated): a NaN argument is not passed on. The temperature of a NaN energy is `SMALL`, its pressure `-Pinf`, and the
energy of a NaN temperature is `q`: ordinary numbers, for every gas. -/
theorem C144_nan_violated (rnd : ℝ → ℝ) (Ω : ℝ) (g : Stiff) (x : Ext) :
    temperature rnd Ω g x .nan = .fin small ∧ temperature rnd Ω g .nan x = .fin small ∧
    pressureE rnd Ω g x .nan = neg g.Pinf ∧ pressureT rnd Ω g x .nan = neg g.Pinf ∧
    bulkModulusE rnd Ω g x .nan = .fin small ∧ bulkModulusT rnd Ω g x .nan = .fin small ∧
    energy rnd Ω g x .nan = g.qq := by
  have m1 : ∀ v, mul rnd Ω v .nan = .nan := by intro v; cases v <;> rfl
  have m2 : ∀ v, mul rnd Ω .nan v = .nan := by intro v; cases v <;> rfl
  have a1 : ∀ v, add rnd Ω .nan v = .nan := by intro v; cases v <;> rfl
  have d1 : ∀ v, div rnd Ω .nan v = .nan := by intro v; cases v <;> rfl
  simp only [temperature, pressureE, pressureT, bulkModulusE, bulkModulusT, energy, sub, ratio, m1, m2, a1, d1, stdMax_nan, and_self]

/-- C144: monotone: at a fixed positive density, the energy does not decrease with the temperature, nor do the temperature, the
pressure and the bulk modulus with the energy, in spite of rounding, for all arguments up to the infinities. -/
theorem C144_monotone {rnd : ℝ → ℝ} (h : ToNearest 53 (-1074) rnd) {gm1 Cv Pinf qq rho : ℝ} (hg : 0 < gm1) (hC : 0 < Cv)
    (hr : 0 < rho) (hrf : IsFloat 53 (-1074) rho) (hrm : rho ≤ maxDouble) (h1 : InRange (gm1 * rho)) (h2 : InRange (gm1 * rho * Cv))
    (h3 : InRange (gm1 + 1)) (h4 : InRange (gm1 * (gm1 + 1))) (h5 : InRange (gm1 * (gm1 + 1) * rho))
    (h6 : InRange (gm1 * (gm1 + 1) * rho * Cv)) (h7 : InRange (rho * Cv)) (h8 : (gm1 + 1) * |Pinf| ≤ maxDouble / 2) {x x' : Ext} (hx : le x x') :
    let g : Stiff := ⟨.fin gm1, .fin Cv, .fin Pinf, .fin qq⟩
    le (temperature rnd maxDouble g (.fin rho) x) (temperature rnd maxDouble g (.fin rho) x') ∧
    le (energy rnd maxDouble g (.fin rho) x) (energy rnd maxDouble g (.fin rho) x') ∧
    le (pressureE rnd maxDouble g (.fin rho) x) (pressureE rnd maxDouble g (.fin rho) x') ∧
    le (pressureT rnd maxDouble g (.fin rho) x) (pressureT rnd maxDouble g (.fin rho) x') ∧
    le (bulkModulusE rnd maxDouble g (.fin rho) x) (bulkModulusE rnd maxDouble g (.fin rho) x') ∧
    le (bulkModulusT rnd maxDouble g (.fin rho) x) (bulkModulusT rnd maxDouble g (.fin rho) x') := by
  intro g
  have Ag := Approx.exact hg
  have AC := Approx.exact hC
  have Ar := Approx.exact hr
  have A1 : Approx 0 1 (.fin 1) := Approx.exact one_pos
  have G1 := Ag.add h hg one_pos A1 h3 (by norm_num)
  have GG := Ag.mul h hg h3.pos G1 h4 (by norm_num)
  have GR := GG.mul h h4.pos hr Ar h5 (by norm_num)
  have GC := GR.mul h h5.pos hC AC h6 (by norm_num)
  have R1 := Ag.mul h hg hr Ar h1 (by norm_num)
  have R2 := R1.mul h h1.pos hC AC h2 (by norm_num)
  have R3 := Ar.mul h hr hC AC h7 (by norm_num)
  obtain ⟨d, hd, wd⟩ := R3
  obtain ⟨r1, hr1, w1⟩ := R1
  obtain ⟨r2, hr2, w2⟩ := R2
  obtain ⟨gg, hgg, wgg⟩ := GG
  obtain ⟨gc, hgc, wgc⟩ := GC
  have pd := wd.pos h7.pos
  have p1 := w1.pos h1.pos
  have p2 := w2.pos h2.pos
  have pgg := wgg.pos h4.pos
  have pgc := wgc.pos h6.pos
  have dM : d ≤ maxDouble := by
    have h10 := (wd.le_two (by norm_num) h7.pos).1
    have h11 := h7.2
    linarith
  have dF : IsFloat 53 (-1074) d := mul_isFloat h hd
  have hnq : le (sub rnd maxDouble x (.fin qq)) (sub rnd maxDouble x' (.fin qq)) := sub_mono h qq hx
  have hn := sub_mono h Pinf (mul_mono_fin h hr hnq)
  obtain ⟨pp, hpp⟩ : ∃ pp, mul rnd maxDouble (add rnd maxDouble (.fin gm1) (.fin 1)) (.fin Pinf) = .fin pp := by
    obtain ⟨z, hz, wz⟩ := G1
    have pz := wz.pos h3.pos
    rw [hz]
    refine ⟨_, ofReal_fin ?_⟩
    refine abs_rnd_le h maxDouble_float ?_
    rw [abs_mul, abs_of_pos pz]
    have h12 := (wz.le_two (by norm_num) h3.pos).1
    have h13 := mul_le_mul_of_nonneg_right h12 (abs_nonneg Pinf)
    linarith
  refine ⟨?_, ?_, ?_, ?_, ?_, ?_⟩
  · simp only [temperature, g, hd]
    exact stdMax_mono (by simp) (ratio_mono h pd.le dF dM hn)
  · simp only [energy, g, hd]
    exact stdMax_mono (by simp) (add_mono h _ (ratio_mono h hr.le hrf hrm (add_mono h _ (mul_mono_fin h pd hx))))
  · simp only [pressureE, g, hr1, hpp]
    exact stdMax_mono (by simp [neg]) (sub_mono h _ (mul_mono_fin h p1 hnq))
  · simp only [pressureT, g, hr2]
    exact stdMax_mono (by simp [neg]) (sub_mono h _ (mul_mono_fin h p2 hx))
  · simp only [bulkModulusE, g, hgg]
    exact stdMax_mono (by simp) (mul_mono_fin h pgg hn)
  · simp only [bulkModulusT, g, hgc]
    exact stdMax_mono (by simp) (mul_mono_fin h pgc hx)

/-- C144: the energy of a temperature is exact up to 5 roundings (nothing cancels for `Pinf ≥ 0`, `q ≥ 0`). -/
theorem C144_energy {rnd : ℝ → ℝ} (h : ToNearest 53 (-1074) rnd) {Cv Pinf qq rho T : ℝ} (gm1 : Ext) (hC : 0 < Cv)
    (hP : 0 ≤ Pinf) (hq : 0 ≤ qq) (hqf : IsFloat 53 (-1074) qq) (hrf : IsFloat 53 (-1074) rho) (hr : 2 ^ 55 * small ≤ rho)
    (hrm : rho ≤ maxDouble / 2) (hT : 0 < T) (h1 : InRange (rho * Cv)) (h2 : InRange (rho * Cv * T)) (h3 : InRange (rho * Cv * T + Pinf))
    (h4 : InRange ((rho * Cv * T + Pinf) / rho)) (h5 : InRange ((rho * Cv * T + Pinf) / rho + qq)) :
    Approx 5 ((rho * Cv * T + Pinf) / rho + qq)
      (energy rnd maxDouble ⟨gm1, .fin Cv, .fin Pinf, .fin qq⟩ (.fin rho) (.fin T)) := by
  have hs := small_pos
  have hr0 : 0 < rho := lt_of_lt_of_le (by positivity) hr
  have A1 := (Approx.exact hr0).mul h hr0 hC (Approx.exact hC) h1 (by norm_num)
  have A2 := A1.mul h h1.pos hT (Approx.exact hT) h2 (by norm_num)
  have A3 := A2.add_nonneg h h2.pos hP h3 (by norm_num)
  have A4 := A3.ratio h h3.pos hr hrm (Approx.exact hr0) (by rintro y hy; cases hy; exact hrf) h4 (by norm_num)
  have A5 := A4.add_nonneg h h4.pos hq h5 (by norm_num)
  refine A5.stdMax ?_
  intro y hy
  obtain ⟨z, hz, wz⟩ := A4
  rw [hz] at hy
  have hz0 := wz.pos h4.pos
  have : y = rnd (z + qq) := by
    simp only [add, ofReal] at hy
    split_ifs at hy
    cases hy
    rfl
  rw [this]
  exact rnd_ge h hqf (by linarith)

namespace Ieee

theorem guard_ge : (2 : ℝ) ^ (-1021 : ℤ) ≤ 2 ^ 55 * small := by
  unfold small
  have e : (2 : ℝ) ^ (-1021 : ℤ) = 2 * 2 ^ (-1022 : ℤ) := by
    have : (-1021 : ℤ) = 1 + -1022 := by norm_num
    rw [this, two_zpow_add]; norm_num
  have := two_zpow_pos (-1022)
  rw [e]
  nlinarith

theorem eta8 : (2 : ℝ) ^ (-1072 : ℤ) = 8 * 2 ^ (-1075 : ℤ) := by
  have : (-1072 : ℤ) = 3 + -1075 := by norm_num
  rw [this, two_zpow_add]
  norm_num

theorem u_le_one : u ≤ 1 := by unfold u; norm_num

theorem u_lt : u < 1 / 2 ^ 50 := by unfold u; norm_num

/-- The numerator `rho * (sie - q) - Pinf` of the temperature and the bulk modulus. -/
theorem numerator (h : Dbl rnd) {Pinf qq rho e : ℝ} (hP : 0 ≤ Pinf) (hPf : IsFloat 53 (-1074) Pinf) (hqf : IsFloat 53 (-1074) qq)
    (hef : IsFloat 53 (-1074) e) (hqe : qq ≤ e) (hr : 0 < rho) (h1 : 2 * (e - qq) ≤ maxDouble)
    (h2 : 2 * (rho * (e - qq) + Pinf) ≤ maxDouble) :
    ∃ n, sub rnd maxDouble (mul rnd maxDouble (.fin rho) (sub rnd maxDouble (.fin e) (.fin qq))) (.fin Pinf) = .fin n ∧
      IsFloat 53 (-1074) n ∧ |n| ≤ maxDouble ∧
      |n - (rho * (e - qq) - Pinf)| ≤ 5 * u * (rho * (e - qq) + Pinf) + 2 * (2 : ℝ) ^ (-1075 : ℤ) := by
  have hu := u_pos
  have hu1 := u_lt
  have hη : (0 : ℝ) < 2 ^ (-1075 : ℤ) := two_zpow_pos _
  set η : ℝ := 2 ^ (-1075 : ℤ) with hηd
  have hs0 : 0 ≤ e - qq := by linarith
  set s := e - qq with hsd
  set s' := rnd s with hs'
  have e1 : |s' - s| ≤ u * s := by
    have := rnd_sum h (x := s) (hef.mult.sub hqf.mult)
    rwa [abs_of_nonneg hs0] at this
  have hs'0 : 0 ≤ s' := rnd_nonneg h hs0
  have hs'1 : s' ≤ (1 + u) * s := by linarith [(abs_le.mp e1).2]
  have hsM : |s'| ≤ maxDouble := by
    rw [abs_of_nonneg hs'0]
    nlinarith
  set X := rho * s with hX
  have hX0 : 0 ≤ X := mul_nonneg hr.le hs0
  set A := X + Pinf with hA
  have hA0 : 0 ≤ A := by linarith
  have eX : |rho * s' - X| ≤ u * X := by
    have : rho * s' - X = rho * (s' - s) := by rw [hX]; ring
    rw [this, abs_mul, abs_of_pos hr]
    calc rho * |s' - s| ≤ rho * (u * s) := mul_le_mul_of_nonneg_left e1 hr.le
      _ = u * X := by rw [hX]; ring
  have hm0 : 0 ≤ rho * s' := mul_nonneg hr.le hs'0
  have hm1 : rho * s' ≤ (1 + u) * X := by linarith [(abs_le.mp eX).2]
  set m := rnd (rho * s') with hm
  have em : |m - rho * s'| ≤ u * (rho * s') + η := by
    have := rnd_abs h (rho * s')
    rwa [abs_of_nonneg hm0] at this
  have hmn : 0 ≤ m := rnd_nonneg h hm0
  have hMl := maxDouble_large
  have hMl2 : (1 : ℝ) ≤ maxDouble := le_trans (by norm_num) hMl
  have uX : u * X ≤ X / 2 ^ 50 := by nlinarith
  have hmM : |m| ≤ maxDouble := by
    refine abs_rnd_le h maxDouble_float ?_
    rw [abs_of_nonneg hm0]
    linarith
  have em2 : |m - X| ≤ 3 * u * X + η := by
    have := abs_sub_le m (rho * s') X
    have huu : u * (rho * s') ≤ u * ((1 + u) * X) := mul_le_mul_of_nonneg_left hm1 hu.le
    have huu2 : u * ((1 + u) * X) ≤ 2 * (u * X) := by
      have : u * (u * X) ≤ u * X := by
        have : 0 ≤ u * X := by positivity
        nlinarith
      linarith
    linarith
  set z := m - Pinf with hz
  have en : |rnd z - z| ≤ u * |z| := rnd_sum h ((h.isFloat _).mult.sub hPf.mult)
  have zle : |z| ≤ m + Pinf := by
    rw [hz, abs_le]
    constructor <;> linarith
  have hmA : m + Pinf ≤ A + 3 * u * X + η := by linarith [(abs_le.mp em2).2]
  have hη1 : η ≤ 1 := by
    rw [hηd]
    exact zpow_le_one_of_nonpos₀ (by norm_num) (by norm_num)
  have hzM : |z| ≤ maxDouble := by
    rw [hz, abs_le]
    have : m ≤ maxDouble := by rwa [abs_of_nonneg hmn] at hmM
    constructor <;> linarith
  have hnM : |rnd z| ≤ maxDouble := abs_rnd_le h maxDouble_float hzM
  refine ⟨rnd z, ?_, h.isFloat _, hnM, ?_⟩
  · have q1 : sub rnd maxDouble (.fin e) (.fin qq) = .fin s' := ofReal_fin (r := e + -qq) hsM
    have q2 : mul rnd maxDouble (.fin rho) (.fin s') = .fin m := ofReal_fin hmM
    rw [q1, q2]
    exact ofReal_fin (r := m + -Pinf) hnM
  · have k1 := abs_sub_le (rnd z) z (X - Pinf)
    have k2 : |z - (X - Pinf)| = |m - X| := by congr 1; rw [hz]; ring
    have k3 : u * |z| ≤ u * (A + 3 * u * X + η) := mul_le_mul_of_nonneg_left (zle.trans hmA) hu.le
    have k4 : u * (3 * u * X) ≤ u * X := by
      have : 0 ≤ u * X := by positivity
      nlinarith
    have k5 : u * η ≤ η := mul_le_of_le_one_left hη.le u_le_one
    have k6 : u * X ≤ u * A := mul_le_mul_of_nonneg_left (by linarith) hu.le
    rw [k2] at k1
    have k7 : u * (A + 3 * u * X + η) = u * A + u * (3 * u * X) + u * η := by ring
    linarith

end Ieee

/-- C144: the temperature of an energy above `q`: its error is at most a few roundings of the two numbers whose difference it is,
`(e - q) / Cv` and `Pinf / (rho Cv)`, not of the temperature itself. -/
theorem C144_temperature {rnd : ℝ → ℝ} (h : ToNearest 53 (-1074) rnd) {Cv Pinf qq rho e : ℝ} (gm1 : Ext) (hP : 0 ≤ Pinf)
    (hPf : IsFloat 53 (-1074) Pinf) (hqf : IsFloat 53 (-1074) qq) (hef : IsFloat 53 (-1074) e) (hqe : qq ≤ e) (hr : 0 < rho)
    (h1 : 2 * (e - qq) ≤ maxDouble) (h2 : 2 * (rho * (e - qq) + Pinf) ≤ maxDouble) (h3 : 2 ^ 55 * small ≤ rho * Cv)
    (h4 : rho * Cv ≤ maxDouble / 2) (h5 : 4 * ((rho * (e - qq) + Pinf) / (rho * Cv)) ≤ maxDouble) :
    ∃ t, temperature rnd maxDouble ⟨gm1, .fin Cv, .fin Pinf, .fin qq⟩ (.fin rho) (.fin e) = .fin t ∧
      |t - max small ((rho * (e - qq) - Pinf) / (rho * Cv))| ≤
        (16 / 2 ^ 53 * (rho * (e - qq) + Pinf) + (2 : ℝ) ^ (-1072 : ℤ)) / (rho * Cv) := by
  have hu := Ieee.u_pos
  have hu1 := u_lt
  have hη : (0 : ℝ) < 2 ^ (-1075 : ℤ) := two_zpow_pos _
  have hs := small_pos
  obtain ⟨n, en, -, -, bn⟩ := numerator h hP hPf hqf hef hqe hr h1 h2
  set η : ℝ := 2 ^ (-1075 : ℤ) with hηd
  have hX0 : 0 ≤ rho * (e - qq) := mul_nonneg hr.le (by linarith)
  set A := rho * (e - qq) + Pinf with hA
  set N := rho * (e - qq) - Pinf with hN
  have hA0 : 0 ≤ A := by linarith
  have hNA : |N| ≤ A := by rw [hN, hA, abs_le]; constructor <;> linarith
  set D := rho * Cv with hD
  have hD0 : 0 < D := lt_of_lt_of_le (by positivity) h3
  have h55 : (2 : ℝ) ^ (-1022 : ℤ) ≤ D := by
    refine le_trans ?_ (guard_ge.trans h3)
    exact zpow_le_zpow_right₀ one_le_two (by norm_num)
  have bd : |D - rnd D| ≤ u * D := rnd_rel h h55
  set d := rnd D with hd
  have uD : u * D ≤ D / 2 ^ 50 := by nlinarith
  have dlo : D / 2 ≤ d := by linarith [(abs_le.mp bd).2]
  have d0 : 0 < d := by linarith
  have dhi : d ≤ maxDouble := by linarith [(abs_le.mp bd).1]
  have d54 : 2 ^ 54 * small ≤ |d| := by
    rw [abs_of_pos d0]
    have : (2 : ℝ) ^ 55 * small = 2 * (2 ^ 54 * small) := by ring
    linarith
  have dM : |d| ≤ maxDouble := by rwa [abs_of_pos d0]
  set q := n / d with hq
  have bq : |q - N / D| ≤ (12 * u * A + 4 * η) / D := by
    have e1 : q - N / D = ((n - N) + N * ((D - d) / D)) / d := by
      rw [hq]; field_simp; ring
    rw [e1, abs_div, abs_of_pos d0, div_le_div_iff₀ d0 hD0]
    have e2 : |(D - d) / D| ≤ u := by
      rw [abs_div, abs_of_pos hD0, div_le_iff₀ hD0]
      exact bd
    have e3 : |N * ((D - d) / D)| ≤ A * u := by
      rw [abs_mul]
      exact mul_le_mul hNA e2 (abs_nonneg _) hA0
    have e4 : |(n - N) + N * ((D - d) / D)| ≤ 6 * u * A + 2 * η := by
      refine (abs_add_le _ _).trans ?_
      linarith
    have e5 : (6 * u * A + 2 * η) * D ≤ (6 * u * A + 2 * η) * (2 * d) :=
      mul_le_mul_of_nonneg_left (by linarith) (by positivity)
    have e6 := mul_le_mul_of_nonneg_right e4 hD0.le
    linarith
  have hQ0 : 0 ≤ A / D := by positivity
  have aN : |N / D| ≤ A / D := by
    rw [abs_div, abs_of_pos hD0]
    exact div_le_div_of_nonneg_right hNA hD0.le
  have hE : (12 * u * A + 4 * η) / D = 12 * u * (A / D) + 4 * (η / D) := by field_simp
  have hηD : η / D ≤ 1 := by
    rw [div_le_one hD0]
    refine le_trans ?_ h55
    rw [hηd]
    exact zpow_le_zpow_right₀ one_le_two (by norm_num)
  have hηD0 : 0 ≤ η / D := by positivity
  have aq : |q| ≤ A / D + (12 * u * (A / D) + 4 * (η / D)) := by
    have := abs_sub_abs_le_abs_sub q (N / D)
    linarith
  have uQ : 12 * u * (A / D) ≤ A / D := by nlinarith
  have hMl := maxDouble_large
  have hMl2 : (8 : ℝ) ≤ maxDouble := le_trans (by norm_num) hMl
  have qM : |q| ≤ maxDouble := by linarith
  refine ⟨max small (rnd q), ?_, ?_⟩
  · simp only [temperature]
    have q1 : mul rnd maxDouble (.fin rho) (.fin Cv) = .fin d := ofReal_fin dM
    rw [en, q1, C135_ratio_is_rounded_quotient h (h.isFloat _) dM d54]
    have q2 : div rnd maxDouble (.fin n) (.fin d) = .fin (rnd q) := by
      simp only [div, if_neg d0.ne']
      exact ofReal_fin (abs_rnd_le h maxDouble_float qM)
    rw [q2, stdMax_fin]
  · have k1 := max_small_rnd h q
    have k2 : |max small q - max small (N / D)| ≤ |q - N / D| := by
      rw [max_comm small, max_comm small]
      exact abs_max_sub_max_le_abs _ _ _
    have k3 := abs_sub_le (max small (rnd q)) (max small q) (max small (N / D))
    have k4 : u * |q| ≤ u * (A / D + (A / D + 4 * (η / D))) := mul_le_mul_of_nonneg_left (by linarith) hu.le
    have k5 : u * (4 * (η / D)) ≤ η / D := by nlinarith
    have k6 : u * (A / D + (A / D + 4 * (η / D))) = 2 * (u * (A / D)) + u * (4 * (η / D)) := by ring
    have e72 : (2 : ℝ) ^ (-1072 : ℤ) = 8 * η := eta8
    have hF : (16 / 2 ^ 53 * A + (2 : ℝ) ^ (-1072 : ℤ)) / D = 16 * (u * (A / D)) + 8 * (η / D) := by
      rw [e72]; unfold u; field_simp
    have k7 : 0 ≤ u * (A / D) := by positivity
    rw [hF]
    linarith

/-- C144: temperature to energy and back: the difference is at most 66 roundings of `e / Cv = T + (Pinf / rho + q) / Cv`, whatever the
parameters. -/
theorem C144_round_trip {rnd : ℝ → ℝ} (h : ToNearest 53 (-1074) rnd) {Cv Pinf qq rho T : ℝ} (gm1 : Ext) (hC : 0 < Cv)
    (hP : 0 ≤ Pinf) (hPf : IsFloat 53 (-1074) Pinf) (hq : 0 ≤ qq) (hqf : IsFloat 53 (-1074) qq) (hrf : IsFloat 53 (-1074) rho)
    (hr : 2 ^ 55 * small ≤ rho) (hrm : rho ≤ maxDouble / 2) (hT : small ≤ T) (h1 : 2 ^ 55 * small ≤ rho * Cv)
    (h1' : rho * Cv ≤ maxDouble / 2) (h2 : InRange (rho * Cv * T)) (h4 : InRange ((rho * Cv * T + Pinf) / rho))
    (h5 : 16 * ((rho * Cv * T + Pinf) / rho + qq) ≤ maxDouble) (h6 : 16 * (rho * ((rho * Cv * T + Pinf) / rho + qq)) ≤ maxDouble)
    (h7 : 16 * (((rho * Cv * T + Pinf) / rho + qq) / Cv) ≤ maxDouble) :
    let g : Stiff := ⟨gm1, .fin Cv, .fin Pinf, .fin qq⟩
    ∃ t, temperature rnd maxDouble g (.fin rho) (energy rnd maxDouble g (.fin rho) (.fin T)) = .fin t ∧
      |t - T| ≤ 66 / 2 ^ 53 * (T + (Pinf / rho + qq) / Cv) := by
  intro g
  have hs := small_pos
  have hu := Ieee.u_pos
  have hu1 := u_lt
  have hr0 : 0 < rho := lt_of_lt_of_le (by positivity) hr
  have hT0 : 0 < T := lt_of_lt_of_le hs hT
  have hD0 : 0 < rho * Cv := mul_pos hr0 hC
  set E := (rho * Cv * T + Pinf) / rho + qq with hE
  have hrE : rho * E = rho * Cv * T + Pinf + rho * qq := by rw [hE]; field_simp
  have hrq : 0 ≤ rho * qq := mul_nonneg hr0.le hq
  have hE1 : (rho * Cv * T + Pinf) / rho ≤ E := by linarith
  have hE0 : 0 < E := lt_of_lt_of_le h4.pos hE1
  have s1022 := guard_ge
  have A := C144_energy h gm1 hC hP hq hqf hrf hr hrm hT0 ⟨s1022.trans h1, h1'⟩ h2
    ⟨h2.1.trans (by linarith), by linarith⟩ h4 ⟨h4.1.trans hE1, by linarith⟩
  have hge : le (.fin qq) (energy rnd maxDouble g (.fin rho) (.fin T)) :=
    (C144_floors rnd maxDouble g (by simp [g]) (by simp [g]) (.fin rho) (.fin T)).2.2 _ List.mem_cons_self
  have hfl : ∀ y, energy rnd maxDouble g (.fin rho) (.fin T) = .fin y → IsFloat 53 (-1074) y := by
    intro y hy
    simp only [energy, stdMax] at hy
    split_ifs at hy
    · exact add_isFloat h hy
    · simp only [g] at hy; cases hy; exact hqf
  obtain ⟨e', he, wE⟩ := A
  have hef := hfl e' he
  have hqe : qq ≤ e' := by
    have he2 : energy rnd maxDouble g (.fin rho) (.fin T) = .fin e' := he
    rw [he2] at hge
    exact hge
  have eE : |e' - E| ≤ 10 * (u * E) := by
    have := wE.rel (by norm_num) hE0
    have e : 2 * ((5 : ℕ) : ℝ) / 2 ^ 53 * E = 10 * (u * E) := by unfold u; push_cast; ring
    rwa [e] at this
  have uE : u * E ≤ E / 2 ^ 50 := by nlinarith
  have e2E : e' ≤ 2 * E := by linarith [(abs_le.mp eE).2]
  have hX : rho * (e' - qq) + Pinf ≤ 3 * (rho * E) := by
    have k1 := mul_le_mul_of_nonneg_left e2E hr0.le
    have hDT : 0 < rho * Cv * T := h2.pos
    linarith
  have hDq : rho * E / (rho * Cv) = E / Cv := by field_simp
  have hXD : (rho * (e' - qq) + Pinf) / (rho * Cv) ≤ 3 * (E / Cv) := by
    rw [div_le_iff₀ hD0]
    have : 3 * (E / Cv) * (rho * Cv) = 3 * (rho * E) := by field_simp
    rw [this]
    exact hX
  obtain ⟨t, ht, bt⟩ := C144_temperature h gm1 hP hPf hqf hef hqe hr0 (by linarith) (by linarith) h1 h1' (by linarith)
  refine ⟨t, ?_, ?_⟩
  · have he2 : energy rnd maxDouble g (.fin rho) (.fin T) = .fin e' := he
    rw [he2]
    exact ht
  · have k1 : max small T = T := max_eq_right hT
    have k2 : |max small ((rho * (e' - qq) - Pinf) / (rho * Cv)) - max small T| ≤ 10 * (u * (E / Cv)) := by
      rw [max_comm small, max_comm small]
      refine (abs_max_sub_max_le_abs _ _ _).trans ?_
      have e3 : (rho * (e' - qq) - Pinf) / (rho * Cv) - T = (e' - E) / Cv := by
        have : Pinf = rho * E - rho * Cv * T - rho * qq := by linarith
        rw [this]; field_simp; ring
      rw [e3, abs_div, abs_of_pos hC, div_le_iff₀ hC]
      have : 10 * (u * (E / Cv)) * Cv = 10 * (u * E) := by field_simp
      rw [this]
      exact eE
    rw [k1] at k2
    have k3 : (16 / 2 ^ 53 * (rho * (e' - qq) + Pinf) + (2 : ℝ) ^ (-1072 : ℤ)) / (rho * Cv) ≤ 56 * (u * (E / Cv)) := by
      have e4 : (2 : ℝ) ^ (-1072 : ℤ) ≤ 8 * (u * (rho * E)) := by
        have b1 : (2 : ℝ) ^ (-1021 : ℤ) ≤ rho * E := by
          rw [hrE]
          have := h2.1
          linarith
        have b2 : (2 : ℝ) ^ (-1072 : ℤ) = 4 * (u * 2 ^ (-1021 : ℤ)) := by
          have : (-1072 : ℤ) = -51 + -1021 := by norm_num
          have c1 : (2 : ℝ) ^ (-51 : ℤ) = 4 * u := by unfold u; norm_num
          rw [this, two_zpow_add, c1]
          ring
        have b3 := mul_le_mul_of_nonneg_left b1 hu.le
        have b4 : 0 ≤ u * (rho * E) := by positivity
        rw [b2]
        linarith
      rw [div_le_iff₀ hD0]
      have e5 : 56 * (u * (E / Cv)) * (rho * Cv) = 56 * (u * (rho * E)) := by field_simp
      have e6 : 16 / 2 ^ 53 * (rho * (e' - qq) + Pinf) ≤ 48 * (u * (rho * E)) := by
        have : 16 / 2 ^ 53 * (rho * (e' - qq) + Pinf) = 16 * u * (rho * (e' - qq) + Pinf) := by unfold u; ring
        rw [this]
        have := mul_le_mul_of_nonneg_left hX (show 0 ≤ 16 * u by positivity)
        linarith
      rw [e5]
      linarith
    have k4 := abs_sub_le t (max small ((rho * (e' - qq) - Pinf) / (rho * Cv))) T
    have k5 : 66 / 2 ^ 53 * (T + (Pinf / rho + qq) / Cv) = 66 * (u * (E / Cv)) := by
      rw [hE]; unfold u; field_simp; ring
    rw [k5]
    linarith

/-- C144: the pressure of a density and temperature. -/
theorem C144_pressure_temperature {rnd : ℝ → ℝ} (h : ToNearest 53 (-1074) rnd) {gm1 Cv Pinf rho T : ℝ} (qq : Ext) (hg : 0 < gm1)
    (hC : 0 < Cv) (hP : 0 ≤ Pinf) (hPf : IsFloat 53 (-1074) Pinf) (hPm : Pinf ≤ maxDouble) (hr : 0 < rho) (hT : 0 < T)
    (h1 : InRange (gm1 * rho)) (h2 : InRange (gm1 * rho * Cv)) (h3 : InRange (gm1 * rho * Cv * T)) :
    ∃ p, pressureT rnd maxDouble ⟨.fin gm1, .fin Cv, .fin Pinf, qq⟩ (.fin rho) (.fin T) = .fin p ∧
      |p - (gm1 * rho * Cv * T - Pinf)| ≤ 8 / 2 ^ 53 * (gm1 * rho * Cv * T + Pinf) := by
  have hu := Ieee.u_pos
  have A1 := (Approx.exact hg).mul h hg hr (Approx.exact hr) h1 (by norm_num)
  have A2 := A1.mul h h1.pos hC (Approx.exact hC) h2 (by norm_num)
  have A3 := A2.mul h h2.pos hT (Approx.exact hT) h3 (by norm_num)
  have hX := h3.pos
  have hXM := h3.2
  set X := gm1 * rho * Cv * T with hXd
  obtain ⟨m, hm, wm⟩ := A3
  have hmf := mul_isFloat h hm
  have m0 := wm.pos hX
  have m2 := (wm.le_two (by norm_num) hX).1
  have em : |m - X| ≤ 6 * (u * X) := by
    have := wm.rel (by norm_num) hX
    have e : 2 * ((0 + 0 + 1 + 0 + 1 + 0 + 1 : ℕ) : ℝ) / 2 ^ 53 * X = 6 * (u * X) := by unfold u; push_cast; ring
    rwa [e] at this
  set z := m - Pinf with hz
  have ez : |rnd z - z| ≤ u * |z| := rnd_sum h (hmf.mult.sub hPf.mult)
  have zle : |z| ≤ 2 * X + Pinf := by rw [hz, abs_le]; constructor <;> linarith
  have zM : |z| ≤ maxDouble := by rw [hz, abs_le]; constructor <;> linarith
  have q : sub rnd maxDouble (.fin m) (.fin Pinf) = .fin (rnd z) := ofReal_fin (r := m + -Pinf) (abs_rnd_le h maxDouble_float zM)
  refine ⟨max (-Pinf) (rnd z), ?_, ?_⟩
  · simp only [pressureT]
    rw [hm, q]
    exact stdMax_fin _ _
  · have hge : -Pinf ≤ rnd z := rnd_ge h hPf.neg (by rw [hz]; linarith)
    rw [max_eq_right hge]
    have k1 := abs_sub_le (rnd z) z (X - Pinf)
    have k2 : |z - (X - Pinf)| = |m - X| := by congr 1; rw [hz]; ring
    have k3 : u * |z| ≤ u * (2 * X + Pinf) := mul_le_mul_of_nonneg_left zle hu.le
    have k4 : 8 / 2 ^ 53 * (X + Pinf) = 8 * (u * X) + 8 * (u * Pinf) := by unfold u; ring
    have k5 : 0 ≤ u * Pinf := by positivity
    rw [k4]
    rw [k2] at k1
    linarith

set_option maxHeartbeats 1000000 in
/-- C144: the pressure of a density and an energy above `q`: floored at `-Pinf`, and otherwise off by a few roundings of the two terms
whose difference it is. -/
theorem C144_pressure_energy {rnd : ℝ → ℝ} (h : ToNearest 53 (-1074) rnd) {gm1 Pinf qq rho e : ℝ} (Cv : Ext) (hg : 0 < gm1)
    (hP : 0 ≤ Pinf) (hqf : IsFloat 53 (-1074) qq) (hef : IsFloat 53 (-1074) e) (hqe : qq ≤ e) (hr : 0 < rho) (h1 : InRange (gm1 * rho))
    (h2 : 2 * (e - qq) ≤ maxDouble) (h3 : 4 * (gm1 * rho * (e - qq)) ≤ maxDouble) (h4 : 2 * (gm1 + 1) ≤ maxDouble)
    (h5 : 4 * ((gm1 + 1) * Pinf) ≤ maxDouble) :
    ∃ p, pressureE rnd maxDouble ⟨.fin gm1, Cv, .fin Pinf, .fin qq⟩ (.fin rho) (.fin e) = .fin p ∧
      |p - max (-Pinf) (gm1 * rho * (e - qq) - (gm1 + 1) * Pinf)| ≤
        8 / 2 ^ 53 * (gm1 * rho * (e - qq) + (gm1 + 1) * Pinf) + (2 : ℝ) ^ (-1072 : ℤ) := by
  have hu := Ieee.u_pos
  have hu1 := u_lt
  have hη : (0 : ℝ) < 2 ^ (-1075 : ℤ) := two_zpow_pos _
  set η : ℝ := 2 ^ (-1075 : ℤ) with hηd
  have hη1 : η ≤ 1 := zpow_le_one_of_nonpos₀ (by norm_num) (by norm_num)
  have hMl2 : (8 : ℝ) ≤ maxDouble := le_trans (by norm_num) maxDouble_large
  have hs0 : 0 ≤ e - qq := by linarith
  set s := e - qq with hsd
  have e1 : |rnd s - s| ≤ u * s := by
    have := rnd_sum h (x := s) (hef.mult.sub hqf.mult)
    rwa [abs_of_nonneg hs0] at this
  have us : u * s ≤ s / 2 ^ 50 := by nlinarith
  have s0 : 0 ≤ rnd s := rnd_nonneg h hs0
  have sM : |rnd s| ≤ maxDouble := by rw [abs_of_nonneg s0]; linarith [(abs_le.mp e1).2]
  set R := gm1 * rho with hR
  have R0 := h1.pos
  have R1022 : (2 : ℝ) ^ (-1022 : ℤ) ≤ R := le_trans (zpow_le_zpow_right₀ one_le_two (by norm_num)) h1.1
  have e2 : |rnd R - R| ≤ u * R := by rw [abs_sub_comm]; exact rnd_rel h R1022
  have r0 : 0 ≤ rnd R := rnd_nonneg h R0.le
  have uR : u * R ≤ R / 2 ^ 50 := by nlinarith
  have rM : |rnd R| ≤ maxDouble := by rw [abs_of_nonneg r0]; linarith [(abs_le.mp e2).2, h1.2]
  set X := R * s with hX
  have X0 : 0 ≤ X := mul_nonneg R0.le hs0
  have uX0 : 0 ≤ u * X := by positivity
  have e3 : |rnd R * rnd s - X| ≤ 3 * (u * X) := by
    have a1 : rnd R * rnd s - X = (rnd R - R) * rnd s + R * (rnd s - s) := by rw [hX]; ring
    rw [a1]
    refine (abs_add_le _ _).trans ?_
    rw [abs_mul, abs_mul, abs_of_nonneg s0, abs_of_pos R0]
    have a2 : |rnd R - R| * rnd s ≤ u * R * (2 * s) :=
      mul_le_mul e2 (by linarith [(abs_le.mp e1).2]) s0 (by positivity)
    have a3 : R * |rnd s - s| ≤ R * (u * s) := mul_le_mul_of_nonneg_left e1 R0.le
    have a4 : u * R * (2 * s) = 2 * (u * X) := by rw [hX]; ring
    have a5 : R * (u * s) = u * X := by rw [hX]; ring
    linarith
  have uX : u * X ≤ X / 2 ^ 50 := by nlinarith
  have p0 : 0 ≤ rnd R * rnd s := mul_nonneg r0 s0
  have pX : rnd R * rnd s ≤ X + X / 2 ^ 48 := by linarith [(abs_le.mp e3).2]
  set m := rnd (rnd R * rnd s) with hm
  have m0 : 0 ≤ m := rnd_nonneg h p0
  have e4 : |m - rnd R * rnd s| ≤ u * (rnd R * rnd s) + η := by
    have := rnd_abs h (rnd R * rnd s)
    rwa [abs_of_nonneg p0] at this
  have uuX : u * (X / 2 ^ 48) ≤ u * X / 2 ^ 48 := le_of_eq (by ring)
  have e5 : |m - X| ≤ 5 * (u * X) + η := by
    have a1 := abs_sub_le m (rnd R * rnd s) X
    have a2 := mul_le_mul_of_nonneg_left pX hu.le
    have a3 : u * (X + X / 2 ^ 48) = u * X + u * (X / 2 ^ 48) := by ring
    linarith
  have mM : |m| ≤ maxDouble := abs_rnd_le h maxDouble_float (by rw [abs_of_nonneg p0]; linarith)
  set G := gm1 + 1 with hG
  have G1 : 1 ≤ G := by linarith
  have G0 : 0 < G := by linarith
  have G1022 : (2 : ℝ) ^ (-1022 : ℤ) ≤ G := le_trans (zpow_le_one_of_nonpos₀ (by norm_num) (by norm_num)) G1
  have f1 : |rnd G - G| ≤ u * G := by rw [abs_sub_comm]; exact rnd_rel h G1022
  have g0 : 0 ≤ rnd G := rnd_nonneg h G0.le
  have uG : u * G ≤ G / 2 ^ 50 := by nlinarith
  have gM : |rnd G| ≤ maxDouble := by rw [abs_of_nonneg g0]; linarith [(abs_le.mp f1).2]
  set B := G * Pinf with hB
  have B0 : 0 ≤ B := mul_nonneg G0.le hP
  have uB0 : 0 ≤ u * B := by positivity
  have uB : u * B ≤ B / 2 ^ 50 := by nlinarith
  have f2 : |rnd G * Pinf - B| ≤ u * B := by
    have a1 : rnd G * Pinf - B = (rnd G - G) * Pinf := by rw [hB]; ring
    rw [a1, abs_mul, abs_of_nonneg hP]
    have a2 := mul_le_mul_of_nonneg_right f1 hP
    have a3 : u * G * Pinf = u * B := by rw [hB]; ring
    linarith
  have gp0 : 0 ≤ rnd G * Pinf := mul_nonneg g0 hP
  set b := rnd (rnd G * Pinf) with hb
  have b0 : 0 ≤ b := rnd_nonneg h gp0
  have f3 : |b - rnd G * Pinf| ≤ u * (rnd G * Pinf) + η := by
    have := rnd_abs h (rnd G * Pinf)
    rwa [abs_of_nonneg gp0] at this
  have f4 : |b - B| ≤ 3 * (u * B) + η := by
    have a1 := abs_sub_le b (rnd G * Pinf) B
    have a2 := mul_le_mul_of_nonneg_left (show rnd G * Pinf ≤ 2 * B by linarith [(abs_le.mp f2).2]) hu.le
    linarith
  have bM : |b| ≤ maxDouble := abs_rnd_le h maxDouble_float (by rw [abs_of_nonneg gp0]; linarith [(abs_le.mp f2).2])
  set z := m - b with hz
  have ez : |rnd z - z| ≤ u * |z| := rnd_sum h ((h.isFloat _).mult.sub (h.isFloat _).mult)
  have zM : |z| ≤ maxDouble := by
    rw [abs_of_nonneg m0] at mM
    rw [abs_of_nonneg b0] at bM
    rw [hz, abs_le]; constructor <;> linarith
  have zle : |z| ≤ X + B + 6 * (X / 2 ^ 50 + B / 2 ^ 50) + 2 * η := by
    have a1 := (abs_le.mp e5).2
    have a2 := (abs_le.mp f4).2
    rw [hz, abs_le]; constructor <;> linarith
  have q1 : mul rnd maxDouble (.fin gm1) (.fin rho) = .fin (rnd R) := ofReal_fin rM
  have q2 : sub rnd maxDouble (.fin e) (.fin qq) = .fin (rnd s) := ofReal_fin (r := e + -qq) sM
  have q3 : mul rnd maxDouble (.fin (rnd R)) (.fin (rnd s)) = .fin m := ofReal_fin mM
  have q4 : add rnd maxDouble (.fin gm1) (.fin 1) = .fin (rnd G) := ofReal_fin gM
  have q5 : mul rnd maxDouble (.fin (rnd G)) (.fin Pinf) = .fin b := ofReal_fin bM
  have q6 : sub rnd maxDouble (.fin m) (.fin b) = .fin (rnd z) := ofReal_fin (r := m + -b) (abs_rnd_le h maxDouble_float zM)
  refine ⟨max (-Pinf) (rnd z), ?_, ?_⟩
  · simp only [pressureE, q1, q2, q3, q4, q5, q6]
    exact stdMax_fin _ _
  · have k0 : |max (-Pinf) (rnd z) - max (-Pinf) (X - B)| ≤ |rnd z - (X - B)| := by
      rw [max_comm (-Pinf), max_comm (-Pinf)]
      exact abs_max_sub_max_le_abs _ _ _
    have k1 := abs_sub_le (rnd z) z (X - B)
    have k2 : |z - (X - B)| ≤ |m - X| + |b - B| := by
      have : z - (X - B) = (m - X) - (b - B) := by rw [hz]; ring
      rw [this]
      exact abs_sub _ _
    have k3 := mul_le_mul_of_nonneg_left zle hu.le
    have k4 : u * (X + B + 6 * (X / 2 ^ 50 + B / 2 ^ 50) + 2 * η) =
      u * X + u * B + 6 / 2 ^ 50 * (u * X + u * B) + 2 * (u * η) := by ring
    have k5 : u * η ≤ η := mul_le_of_le_one_left hη.le u_le_one
    have e72 : (2 : ℝ) ^ (-1072 : ℤ) = 8 * η := eta8
    have k6 : 8 / 2 ^ 53 * (X + B) = 8 * (u * X) + 8 * (u * B) := by unfold u; ring
    rw [e72, k6]
    refine k0.trans (k1.trans ?_)
    have k7 : 6 / 2 ^ 50 * (u * X + u * B) ≤ 1 * (u * X + u * B) := mul_le_mul_of_nonneg_right (by norm_num) (by linarith)
    linarith

/-- C144: the bulk modulus of a density and temperature is exact up to 5 roundings; of a density and an energy, up to roundings of
the terms whose difference it contains, with the floor `SMALL`. -/
theorem C144_bulk_modulus {rnd : ℝ → ℝ} (h : ToNearest 53 (-1074) rnd) {gm1 Cv Pinf qq rho T e : ℝ} (hg : 0 < gm1) (hC : 0 < Cv)
    (hr : 0 < rho) (hT : 0 < T) (hP : 0 ≤ Pinf) (hPf : IsFloat 53 (-1074) Pinf) (hqf : IsFloat 53 (-1074) qq)
    (hef : IsFloat 53 (-1074) e) (hqe : qq ≤ e) (h1 : InRange (gm1 + 1)) (h2 : InRange (gm1 * (gm1 + 1))) :
    let g : Stiff := ⟨.fin gm1, .fin Cv, .fin Pinf, .fin qq⟩
    (InRange (gm1 * (gm1 + 1) * rho) → InRange (gm1 * (gm1 + 1) * rho * Cv) → InRange (gm1 * (gm1 + 1) * rho * Cv * T) →
      2 * small ≤ gm1 * (gm1 + 1) * rho * Cv * T →
      Approx 5 (gm1 * (gm1 + 1) * rho * Cv * T) (bulkModulusT rnd maxDouble g (.fin rho) (.fin T))) ∧
    (2 * (e - qq) ≤ maxDouble → 2 * (rho * (e - qq) + Pinf) ≤ maxDouble →
      8 * (gm1 * (gm1 + 1) * (rho * (e - qq) + Pinf + 1)) ≤ maxDouble →
      ∃ b, bulkModulusE rnd maxDouble g (.fin rho) (.fin e) = .fin b ∧
        |b - max small (gm1 * (gm1 + 1) * (rho * (e - qq) - Pinf))| ≤
          gm1 * (gm1 + 1) * (20 / 2 ^ 53 * (rho * (e - qq) + Pinf) + (2 : ℝ) ^ (-1072 : ℤ))) := by
  intro g
  have Ag := Approx.exact hg
  have G1 := Ag.add h hg one_pos (Approx.exact one_pos) h1 (by norm_num)
  have GG := Ag.mul h hg h1.pos G1 h2 (by norm_num)
  constructor
  · intro h3 h4 h5 h6
    have A3 := GG.mul h h2.pos hr (Approx.exact hr) h3 (by norm_num)
    have A4 := A3.mul h h3.pos hC (Approx.exact hC) h4 (by norm_num)
    have A5 := A4.mul h h4.pos hT (Approx.exact hT) h5 (by norm_num)
    exact A5.floor h6 (by norm_num)
  · intro h3 h4 h5
    have hu := Ieee.u_pos
    have hu1 := u_lt
    have hη : (0 : ℝ) < 2 ^ (-1075 : ℤ) := two_zpow_pos _
    obtain ⟨n, en, -, -, bn⟩ := numerator h hP hPf hqf hef hqe hr h3 h4
    set η : ℝ := 2 ^ (-1075 : ℤ) with hηd
    have hη1 : η ≤ 1 := zpow_le_one_of_nonpos₀ (by norm_num) (by norm_num)
    obtain ⟨gg, hgg, wgg⟩ := GG
    have g0 := wgg.pos h2.pos
    have H0 := h2.pos
    set H := gm1 * (gm1 + 1) with hH
    have g2 := (wgg.le_two (by norm_num) H0).1
    have eg : |gg - H| ≤ 4 * (u * H) := by
      have := wgg.rel (by norm_num) H0
      have e : 2 * ((0 + (max 0 0 + 1) + 1 : ℕ) : ℝ) / 2 ^ 53 * H = 4 * (u * H) := by unfold u; norm_num; ring
      rwa [e] at this
    have hX0 : 0 ≤ rho * (e - qq) := mul_nonneg hr.le (by linarith)
    set A := rho * (e - qq) + Pinf with hA
    set N := rho * (e - qq) - Pinf with hN
    have hA0 : 0 ≤ A := by linarith
    have hNA : |N| ≤ A := by rw [hN, hA, abs_le]; constructor <;> linarith
    have uA : 5 * u * A ≤ A / 4 := by nlinarith
    have uA0 : 0 ≤ u * A := by positivity
    have nle : |n| ≤ A + A / 4 + 2 * η := by
      have := abs_sub_abs_le_abs_sub n N
      linarith
    have k1 : |gg * n - H * N| ≤ H * (14 * (u * A) + 4 * η) := by
      have e1 : gg * n - H * N = gg * (n - N) + (gg - H) * N := by ring
      rw [e1]
      refine (abs_add_le _ _).trans ?_
      rw [abs_mul, abs_mul, abs_of_pos g0]
      have a1 := mul_le_mul g2 bn (abs_nonneg _) (by positivity)
      have a2 := mul_le_mul eg hNA (abs_nonneg _) (by positivity)
      have a3 : 2 * H * (5 * u * A + 2 * η) + 4 * (u * H) * A = H * (14 * (u * A) + 4 * η) := by ring
      linarith
    have k2 : |gg * n| ≤ H * (3 * A + 4 * η) := by
      rw [abs_mul, abs_of_pos g0]
      have a1 := mul_le_mul g2 nle (abs_nonneg _) (by positivity)
      have a2 : 2 * H * (A + A / 4 + 2 * η) ≤ H * (3 * A + 4 * η) := by
        have : 0 ≤ H * A := by positivity
        nlinarith
      linarith
    have k3 : |gg * n| ≤ maxDouble := by
      have a1 : H * (3 * A + 4 * η) ≤ H * (8 * (A + 1)) := mul_le_mul_of_nonneg_left (by linarith) H0.le
      have a2 : H * (8 * (A + 1)) = 8 * (H * (A + 1)) := by ring
      linarith
    refine ⟨max small (rnd (gg * n)), ?_, ?_⟩
    · have q : mul rnd maxDouble (.fin gg) (.fin n) = .fin (rnd (gg * n)) := ofReal_fin (abs_rnd_le h maxDouble_float k3)
      simp only [bulkModulusE, g]
      rw [hgg, en, q]
      exact stdMax_fin _ _
    · have m1 := max_small_rnd h (gg * n)
      have m2 : |max small (gg * n) - max small (H * N)| ≤ |gg * n - H * N| := by
        rw [max_comm small, max_comm small]
        exact abs_max_sub_max_le_abs _ _ _
      have m3 := abs_sub_le (max small (rnd (gg * n))) (max small (gg * n)) (max small (H * N))
      have m4 := mul_le_mul_of_nonneg_left k2 hu.le
      have e72 : (2 : ℝ) ^ (-1072 : ℤ) = 8 * η := eta8
      have m5 : H * (20 / 2 ^ 53 * A + (2 : ℝ) ^ (-1072 : ℤ)) = 20 * (H * (u * A)) + 8 * (H * η) := by
        rw [e72]; unfold u; ring
      have m6 : u * (H * (3 * A + 4 * η)) = 3 * (H * (u * A)) + 4 * (u * (H * η)) := by ring
      have m7 : H * (14 * (u * A) + 4 * η) = 14 * (H * (u * A)) + 4 * (H * η) := by ring
      have m8 : 0 ≤ H * (u * A) := by positivity
      have m9 : u * (H * η) ≤ H * η := by
        have : 0 ≤ H * η := by positivity
        nlinarith
      rw [m5]
      linarith

/-- C144: density and energy of a positive pressure and temperature are exact up to 4 and 8 roundings. -/
theorem C144_density_energy {rnd : ℝ → ℝ} (h : ToNearest 53 (-1074) rnd) {gm1 Cv Pinf qq P T : ℝ} (hg : 0 < gm1) (hC : 0 < Cv)
    (hPi : 0 < Pinf) (hq : 0 ≤ qq) (hqf : IsFloat 53 (-1074) qq) (hP : 0 < P) (hT : 0 < T) :
    let g : Stiff := ⟨.fin gm1, .fin Cv, .fin Pinf, .fin qq⟩
    (InRange (P + Pinf) → InRange (gm1 * Cv) → 2 ^ 55 * small ≤ gm1 * Cv * T → gm1 * Cv * T ≤ maxDouble / 2 →
      2 * small ≤ (P + Pinf) / (gm1 * Cv * T) → InRange ((P + Pinf) / (gm1 * Cv * T)) →
      Approx 4 ((P + Pinf) / (gm1 * Cv * T)) (densityEnergy rnd maxDouble g (.fin P) (.fin T)).1) ∧
    (InRange (gm1 + 1) → InRange ((gm1 + 1) * Pinf) → InRange (P + (gm1 + 1) * Pinf) → 2 ^ 55 * small ≤ P + Pinf →
      P + Pinf ≤ maxDouble / 2 → InRange ((P + (gm1 + 1) * Pinf) / (P + Pinf)) →
      InRange ((P + (gm1 + 1) * Pinf) / (P + Pinf) * Cv) → InRange ((P + (gm1 + 1) * Pinf) / (P + Pinf) * Cv * T) →
      InRange ((P + (gm1 + 1) * Pinf) / (P + Pinf) * Cv * T + qq) →
      Approx 8 ((P + (gm1 + 1) * Pinf) / (P + Pinf) * Cv * T + qq) (densityEnergy rnd maxDouble g (.fin P) (.fin T)).2) := by
  intro g
  have hs := small_pos
  have Ag := Approx.exact hg
  have AC := Approx.exact hC
  have AP := Approx.exact hP
  have AT := Approx.exact hT
  have API := Approx.exact hPi
  constructor
  · intro h1 h2 h3 h3' h4 h5
    have B1 := AP.add h hP hPi API h1 (by norm_num)
    have B2 := Ag.mul h hg hC AC h2 (by norm_num)
    have B3 := B2.mul h h2.pos hT AT ⟨guard_ge.trans h3, h3'⟩ (by norm_num)
    have B4 := B1.ratio h h1.pos h3 h3' B3 (fun y hy => mul_isFloat h hy) h5 (by norm_num)
    exact (B4.floor h4 (by norm_num))
  · intro h1 h2 h3 h4 h4' h5 h6 h7 h8
    have B1 := Ag.add h hg one_pos (Approx.exact one_pos) h1 (by norm_num)
    have B2 := B1.mul h h1.pos hPi API h2 (by norm_num)
    have B3 := AP.add h hP h2.pos B2 h3 (by norm_num)
    have B4 := AP.add h hP hPi API ⟨guard_ge.trans h4, h4'⟩ (by norm_num)
    have B5 := B3.ratio h h3.pos h4 h4' B4 (fun y hy => add_isFloat h hy) h5 (by norm_num)
    have B6 := B5.mul h h5.pos hC AC h6 (by norm_num)
    have B7 := B6.mul h h6.pos hT AT h7 (by norm_num)
    have B8 := B7.add_nonneg h h7.pos hq h8 (by norm_num)
    refine Approx.stdMax (by exact B8) ?_
    intro y hy
    obtain ⟨z, hz, wz⟩ := B7
    rw [hz] at hy
    change add rnd maxDouble (.fin z) (.fin qq) = _ at hy
    have hz0 := wz.pos h7.pos
    have : y = rnd (z + qq) := by
      simp only [add, ofReal] at hy
      split_ifs at hy
      cases hy
      rfl
    rw [this]
    exact rnd_ge h hqf (by linarith)

/-- C144 (violated): the temperature is lost where `Pinf` dominates: with `rho = Cv = 1`, `Pinf = 2^60` and `q = 0`, the energy of the
temperature 1 is `2^60`, whose temperature is `SMALL`, about `2·10^{-307}`. -/
theorem C144_round_trip_violated {rnd : ℝ → ℝ} (h : ToNearest 53 (-1074) rnd) (gm1 : Ext) :
    let g : Stiff := ⟨gm1, .fin 1, .fin (2 ^ 60), .fin 0⟩
    energy rnd maxDouble g (.fin 1) (.fin 1) = .fin (2 ^ 60) ∧
      temperature rnd maxDouble g (.fin 1) (energy rnd maxDouble g (.fin 1) (.fin 1)) = .fin small := by
  intro g
  have hs := small_pos
  have hMl := maxDouble_large
  have f1 : IsFloat 53 (-1074) 1 := ⟨1, 0, by norm_num, by norm_num, by norm_num⟩
  have f60 : IsFloat 53 (-1074) (2 ^ 60) := ⟨1, 60, by norm_num, by norm_num, by norm_num⟩
  have r1 : rnd 1 = 1 := h.exact f1
  have r60 : rnd (2 ^ 60) = 2 ^ 60 := h.exact f60
  have r0 : rnd 0 = 0 := h.exact isFloat_zero
  have rs : rnd (1 + 2 ^ 60) = 2 ^ 60 := by
    rw [add_comm]
    exact rnd_absorb_pos h f60 zero_le_one (by norm_num) (by norm_num)
  have M1 : (1 : ℝ) ≤ maxDouble := le_trans (by norm_num) hMl
  have M60 : (2 : ℝ) ^ 60 ≤ maxDouble := le_trans (by norm_num) hMl
  have s54 : 2 ^ 54 * small ≤ |(1 : ℝ)| := by
    rw [abs_one]
    unfold small
    have h1 : (2 : ℝ) ^ (-1022 : ℤ) ≤ 2 ^ (-60 : ℤ) := zpow_le_zpow_right₀ one_le_two (by norm_num)
    have h2 : (2 : ℝ) ^ (-60 : ℤ) * 2 ^ 60 = 1 := by norm_num
    nlinarith
  have o1 : ofReal rnd maxDouble 1 = .fin 1 := by rw [ofReal_fin (by rw [r1, abs_one]; exact M1), r1]
  have o60 : ofReal rnd maxDouble (2 ^ 60) = .fin (2 ^ 60) := by
    rw [ofReal_fin (by rw [r60, abs_of_pos (by positivity)]; exact M60), r60]
  have os : ofReal rnd maxDouble (1 + 2 ^ 60) = .fin (2 ^ 60) := by
    rw [ofReal_fin (by rw [rs, abs_of_pos (by positivity)]; exact M60), rs]
  have o0 : ofReal rnd maxDouble 0 = .fin 0 := by
    rw [ofReal_fin (by rw [r0, abs_zero]; exact maxDouble_pos.le), r0]
  have one_ne : (1 : ℝ) ≠ 0 := one_ne_zero
  have hE : energy rnd maxDouble g (.fin 1) (.fin 1) = .fin (2 ^ 60) := by
    simp only [energy, g]
    have q1 : mul rnd maxDouble (.fin 1) (.fin 1) = .fin 1 := by simp only [mul, mul_one]; exact o1
    have q2 : add rnd maxDouble (.fin 1) (.fin (2 ^ 60)) = .fin (2 ^ 60) := os
    rw [q1, q1, q2, C135_ratio_is_rounded_quotient h f1 (by rwa [abs_one]) s54]
    have q3 : div rnd maxDouble (.fin (2 ^ 60)) (.fin 1) = .fin (2 ^ 60) := by
      simp only [div, if_neg one_ne, div_one]; exact o60
    have q4 : add rnd maxDouble (.fin (2 ^ 60)) (.fin 0) = .fin (2 ^ 60) := by simp only [add, add_zero]; exact o60
    rw [q3, q4, stdMax_fin, max_eq_right (by positivity)]
  refine ⟨hE, ?_⟩
  rw [hE]
  simp only [temperature, g, sub, neg, neg_zero]
  have q1 : mul rnd maxDouble (.fin 1) (.fin 1) = .fin 1 := by simp only [mul, mul_one]; exact o1
  have q2 : add rnd maxDouble (.fin (2 ^ 60)) (.fin 0) = .fin (2 ^ 60) := by simp only [add, add_zero]; exact o60
  have q3 : mul rnd maxDouble (.fin 1) (.fin (2 ^ 60)) = .fin (2 ^ 60) := by simp only [mul, one_mul]; exact o60
  have q4 : add rnd maxDouble (.fin (2 ^ 60)) (.fin (-(2 ^ 60))) = .fin 0 := by simp only [add, add_neg_cancel]; exact o0
  rw [q1, q2, q3, q4, C135_ratio_is_rounded_quotient h f1 (by rwa [abs_one]) s54]
  have q5 : div rnd maxDouble (.fin 0) (.fin 1) = .fin 0 := by simp only [div, if_neg one_ne, zero_div]; exact o0
  rw [q5, stdMax_fin, max_eq_left hs.le]

end Verif
