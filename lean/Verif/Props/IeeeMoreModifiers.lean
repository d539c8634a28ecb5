import Verif.Props.IeeeModifiers
import Verif.Props.IeeeStiff
import Verif.Lemmas.IeeeMono
import Verif.Model.IeeeMoreModifiers

/-! # C161: floor, ramp, relativistic and unit modifiers in machine arithmetic -/

namespace Verif

open Ieee Rounding

theorem Ieee.le_of_not_ltM {x y : Ext} (h : ¬ lt x y) (hx : x ≠ .nan) (hy : y ≠ .nan) : le y x := by
  rcases x with _ | s | x <;> rcases y with _ | s' | y
  all_goals first | exact absurd rfl hx | exact absurd rfl hy | skip
  · cases s <;> cases s' <;> simp_all [lt, le]
  · cases s <;> simp_all [lt, le]
  · cases s' <;> simp_all [lt, le]
  · exact not_lt.mp h

theorem Ieee.lt_of_le_of_ltM {x y z : Ext} (h1 : le x y) (h2 : lt y z) : lt x z := by
  rcases x with _ | s | x <;> rcases y with _ | s' | y <;> rcases z with _ | s'' | z
  all_goals first | exact (h1 : False).elim | exact (h2 : False).elim | skip
  all_goals simp_all [lt, le]
  exact lt_of_le_of_lt h1 h2

theorem Ieee.not_lt_of_leM {x y : Ext} (h1 : le x y) : ¬ lt y x := by
  rcases x with _ | s | x <;> rcases y with _ | s' | y <;> simp_all [lt, le]
  rcases h1 with rfl | rfl <;> simp

/-! ## The energy floor -/

/-- C161: `FlooredEnergy` makes no rounding error: every lookup by energy is the wrapped lookup at the same energy `x`, which is the
energy given or, only if that is below it, the minimum energy of the density; so `x` is not below the minimum. -/
theorem C161_floor (t : LEos) (rho sie : Ext) :
    ∃ x : Ext, (∀ q, (floored t).byE q rho sie = t.byE q rho x) ∧ (x = sie ∨ x = t.minE rho) ∧
      (¬ lt sie (t.minE rho) → x = sie) ∧ (lt sie (t.minE rho) → x = t.minE rho) ∧ ¬ lt x (t.minE rho) := by
  refine ⟨stdMax sie (t.minE rho), fun _ => rfl, ?_⟩
  unfold stdMax
  by_cases c : lt sie (t.minE rho)
  · rw [if_pos c]
    refine ⟨Or.inr rfl, fun h => absurd c h, fun _ => rfl, ?_⟩
    rcases t.minE rho with _ | s | x
    · simp [lt]
    · cases s <;> simp [lt]
    · simp [lt]
  · rw [if_neg c]
    exact ⟨Or.inl rfl, fun _ => rfl, fun h => absurd h c, c⟩

/-- C161: flooring twice is flooring once, and lookups by temperature and the minimum energy are those of the wrapped equation of
state. -/
theorem C161_floor_twice (t : LEos) (rho x : Ext) (q : ByE) (q' : ByT) :
    (floored (floored t)).byE q rho x = (floored t).byE q rho x ∧ (floored t).byT q' rho x = t.byT q' rho x ∧
      (floored t).minE rho = t.minE rho := by
  refine ⟨?_, rfl, rfl⟩
  change t.byE q rho (stdMax (stdMax x (t.minE rho)) (t.minE rho)) = t.byE q rho (stdMax x (t.minE rho))
  congr 1
  obtain ⟨y, -, -, -, -, h⟩ := C161_floor t rho x
  have : ¬ lt (stdMax x (t.minE rho)) (t.minE rho) := by
    unfold stdMax
    by_cases c : lt x (t.minE rho)
    · rw [if_pos c]
      rcases t.minE rho with _ | s | x
      · simp [lt]
      · cases s <;> simp [lt]
      · simp [lt]
    · rw [if_neg c]; exact c
  rw [stdMax, if_neg this]

/-- C161: a lookup that is monotone in the energy stays monotone under the floor (any minimum, infinite and NaN included). -/
theorem C161_floor_monotone (t : LEos) (q : ByE) (rho : Ext) (ht : ∀ x x', le x x' → le (t.byE q rho x) (t.byE q rho x'))
    (e e' : Ext) (h : le e e') : le ((floored t).byE q rho e) ((floored t).byE q rho e') := by
  apply ht
  generalize t.minE rho = m
  unfold stdMax
  have hne : m ≠ .nan → le m m := le_refl_of
  by_cases c : lt e m <;> by_cases c' : lt e' m
  · rw [if_pos c, if_pos c']
    apply hne
    rintro rfl
    revert c
    cases e <;> simp [lt]
  · rw [if_pos c, if_neg c']
    rcases e with _ | s | x <;> rcases e' with _ | s' | x' <;> rcases m with _ | n | m <;> simp_all [lt, le]
  · rw [if_neg c, if_pos c']
    rcases e with _ | s | x <;> rcases e' with _ | s' | x' <;> rcases m with _ | n | m <;> simp_all [lt, le]
    · linarith
  · rw [if_neg c, if_neg c']
    exact h

/-- C161 fails here: a minimum energy that is NaN disables the floor, whatever the energy; and an energy that is NaN is passed on
to the wrapped equation of state instead of being replaced by the minimum. -/
theorem C161_floor_nan_violated (t : LEos) (rho : Ext) (q : ByE) :
    (t.minE rho = .nan → ∀ sie, (floored t).byE q rho sie = t.byE q rho sie) ∧
      (floored t).byE q rho .nan = t.byE q rho .nan := by
  constructor
  · intro h sie
    change t.byE q rho (stdMax sie (t.minE rho)) = _
    rw [h]
    unfold stdMax
    rw [if_neg]
    cases sie <;> simp [lt]
  · change t.byE q rho (stdMax .nan (t.minE rho)) = _
    unfold stdMax
    rw [if_neg]
    simp [lt]

/-! ## The ramp -/

/-- C161: the pressure of the ramped equation of state is one of the two pressures and not below either, unless one of them is
NaN; the bulk modulus is the wrapped one exactly when the pressure is; everything else is passed on. -/
theorem C161_ramp_larger (rnd : ℝ → ℝ) (Ω : ℝ) (p : MRamp) (t : LEos) (rho y : Ext) :
    let g := rampOn rnd Ω p t
    let pr := p.pressure rnd Ω rho
    (pr ≠ .nan → t.byE .pressure rho y ≠ .nan →
      (g.byE .pressure rho y = pr ∨ g.byE .pressure rho y = t.byE .pressure rho y) ∧ le pr (g.byE .pressure rho y) ∧
        le (t.byE .pressure rho y) (g.byE .pressure rho y)) ∧
    (pr ≠ .nan → t.byT .pressure rho y ≠ .nan →
      (g.byT .pressure rho y = pr ∨ g.byT .pressure rho y = t.byT .pressure rho y) ∧ le pr (g.byT .pressure rho y) ∧
        le (t.byT .pressure rho y) (g.byT .pressure rho y)) ∧
    (¬ lt (t.byE .pressure rho y) pr → g.byE .bulk rho y = t.byE .bulk rho y) ∧
    (lt (t.byE .pressure rho y) pr → g.byE .bulk rho y = mul rnd Ω rho (p.dpdrho rnd Ω rho)) ∧
    (¬ lt (t.byT .pressure rho y) pr → g.byT .bulk rho y = t.byT .bulk rho y) ∧
    (lt (t.byT .pressure rho y) pr → g.byT .bulk rho y = mul rnd Ω rho (p.dpdrho rnd Ω rho)) ∧
    (∀ q, q ≠ .pressure → q ≠ .bulk → g.byE q rho y = t.byE q rho y) ∧
    (∀ q, q ≠ .pressure → q ≠ .bulk → g.byT q rho y = t.byT q rho y) := by
  intro g pr
  have key : ∀ a b : Ext, a ≠ .nan → b ≠ .nan →
      ((open Classical in if lt a b then b else a) = b ∨ (open Classical in if lt a b then b else a) = a) ∧
        le b (open Classical in if lt a b then b else a) ∧ le a (open Classical in if lt a b then b else a) := by
    intro a b ha hb
    classical
    by_cases c : lt a b
    · simp only [if_pos c]
      exact ⟨Or.inl trivial, le_refl_of hb, le_of_lt' c⟩
    · simp only [if_neg c]
      exact ⟨Or.inr trivial, le_of_not_ltM c ha hb, le_refl_of ha⟩
  refine ⟨fun h1 h2 => key _ _ h2 h1, fun h1 h2 => key _ _ h2 h1, ?_, ?_, ?_, ?_, ?_, ?_⟩
  · intro h; exact if_neg h
  · intro h; exact if_pos h
  · intro h; exact if_neg h
  · intro h; exact if_pos h
  · intro q h1 h2; cases q <;> first | rfl | exact absurd rfl h1 | exact absurd rfl h2
  · intro q h1 h2; cases q <;> first | rfl | exact absurd rfl h1 | exact absurd rfl h2

/-- C161 fails here: a NaN wrapped pressure is returned as it is, although the ramp pressure is well defined; and where the ramp pressure
is NaN the wrapped pressure is returned unchecked. -/
theorem C161_ramp_nan_violated (rnd : ℝ → ℝ) (Ω : ℝ) (p : MRamp) (t : LEos) (rho y : Ext) :
    (t.byE .pressure rho y = .nan → (rampOn rnd Ω p t).byE .pressure rho y = .nan) ∧
      (p.pressure rnd Ω rho = .nan → (rampOn rnd Ω p t).byE .pressure rho y = t.byE .pressure rho y) := by
  constructor
  · intro h
    refine Eq.trans (if_neg ?_) h
    rw [h]; simp [lt]
  · intro h
    refine if_neg ?_
    rw [h]
    cases t.byE .pressure rho y <;> simp [lt]

theorem Ieee.ratio_selfM (h : Dbl rnd) {b : ℝ} (hf : IsFloat 53 (-1074) b) (hb : 2 ^ 54 * small ≤ b) (hm : b ≤ maxDouble) :
    ratio rnd maxDouble (.fin b) (.fin b) = .fin 1 := by
  have h0 : 0 < b := lt_of_lt_of_le (mul_pos (by positivity) small_pos) hb
  rw [C135_ratio_is_rounded_quotient h hf (by rwa [abs_of_pos h0]) (by rwa [abs_of_pos h0])]
  simp only [div, if_neg h0.ne', div_self h0.ne', ofReal]
  have hf1 : IsFloat 53 (-1074) (1 : ℝ) := ⟨1, 0, by norm_num, by norm_num, by norm_num⟩
  rw [h.exact hf1, if_neg]
  rw [abs_one]
  have := maxDouble_large
  have h2 : (1 : ℝ) ≤ 2 ^ 100 := by norm_num
  exact not_lt.mpr (h2.trans this)

/-- C161: the computed ramp pressure is exactly 0 below and at the reference density, and below the mid density it never decreases
with density and is never negative, overflow included. -/
theorem C161_ramp_first_part {rnd : ℝ → ℝ} (h : ToNearest 53 (-1074) rnd) (p : MRamp) (hf : IsFloat 53 (-1074) p.r0)
    (hr0 : 2 ^ 54 * small ≤ p.r0) (hm : p.r0 ≤ maxDouble) (ha : 0 < p.a) {rho rho' : Ext} (hle : le rho rho')
    (hmid : lt rho' p.rmid) :
    le (p.pressure rnd maxDouble rho) (p.pressure rnd maxDouble rho') ∧ le (.fin 0) (p.pressure rnd maxDouble rho) ∧
      (le rho (.fin p.r0) → p.pressure rnd maxDouble rho = .fin 0) := by
  have h0 : 0 < p.r0 := lt_of_lt_of_le (mul_pos (by positivity) small_pos) hr0
  have hM := maxDouble_pos
  have hne : rho ≠ .nan ∧ rho' ≠ .nan := by
    constructor <;> rintro rfl
    · simp [le] at hle
    · cases rho <;> simp [le] at hle
  have at0 : mul rnd maxDouble (.fin p.a) (sub rnd maxDouble (ratio rnd maxDouble (.fin p.r0) (.fin p.r0)) (.fin 1)) = .fin 0 := by
    rw [ratio_selfM h hf hr0 hm]
    simp [sub, neg, add, mul, ofReal, rnd_zero h, not_lt.mpr hM.le]
  -- on the rising part
  have val : ∀ x : Ext, ¬ lt x (.fin p.r0) → lt x p.rmid → p.pressure rnd maxDouble x =
      mul rnd maxDouble (.fin p.a) (sub rnd maxDouble (ratio rnd maxDouble x (.fin p.r0)) (.fin 1)) := by
    intro x h1 h2
    unfold MRamp.pressure
    rw [if_neg h1, if_pos h2]
  have low : ∀ x : Ext, lt x (.fin p.r0) → p.pressure rnd maxDouble x = .fin 0 := fun x h1 => if_pos h1
  have mono : ∀ x x' : Ext, le x x' →
      le (mul rnd maxDouble (.fin p.a) (sub rnd maxDouble (ratio rnd maxDouble x (.fin p.r0)) (.fin 1)))
        (mul rnd maxDouble (.fin p.a) (sub rnd maxDouble (ratio rnd maxDouble x' (.fin p.r0)) (.fin 1))) := fun x x' hx =>
    mul_mono_fin h ha (sub_mono h 1 (ratio_mono h h0.le hf hm hx))
  have nonneg : ∀ x : Ext, x ≠ .nan → lt x p.rmid → le (.fin 0) (p.pressure rnd maxDouble x) := by
    intro x hx hxm
    by_cases c : lt x (.fin p.r0)
    · rw [low x c]; simp [le]
    · rw [val x c hxm, ← at0]
      exact mono _ _ (le_of_not_ltM c hx (by simp))
  refine ⟨?_, nonneg rho hne.1 (lt_of_le_of_ltM hle hmid), ?_⟩
  · by_cases c : lt rho (.fin p.r0)
    · rw [low rho c]
      exact nonneg rho' hne.2 hmid
    · have c' : ¬ lt rho' (.fin p.r0) := fun h1 => c (lt_of_le_of_ltM hle h1)
      rw [val rho c (lt_of_le_of_ltM hle hmid), val rho' c' hmid]
      exact mono _ _ hle
  · intro hx
    by_cases c : lt rho (.fin p.r0)
    · exact low rho c
    · have : rho = .fin p.r0 := by
        have h2 := le_of_not_ltM c hne.1 (by simp)
        rcases rho with _ | s | x
        · simp [le] at hx
        · cases s <;> simp_all [le, lt]
        · simp only [le] at hx h2
          rw [le_antisymm hx h2]
      subst this
      rw [val _ c (lt_of_le_of_ltM hle hmid), at0]

/-- C161: from the mid density on the computed ramp pressure never decreases with density either. -/
theorem C161_ramp_second_part {rnd : ℝ → ℝ} (h : ToNearest 53 (-1074) rnd) (p : MRamp) (hf : IsFloat 53 (-1074) p.r0)
    (hr0 : 0 ≤ p.r0) (hm : p.r0 ≤ maxDouble) (hb : 0 < p.b) {rho rho' : Ext} (hle : le rho rho') (h0 : le (.fin p.r0) rho)
    (hmid : le p.rmid rho) : le (p.pressure rnd maxDouble rho) (p.pressure rnd maxDouble rho') := by
  have val : ∀ x : Ext, le (.fin p.r0) x → le p.rmid x → p.pressure rnd maxDouble x =
      mul rnd maxDouble (.fin p.b) (sub rnd maxDouble (ratio rnd maxDouble x (.fin p.r0)) (.fin p.c)) := by
    intro x h1 h2
    unfold MRamp.pressure
    rw [if_neg (not_lt_of_leM h1), if_neg (not_lt_of_leM h2)]
  rw [val rho h0 hmid, val rho' (le_trans' h0 hle) (le_trans' hmid hle)]
  exact mul_mono_fin h hb (sub_mono h _ (ratio_mono h hr0 hf hm hle))

/-- The part above the reference density: what the ramp and its inverse compute for the line of slope `k` through `c`. -/
theorem Ieee.ramp_line {rnd : ℝ → ℝ} (h : Dbl rnd) {r0 k c rho P : ℝ} (hf : IsFloat 53 (-1074) r0) (hfk : IsFloat 53 (-1074) k)
    (hfc : IsFloat 53 (-1074) c) (hr0 : 2 ^ 55 * small ≤ r0) (hr0m : r0 ≤ maxDouble / 2) (hk : 2 ^ 55 * small ≤ k)
    (hkm : k ≤ maxDouble / 2) (hc : 0 ≤ c) (hrho : r0 ≤ rho) (hrm : rho ≤ maxDouble / 4) (hQ : rho / r0 ≤ maxDouble / 8)
    (hP : mul rnd maxDouble (.fin k) (sub rnd maxDouble (ratio rnd maxDouble (.fin rho) (.fin r0)) (.fin c)) = .fin P)
    (hPr : InRange P) :
    Approx 6 rho (mul rnd maxDouble (.fin r0) (add rnd maxDouble (ratio rnd maxDouble (.fin P) (.fin k)) (.fin c))) ∧
      |P - k * (rho / r0 - c)| ≤ 16 / 2 ^ 53 * (k * (rho / r0)) := by
  have hM := maxDouble_pos
  have hML := maxDouble_large
  have hs := small_pos
  have h0 : 0 < r0 := lt_of_lt_of_le (by positivity) hr0
  have hk0 : 0 < k := lt_of_lt_of_le (by positivity) hk
  have hrho0 : 0 < rho := lt_of_lt_of_le h0 hrho
  have hQ1 : 1 ≤ rho / r0 := (one_le_div h0).mpr hrho
  have hf1 : IsFloat 53 (-1074) (1 : ℝ) := ⟨1, 0, by norm_num, by norm_num, by norm_num⟩
  have hz : (2 : ℝ) ^ (-1021 : ℤ) ≤ 1 := zpow_le_one_of_nonpos₀ (by norm_num) (by norm_num)
  have hQr : InRange (rho / r0) := ⟨hz.trans hQ1, by linarith⟩
  -- the quotient
  obtain ⟨q, hq, hqw⟩ := Approx.ratio h hrho0 hr0 hr0m (Approx.exact hrho0) (Approx.exact h0) (by rintro y hy; cases hy; exact hf) hQr
    (by norm_num)
  have hqf : IsFloat 53 (-1074) q ∧ 1 ≤ q := by
    have hs54 : 2 ^ 54 * small ≤ r0 := by linarith [mul_pos (show (0 : ℝ) < 2 ^ 54 by positivity) hs]
    rw [C135_ratio_is_rounded_quotient h hf (by rw [abs_of_pos h0]; linarith) (by rwa [abs_of_pos h0])] at hq
    simp only [div, if_neg h0.ne', ofReal] at hq
    split_ifs at hq
    cases hq
    exact ⟨h.isFloat _, rnd_ge h hf1 hQ1⟩
  obtain ⟨hqf, hq1⟩ := hqf
  have hq2 := hqw.le_two (by norm_num) (by positivity)
  have hqm : q ≤ maxDouble / 4 := by linarith
  have hqa : |q| = q := abs_of_pos (by linarith)
  -- the difference and the product do not overflow
  simp only [hq, sub, neg, add, ← sub_eq_add_neg] at hP
  unfold ofReal at hP
  by_cases c1 : maxDouble < |rnd (q - c)|
  · rw [if_pos c1] at hP
    simp only [mul, if_neg hk0.ne'] at hP
    cases hP
  rw [if_neg c1] at hP
  simp only [mul] at hP
  unfold ofReal at hP
  split_ifs at hP with c2
  injection hP with hP
  have hz2 : (2 : ℝ) ^ (-1021 : ℤ) = 2 * 2 ^ (-1022 : ℤ) := by
    rw [show (-1021 : ℤ) = 1 + -1022 by norm_num, two_zpow_add, zpow_one]
  have hz0 := two_zpow_pos (-1022)
  have hzf : IsFloat 53 (-1074) ((2 : ℝ) ^ (-1022 : ℤ)) := ⟨1, -1022, by norm_num, by norm_num, by simp⟩
  have hkd : (2 : ℝ) ^ (-1022 : ℤ) ≤ k * rnd (q - c) := by
    by_contra hcon
    have := rnd_le h hzf (not_le.mp hcon).le
    rw [hP] at this
    have := hPr.1
    linarith
  have hd0 : 0 < rnd (q - c) := by
    by_contra hcon
    have := mul_nonpos_of_nonneg_of_nonpos hk0.le (not_lt.mp hcon)
    linarith
  have hqc : 0 < q - c := by
    by_contra hcon
    have := rnd_le h isFloat_zero (not_lt.mp hcon)
    linarith
  have hqc53 : (2 : ℝ) ^ (-53 : ℤ) ≤ q - c := by
    have e53 : (2 : ℝ) ^ 53 * 2 ^ (-54 : ℤ) = 1 / 2 := by
      rw [zpow_neg]; norm_num
    rcases lt_or_ge c (1 / 2) with hc2 | hc2
    · have : (2 : ℝ) ^ (-53 : ℤ) ≤ 1 / 2 := by rw [zpow_neg]; norm_num
      have h3 : 1 / 2 ≤ q - c := by linarith
      exact this.trans h3
    · have m1 : Mult (-54 + 1) q := hqf.mult_of_large (by rw [e53, hqa]; linarith)
      have m2 : Mult (-54 + 1) c := hfc.mult_of_large (by rw [e53, abs_of_nonneg hc]; exact hc2)
      obtain ⟨j, hj⟩ := m1.sub m2
      have e : (-54 + 1 : ℤ) = -53 := by norm_num
      rw [e] at hj
      have h2 := two_zpow_pos (-53)
      have hj0 : 0 < j := by
        by_contra hcon
        have : (j : ℝ) ≤ 0 := by exact_mod_cast not_lt.mp hcon
        have := mul_nonpos_of_nonpos_of_nonneg this h2.le
        linarith
      have : (1 : ℝ) ≤ j := by exact_mod_cast hj0
      rw [hj]
      nlinarith
  have h53 : (2 : ℝ) ^ (-1021 : ℤ) ≤ (2 : ℝ) ^ (-53 : ℤ) := zpow_le_zpow_right₀ one_le_two (by norm_num)
  have hdw : Within 1 (q - c) (rnd (q - c)) := rnd_within h (by linarith)
  have hPw : Within 1 (k * rnd (q - c)) P := by rw [← hP]; exact rnd_within h hkd
  have hPw2 : Within 2 (k * (q - c)) P := ((Within.refl hk0.le).mul hk0 hqc hdw).trans hPw
  have hkqc : 0 < k * (q - c) := mul_pos hk0 hqc
  constructor
  · have e1 : k * (q - c) / k = q - c := by field_simp
    have a1 := Approx.ratio h hkqc hk hkm ⟨P, rfl, hPw2⟩ (Approx.exact hk0) (by rintro y hy; cases hy; exact hfk)
      (by rw [e1]; exact ⟨h53.trans hqc53, by linarith⟩) (by norm_num)
    rw [e1] at a1
    have a2 := a1.add_nonneg h hqc hc (by rw [sub_add_cancel]; exact ⟨hz.trans hq1, by linarith⟩) (by norm_num)
    rw [sub_add_cancel] at a2
    have a3 := Approx.trans hqw a2
    have e2 : r0 * (rho / r0) = rho := by field_simp
    have a4 := (Approx.exact h0).mul h h0 (by positivity) a3 (by
      rw [e2]
      refine ⟨?_, by linarith⟩
      have : (2 : ℝ) ^ (-1021 : ℤ) ≤ 2 ^ 55 * small := by
        unfold small
        rw [hz2]
        nlinarith
      linarith) (by norm_num)
    rw [e2] at a4
    exact a4
  · have b1 := hPw2.rel (by norm_num) hkqc
    have b2 := hqw.rel (by norm_num) (by positivity)
    have e3 : P - k * (rho / r0 - c) = (P - k * (q - c)) + k * (q - rho / r0) := by ring
    have e4 : |k * (q - rho / r0)| ≤ k * (2 / 2 ^ 53 * (rho / r0)) := by
      rw [abs_mul, abs_of_pos hk0]
      refine mul_le_mul_of_nonneg_left ?_ hk0.le
      norm_num at b2 ⊢
      exact b2
    have e5 : k * (q - c) ≤ k * (2 * (rho / r0)) := mul_le_mul_of_nonneg_left (by linarith [hq2.1]) hk0.le
    rw [e3]
    refine (abs_add_le _ _).trans ?_
    have : 0 ≤ k * (rho / r0) := by positivity
    norm_num at b1 e4 ⊢
    nlinarith

/-- C161: the pressure of the first part of the ramp has an absolute error of at most 16 half-units of the product `a ρ/r0`, and
`get_ramp_density` brings the density back up to six roundings. -/
theorem C161_ramp_round_trip {rnd : ℝ → ℝ} (h : ToNearest 53 (-1074) rnd) (p : MRamp) (hf : IsFloat 53 (-1074) p.r0)
    (hr0 : 2 ^ 55 * small ≤ p.r0) (hr0m : p.r0 ≤ maxDouble / 2) {rho P : ℝ} (hrho : p.r0 ≤ rho) (hrm : rho ≤ maxDouble / 4)
    (hQ : rho / p.r0 ≤ maxDouble / 8) (hP : p.pressure rnd maxDouble (.fin rho) = .fin P) (hPr : InRange P) :
    (lt (.fin rho) p.rmid → lt (.fin P) p.pmid → IsFloat 53 (-1074) p.a → 2 ^ 55 * small ≤ p.a → p.a ≤ maxDouble / 2 →
      Approx 6 rho (p.density rnd maxDouble (.fin P)) ∧ |P - p.a * (rho / p.r0 - 1)| ≤ 16 / 2 ^ 53 * (p.a * (rho / p.r0))) ∧
    (¬ lt (.fin rho) p.rmid → ¬ lt (.fin P) p.pmid → IsFloat 53 (-1074) p.b → IsFloat 53 (-1074) p.c → 0 ≤ p.c →
      2 ^ 55 * small ≤ p.b → p.b ≤ maxDouble / 2 →
      Approx 6 rho (p.density rnd maxDouble (.fin P)) ∧ |P - p.b * (rho / p.r0 - p.c)| ≤ 16 / 2 ^ 53 * (p.b * (rho / p.r0))) := by
  have hf1 : IsFloat 53 (-1074) (1 : ℝ) := ⟨1, 0, by norm_num, by norm_num, by norm_num⟩
  have hn : ¬ lt (.fin rho) (.fin p.r0) := not_lt.mpr hrho
  unfold MRamp.pressure at hP
  rw [if_neg hn] at hP
  constructor
  · intro c1 c2 h1 h2 h3
    rw [if_pos c1] at hP
    unfold MRamp.density
    rw [if_pos c2]
    exact ramp_line h hf h1 hf1 hr0 hr0m h2 h3 zero_le_one hrho hrm hQ hP hPr
  · intro c1 c2 h1 h2 h3 h4 h5
    rw [if_neg c1] at hP
    unfold MRamp.density
    rw [if_neg c2]
    exact ramp_line h hf h1 h2 hr0 hr0m h4 h5 h3 hrho hrm hQ hP hPr

/-- C161: on the ramp the bulk modulus is density times slope, `ρ a/r0` or `ρ b/r0`, up to two roundings. -/
theorem C161_ramp_bulk {rnd : ℝ → ℝ} (h : ToNearest 53 (-1074) rnd) (p : MRamp) (t : LEos) (hf : IsFloat 53 (-1074) p.r0)
    (hr0 : 2 ^ 55 * small ≤ p.r0) (hr0m : p.r0 ≤ maxDouble / 2) {rho : ℝ} (hr : 0 < rho) (y : Ext) (k : ℝ) (hk : 0 < k)
    (hka : lt (.fin rho) p.rmid → k = p.a) (hkb : ¬ lt (.fin rho) p.rmid → k = p.b) (h1 : InRange (k / p.r0)) (h2 : InRange (rho * (k / p.r0))) :
    (lt (t.byE .pressure (.fin rho) y) (p.pressure rnd maxDouble (.fin rho)) →
      Approx 2 (rho * (k / p.r0)) ((rampOn rnd maxDouble p t).byE .bulk (.fin rho) y)) ∧
    (lt (t.byT .pressure (.fin rho) y) (p.pressure rnd maxDouble (.fin rho)) →
      Approx 2 (rho * (k / p.r0)) ((rampOn rnd maxDouble p t).byT .bulk (.fin rho) y)) := by
  have h0 : 0 < p.r0 := lt_of_lt_of_le (mul_pos (by positivity) small_pos) hr0
  have hd : p.dpdrho rnd maxDouble (.fin rho) = ratio rnd maxDouble (.fin k) (.fin p.r0) := by
    unfold MRamp.dpdrho
    by_cases c : lt (.fin rho) p.rmid
    · rw [if_pos c, hka c]
    · rw [if_neg c, hkb c]
  have a1 := Approx.ratio h hk hr0 hr0m (Approx.exact hk) (Approx.exact h0) (by rintro y hy; cases hy; exact hf) h1 (by norm_num)
  have a2 := (Approx.exact hr).mul h hr h1.pos a1 h2 (by norm_num)
  rw [← hd] at a2
  obtain ⟨-, -, -, e1, -, e2, -, -⟩ := C161_ramp_larger rnd maxDouble p t (.fin rho) y
  exact ⟨fun c => by rw [e1 c]; exact a2, fun c => by rw [e2 c]; exact a2⟩

/-- C161 fails at the mid density: with the ramp `r0 = 3/4, a = 1/4, b = 1, c = 5/4` (mid density 1, every constructor operation exact)
the computed ramp pressure falls when the density goes up from the last number below 1 to 1. -/
theorem C161_ramp_kink_violated {rnd : ℝ → ℝ} (h : ToNearest 53 (-1074) rnd) :
    let p := MRamp.make rnd maxDouble (3 / 4) (1 / 4) 1 (5 / 4)
    p.rmid = .fin 1 ∧ lt (p.pressure rnd maxDouble (.fin 1)) (p.pressure rnd maxDouble (.fin (1 - 1 / 2 ^ 53))) := by
  intro p
  have hl := maxDouble_large
  have hsm : ∀ x : ℝ, |x| ≤ 10 → ¬ maxDouble < |x| := by
    intro x h1
    have : (10 : ℝ) ≤ 2 ^ 100 := by norm_num
    exact not_lt.mpr (h1.trans (this.trans hl))
  have ex : ∀ (m e : ℤ) (x : ℝ), |m| < 2 ^ 53 → -1074 ≤ e → x = m * 2 ^ e → |x| ≤ 10 → ofReal rnd maxDouble x = .fin x := by
    intro m e x h1 h2 h3 h4
    have hf : IsFloat 53 (-1074) x := ⟨m, e, h1, h2, h3⟩
    unfold ofReal
    rw [h.exact hf, if_neg (hsm _ h4)]
  have z2 : (2 : ℝ) ^ (-2 : ℤ) = 1 / 4 := by rw [zpow_neg]; norm_num
  have z52 : (2 : ℝ) ^ (-52 : ℤ) = 1 / 2 ^ 52 := by rw [zpow_neg, one_div]; norm_cast
  have z54 : (2 : ℝ) ^ (-54 : ℤ) = 1 / 2 ^ 54 := by rw [zpow_neg, one_div]; norm_cast
  have hb : (1 / 4 - 1 : ℝ) ≠ 0 := by norm_num
  have e0 : p.rmid = .fin 1 := by
    change div rnd maxDouble (mul rnd maxDouble (.fin (3 / 4)) (sub rnd maxDouble (.fin (1 / 4)) (mul rnd maxDouble (.fin 1)
      (.fin (5 / 4))))) (sub rnd maxDouble (.fin (1 / 4)) (.fin 1)) = _
    have e1 : mul rnd maxDouble (.fin 1) (.fin (5 / 4)) = .fin (5 / 4) := by
      simp only [mul, one_mul]
      exact ex 5 (-2) _ (by norm_num) (by norm_num) (by rw [z2]; norm_num) (by norm_num [abs_of_pos])
    have e2 : sub rnd maxDouble (.fin (1 / 4)) (.fin (5 / 4)) = .fin (-1) := by
      simp only [sub, neg, add]
      rw [show (1 / 4 + -(5 / 4) : ℝ) = -1 by norm_num]
      exact ex (-1) 0 _ (by norm_num) (by norm_num) (by norm_num) (by norm_num)
    have e3 : mul rnd maxDouble (.fin (3 / 4)) (.fin (-1)) = .fin (-(3 / 4)) := by
      simp only [mul]
      rw [show (3 / 4 * -1 : ℝ) = -(3 / 4) by norm_num]
      exact ex (-3) (-2) _ (by norm_num) (by norm_num) (by rw [z2]; norm_num) (by rw [abs_neg]; norm_num [abs_of_pos])
    have e4 : sub rnd maxDouble (.fin (1 / 4)) (.fin 1) = .fin (-(3 / 4)) := by
      simp only [sub, neg, add]
      rw [show (1 / 4 + -1 : ℝ) = -(3 / 4) by norm_num]
      exact ex (-3) (-2) _ (by norm_num) (by norm_num) (by rw [z2]; norm_num) (by rw [abs_neg]; norm_num [abs_of_pos])
    rw [e1, e2, e3, e4]
    simp only [div, if_neg (show (-(3 / 4) : ℝ) ≠ 0 by norm_num)]
    rw [show (-(3 / 4) / -(3 / 4) : ℝ) = 1 by norm_num]
    exact ex 1 0 _ (by norm_num) (by norm_num) (by norm_num) (by norm_num)
  refine ⟨e0, ?_⟩
  have hr0 : p.r0 = 3 / 4 := rfl
  have ha : p.a = 1 / 4 := rfl
  have hbb : p.b = 1 := rfl
  have hc : p.c = 5 / 4 := rfl
  have hsmall : 2 ^ 54 * small ≤ |(3 / 4 : ℝ)| := by
    have h1 : (2 : ℝ) ^ (-1022 : ℤ) ≤ 2 ^ (-100 : ℤ) := zpow_le_zpow_right₀ one_le_two (by norm_num)
    have h2 : (2 : ℝ) ^ (-100 : ℤ) = 1 / 2 ^ 100 := by rw [zpow_neg, one_div]; norm_cast
    rw [h2] at h1
    unfold small
    rw [abs_of_pos (by norm_num)]
    norm_num at h1 ⊢
    linarith
  have hf34 : IsFloat 53 (-1074) (3 / 4 : ℝ) := ⟨3, -2, by norm_num, by norm_num, by rw [z2]; norm_num⟩
  have rq : ∀ x : ℝ, |x / (3 / 4) - 6004799503160661 * (2 : ℝ) ^ (-52 : ℤ)| < 2 ^ (-52 : ℤ) / 2 →
      ratio rnd maxDouble (.fin x) (.fin (3 / 4)) = .fin (6004799503160661 * (2 : ℝ) ^ (-52 : ℤ)) := by
    intro x hx
    have h34 : |(3 / 4 : ℝ)| ≤ maxDouble := (not_lt.mp (hsm _ (by norm_num [abs_of_pos])))
    rw [C135_ratio_is_rounded_quotient h hf34 h34 hsmall]
    simp only [div, if_neg (show (3 / 4 : ℝ) ≠ 0 by norm_num)]
    have := h.eq_of_close (m := 6004799503160661) (e := -52) (x := x / (3 / 4)) (by norm_num) (by norm_num) (by norm_num)
      (by push_cast; exact hx)
    unfold ofReal
    rw [this, if_neg (hsm _ (by rw [z52]; push_cast; rw [abs_of_pos (by norm_num)]; norm_num))]
    push_cast
    rfl
  have q1 := rq 1 (by rw [z52, abs_lt]; constructor <;> norm_num)
  have q2 := rq (1 - 1 / 2 ^ 53) (by rw [z52, abs_lt]; constructor <;> norm_num)
  have n1 : ¬ lt (.fin 1) (.fin p.r0) := not_lt.mpr (by rw [hr0]; norm_num)
  have n2 : ¬ lt (.fin (1 - 1 / 2 ^ 53)) (.fin p.r0) := not_lt.mpr (by rw [hr0]; norm_num)
  have n3 : ¬ lt (.fin 1) p.rmid := by rw [e0]; exact lt_irrefl (1 : ℝ)
  have n4 : lt (.fin (1 - 1 / 2 ^ 53)) p.rmid := by rw [e0]; exact (by norm_num : (1 - 1 / 2 ^ 53 : ℝ) < 1)
  have v1 : p.pressure rnd maxDouble (.fin 1) = .fin (375299968947541 * (2 : ℝ) ^ (-52 : ℤ)) := by
    unfold MRamp.pressure
    rw [if_neg n1, if_neg n3, hr0, hbb, hc, q1]
    have s1 : sub rnd maxDouble (.fin (6004799503160661 * (2 : ℝ) ^ (-52 : ℤ))) (.fin (5 / 4)) =
        .fin (375299968947541 * (2 : ℝ) ^ (-52 : ℤ)) := by
      simp only [sub, neg, add]
      rw [show (6004799503160661 * (2 : ℝ) ^ (-52 : ℤ) + -(5 / 4)) = 375299968947541 * (2 : ℝ) ^ (-52 : ℤ) by rw [z52]; norm_num]
      exact ex 375299968947541 (-52) _ (by norm_num) (by norm_num) (by push_cast; rfl)
        (by rw [z52, abs_of_pos (by norm_num)]; norm_num)
    rw [s1]
    simp only [mul, one_mul]
    exact ex 375299968947541 (-52) _ (by norm_num) (by norm_num) (by push_cast; rfl)
      (by rw [z52, abs_of_pos (by norm_num)]; norm_num)
  have v2 : p.pressure rnd maxDouble (.fin (1 - 1 / 2 ^ 53)) = .fin (1501199875790165 * (2 : ℝ) ^ (-54 : ℤ)) := by
    unfold MRamp.pressure
    rw [if_neg n2, if_pos n4, hr0, ha, q2]
    have s1 : sub rnd maxDouble (.fin (6004799503160661 * (2 : ℝ) ^ (-52 : ℤ))) (.fin 1) =
        .fin (1501199875790165 * (2 : ℝ) ^ (-52 : ℤ)) := by
      simp only [sub, neg, add]
      rw [show (6004799503160661 * (2 : ℝ) ^ (-52 : ℤ) + -1) = 1501199875790165 * (2 : ℝ) ^ (-52 : ℤ) by rw [z52]; norm_num]
      exact ex 1501199875790165 (-52) _ (by norm_num) (by norm_num) (by push_cast; rfl)
        (by rw [z52, abs_of_pos (by norm_num)]; norm_num)
    rw [s1]
    simp only [mul]
    rw [show (1 / 4 * (1501199875790165 * (2 : ℝ) ^ (-52 : ℤ))) = 1501199875790165 * (2 : ℝ) ^ (-54 : ℤ) by rw [z52, z54]; norm_num]
    exact ex 1501199875790165 (-54) _ (by norm_num) (by norm_num) (by push_cast; rfl)
      (by rw [z54, abs_of_pos (by norm_num)]; norm_num)
  rw [v1, v2]
  show (375299968947541 * (2 : ℝ) ^ (-52 : ℤ)) < 1501199875790165 * (2 : ℝ) ^ (-54 : ℤ)
  rw [z52, z54]
  norm_num

/-! ## The relativistic modifier -/

theorem Ieee.stdMax_zero_nonNeg (x : Ext) : NonNeg (stdMax (.fin 0) x) := le_stdMax (by simp) x

/-- C161: the bulk modulus of `RelativisticEOS` is never NaN and never negative, whatever the wrapped equation of state returns;
everything else is passed on. -/
theorem C161_relativistic_total (rnd : ℝ → ℝ) (Ω : ℝ) (cl : Ext) (t : LEos) (rho y : Ext) :
    NonNeg ((relativisticOn rnd Ω cl t).byE .bulk rho y) ∧ NonNeg ((relativisticOn rnd Ω cl t).byT .bulk rho y) ∧
      (∀ q, q ≠ .bulk → (relativisticOn rnd Ω cl t).byE q rho y = t.byE q rho y) ∧
      (∀ q, q ≠ .bulk → (relativisticOn rnd Ω cl t).byT q rho y = t.byT q rho y) := by
  refine ⟨stdMax_zero_nonNeg _, stdMax_zero_nonNeg _, ?_, ?_⟩
  · intro q h2; cases q <;> first | rfl | exact absurd rfl h2
  · intro q h2; cases q <;> first | rfl | exact absurd rfl h2

/-- C161: for a positive energy scale, the result is `B / (c² + e + P/ρ)` up to four roundings. -/
theorem C161_relativistic_value {rnd : ℝ → ℝ} (h : ToNearest 53 (-1074) rnd) {cl rho e P B : ℝ} (t : LEos) (hcl : 0 < cl)
    (hr0 : 2 ^ 55 * small ≤ rho) (hrm : rho ≤ maxDouble / 2) (hf : IsFloat 53 (-1074) rho) (he : 0 ≤ e) (hP : 0 < P) (hB : 0 < B)
    (h1 : InRange (cl * cl)) (h2 : InRange (cl * cl + e)) (h3 : InRange (P / rho)) (h4 : cl * cl + e + P / rho ≤ maxDouble / 2)
    (h5 : 2 ^ 55 * small ≤ cl * cl + e + P / rho) (h6 : InRange (B / (cl * cl + e + P / rho))) :
    (t.byE .pressure (.fin rho) (.fin e) = .fin P → t.byE .bulk (.fin rho) (.fin e) = .fin B →
      Approx 4 (B / (cl * cl + e + P / rho)) ((relativisticOn rnd maxDouble (.fin cl) t).byE .bulk (.fin rho) (.fin e))) ∧
    (∀ T, t.byT .energy (.fin rho) T = .fin e → t.byT .pressure (.fin rho) T = .fin P → t.byT .bulk (.fin rho) T = .fin B →
      Approx 4 (B / (cl * cl + e + P / rho)) ((relativisticOn rnd maxDouble (.fin cl) t).byT .bulk (.fin rho) T)) := by
  have hs := small_pos
  have hrho : 0 < rho := lt_of_lt_of_le (by positivity) hr0
  have a1 := (Approx.exact hcl).mul h hcl hcl (Approx.exact hcl) h1 (by norm_num)
  have a2 := a1.add_nonneg h h1.pos he h2 (by norm_num)
  have a3 := Approx.ratio h hP hr0 hrm (Approx.exact hP) (Approx.exact hrho) (by rintro y hy; cases hy; exact hf) h3 (by norm_num)
  have hh : InRange (cl * cl + e + P / rho) := by
    refine ⟨?_, h4⟩
    have := h2.1
    have := h3.pos
    linarith
  have a4 := a2.add h h2.pos h3.pos a3 hh (by norm_num)
  obtain ⟨y, hy, hyw⟩ := a4
  have hy0 := hyw.pos hh.pos
  have hyf : IsFloat 53 (-1074) y := by
    obtain ⟨z, hz, -⟩ := a2
    obtain ⟨w, hw, -⟩ := a3
    rw [hz, hw] at hy
    simp only [add, ofReal] at hy
    split_ifs at hy
    cases hy
    exact h.isFloat _
  have a5 := Approx.ratio h hB h5 h4 (Approx.exact hB) ⟨|y|, rfl, by rw [abs_of_pos hy0]; exact hyw⟩
    (by rintro z hz; cases hz; rw [abs_of_pos hy0]; exact hyf) h6 (by norm_num)
  have key : Approx 4 (B / (cl * cl + e + P / rho)) (stdMax (.fin 0) (ratio rnd maxDouble (.fin B) (.fin |y|))) := by
    refine Approx.stdMax a5 ?_
    intro z hz
    obtain ⟨w, hw, hww⟩ := a5
    rw [hw] at hz
    cases hz
    exact (hww.pos h6.pos).le
  constructor
  · intro hp hb
    change Approx 4 _ (stdMax (.fin 0) (ratio rnd maxDouble (t.byE .bulk (.fin rho) (.fin e)) (absM (add rnd maxDouble (add rnd maxDouble
      (mul rnd maxDouble (.fin cl) (.fin cl)) (.fin e)) (ratio rnd maxDouble (t.byE .pressure (.fin rho) (.fin e)) (.fin rho))))))
    rw [hp, hb, hy]
    exact key
  · intro T hE hp hb
    change Approx 4 _ (stdMax (.fin 0) (ratio rnd maxDouble (t.byT .bulk (.fin rho) T) (absM (add rnd maxDouble (add rnd maxDouble
      (mul rnd maxDouble (.fin cl) (.fin cl)) (t.byT .energy (.fin rho) T)) (ratio rnd maxDouble (t.byT .pressure (.fin rho) T)
      (.fin rho))))))
    rw [hE, hp, hb, hy]
    exact key

/-- C161 fails here: a NaN bulk modulus of the wrapped equation of state is reported as the number 0, and so is every failure of its
pressure or energy. -/
theorem C161_relativistic_hides_nan_violated (rnd : ℝ → ℝ) (Ω : ℝ) (cl : Ext) (t : LEos) (rho y : Ext) :
    (t.byE .bulk rho y = .nan ∨ t.byE .pressure rho y = .nan ∨ y = .nan →
      (relativisticOn rnd Ω cl t).byE .bulk rho y = .fin 0) ∧
    (t.byT .bulk rho y = .nan ∨ t.byT .pressure rho y = .nan ∨ t.byT .energy rho y = .nan →
      (relativisticOn rnd Ω cl t).byT .bulk rho y = .fin 0) := by
  have addn : ∀ x, add rnd Ω x .nan = .nan := by intro x; cases x <;> rfl
  have divn : ∀ x, div rnd Ω x .nan = .nan := by intro x; cases x <;> rfl
  have rl : ∀ x, ratio rnd Ω .nan x = .nan := fun x => rfl
  have rr : ∀ x, ratio rnd Ω x .nan = .nan := by
    intro x
    unfold ratio
    rw [show add rnd Ω Ext.nan (mul rnd Ω (sgn Ext.nan) (.fin small)) = .nan from rfl, divn]
  have key : ∀ (s P B : Ext), B = .nan ∨ P = .nan ∨ s = .nan →
      stdMax (.fin 0) (ratio rnd Ω B (absM (add rnd Ω (add rnd Ω (mul rnd Ω cl cl) s) (ratio rnd Ω P rho)))) = .fin 0 := by
    intro s P B hc
    have : ratio rnd Ω B (absM (add rnd Ω (add rnd Ω (mul rnd Ω cl cl) s) (ratio rnd Ω P rho))) = .nan := by
      rcases hc with rfl | rfl | rfl
      · exact rl _
      · rw [rl, addn]; exact rr _
      · rw [addn, show add rnd Ω Ext.nan (ratio rnd Ω P rho) = .nan from rfl]; exact rr _
    rw [this, stdMax_nan]
  exact ⟨fun hc => key _ _ _ hc, fun hc => key _ _ _ hc⟩

/-! ## The unit system -/

/-- C161: in range, the equation of state wrapped by `UnitSystem` is called with density and energy in its own units up to one
rounding each, and the results are in the chosen units up to two (temperature, specific heat) or three (pressure, entropy, bulk
modulus) roundings; the Grüneisen parameter is passed on. -/
theorem C161_units_by_energy {rnd : ℝ → ℝ} (h : ToNearest 53 (-1074) rnd) (t : LEos) {ru su tu rho e : ℝ} (h0 : 0 < ru) (h1 : 0 < su)
    (h2 : 0 < tu) (hr : 0 < rho) (he : 0 < e) (i1 : InRange (rho * ru)) (i2 : InRange (e * su)) (i3 : InRange (1 / tu))
    (i4 : InRange (ru * su)) (i5 : InRange (1 / (ru * su))) (i6 : InRange (su / tu)) (i7 : InRange (1 / (su / tu)))
    (i8 : InRange (tu / su)) :
    let g := inUnits rnd maxDouble ⟨.fin ru, .fin su, .fin tu⟩ t
    ∃ r x : Ext, Approx 1 (rho * ru) r ∧ Approx 1 (e * su) x ∧
      (∀ y, 0 < y → t.byE .temperature r x = .fin y → InRange (y / tu) → Approx 2 (y / tu) (g.byE .temperature (.fin rho) (.fin e))) ∧
      (∀ y, 0 < y → t.byE .cv r x = .fin y → InRange (y * (tu / su)) → Approx 2 (y * (tu / su)) (g.byE .cv (.fin rho) (.fin e))) ∧
      (∀ y, 0 < y → t.byE .entropy r x = .fin y → InRange (y / (su / tu)) →
        Approx 3 (y / (su / tu)) (g.byE .entropy (.fin rho) (.fin e))) ∧
      (∀ y, 0 < y → t.byE .pressure r x = .fin y → InRange (y / (ru * su)) →
        Approx 3 (y / (ru * su)) (g.byE .pressure (.fin rho) (.fin e))) ∧
      (∀ y, 0 < y → t.byE .bulk r x = .fin y → InRange (y / (ru * su)) →
        Approx 3 (y / (ru * su)) (g.byE .bulk (.fin rho) (.fin e))) ∧
      g.byE .gruneisen (.fin rho) (.fin e) = t.byE .gruneisen r x := by
  intro g
  have A1 := Approx.exact (zero_lt_one (α := ℝ))
  have Aru := Approx.exact h0
  have Asu := Approx.exact h1
  have Atu := Approx.exact h2
  have b1 := A1.div h zero_lt_one h2 Atu i3 (by norm_num)
  have b2 := A1.div h zero_lt_one i4.pos (Aru.mul h h0 h1 Asu i4 (by norm_num)) i5 (by norm_num)
  have b3 := A1.div h zero_lt_one i6.pos (Asu.div h h1 h2 Atu i6 (by norm_num)) i7 (by norm_num)
  have b4 := Atu.div h h2 h1 Asu i8 (by norm_num)
  refine ⟨_, _, (Approx.exact hr).mul h hr h0 Aru i1 (by norm_num), (Approx.exact he).mul h he h1 Asu i2 (by norm_num), ?_, ?_, ?_, ?_,
    ?_, rfl⟩
  · intro y hy hty hi
    have e1 : 1 / tu * y = y / tu := by ring
    have := b1.mul h i3.pos hy (Approx.exact hy) (by rw [e1]; exact hi) (by norm_num)
    rw [e1, ← hty] at this
    exact this
  · intro y hy hty hi
    have e1 : tu / su * y = y * (tu / su) := by ring
    have := b4.mul h i8.pos hy (Approx.exact hy) (by rw [e1]; exact hi) (by norm_num)
    rw [e1, ← hty] at this
    exact this
  · intro y hy hty hi
    have e1 : 1 / (su / tu) * y = y / (su / tu) := by ring
    have := b3.mul h i7.pos hy (Approx.exact hy) (by rw [e1]; exact hi) (by norm_num)
    rw [e1, ← hty] at this
    exact this
  · intro y hy hty hi
    have e1 : 1 / (ru * su) * y = y / (ru * su) := by ring
    have := b2.mul h i5.pos hy (Approx.exact hy) (by rw [e1]; exact hi) (by norm_num)
    rw [e1, ← hty] at this
    exact this
  · intro y hy hty hi
    have e1 : 1 / (ru * su) * y = y / (ru * su) := by ring
    have := b2.mul h i5.pos hy (Approx.exact hy) (by rw [e1]; exact hi) (by norm_num)
    rw [e1, ← hty] at this
    exact this

/-- C161: the lookups by temperature and the minimum energy, likewise. -/
theorem C161_units_by_temperature {rnd : ℝ → ℝ} (h : ToNearest 53 (-1074) rnd) (t : LEos) {ru su tu rho T : ℝ} (h0 : 0 < ru) (h1 : 0 < su)
    (h2 : 0 < tu) (hr : 0 < rho) (hT : 0 < T) (i1 : InRange (rho * ru)) (i2 : InRange (T * tu)) (i3 : InRange (1 / su))
    (i4 : InRange (ru * su)) (i5 : InRange (1 / (ru * su))) (i6 : InRange (su / tu)) (i7 : InRange (1 / (su / tu)))
    (i8 : InRange (tu / su)) :
    let g := inUnits rnd maxDouble ⟨.fin ru, .fin su, .fin tu⟩ t
    ∃ r x : Ext, Approx 1 (rho * ru) r ∧ Approx 1 (T * tu) x ∧
      (∀ y, 0 < y → t.byT .energy r x = .fin y → InRange (y / su) → Approx 2 (y / su) (g.byT .energy (.fin rho) (.fin T))) ∧
      (∀ y, 0 < y → t.byT .cv r x = .fin y → InRange (y * (tu / su)) → Approx 2 (y * (tu / su)) (g.byT .cv (.fin rho) (.fin T))) ∧
      (∀ y, 0 < y → t.byT .entropy r x = .fin y → InRange (y / (su / tu)) →
        Approx 3 (y / (su / tu)) (g.byT .entropy (.fin rho) (.fin T))) ∧
      (∀ y, 0 < y → t.byT .pressure r x = .fin y → InRange (y / (ru * su)) →
        Approx 3 (y / (ru * su)) (g.byT .pressure (.fin rho) (.fin T))) ∧
      (∀ y, 0 < y → t.byT .bulk r x = .fin y → InRange (y / (ru * su)) →
        Approx 3 (y / (ru * su)) (g.byT .bulk (.fin rho) (.fin T))) ∧
      g.byT .gruneisen (.fin rho) (.fin T) = t.byT .gruneisen r x ∧
      ∀ y, 0 < y → t.minE r = .fin y → InRange (y / su) → Approx 2 (y / su) (g.minE (.fin rho)) := by
  intro g
  have A1 := Approx.exact (zero_lt_one (α := ℝ))
  have Aru := Approx.exact h0
  have Asu := Approx.exact h1
  have Atu := Approx.exact h2
  have b1 := A1.div h zero_lt_one h1 Asu i3 (by norm_num)
  have b2 := A1.div h zero_lt_one i4.pos (Aru.mul h h0 h1 Asu i4 (by norm_num)) i5 (by norm_num)
  have b3 := A1.div h zero_lt_one i6.pos (Asu.div h h1 h2 Atu i6 (by norm_num)) i7 (by norm_num)
  have b4 := Atu.div h h2 h1 Asu i8 (by norm_num)
  refine ⟨_, _, (Approx.exact hr).mul h hr h0 Aru i1 (by norm_num), (Approx.exact hT).mul h hT h2 Atu i2 (by norm_num), ?_, ?_, ?_, ?_,
    ?_, rfl, ?_⟩
  · intro y hy hty hi
    have e1 : 1 / su * y = y / su := by ring
    have := b1.mul h i3.pos hy (Approx.exact hy) (by rw [e1]; exact hi) (by norm_num)
    rw [e1, ← hty] at this
    exact this
  · intro y hy hty hi
    have e1 : tu / su * y = y * (tu / su) := by ring
    have := b4.mul h i8.pos hy (Approx.exact hy) (by rw [e1]; exact hi) (by norm_num)
    rw [e1, ← hty] at this
    exact this
  · intro y hy hty hi
    have e1 : 1 / (su / tu) * y = y / (su / tu) := by ring
    have := b3.mul h i7.pos hy (Approx.exact hy) (by rw [e1]; exact hi) (by norm_num)
    rw [e1, ← hty] at this
    exact this
  · intro y hy hty hi
    have e1 : 1 / (ru * su) * y = y / (ru * su) := by ring
    have := b2.mul h i5.pos hy (Approx.exact hy) (by rw [e1]; exact hi) (by norm_num)
    rw [e1, ← hty] at this
    exact this
  · intro y hy hty hi
    have e1 : 1 / (ru * su) * y = y / (ru * su) := by ring
    have := b2.mul h i5.pos hy (Approx.exact hy) (by rw [e1]; exact hi) (by norm_num)
    rw [e1, ← hty] at this
    exact this
  · intro y hy hty hi
    have e1 : 1 / su * y = y / su := by ring
    have := b1.mul h i3.pos hy (Approx.exact hy) (by rw [e1]; exact hi) (by norm_num)
    rw [e1, ← hty] at this
    exact this

theorem Ieee.scale_back {rnd : ℝ → ℝ} (h : Dbl rnd) {x u : ℝ} (hu : 0 < u) (h1 : InRange x) (h2 : InRange (x * u))
    (h3 : InRange (1 / u)) :
    Approx 3 x (mul rnd maxDouble (mul rnd maxDouble (.fin x) (.fin u)) (invUnit rnd maxDouble (.fin u))) := by
  have a1 := (Approx.exact h1.pos).mul h h1.pos hu (Approx.exact hu) h2 (by norm_num)
  have a2 := (Approx.exact (zero_lt_one (α := ℝ))).div h zero_lt_one hu (Approx.exact hu) h3 (by norm_num)
  have e1 : x * u * (1 / u) = x := by field_simp
  have a3 := a1.mul h h2.pos h3.pos a2 (by rw [e1]; exact h1) (by norm_num)
  rwa [e1] at a3

/-- C161: `FillEos` of `UnitSystem` writes back even the quantities it is given: density, temperature and energy that the wrapped
`FillEos` leaves alone are returned up to three roundings (see the next theorem for a case where they change). -/
theorem C161_units_fill_inputs_partial {rnd : ℝ → ℝ} (h : ToNearest 53 (-1074) rnd) (t : LEos) {ru su tu x : ℝ} (h0 : 0 < ru)
    (h1 : 0 < su) (h2 : 0 < tu) (hx : InRange x) (a b c d e : Ext) :
    let g := inUnits rnd maxDouble ⟨.fin ru, .fin su, .fin tu⟩ t
    ((∀ s, (t.fill s).1 = s.1) → InRange (x * ru) → InRange (1 / ru) → Approx 3 x (g.fill (.fin x, a, b, c, d, e)).1) ∧
    ((∀ s, (t.fill s).2.1 = s.2.1) → InRange (x * tu) → InRange (1 / tu) → Approx 3 x (g.fill (a, .fin x, b, c, d, e)).2.1) ∧
    ((∀ s, (t.fill s).2.2.1 = s.2.2.1) → InRange (x * su) → InRange (1 / su) → Approx 3 x (g.fill (a, b, .fin x, c, d, e)).2.2.1) := by
  intro g
  refine ⟨fun hf k1 k2 => ?_, fun hf k1 k2 => ?_, fun hf k1 k2 => ?_⟩
  · change Approx 3 x (mul rnd maxDouble (t.fill (_, _, _, _, _, _)).1 _)
    rw [hf]
    exact scale_back h h0 hx k1 k2
  · change Approx 3 x (mul rnd maxDouble (t.fill (_, _, _, _, _, _)).2.1 _)
    rw [hf]
    exact scale_back h h2 hx k1 k2
  · change Approx 3 x (mul rnd maxDouble (t.fill (_, _, _, _, _, _)).2.2.1 _)
    rw [hf]
    exact scale_back h h1 hx k1 k2

/-- C161 fails here: `FillEos` of `UnitSystem` changes its input. With a density unit of 49 and a wrapped `FillEos` that leaves the
density alone, density 1 comes back as `1 - 2^{-53}`, and calling `FillEos` again lowers it again. -/
theorem C161_units_fill_drifts_violated {rnd : ℝ → ℝ} (h : ToNearest 53 (-1074) rnd) (t : LEos) (ht : ∀ s, (t.fill s).1 = s.1)
    (su tu a b c d e : Ext) :
    let g := inUnits rnd maxDouble ⟨.fin 49, su, tu⟩ t
    (g.fill (.fin 1, a, b, c, d, e)).1 = .fin (1 - 1 / 2 ^ 53) ∧
      (g.fill (.fin (1 - 1 / 2 ^ 53), a, b, c, d, e)).1 = .fin (1 - 2 / 2 ^ 53) := by
  intro g
  have hl := maxDouble_large
  have hsm : ∀ x : ℝ, |x| ≤ 100 → ¬ maxDouble < |x| := by
    intro x h1
    have : (100 : ℝ) ≤ 2 ^ 100 := by norm_num
    exact not_lt.mpr (h1.trans (this.trans hl))
  have zp : ∀ n : ℕ, (2 : ℝ) ^ (-(n : ℤ)) = 1 / 2 ^ n := by intro n; rw [zpow_neg, one_div]; norm_cast
  have z58 : (2 : ℝ) ^ (-58 : ℤ) = 1 / 2 ^ 58 := zp 58
  have z53 : (2 : ℝ) ^ (-53 : ℤ) = 1 / 2 ^ 53 := zp 53
  have z47 : (2 : ℝ) ^ (-47 : ℤ) = 1 / 2 ^ 47 := zp 47
  have close : ∀ (m e : ℤ) (x y : ℝ), 2 ^ 53 < 2 * |m| → |m| < 2 ^ 53 → -1074 ≤ e → |x - m * (2 : ℝ) ^ e| < 2 ^ e / 2 →
      y = m * (2 : ℝ) ^ e → |y| ≤ 100 → ofReal rnd maxDouble x = .fin y := by
    intro m e x y k1 k2 k3 k4 k5 k6
    have := h.eq_of_close k1 k2 k3 k4
    unfold ofReal
    rw [this, ← k5, if_neg (hsm _ k6)]
  have inv : invUnit rnd maxDouble (.fin 49) = .fin (5882252574524729 / 2 ^ 58) := by
    simp only [invUnit, div, if_neg (show (49 : ℝ) ≠ 0 by norm_num)]
    exact close 5882252574524729 (-58) _ _ (by norm_num) (by norm_num) (by norm_num)
      (by rw [z58, abs_lt]; push_cast; constructor <;> norm_num) (by rw [z58]; push_cast; ring) (by norm_num [abs_of_pos])
  have step : ∀ x, (g.fill (.fin x, a, b, c, d, e)).1 =
      mul rnd maxDouble (mul rnd maxDouble (.fin x) (.fin 49)) (invUnit rnd maxDouble (.fin 49)) := by
    intro x
    change mul rnd maxDouble (t.fill (_, _, _, _, _, _)).1 _ = _
    rw [ht]
  have m1 : mul rnd maxDouble (.fin 1) (.fin 49) = .fin 49 := by
    simp only [mul]
    exact close 6896136929411072 (-47) _ _ (by norm_num) (by norm_num) (by norm_num)
      (by rw [z47, abs_lt]; push_cast; constructor <;> norm_num) (by rw [z47]; push_cast; norm_num) (by norm_num [abs_of_pos])
  have m2 : mul rnd maxDouble (.fin (1 - 1 / 2 ^ 53)) (.fin 49) = .fin (6896136929411071 / 2 ^ 47) := by
    simp only [mul]
    exact close 6896136929411071 (-47) _ _ (by norm_num) (by norm_num) (by norm_num)
      (by rw [z47, abs_lt]; push_cast; constructor <;> norm_num) (by rw [z47]; push_cast; norm_num) (by norm_num [abs_of_pos])
  constructor
  · rw [step, m1, inv]
    simp only [mul]
    exact close 9007199254740991 (-53) _ _ (by norm_num) (by norm_num) (by norm_num)
      (by rw [z53, abs_lt]; push_cast; constructor <;> norm_num) (by rw [z53]; push_cast; norm_num) (by norm_num [abs_of_pos])
  · rw [step, m2, inv]
    simp only [mul]
    exact close 9007199254740990 (-53) _ _ (by norm_num) (by norm_num) (by norm_num)
      (by rw [z53, abs_lt]; push_cast; constructor <;> norm_num) (by rw [z53]; push_cast; norm_num) (by norm_num [abs_of_pos])

/-- The hypotheses are met. The floor: minimum energy 1, energies -2 and 3. -/
example (t : LEos) (ht : t.minE (.fin 5) = .fin 1) :
    (floored t).byE .pressure (.fin 5) (.fin (-2)) = t.byE .pressure (.fin 5) (.fin 1) ∧
      (floored t).byE .pressure (.fin 5) (.fin 3) = t.byE .pressure (.fin 5) (.fin 3) := by
  constructor
  · obtain ⟨x, h1, -, -, h2, -⟩ := C161_floor t (.fin 5) (.fin (-2))
    rw [h1, h2 (by rw [ht]; exact (by norm_num : (-2 : ℝ) < 1)), ht]
  · obtain ⟨x, h1, -, h2, -, -⟩ := C161_floor t (.fin 5) (.fin 3)
    rw [h1, h2 (by rw [ht]; exact not_lt.mpr (by norm_num : (1 : ℝ) ≤ 3))]

/-- The ramp of `r0 = 1, a = 2` with mid density 3: at density `3/2` the ramp pressure is 1, and back. -/
example : ∃ rnd, ToNearest 53 (-1074) rnd ∧
    let p : MRamp := ⟨1, 2, 1, 1, .fin 3, .fin 4⟩
    p.pressure rnd maxDouble (.fin (3 / 2)) = .fin 1 ∧ Approx 6 (3 / 2) (p.density rnd maxDouble (.fin 1)) ∧
      le (.fin 0) (p.pressure rnd maxDouble (.fin (5 / 4))) := by
  obtain ⟨rnd, h⟩ := exists_toNearest (p := 53) (emin := -1074) (by norm_num)
  refine ⟨rnd, h, ?_⟩
  intro p
  have hl := maxDouble_large
  have hM := maxDouble_pos
  have h100 : (1000 : ℝ) ≤ 2 ^ 100 := by norm_num
  have hsm : ∀ x : ℝ, |x| ≤ 10 → ¬ maxDouble < |x| := fun x h1 => not_lt.mpr (by linarith)
  have z1 : (2 : ℝ) ^ (-1 : ℤ) = 1 / 2 := by rw [zpow_neg]; norm_num
  have ex : ∀ (m e : ℤ) (x : ℝ), |m| < 2 ^ 53 → -1074 ≤ e → x = m * 2 ^ e → |x| ≤ 10 → ofReal rnd maxDouble x = .fin x := by
    intro m e x h1 h2 h3 h4
    have hf : IsFloat 53 (-1074) x := ⟨m, e, h1, h2, h3⟩
    unfold ofReal
    rw [h.exact hf, if_neg (hsm _ h4)]
  have hsmall : 2 ^ 55 * small ≤ (1 : ℝ) := by
    have h1 : (2 : ℝ) ^ (-1022 : ℤ) ≤ 2 ^ (-100 : ℤ) := zpow_le_zpow_right₀ one_le_two (by norm_num)
    have h2 : (2 : ℝ) ^ (-100 : ℤ) = 1 / 2 ^ 100 := by rw [zpow_neg, one_div]; norm_cast
    rw [h2] at h1
    unfold small
    norm_num at h1 ⊢
    linarith
  have hsmall4 : 2 ^ 54 * small ≤ (1 : ℝ) := by have := small_pos; nlinarith
  have hf1 : IsFloat 53 (-1074) (1 : ℝ) := ⟨1, 0, by norm_num, by norm_num, by norm_num⟩
  have hf2 : IsFloat 53 (-1074) (2 : ℝ) := ⟨2, 0, by norm_num, by norm_num, by norm_num⟩
  have e1 : p.pressure rnd maxDouble (.fin (3 / 2)) = .fin 1 := by
    unfold MRamp.pressure
    rw [if_neg (show ¬ lt (.fin (3 / 2)) (.fin p.r0) from not_lt.mpr (by norm_num [p])),
      if_pos (show lt (.fin (3 / 2)) p.rmid from (by norm_num : (3 / 2 : ℝ) < 3))]
    change mul rnd maxDouble (.fin 2) (sub rnd maxDouble (ratio rnd maxDouble (.fin (3 / 2)) (.fin 1)) (.fin 1)) = _
    rw [C135_ratio_is_rounded_quotient h hf1 (by rw [abs_one]; linarith) (by rw [abs_one]; exact hsmall4)]
    simp only [div, if_neg one_ne_zero, div_one]
    rw [ex 3 (-1) (3 / 2) (by norm_num) (by norm_num) (by rw [z1]; norm_num) (by norm_num [abs_of_pos])]
    simp only [sub, neg, add]
    rw [show (3 / 2 + -1 : ℝ) = 1 / 2 by norm_num,
      ex 1 (-1) (1 / 2) (by norm_num) (by norm_num) (by rw [z1]; norm_num) (by norm_num [abs_of_pos])]
    simp only [mul]
    rw [show (2 * (1 / 2) : ℝ) = 1 by norm_num]
    exact ex 1 0 _ (by norm_num) (by norm_num) (by norm_num) (by norm_num)
  refine ⟨e1, ?_, ?_⟩
  · exact ((C161_ramp_round_trip h p hf1 hsmall (show (1 : ℝ) ≤ _ by linarith) (show (1 : ℝ) ≤ 3 / 2 by norm_num) (by linarith)
      (show (3 / 2 : ℝ) / 1 ≤ _ by linarith) e1 (inRange_of (by norm_num) (by norm_num))).1 (show (3 / 2 : ℝ) < 3 by norm_num)
      (show (1 : ℝ) < 4 by norm_num) hf2 (show _ ≤ (2 : ℝ) by linarith) (show (2 : ℝ) ≤ _ by linarith)).1
  · exact (C161_ramp_first_part h p hf1 hsmall4 (show (1 : ℝ) ≤ _ by linarith) (show (0 : ℝ) < 2 by norm_num)
      (show le (.fin (5 / 4)) (.fin (5 / 4)) from le_refl (5 / 4 : ℝ)) (show (5 / 4 : ℝ) < 3 by norm_num)).2.1

/-- The relativistic modifier with `c = 3`, `e = 2`, `P = 4`, `ρ = 2`, `B = 26`, and units 2, 3, 5. -/
example : ∃ rnd, ToNearest 53 (-1074) rnd ∧
    let t : LEos := ⟨fun q _ _ => match q with | .bulk => .fin 26 | _ => .fin 4, fun _ _ _ => .fin 1, fun _ => .fin 0, id⟩
    Approx 4 (26 / 13) ((relativisticOn rnd maxDouble (.fin 3) t).byE .bulk (.fin 2) (.fin 2)) ∧
      Approx 3 (4 / 6) ((inUnits rnd maxDouble ⟨.fin 2, .fin 3, .fin 5⟩ t).byE .pressure (.fin 7) (.fin 11)) ∧
      Approx 3 7 ((inUnits rnd maxDouble ⟨.fin 2, .fin 3, .fin 5⟩ t).fill (.fin 7, .nan, .nan, .nan, .nan, .nan)).1 := by
  obtain ⟨rnd, h⟩ := exists_toNearest (p := 53) (emin := -1074) (by norm_num)
  refine ⟨rnd, h, ?_⟩
  intro t
  have hl := maxDouble_large
  have h100 : (1000 : ℝ) ≤ 2 ^ 100 := by norm_num
  have hsmall : 2 ^ 55 * small ≤ (1 : ℝ) := by
    have h1 : (2 : ℝ) ^ (-1022 : ℤ) ≤ 2 ^ (-100 : ℤ) := zpow_le_zpow_right₀ one_le_two (by norm_num)
    have h2 : (2 : ℝ) ^ (-100 : ℤ) = 1 / 2 ^ 100 := by rw [zpow_neg, one_div]; norm_cast
    rw [h2] at h1
    unfold small
    norm_num at h1 ⊢
    linarith
  have hf2 : IsFloat 53 (-1074) (2 : ℝ) := ⟨2, 0, by norm_num, by norm_num, by norm_num⟩
  refine ⟨?_, ?_, ?_⟩
  · have := (C161_relativistic_value h (cl := 3) (rho := 2) (e := 2) (P := 4) (B := 26) t (by norm_num) (by linarith) (by linarith) hf2
      (by norm_num) (by norm_num) (by norm_num) (inRange_of (by norm_num) (by norm_num)) (inRange_of (by norm_num) (by norm_num))
      (inRange_of (by norm_num) (by norm_num)) (by norm_num; linarith) (by norm_num at hsmall ⊢; linarith)
      (inRange_of (by norm_num) (by norm_num))).1 rfl rfl
    have e1 : (26 / (3 * 3 + 2 + 4 / 2) : ℝ) = 26 / 13 := by norm_num
    rwa [e1] at this
  · obtain ⟨r, x, -, -, -, -, -, hp, -, -⟩ := C161_units_by_energy h t (ru := 2) (su := 3) (tu := 5) (rho := 7) (e := 11) (by norm_num)
      (by norm_num) (by norm_num) (by norm_num) (by norm_num) (inRange_of (by norm_num) (by norm_num))
      (inRange_of (by norm_num) (by norm_num)) (inRange_of (by norm_num) (by norm_num)) (inRange_of (by norm_num) (by norm_num))
      (inRange_of (by norm_num) (by norm_num)) (inRange_of (by norm_num) (by norm_num)) (inRange_of (by norm_num) (by norm_num))
      (inRange_of (by norm_num) (by norm_num))
    have := hp 4 (by norm_num) rfl (inRange_of (by norm_num) (by norm_num))
    have e1 : (4 / (2 * 3) : ℝ) = 4 / 6 := by norm_num
    rwa [e1] at this
  · exact (C161_units_fill_inputs_partial h t (ru := 2) (su := 3) (tu := 5) (x := 7) (by norm_num) (by norm_num) (by norm_num)
      (inRange_of (by norm_num) (by norm_num)) .nan .nan .nan .nan .nan).1 (fun _ => rfl) (inRange_of (by norm_num) (by norm_num))
      (inRange_of (by norm_num) (by norm_num))

end Verif
