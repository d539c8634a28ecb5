import Verif.Props.Eos.HelmholtzMore

/-! # C81: every combination of the option switches -/

namespace Verif.Helm

open Verif.Robust Verif.Spec

set_option linter.unusedSectionVars false
set_option linter.unusedSimpArgs false

/-- A contribution `(p, e)` is consistent at `(r, T)`: the temperature derivatives it reports are derivatives and its
energy and pressure obey the first law. -/
structure Good (p e : ℝ → ℝ → D5) (r T : ℝ) : Prop where
  cv : HasDerivAt (fun t => (e r t).val) (e r T).ddt T
  pt : HasDerivAt (fun t => (p r t).val) (p r T).ddt T
  first : HasDerivAt (fun x => (e x T).val) (((p r T).val - T * (p r T).ddt) / r ^ 2) r

theorem Good.zero (r T : ℝ) : Good (fun _ _ => zero5) (fun _ _ => zero5) r T :=
  ⟨hasDerivAt_const _ _, hasDerivAt_const _ _,
    HasDerivAt.change (hasDerivAt_const r (0:ℝ)) (fun _ => rfl) (by simp [zero5])⟩

theorem Good.add {p e p' e' : ℝ → ℝ → D5} {r T : ℝ} (h : Good p e r T) (h' : Good p' e' r T) :
    Good (fun r T => add5 (p r T) (p' r T)) (fun r T => add5 (e r T) (e' r T)) r T :=
  ⟨h.cv.fun_add h'.cv, h.pt.fun_add h'.pt,
    HasDerivAt.change (h.first.fun_add h'.first) (fun _ => rfl) (by simp only [add5]; ring)⟩

/-- The mean mass per free particle seen by the ideal-gas part: with full ionisation but no degenerate electrons the
electrons are counted as ideal-gas particles. -/
noncomputable def effA (m : Model) (a z : ℝ) : ℝ :=
  if m.opt.ionized = true ∧ m.opt.degenerate = false then a / (z + 1) else a

/-- The pressure and energy of the ideal-gas part, for every combination of options. -/
theorem ionPart_pe (m : Model) (r T a z : ℝ) :
    (ionPart 0 m r T a z (dens 0 m.c r a z)).p = (ionAt m.c r T (effA m a z) z).p ∧
    (ionPart 0 m r T a z (dens 0 m.c r a z)).e = (ionAt m.c r T (effA m a z) z).e := by
  unfold ionAt ionPart effA
  cases hi : m.opt.ionized <;> cases hd : m.opt.degenerate <;> simp [ion, dens, ratio0]

/-- C81: for every combination of the option switches other than Coulomb corrections on top of degenerate electrons: the
reported heat capacity is the temperature derivative of the reported energy, and
`de/drho|_T = (P - T dP/dT)/rho^2`. (With degenerate electrons the state must be inside a table cell.) -/
theorem C81_options_partial (ε : ℝ) (m : Model) (hg : Grid m.tb) (l : Lam) (j i : Nat) (r T : ℝ)
    (hc : (m.opt.gas && m.opt.degenerate && m.opt.coul) = false)
    (hin : m.opt.gas = true → m.opt.degenerate = true → Inside m.tb j i r T l.abar l.zbar)
    (hr : 0 < r) (hT : 0 < T) (ha : 0 < l.abar) (hz : 0 < l.zbar) :
    let A := fun r T => atRT 0 ε m l r T
    HasDerivAt (fun t => (A r t).e) (A r T).cv T ∧
    ∃ dPdT, HasDerivAt (fun t => (A r t).p) dPdT T ∧
      HasDerivAt (fun x => (A x T).e) (((A r T).p - T * dPdT) / r ^ 2) r := by
  intro A
  obtain ⟨a, z, lT⟩ := l
  simp only at hin ha hz
  -- the contributions
  set R : ℝ → ℝ → Three := fun r T => if m.opt.rad then rad 0 m.A r T else ⟨zero5, zero5, zero5⟩ with hR
  set I : ℝ → ℝ → Three := fun r T => if m.opt.gas then ionPart 0 m r T a z (dens 0 m.c r a z) else ⟨zero5, zero5, zero5⟩
    with hI
  set E : ℝ → ℝ → Five := fun r T => if m.opt.gas && m.opt.degenerate then eleAt m.tb m.c r T a z else
    ⟨zero5, zero5, zero5, zero5, zero5⟩ with hE
  have gR : Good (fun r T => (R r T).p) (fun r T => (R r T).e) r T := by
    obtain ⟨rjp, rje, _, rl⟩ := C77_radiation m.A r T a z hr hT
    cases hh : m.opt.rad
    · simp only [hR, hh, Bool.false_eq_true, if_false]; exact Good.zero r T
    · simp only [hR, hh, if_true]
      exact ⟨rje.ddt, rjp.ddt, HasDerivAt.change rje.ddr (fun _ => rfl) rl.first⟩
  have gI : Good (fun r T => (I r T).p) (fun r T => (I r T).e) r T := by
    have hA : 0 < effA m a z := by
      unfold effA; split_ifs
      · positivity
      · exact ha
    obtain ⟨ijp, ije, il⟩ := C77_ions m.c r T (effA m a z) z hr hT hA
    cases hh : m.opt.gas
    · simp only [hI, hh, Bool.false_eq_true, if_false]; exact Good.zero r T
    · simp only [hI, hh, if_true]
      have e1 : ∀ r T, (ionPart 0 m r T a z (dens 0 m.c r a z)).p = (ionAt m.c r T (effA m a z) z).p :=
        fun r T => (ionPart_pe m r T a z).1
      have e2 : ∀ r T, (ionPart 0 m r T a z (dens 0 m.c r a z)).e = (ionAt m.c r T (effA m a z) z).e :=
        fun r T => (ionPart_pe m r T a z).2
      simp only [e1, e2]
      exact ⟨ije.ddt, ijp.ddt, HasDerivAt.change ije.ddr (fun _ => rfl) il.first⟩
  have gE : Good (fun r T => (E r T).p) (fun r T => (E r T).e) r T := by
    cases hh : m.opt.gas && m.opt.degenerate
    · simp only [hE, hh, Bool.false_eq_true, if_false]; exact Good.zero r T
    · simp only [Bool.and_eq_true] at hh
      obtain ⟨eje, _, _, ept, el⟩ := C77_electrons m.tb m.c hg j i r T a z (hin hh.1 hh.2)
      simp only [hE, hh.1, hh.2, Bool.and_self, if_true]
      exact ⟨eje.ddt, ept, HasDerivAt.change eje.ddr (fun _ => rfl) el.first⟩
  have g := ((gR.add gI).add gE).add (Good.zero r T)
  have hp : ∀ r T, (A r T).p = (add5 (add5 (add5 (R r T).p (I r T).p) (E r T).p) zero5).val := fun r T => by
    simp only [A, atRT]; unfold getRT; simp only [hc, hR, hI, hE, eleAt, Bool.false_eq_true, if_false]
  have he : ∀ r T, (A r T).e = (add5 (add5 (add5 (R r T).e (I r T).e) (E r T).e) zero5).val := fun r T => by
    simp only [A, atRT]; unfold getRT; simp only [hc, hR, hI, hE, eleAt, Bool.false_eq_true, if_false]
  have hv : ∀ r T, (A r T).cv = (add5 (add5 (add5 (R r T).e (I r T).e) (E r T).e) zero5).ddt := fun r T => by
    simp only [A, atRT]; unfold getRT; simp only [hc, hR, hI, hE, eleAt, Bool.false_eq_true, if_false]
  refine ⟨?_, (add5 (add5 (add5 (R r T).p (I r T).p) (E r T).p) zero5).ddt, ?_, ?_⟩
  · rw [hv]; simp only [he]; exact g.cv
  · simp only [hp]; exact g.pt
  · simp only [hp, he]; exact g.first

/-- C81 is violated with Coulomb corrections on top of degenerate electrons: for every table and cell, at `T = 10^4.5`
and density below `0.1` with the mean charge that makes the plasma parameter one, the reported energy has a
temperature derivative and the reported heat capacity is not it. -/
theorem C81_heat_capacity_violated (ε : ℝ) (m : Model) (hg : Grid m.tb) (hcst : m.c = codeConsts)
    (hgas : m.opt.gas = true) (hd : m.opt.degenerate = true) (hco : m.opt.coul = true) (lT : Option ℝ) (j i : Nat)
    (r a : ℝ) (hr : 0 < r) (hr1 : r < 1 / 10) (ha : 0 < a)
    (hin : Inside m.tb j i r (pow10 (9 / 2)) a (zOne codeConsts r (pow10 (9 / 2)) a)) :
    let l : Lam := ⟨a, zOne codeConsts r (pow10 (9 / 2)) a, lT⟩
    ∃ d, HasDerivAt (fun t => (atRT 0 ε m l r t).e) d (pow10 (9 / 2)) ∧
      d ≠ (atRT 0 ε m l r (pow10 (9 / 2))).cv := by
  intro l
  obtain ⟨hz, d, hd1, hd2⟩ := C79_coulomb_heat_capacity_violated r a hr hr1 ha
  set off : Model := { m with opt := { m.opt with coul := false } } with hoff
  have h0 := (C81_options_partial ε off hg l j i r (pow10 (9 / 2)) (by simp [hoff]) (fun _ _ => hin) hr
    (Real.exp_pos _) ha hz).1
  simp only at h0
  have hsum : ∀ t, (atRT 0 ε m l r t).e = (atRT 0 ε off l r t).e + (coulAt codeConsts r t a l.zbar).e.val ∧
      (atRT 0 ε m l r t).cv = (atRT 0 ε off l r t).cv + (coulAt codeConsts r t a l.zbar).e.ddt := fun t => by
    have hi : ionPart 0 off r t a l.zbar (dens 0 codeConsts r a l.zbar) =
        ionPart 0 m r t a l.zbar (dens 0 codeConsts r a l.zbar) := rfl
    simp only [atRT]
    unfold getRT
    simp only [hoff, hgas, hd, hco, hcst, Bool.and_self, Bool.and_false, if_true, Bool.false_eq_true, if_false, coulAt, l,
      add5, zero5, add_zero] at hi ⊢
    rw [hi]
    exact ⟨rfl, rfl⟩
  refine ⟨_, HasDerivAt.change (h0.fun_add hd1) (fun t => (hsum t).1) rfl, ?_⟩
  rw [(hsum _).2]
  intro h
  exact hd2 (by linarith)

/-- The hypotheses of `C81_heat_capacity_violated` are met: at density `0.05` and mean mass `1` there is a table with a cell
around the state. -/
example : ∃ tb : Tables, Grid tb ∧
    Inside tb 1 1 (1 / 20) (pow10 (9 / 2)) 1 (zOne codeConsts (1 / 20) (pow10 (9 / 2)) 1) := by
  have hz := (C79_coulomb_heat_capacity_violated (1 / 20) 1 (by norm_num) (by norm_num) one_pos).1
  set z := zOne codeConsts (1 / 20) (pow10 (9 / 2)) 1
  set D := (1 / 20 : ℝ) * (z / 1) with hD
  have hDp : 0 < D := by positivity
  have hT : (1:ℝ) < pow10 (9 / 2) := by
    have : 0 < Real.log 10 := Real.log_pos (by norm_num)
    simp only [pow10]
    rw [Real.one_lt_exp_iff]
    positivity
  refine ⟨{ exTables with
    rho := fun j => D * j / 2
    rhoMin := min (1 / 20) D / 2
    rhoMax := D + 1 / 20
    lRhoMin := log10 D - 1
    lRhoMax := log10 D + 1 }, ⟨fun j => by simp [exTables], fun j => ?_⟩, ?_⟩
  · show D * (j : ℝ) / 2 < D * ((j + 1 : ℕ) : ℝ) / 2
    push_cast; nlinarith
  · have hm : min (1 / 20) D / 2 < min (1 / 20) D := by
      have : 0 < min (1 / 20) D := lt_min (by norm_num) hDp
      linarith
    refine ⟨by simp [exTables], by simp [exTables], by simpa [exTables] using hT, ?_, ?_, ?_, ?_, ?_, ?_, ?_,
      by norm_num, Real.exp_pos _, one_pos, hz⟩
    · show D * ((1 : ℕ) : ℝ) / 2 < D
      push_cast; linarith
    · exact lt_of_lt_of_le hm (min_le_left _ _)
    · show (1 / 20 : ℝ) < D + 1 / 20
      linarith
    · exact lt_of_lt_of_le hm (min_le_right _ _)
    · show D < D + 1 / 20
      linarith
    · show log10 D - 1 < log10 D
      linarith
    · show log10 D < log10 D + 1
      linarith

/-- The hypotheses of `C81_options_partial` are met without degenerate electrons too. -/
example (ε : ℝ) : let m : Model := ⟨⟨true, true, true, true, false, false⟩, 1, codeConsts, exTables⟩
    HasDerivAt (fun t => (atRT 0 ε m ⟨2, 1, none⟩ 3 t).e) (atRT 0 ε m ⟨2, 1, none⟩ 3 5).cv 5 := by
  intro m
  exact (C81_options_partial ε m ⟨fun j => by simp [m, exTables], fun j => by simp [m, exTables]⟩ ⟨2, 1, none⟩ 0 0 3 5 rfl
    (by simp [m]) (by norm_num) (by norm_num) (by norm_num) (by norm_num)).1

/-- The entropy of the ideal-gas part when the gas is ionised and the electrons are not degenerate: the logarithm is divided, not its
argument. -/
theorem ionized_s (m : Model) (hi : m.opt.ionized = true) (hd : m.opt.degenerate = false) (r T a z : ℝ) (hr : r ≠ 0) (hT : T ≠ 0)
    (ha : a ≠ 0) (hz : z + 1 ≠ 0) :
    (ionPart 0 m r T a z (dens 0 m.c r a z)).s.val = m.c.NA * m.c.KB * (a / (z + 1))⁻¹ *
        (5 / 2 + (Real.log (a / (z + 1) * (a / (z + 1)) * Real.sqrt (a / (z + 1))) / (r * m.c.NA) + m.c.LSWOT15 * Real.log T)) ∧
    (ionPart 0 m r T a z (dens 0 m.c r a z)).s.ddr = -(m.c.NA * m.c.KB * (a / (z + 1))⁻¹ / r) ∧
    (ionPart 0 m r T a z (dens 0 m.c r a z)).s.ddt = 3 / 2 * (m.c.NA * m.c.KB * (a / (z + 1))⁻¹) / T := by
  have hA : a / (z + 1) ≠ 0 := div_ne_zero ha hz
  simp only [ionPart, hi, hd, Bool.and_false, Bool.not_true, Bool.or_self, Bool.false_eq_true, if_false, ion, massFractions, ratio0, lnT_eq]
  set A := a / (z + 1)
  refine ⟨?_, ?_, ?_⟩
  · field_simp; ring
  · field_simp; ring
  · field_simp; ring

/-- C78 does not hold for the fully ionised ideal gas either: the density derivative reported for its entropy is the derivative of the
entropy exactly where the logarithm of the particle mass factor happens to equal the number of particles `rho N_A`; and the temperature
derivative exactly when `LSWOT15` is `3/2`, which it is not. -/
theorem C78_ionized_entropy_violated (m : Model) (hi : m.opt.ionized = true) (hd : m.opt.degenerate = false) (r T a z : ℝ)
    (hr : 0 < r) (hT : 0 < T) (ha : 0 < a) (hz : 0 < z) (hN : 0 < m.c.NA) (hK : 0 < m.c.KB) :
    (HasDerivAt (fun x => (ionPart 0 m x T a z (dens 0 m.c x a z)).s.val) (ionPart 0 m r T a z (dens 0 m.c r a z)).s.ddr r ↔
      Real.log (a / (z + 1) * (a / (z + 1)) * Real.sqrt (a / (z + 1))) = r * m.c.NA) ∧
    (HasDerivAt (fun x => (ionPart 0 m r x a z (dens 0 m.c r a z)).s.val) (ionPart 0 m r T a z (dens 0 m.c r a z)).s.ddt T ↔
      m.c.LSWOT15 = 3 / 2) := by
  have hz1 : z + 1 ≠ 0 := by positivity
  have hA : 0 < a / (z + 1) := by positivity
  have hr0 := hr.ne'
  have hT0 := hT.ne'
  have hval := fun x (hx : x ≠ 0) y (hy : y ≠ 0) => (ionized_s m hi hd x y a z hx hy ha.ne' hz1).1
  rw [(ionized_s m hi hd r T a z hr0 hT0 ha.ne' hz1).2.1, (ionized_s m hi hd r T a z hr0 hT0 ha.ne' hz1).2.2]
  set A := a / (z + 1)
  set L := Real.log (A * A * Real.sqrt A)
  constructor
  · have h1 : HasDerivAt (fun x => m.c.NA * m.c.KB * A⁻¹ * (5 / 2 + (L / (x * m.c.NA) + m.c.LSWOT15 * Real.log T)))
        (m.c.NA * m.c.KB * A⁻¹ * ((0 * (r * m.c.NA) - L * (1 * m.c.NA)) / (r * m.c.NA) ^ 2)) r :=
      ((((hasDerivAt_const r L).div ((hasDerivAt_id r).mul_const m.c.NA) (by positivity)).add_const _).const_add _).const_mul _
    have h2 : HasDerivAt (fun x => (ionPart 0 m x T a z (dens 0 m.c x a z)).s.val)
        (m.c.NA * m.c.KB * A⁻¹ * ((0 * (r * m.c.NA) - L * (1 * m.c.NA)) / (r * m.c.NA) ^ 2)) r :=
      HasDerivAt.changeOn (isOpen_ne.mem_nhds hr0) h1 (fun x hx => hval x hx T hT0) rfl
    have e : m.c.NA * m.c.KB * A⁻¹ * ((0 * (r * m.c.NA) - L * (1 * m.c.NA)) / (r * m.c.NA) ^ 2) = -(m.c.NA * m.c.KB * A⁻¹ / r) ↔
        L = r * m.c.NA := by
      rw [show m.c.NA * m.c.KB * A⁻¹ * ((0 * (r * m.c.NA) - L * (1 * m.c.NA)) / (r * m.c.NA) ^ 2) =
        -(m.c.NA * m.c.KB * A⁻¹ / r) * (L / (r * m.c.NA)) by field_simp; ring]
      have hne : -(m.c.NA * m.c.KB * A⁻¹ / r) ≠ 0 := neg_ne_zero.2 (by positivity)
      constructor
      · intro h
        have : L / (r * m.c.NA) = 1 := mul_left_cancel₀ hne (by rw [h, mul_one])
        rwa [div_eq_one_iff_eq (by positivity)] at this
      · intro h
        rw [h, div_self (by positivity), mul_one]
    rw [← e]
    exact ⟨fun h => h2.unique h, fun h => by rw [← h]; exact h2⟩
  · have h1 : HasDerivAt (fun x => m.c.NA * m.c.KB * A⁻¹ * (5 / 2 + (L / (r * m.c.NA) + m.c.LSWOT15 * Real.log x)))
        (m.c.NA * m.c.KB * A⁻¹ * (m.c.LSWOT15 * T⁻¹)) T :=
      ((((Real.hasDerivAt_log hT0).const_mul _).const_add _).const_add _).const_mul _
    have h2 : HasDerivAt (fun x => (ionPart 0 m r x a z (dens 0 m.c r a z)).s.val)
        (m.c.NA * m.c.KB * A⁻¹ * (m.c.LSWOT15 * T⁻¹)) T :=
      HasDerivAt.changeOn (isOpen_ne.mem_nhds hT0) h1 (fun x hx => hval r hr0 x hx) rfl
    have hne : m.c.NA * m.c.KB * A⁻¹ / T ≠ 0 := by positivity
    have e : m.c.NA * m.c.KB * A⁻¹ * (m.c.LSWOT15 * T⁻¹) = 3 / 2 * (m.c.NA * m.c.KB * A⁻¹) / T ↔ m.c.LSWOT15 = 3 / 2 := by
      rw [show m.c.NA * m.c.KB * A⁻¹ * (m.c.LSWOT15 * T⁻¹) = m.c.NA * m.c.KB * A⁻¹ / T * m.c.LSWOT15 by field_simp,
        show 3 / 2 * (m.c.NA * m.c.KB * A⁻¹) / T = m.c.NA * m.c.KB * A⁻¹ / T * (3 / 2) by ring]
      exact ⟨fun h => mul_left_cancel₀ hne h, fun h => by rw [h]⟩
    rw [← e]
    exact ⟨fun h => h2.unique h, fun h => by rw [← h]; exact h2⟩

/-- With the constants of the code neither is met: hydrogen (`abar = 1`, `zbar = 1`) at any density and temperature. -/
example (m : Model) (hi : m.opt.ionized = true) (hd : m.opt.degenerate = false) (hc : m.c = codeConsts) (r T : ℝ) (hr : 0 < r) (hT : 0 < T) :
    ¬ HasDerivAt (fun x => (ionPart 0 m x T 1 1 (dens 0 m.c x 1 1)).s.val) (ionPart 0 m r T 1 1 (dens 0 m.c r 1 1)).s.ddr r := by
  have hN : 0 < m.c.NA := by rw [hc]; norm_num [codeConsts]
  rw [(C78_ionized_entropy_violated m hi hd r T 1 1 hr hT one_pos one_pos hN (by rw [hc]; norm_num [codeConsts])).1]
  have h1 : Real.log ((1:ℝ) / (1 + 1) * (1 / (1 + 1)) * Real.sqrt (1 / (1 + 1))) ≤ 0 := by
    refine Real.log_nonpos (by positivity) ?_
    have : Real.sqrt (1 / (1 + 1)) ≤ 1 := Real.sqrt_le_one.2 (by norm_num)
    nlinarith
  have : 0 < r * m.c.NA := by positivity
  intro h
  linarith

end Verif.Helm
