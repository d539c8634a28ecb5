import Verif.Props.PTEFullRhoT

/-! # C131: an equilibrium reported but not reached -/

set_option linter.unusedSectionVars false

namespace Verif.PTE

open Robust

section
variable {K : Type*} [Field K] [LinearOrder K] [IsStrictOrderedRing K]

theorem normalize_const (σ vt : K) {n : Nat} {v : Nat → K} (h : ∀ i j, i < n → j < n → v i = v j) :
    ∀ i j, i < n → j < n → normalizeVfrac σ n vt v i = normalizeVfrac σ n vt v j := fun i j hi hj => by
  unfold normalizeVfrac; rw [mapN_apply, mapN_apply, if_pos hi, if_pos hj, h i j hi hj]

theorem waterFill_const (σ : K) {n : Nat} {vmax : Nat → K} (hm : ∀ i j, i < n → j < n → vmax i = vmax j) :
    ∀ f (v : Nat → K), (∀ i j, i < n → j < n → v i = v j) →
      ∀ i j, i < n → j < n → waterFill σ n vmax f v i = waterFill σ n vmax f v j := by
  intro f
  induction f with
  | zero => intro v h; exact h
  | succ f ih =>
    intro v h
    have hc : ∀ i j, i < n → j < n → (capPass n vmax v).1 i = (capPass n vmax v).1 j := fun i j hi hj => by
      rw [(capPass_spec n vmax v).1, (capPass_spec n vmax v).1, if_pos hi, if_pos hj, h i j hi hj, hm i j hi hj]
    dsimp only [waterFill]
    split_ifs
    · exact hc
    · refine ih _ fun i j hi hj => ?_
      unfold spreadPass
      rw [mapN_apply, mapN_apply, if_pos hi, if_pos hj, hc i j hi hj, hm i j hi hj]

/-- Equal inputs, equal volume fractions. -/
theorem setVfracFromT_const (σ vt : K) {n : Nat} {rb rp v : Nat → K} (h1 : ∀ i j, i < n → j < n → rb i = rb j)
    (h2 : ∀ i j, i < n → j < n → rp i = rp j) (h3 : ∀ i j, i < n → j < n → v i = v j) :
    ∀ i j, i < n → j < n → (setVfracFromT σ n vt rb rp v).2 i = (setVfracFromT σ n vt rb rp v).2 j := by
  have hm : ∀ i j, i < n → j < n → vfracMax σ rb rp i = vfracMax σ rb rp j := fun i j hi hj => by
    unfold vfracMax; rw [h1 i j hi hj, h2 i j hi hj]
  have hv : ∀ i j, i < n → j < n → mapN n (fun m x => if x ≤ 0 then vfracMax σ rb rp m else x) v i
      = mapN n (fun m x => if x ≤ 0 then vfracMax σ rb rp m else x) v j := fun i j hi hj => by
    rw [mapN_apply, mapN_apply, if_pos hi, if_pos hj, h3 i j hi hj, hm i j hi hj]
  unfold setVfracFromT
  dsimp only
  split_ifs
  · exact hv
  · exact normalize_const σ vt (waterFill_const σ hm n _ (normalize_const σ vt hv))

end

/-- Two ideal gases, `Cv = 1` and `gamma - 1` equal to 1 and 2, with their energies shifted by `k`
(`ShiftedEOS<IdealGas>`; `k = 0` is `IdealGas`, `eos_ideal.hpp:60-95`, `:200-208`). -/
noncomputable def twoIdeal (k : ℝ) : MatEOS ℝ where
  eOf := fun _ _ T => max 0 T - k
  pOf := fun m rho _ e => max 0 (((m : ℝ) + 1) * rho * (e + k))
  tOf := fun _ _ e => max 0 (e + k)
  rhoEOfPT := fun m P T => (max 0 (P / (((m : ℝ) + 1) * max 0 T)), max 0 T - k)
  rhoPmin := fun _ _ => 0
  pMin := fun _ => 0
  pMaxAtT := fun _ _ => 10 ^ 20

/-- Their `PreferredInput` includes pressure (`eos_ideal.hpp:227-229`, passed on by `eos_shifted.hpp`); zero is not a bad
value. -/
noncomputable def twoIdealI : InitEOS ℝ where
  prefersP := fun _ => true
  tMin := fun _ => 0
  rhoMax := fun _ => 10 ^ 20
  cvRT := fun _ _ _ => 1
  cvRE := fun _ _ _ => 1
  bad := fun _ => false

/-- Density 1 and volume fraction 1/2 each, pressures `q`, temperatures 0. -/
noncomputable def zeroGuess (q : ℝ) (x : PS ℝ) : PS ℝ :=
  { x with
    Tnorm := 0
    a := ⟨fun _ => 1, fun _ => 1 / 2, fun _ => 0, fun _ => 0, fun _ => q, fun _ => 0⟩ }

theorem zeroGuess_ok (q : ℝ) (x : PS ℝ) : InputOk 2 1 (zeroGuess q x) :=
  ⟨fun _ _ => one_pos, fun _ _ => by unfold zeroGuess; norm_num, by unfold zeroGuess; norm_num [Finset.sum_range_succ]⟩

/-- The state in which `GetTguess` runs. -/
noncomputable def zg1 (q U ut : ℝ) (x : PS ℝ) : PS ℝ :=
  { initRhoBar 2 (zeroGuess q x) with
    uscale := U
    utot := ut }

theorem zg_rhobar (q : ℝ) (x : PS ℝ) {m : Nat} (hm : m < 2) : (initRhoBar 2 (zeroGuess q x)).rhobar m = 1 / 2 := by
  rw [rhobar_eq _ hm]; unfold zeroGuess; norm_num

theorem zg_rhoTotal (q : ℝ) (x : PS ℝ) : (initRhoBar 2 (zeroGuess q x)).rhoTotal = 1 := by
  change sumNeumaier (initRhoBar 2 (zeroGuess q x)).rhobar 2 = _
  rw [sumNeumaier_all, Finset.sum_range_succ, Finset.sum_range_one, zg_rhobar q x (by norm_num), zg_rhobar q x (by norm_num)]
  norm_num

theorem zg1_rhobar (q U ut : ℝ) (x : PS ℝ) {m : Nat} (hm : m < 2) : (zg1 q U ut x).rhobar m = 1 / 2 := zg_rhobar q x hm

theorem getTguess_first {σ : ℝ} {E : MatEOS ℝ} {tmin : Nat → ℝ} {n : Nat} {vt tlimit : ℝ} {rhobar : Nat → ℝ}
    {newton : Nat → (ℝ × (Nat → ℝ) × (Nat → ℝ)) → Option ℝ} {s : ℝ × (Nat → ℝ) × (Nat → ℝ)} {q : ℝ × (Nat → ℝ) × (Nat → ℝ)}
    (h : tguessPass σ E tmin n vt tlimit rhobar (newton 0 s) s = (false, q)) :
    getTguess σ E tmin n vt tlimit rhobar newton s = (false, q) := by
  unfold getTguess
  dsimp only
  rw [if_pos (by rw [h])]
  exact h

theorem zg_startT (q U ut : ℝ) (x : PS ℝ) : startT 2 300 (zg1 q U ut x).Tnorm (zg1 q U ut x).a.temp = 300 := by
  unfold startT
  simp [zg1, initRhoBar, zeroGuess, forN]

theorem zg_newton {σ : ℝ} (hσ : 0 < σ) {k q U ut : ℝ} (hu : ut * U ≤ 300 - k) (x : PS ℝ) (rho : Nat → ℝ) :
    newtonStep σ (twoIdeal k) twoIdealI 2 ((zg1 q U ut x).utot * (zg1 q U ut x).uscale) (zg1 q U ut x).rhobar (zg1 q U ut x).a.press rho 300
      ≤ 300 := by
  have r0 := zg1_rhobar q U ut x (m := 0) (by norm_num)
  have r1 := zg1_rhobar q U ut x (m := 1) (by norm_num)
  have hu : (zg1 q U ut x).utot * (zg1 q U ut x).uscale ≤ 300 - k := hu
  unfold newtonStep
  simp only [forN_succ, forN_zero, sieCv, twoIdeal, twoIdealI, r0, r1, if_true, show max (0 : ℝ) 300 = 300 by norm_num]
  rw [ratio_pos_den _ (by norm_num)]
  have : 0 ≤ (0 + 1 / 2 * (300 - k) + 1 / 2 * (300 - k) - (zg1 q U ut x).utot * (zg1 q U ut x).uscale) / (0 + 1 / 2 * 1 + 1 / 2 * 1 + σ) :=
    div_nonneg (by linarith) (by linarith)
  linarith

/-- `GetTguess` keeps 300 and leaves equal densities and volume fractions. -/
theorem zg_tguess {σ : ℝ} (hσ : 0 < σ) (hσ1 : σ < 1 / 2) {k q U ut : ℝ} (hu : ut * U ≤ 300 - k) (x : PS ℝ) :
    let g := tguess σ (twoIdeal k) twoIdealI defaultSolver 2 1 (zg1 q U ut x)
    g.1 = 300 ∧ g.2.a.rho 0 = g.2.a.rho 1 := by
  intro g
  have hv : ∀ m, (zg1 q U ut x).a.vfrac m = 1 / 2 := fun m => rfl
  have hT : startT 2 (defaultSolver : SolverParams ℝ).tdefault (zg1 q U ut x).Tnorm (zg1 q U ut x).a.temp = 300 := zg_startT q U ut x
  set q0 : ℝ × (Nat → ℝ) × (Nat → ℝ) :=
    (startT 2 (defaultSolver : SolverParams ℝ).tdefault (zg1 q U ut x).Tnorm (zg1 q U ut x).a.temp, (zg1 q U ut x).a.vfrac, (zg1 q U ut x).a.rho)
    with hq0
  set nw := newtonStep σ (twoIdeal k) twoIdealI 2 ((zg1 q U ut x).utot * (zg1 q U ut x).uscale) (zg1 q U ut x).rhobar (zg1 q U ut x).a.press q0.2.2 q0.1
    with hnw
  have hnle : nw ≤ 300 := by rw [hnw, hq0, hT]; exact zg_newton hσ hu x _
  have hpass : tguessPass σ (twoIdeal k) twoIdealI.tMin 2 1 (10 ^ 15) (zg1 q U ut x).rhobar (some nw) q0
      = (false, 300, (setVfracFromT σ 2 1 (zg1 q U ut x).rhobar (fun _ => 0) (zg1 q U ut x).a.vfrac).2,
          fill 2 (fun m => ratio σ ((zg1 q U ut x).rhobar m)
            ((setVfracFromT σ 2 1 (zg1 q U ut x).rhobar (fun _ => 0) (zg1 q U ut x).a.vfrac).2 m)) (zg1 q U ut x).a.rho) := by
    have hc : clipNewton (10 ^ 15) (some nw) q0.1 = 300 := by
      change min _ (max _ _) = _
      rw [show q0.1 = 300 from hT, max_eq_left hnle, min_eq_right (by norm_num)]
    have hT2 : forN 2 (fun T m => max (twoIdealI.tMin m) T) (300 : ℝ) = 300 := by
      simp [forN_succ, forN_zero, twoIdealI]
    have hok : (setVfracFromT σ 2 1 (zg1 q U ut x).rhobar (fun _ => 0) (zg1 q U ut x).a.vfrac).1 = false := by
      unfold setVfracFromT
      dsimp only
      rw [if_neg]
      have hvm : ∀ m, m < 2 → 1 / 2 ≤ vfracMax σ (zg1 q U ut x).rhobar (fun _ => 0) m := fun m hm => by
        unfold vfracMax
        rw [zg1_rhobar q U ut x hm, ratio_pos_den _ le_rfl, zero_add]
        refine le_min ?_ (by norm_num)
        rw [← mul_div_assoc, div_le_div_iff₀ (by norm_num) hσ]
        linarith
      simp only [forN_succ, forN_zero]
      have := hvm 0 (by norm_num)
      have := hvm 1 (by norm_num)
      linarith
    have hpos := (setVfracFromT_ok hσ (n := 2) two_pos one_pos (rhobar := (zg1 q U ut x).rhobar) (rhoPmin := fun _ => 0)
      (v := (zg1 q U ut x).a.vfrac) (fun m hm => by rw [zg1_rhobar q U ut x hm]; norm_num)
      (fun _ _ => le_rfl) (fun m hm => by rw [hv]; norm_num)
      (by rw [Finset.sum_range_succ, Finset.sum_range_one, hv, hv]; norm_num)).1
    have hnb : forN 2 (fun b m => b || decide (fill 2 (fun m => ratio σ ((zg1 q U ut x).rhobar m)
            ((setVfracFromT σ 2 1 (zg1 q U ut x).rhobar (fun _ => 0) (zg1 q U ut x).a.vfrac).2 m)) (zg1 q U ut x).a.rho m
              < (0 : ℝ))) false = false := by
      have hp : ∀ m, m < 2 → ¬ ratio σ ((zg1 q U ut x).rhobar m)
            ((setVfracFromT σ 2 1 (zg1 q U ut x).rhobar (fun _ => 0) (zg1 q U ut x).a.vfrac).2 m) < 0 := fun m hm => by
        rw [ratio_pos_den _ (hpos m hm).le, zg1_rhobar q U ut x hm, not_lt]
        have := hpos m hm
        positivity
      simp [forN_succ, forN_zero, fill_apply, hp 0 (by norm_num), hp 1 (by norm_num)]
    unfold tguessPass
    simp only [hc, hT2]
    rw [show (fun m => (twoIdeal k).rhoPmin m 300) = fun _ => (0 : ℝ) from rfl]
    rw [if_neg (by rw [show q0.2.1 = (zg1 q U ut x).a.vfrac from rfl, hok]; simp)]
    exact if_neg (by rw [Bool.not_eq_true]; exact hnb)
  have hg : getTguess σ (twoIdeal k) twoIdealI.tMin 2 1 (defaultSolver : SolverParams ℝ).tlimit (zg1 q U ut x).rhobar
      (fun _ y => if (defaultSolver : SolverParams ℝ).iterateT = true then
        some (newtonStep σ (twoIdeal k) twoIdealI 2 ((zg1 q U ut x).utot * (zg1 q U ut x).uscale) (zg1 q U ut x).rhobar (zg1 q U ut x).a.press y.2.2 y.1)
        else none) q0 = (false, 300, (setVfracFromT σ 2 1 (zg1 q U ut x).rhobar (fun _ => 0) (zg1 q U ut x).a.vfrac).2,
          fill 2 (fun m => ratio σ ((zg1 q U ut x).rhobar m)
            ((setVfracFromT σ 2 1 (zg1 q U ut x).rhobar (fun _ => 0) (zg1 q U ut x).a.vfrac).2 m)) (zg1 q U ut x).a.rho) := by
    exact getTguess_first hpass
  refine ⟨congrArg (fun r => r.2.1) hg, ?_⟩
  have hr : g.2.a.rho = _ := congrArg (fun r => r.2.2.2) hg
  rw [hr]
  dsimp only
  rw [fill_apply, fill_apply, if_pos (by norm_num), if_pos (by norm_num),
    setVfracFromT_const σ 1 (fun i j hi hj => by
      rw [zg1_rhobar q U ut x hi, zg1_rhobar q U ut x hj])
      (fun _ _ _ _ => rfl) (fun i j _ _ => by rw [hv, hv]) 0 1 (by norm_num) (by norm_num),
    zg1_rhobar q U ut x (m := 0) (by norm_num), zg1_rhobar q U ut x (m := 1) (by norm_num)]

/-- If the first test passes the driver stops there. -/
theorem pteSolver_first {S : Type*} {σ : ℝ} {Y : Sys S ℝ} {dp : DriverParams ℝ} {s0 : S}
    (h : 0 < Y.nmat * dp.maxIterPerMat) (hc : (Y.check (Y.init s0).1).1 = true) :
    let r := pteSolver σ Y dp s0
    r.converged = true ∧ r.slow = false ∧ r.niter = 0 ∧ r.s = Y.finalize (Y.fixup (Y.init s0).1) := by
  intro r
  have hr : r = pteSolver σ Y dp s0 := rfl
  unfold pteSolver at hr
  dsimp only at hr
  obtain ⟨k, hk⟩ := Nat.exists_eq_succ_of_ne_zero h.ne'
  rw [hk] at hr
  simp only [driverLoop, driverBody, hc, if_true] at hr
  rw [hr]
  exact ⟨rfl, rfl, rfl, rfl⟩

/-- C131 is violated by RhoT for equations of state that list pressure among their preferred inputs, such as `IdealGas`: two
ideal gases with equal densities and volume fractions, `gamma - 1` of 1 and 2, and zero-initialised pressure and temperature
arrays (default parameters, any linear solver). The solver reports convergence without taking a step and returns the zero
pressures, while at the returned densities and temperature one EOS pressure is positive and the other twice as large. -/
theorem C131_rhoT_ideal_violated {σ : ℝ} (hσ : 0 < σ) (hσ1 : σ < 1 / 2) (qr : (Nat → ℝ) → (Nat → ℝ) → Nat → ℝ) (x : PS ℝ) :
    let r := pteSolver σ (rhoTSys σ (twoIdeal 0) twoIdealI defaultSolver MixTols.fresh qr 2 1 300) defaultParams (zeroGuess 0 x)
    let P := fun m => (twoIdeal 0).pOf m (r.s.a.rho m) (r.s.a.temp m) (r.s.a.sie m)
    r.converged = true ∧ r.slow = false ∧ r.s.a.press 0 = 0 ∧ r.s.a.press 1 = 0 ∧
      r.s.a.temp 0 = 300 ∧ r.s.a.temp 1 = 300 ∧ 0 < P 0 ∧ P 1 = 2 * P 0 := by
  intro r P
  set Y := rhoTSys σ (twoIdeal 0) twoIdealI defaultSolver MixTols.fresh qr 2 1 300 with hY
  set b := initBase σ (twoIdeal 0) twoIdealI defaultSolver 2 1 300 (zeroGuess 0 x) with hb
  obtain ⟨h1, h2, h3, h4, h5, h6, h7⟩ := initBase_ok (E := twoIdeal 0) (p := defaultSolver) hσ twoIdealI
    (by norm_num [defaultSolver]) (by norm_num [defaultSolver]) two_pos one_pos 300 (fun _ _ _ => le_rfl) (zeroGuess_ok 0 x)
  have hU : b.uscale = 300 := by
    rw [h3]; unfold zeroGuess; norm_num [Finset.sum_range_succ]
  have hz : ({ initRhoBar 2 (zeroGuess 0 x) with
      uscale := max |(initRhoBar 2 (zeroGuess 0 x)).rhoTotal * 300| (1 / 10 ^ 14)
      utot := ratio σ ((initRhoBar 2 (zeroGuess 0 x)).rhoTotal * 300)
        (max |(initRhoBar 2 (zeroGuess 0 x)).rhoTotal * 300| (1 / 10 ^ 14)) } : PS ℝ) = zg1 0 300 (ratio σ 300 300) x := by
    rw [zg_rhoTotal 0 x, one_mul, show max |(300 : ℝ)| (1 / 10 ^ 14) = 300 by norm_num]
    rfl
  obtain ⟨g1, g2⟩ := zg_tguess (k := 0) (q := 0) (U := 300) (ut := ratio σ 300 300) hσ hσ1 (by
    rw [ratio_pos_den _ (by norm_num), div_mul_eq_mul_div, div_le_iff₀ (by linarith)]
    linarith) x
  have hTn : b.Tnorm = 300 := by rw [← g1, ← hz]; rfl
  have hrho : b.a.rho = (tguess σ (twoIdeal 0) twoIdealI defaultSolver 2 1 (zg1 0 300 (ratio σ 300 300) x)).2.a.rho := by rw [← hz]; rfl
  have hpr : ∀ m, m < 2 → b.a.press m = 0 := fun m hm => by
    change fill 2 _ _ m = _
    rw [fill_apply, if_pos hm]
    unfold startPress
    rw [if_pos ⟨rfl, rfl⟩]
    exact (ratio_pos_den _ (le_trans (by norm_num) (le_max_right _ _))).trans (zero_div _)
  have hsie : ∀ m, m < 2 → b.a.sie m = 300 := fun m hm => by rw [(h7 m hm).2.2.2.1, hTn]; unfold twoIdeal; norm_num
  have hut : b.utot = 300 / (300 + σ) := by
    rw [h4, hU]; unfold zeroGuess; norm_num [Finset.sum_range_succ]
  have hu : ∀ m, m < 2 → b.a.u m = 1 / 2 * 300 / (300 + σ) := fun m hm => by
    rw [(h7 m hm).2.2.2.2.1, hsie m hm, hU]; unfold zeroGuess; norm_num
  have hms : argmaxPos 2 (fun m => ratio σ (b.rhobar m) b.rhoTotal) < 2 := argmaxPos_lt two_pos _
  set ms := argmaxPos 2 (fun m => ratio σ (b.rhobar m) b.rhoTotal) with hmsd
  have hia : (Y.init (zeroGuess 0 x)).1.a = b.a := rfl
  have hres : (Y.init (zeroGuess 0 x)).1.residual = rhoTResidual 2 ms b.utot b.a.u b.a.press b.residual := rfl
  obtain ⟨r1, r2⟩ := rhoTResidual_rows hms b.utot b.a.u b.a.press b.residual
  have hr0 : rhoTResidual 2 ms b.utot b.a.u b.a.press b.residual 0 = 0 := by
    rw [r1, Finset.sum_range_succ, Finset.sum_range_one, hu 0 two_pos, hu 1 one_lt_two, hut]
    ring
  have hr1 : rhoTResidual 2 ms b.utot b.a.u b.a.press b.residual 1 = 0 := by
    have : ∃ m, m < 2 ∧ m ≠ ms ∧ pos ms m = 1 := by
      have : ms = 0 ∨ ms = 1 := by omega
      rcases this with h | h
      · exact ⟨1, by norm_num, by rw [h]; norm_num, by rw [h]; rfl⟩
      · exact ⟨0, by norm_num, by rw [h]; norm_num, by rw [h]; rfl⟩
    obtain ⟨m, q1, q2, q3⟩ := this
    rw [← q3, r2 m q1 q2, hpr m q1, hpr ms hms, sub_zero]
  have hcheck : (Y.check (Y.init (zeroGuess 0 x)).1).1 = true := by
    have : rhoTCheck MixTols.fresh.tol 2 b.a.vfrac b.a.press (rhoTResidual 2 ms b.utot b.a.u b.a.press b.residual) := by
      refine ⟨Or.inr ?_, ?_⟩
      · rw [sumNeumaier_eq, Finset.filter_true_of_mem (fun i _ => by omega), Finset.sum_range_one, zero_add, hr1]
        norm_num [MixTols.fresh, tolDefault]
      · rw [hr0]; norm_num [MixTols.fresh, tolDefault]
    rw [hY]
    simp only [rhoTSys, decide_eq_true_eq]
    exact this
  obtain ⟨p1, p2, -, p4⟩ := pteSolver_first (σ := σ) (Y := Y) (dp := defaultParams) (s0 := zeroGuess 0 x)
    (by change 0 < 2 * 128; norm_num) hcheck
  obtain ⟨f1, f2, f3⟩ := rhoTFixup_a defaultSolver 2 (Y.init (zeroGuess 0 x)).1
  change r.s = finalizeBase 2 (rhoTFixup defaultSolver 2 (Y.init (zeroGuess 0 x)).1) at p4
  rw [hia] at f1
  have hTi : (Y.init (zeroGuess 0 x)).1.Tnorm = 300 := hTn
  rw [hTi] at f2
  have e1 : ∀ m, m < 2 → r.s.a.press m = 0 := fun m hm => by
    rw [p4]; unfold finalizeBase; dsimp only; rw [mapN_apply, if_pos hm, f1, hpr m hm, zero_mul]
  have e2 : ∀ m, m < 2 → r.s.a.temp m = 300 := fun m hm => by
    rw [p4]; unfold finalizeBase; dsimp only; rw [mapN_apply, if_pos hm, f1, f2, (h7 m hm).2.1, one_mul]
  have e3 : r.s.a.rho = b.a.rho := by rw [p4]; change (rhoTFixup _ _ _).a.rho = _; rw [f1]
  have e4 : r.s.a.sie = b.a.sie := by rw [p4]; change (rhoTFixup _ _ _).a.sie = _; rw [f1]
  have hrp : 0 < b.a.rho 0 := by
    obtain ⟨q1, -, ⟨θ, t1, t2, t3⟩, -⟩ := h7 0 two_pos
    have hθ : 0 < θ := lt_of_lt_of_le (div_pos q1 (by linarith)) t1
    have : 0 < b.a.rho 0 * b.a.vfrac 0 := by rw [t3]; unfold zeroGuess; dsimp only; positivity
    exact (mul_pos_iff_of_pos_right q1).1 this
  have hP0 : P 0 = b.a.rho 0 * 300 := by
    change (twoIdeal 0).pOf 0 _ _ _ = _
    rw [e3, e4, hsie 0 two_pos]; unfold twoIdeal; norm_num; exact hrp.le
  have hP1 : P 1 = 2 * b.a.rho 1 * 300 := by
    change (twoIdeal 0).pOf 1 _ _ _ = _
    have hrp1 : 0 < b.a.rho 1 := by
      rw [hrho, ← g2, ← hrho]; exact hrp
    rw [e3, e4, hsie 1 one_lt_two]; unfold twoIdeal; norm_num; exact hrp1.le
  refine ⟨p1, p2, e1 0 two_pos, e1 1 one_lt_two, e2 0 two_pos, e2 1 one_lt_two, by rw [hP0]; positivity, ?_⟩
  rw [hP1, hP0, hrho, g2]; ring

end Verif.PTE
