import Verif.Props.PTEFullRhoU

/-! # C131 for `PTESolverRhoU`: an energy balance reported but not reached -/

set_option linter.unusedSectionVars false

namespace Verif.PTE

open Robust

/-- The starting guess of `InitBase`: temperature 300, the caller's pressure. -/
theorem zg_initBase {σ : ℝ} (hσ : 0 < σ) (hσ1 : σ < 1 / 2) (q : ℝ) (x : PS ℝ) :
    let b := initBase σ (twoIdeal 1000) twoIdealI defaultSolver 2 1 (-900) (zeroGuess q x)
    b.uscale = 900 ∧ b.Tnorm = 300 ∧ b.a.rho 0 = b.a.rho 1 ∧ 0 < b.a.rho 0 ∧
    ∀ m, m < 2 → b.a.temp m = 1 ∧ b.a.sie m = -700 ∧ b.a.press m = q / (900 + σ) ∧ 0 < b.a.vfrac m := by
  intro b
  obtain ⟨h1, h2, h3, h4, h5, h6, h7⟩ := initBase_ok (E := twoIdeal 1000) (p := defaultSolver) hσ twoIdealI
    (by norm_num [defaultSolver]) (by norm_num [defaultSolver]) two_pos one_pos (-900) (fun _ _ _ => le_rfl) (zeroGuess_ok q x)
  have hU : b.uscale = 900 := by
    rw [h3]; unfold zeroGuess; norm_num [Finset.sum_range_succ]
  have hz : ({ initRhoBar 2 (zeroGuess q x) with
      uscale := max |(initRhoBar 2 (zeroGuess q x)).rhoTotal * (-900)| (1 / 10 ^ 14)
      utot := ratio σ ((initRhoBar 2 (zeroGuess q x)).rhoTotal * (-900))
        (max |(initRhoBar 2 (zeroGuess q x)).rhoTotal * (-900)| (1 / 10 ^ 14)) } : PS ℝ) = zg1 q 900 (ratio σ (-900) 900) x := by
    rw [zg_rhoTotal q x, one_mul, show max |(-900 : ℝ)| (1 / 10 ^ 14) = 900 by norm_num]
    rfl
  obtain ⟨g1, g2⟩ := zg_tguess (k := 1000) (q := q) (U := 900) (ut := ratio σ (-900) 900) hσ hσ1 (by
    rw [ratio_pos_den _ (by norm_num), div_mul_eq_mul_div, div_le_iff₀ (by linarith)]
    linarith) x
  have hTn : b.Tnorm = 300 := by rw [← g1, ← hz]; rfl
  have hrho : b.a.rho = (tguess σ (twoIdeal 1000) twoIdealI defaultSolver 2 1 (zg1 q 900 (ratio σ (-900) 900) x)).2.a.rho := by
    rw [← hz]; rfl
  refine ⟨hU, hTn, by rw [hrho, g2], ?_, fun m hm => ⟨(h7 m hm).2.1, ?_, ?_, (h7 m hm).1⟩⟩
  · obtain ⟨q1, -, ⟨θ, t1, t2, t3⟩, -⟩ := h7 0 two_pos
    have hθ : 0 < θ := lt_of_lt_of_le (div_pos q1 (by linarith)) t1
    have : 0 < b.a.rho 0 * b.a.vfrac 0 := by rw [t3]; unfold zeroGuess; dsimp only; positivity
    exact (mul_pos_iff_of_pos_right q1).1 this
  · rw [(h7 m hm).2.2.2.1, hTn]; unfold twoIdeal; norm_num
  · have : b.a.press m = ratio σ q b.uscale := by
      change fill 2 _ _ m = _
      rw [fill_apply, if_pos hm]
      unfold startPress
      rw [if_pos ⟨rfl, rfl⟩]
      rfl
    rw [this, hU, ratio_pos_den _ (by norm_num)]

/-- C131 is violated by RhoU, with any pressure guess `q` (for `q ≠ 0` the conditions of `C131_rhoU_equilibrium_partial` are
met, see below): two ideal gases with energies shifted by 1000, equal densities and volume fractions, total specific energy
-900, default parameters, any linear solver. The solver reports convergence without taking a step; the temperatures are the
default 300, at which the energies sum to -700, not -900, and the EOS pressures differ by a factor of two. -/
theorem C131_rhoU_violated {σ : ℝ} (hσ : 0 < σ) (hσ1 : σ < 1 / 2) (qr : (Nat → ℝ) → (Nat → ℝ) → Nat → ℝ) (q : ℝ) (x : PS ℝ) :
    let s0 := zeroGuess q x
    let r := pteSolver σ (rhoUSys σ (twoIdeal 1000) twoIdealI defaultSolver MixTols.fresh qr 2 1 (-900)) defaultParams s0
    let P := fun m => (twoIdeal 1000).pOf m (r.s.a.rho m) (r.s.a.temp m) (r.s.a.sie m)
    r.converged = true ∧ r.slow = false ∧ r.s.a.temp 0 = 300 ∧ r.s.a.temp 1 = 300 ∧
      (∑ m ∈ Finset.range 2, s0.a.rho m * s0.a.vfrac m) * (-900) = -900 ∧
      ∑ m ∈ Finset.range 2, s0.a.rho m * s0.a.vfrac m * r.s.a.sie m = -700 ∧ 0 < P 0 ∧ P 1 = 2 * P 0 := by
  intro s0 r P
  set Y := rhoUSys σ (twoIdeal 1000) twoIdealI defaultSolver MixTols.fresh qr 2 1 (-900) with hY
  set b := initBase σ (twoIdeal 1000) twoIdealI defaultSolver 2 1 (-900) (zeroGuess q x) with hb
  obtain ⟨hU, hTn, hr01, hrp, hm7⟩ := zg_initBase hσ hσ1 q x
  rw [← hb] at hU hTn hr01 hrp hm7
  set b1 := rhoUResid 2 1 b with hb1
  set resid := fun v u pr t => rhoUResidual 2 1 b1.utot v u pr t b1.residual with hresid
  have hg := C17_ideal_guess σ (twoIdeal 1000) b1.uscale b1.Tnorm 1 resid (toIdeal (2 * 2) 2 b1) (C17_ideal_rhoU_room 2)
  set t' := tryIdealPTE σ (twoIdeal 1000) 2 (2 * 2) b1.uscale b1.Tnorm 1 resid (toIdeal (2 * 2) 2 b1) with ht'
  obtain ⟨m1, m2, m3⟩ := toIdeal_mem 2 b1
  set T := (idealPTE σ 2 b1.uscale b1.Tnorm 1 (toIdeal (2 * 2) 2 b1)).2 with hT
  have hTneg : T < 0 := by
    have e : T = b1.uscale / (forN 2 (fun a m => a + b.a.rho m * b.a.vfrac m * ratio σ (b.a.sie m) (b.a.temp m)) 0 / b1.Tnorm)
      / b1.Tnorm := rfl
    rw [e, show b1.uscale = 900 from hU, show b1.Tnorm = 300 from hTn, forN_add, Finset.sum_range_succ, Finset.sum_range_one,
      (hm7 0 two_pos).1, (hm7 0 two_pos).2.1, (hm7 1 one_lt_two).1, (hm7 1 one_lt_two).2.1, ratio_pos_den _ zero_le_one, ← hr01]
    have v0 := (hm7 0 two_pos).2.2.2
    have v1 := (hm7 1 one_lt_two).2.2.2
    refine div_neg_of_neg_of_pos (div_neg_of_pos_of_neg (by norm_num) (div_neg_of_neg_of_pos ?_ (by norm_num))) (by norm_num)
    have : 0 + (b.a.rho 0 * b.a.vfrac 0 * (-700 / (1 + σ)) + b.a.rho 0 * b.a.vfrac 1 * (-700 / (1 + σ)))
        = -(b.a.rho 0 * (b.a.vfrac 0 + b.a.vfrac 1) * 700 / (1 + σ)) := by ring
    rw [this, neg_neg_iff_pos]
    positivity
  rcases hg with ⟨g1, g2, g3, g4, g5, g6⟩ | ⟨-, -, g3⟩
  swap
  · have := (g3 0 two_pos).2.2.2.2.2.2.2.1
    rw [show b1.Tnorm = 300 from hTn] at this
    linarith
  have hUo : offU (2 * 2) = offRes (2 * 2) + 2 * 2 := rfl
  have hia : (Y.init s0).1.a.rho = b.a.rho ∧ (Y.init s0).1.a.sie = b.a.sie ∧ (Y.init s0).1.a.temp = b.a.temp :=
    ⟨g1, g3, g4⟩
  have hip : (Y.init s0).1.a.press = b.a.press := g5
  have hiv : (Y.init s0).1.a.vfrac = b.a.vfrac := g2
  have hres : ∀ i, i < 4 → (Y.init s0).1.residual i
      = rhoUResidual 2 1 b.utot b.a.vfrac b.a.u b.a.press b.a.temp b.residual i := fun i hi => by
    have : (Y.init s0).1.residual i = t'.mem (offRes (2 * 2) + i) := rfl
    rw [this, g6 _ (by omega), m1 i hi]; rfl
  obtain ⟨-, -, w2, w3⟩ := rhoUResidual_rows (n := 2) (by norm_num) 1 b.utot b.a.vfrac b.a.u b.a.press b.a.temp b.residual
  have k2 : (Y.init s0).1.residual 2 = 0 := by
    rw [hres 2 (by norm_num), w2 0 (by norm_num), (hm7 0 two_pos).2.2.1, (hm7 (0 + 1) one_lt_two).2.2.1, sub_self]
  have k3 : (Y.init s0).1.residual 3 = 0 := by
    rw [hres 3 (by norm_num), w3 0 (by norm_num), (hm7 0 two_pos).1, (hm7 (0 + 1) one_lt_two).1, sub_self]
  have hcheck : (Y.check (Y.init s0).1).1 = true := by
    rw [hY]
    simp only [rhoUSys, decide_eq_true_eq]
    change rhoUCheck σ MixTols.fresh.tol 2 (Y.init s0).1.rhoTotal (Y.init s0).1.rhobar (Y.init s0).1.a.vfrac
      (Y.init s0).1.a.press (Y.init s0).1.a.temp (Y.init s0).1.residual
    refine ⟨Or.inr ?_, Or.inr ?_⟩
    · simp only [forN_succ, forN_zero, k2]; norm_num [MixTols.fresh, tolDefault]
    · simp only [forN_succ, forN_zero, k3]; norm_num [MixTols.fresh, tolDefault]
  obtain ⟨p1, p2, -, p4⟩ := pteSolver_first (σ := σ) (Y := Y) (dp := defaultParams) (s0 := s0)
    (by change 0 < 2 * 128; norm_num) hcheck
  change r.s = finalizeBase 2 (Y.init s0).1 at p4
  have hTi : (Y.init s0).1.Tnorm = 300 := hTn
  have e2 : ∀ m, m < 2 → r.s.a.temp m = 300 := fun m hm => by
    rw [p4]; unfold finalizeBase; dsimp only; rw [mapN_apply, if_pos hm, hia.2.2, hTi, (hm7 m hm).1, one_mul]
  have e3 : r.s.a.rho = b.a.rho := by rw [p4]; exact hia.1
  have e4 : r.s.a.sie = b.a.sie := by rw [p4]; exact hia.2.1
  have hP0 : P 0 = b.a.rho 0 * 300 := by
    change (twoIdeal 1000).pOf 0 _ _ _ = _
    rw [e3, e4, (hm7 0 two_pos).2.1]; unfold twoIdeal; norm_num; exact hrp.le
  have hP1 : P 1 = 2 * b.a.rho 0 * 300 := by
    change (twoIdeal 1000).pOf 1 _ _ _ = _
    rw [e3, e4, (hm7 1 one_lt_two).2.1, ← hr01]; unfold twoIdeal; norm_num; exact hrp.le
  refine ⟨p1, p2, e2 0 two_pos, e2 1 one_lt_two, ?_, ?_, by rw [hP0]; positivity, by rw [hP1, hP0]; ring⟩
  · change (∑ m ∈ Finset.range 2, (1 : ℝ) * (1 / 2)) * (-900) = _
    norm_num
  · rw [Finset.sum_range_succ, Finset.sum_range_one, e4, (hm7 0 two_pos).2.1, (hm7 1 one_lt_two).2.1]
    change (1 : ℝ) * (1 / 2) * _ + 1 * (1 / 2) * _ = _
    norm_num

/-- The conditions of `C130_rhoU_state` and `C131_rhoU_equilibrium_partial` are met by this problem, with the default parameters
and a non-zero pressure guess. -/
example {σ : ℝ} (hσ : 0 < σ) (hσ1 : σ < 1 / 2) {q : ℝ} (hq : q ≠ 0) (x : PS ℝ) :
    let b := initBase σ (twoIdeal 1000) twoIdealI defaultSolver 2 1 (-900) (zeroGuess q x)
    InputOk 2 1 (zeroGuess q x) ∧ (∀ m r e, 0 ≤ (twoIdeal 1000).tOf m r e) ∧ (∀ m T, 0 ≤ (twoIdeal 1000).rhoPmin m T) ∧
    (∀ m, m < 2 → b.a.press m ≠ 0) ∧ ∑ m ∈ Finset.range 2, b.a.rho m * b.a.vfrac m * b.a.sie m ≠ 0 ∧
    0 < (defaultSolver : SolverParams ℝ).tlimit ∧ 0 < (defaultSolver : SolverParams ℝ).tdefault ∧
    0 < (defaultParams : DriverParams ℝ).lineFac ∧ (defaultParams : DriverParams ℝ).lineFac ≤ 1 := by
  intro b
  obtain ⟨hU, hTn, hr01, hrp, hm7⟩ := zg_initBase hσ hσ1 q x
  refine ⟨zeroGuess_ok q x, fun _ _ _ => le_max_left _ _, fun _ _ => le_rfl, fun m hm => ?_, ?_, by norm_num [defaultSolver],
    by norm_num [defaultSolver], by norm_num [defaultParams], by norm_num [defaultParams]⟩
  · rw [(hm7 m hm).2.2.1]; exact div_ne_zero hq (by linarith)
  · rw [Finset.sum_range_succ, Finset.sum_range_one, (hm7 0 two_pos).2.1, (hm7 1 one_lt_two).2.1]
    change b.a.rho 0 = b.a.rho 1 at hr01
    rw [← hr01]
    have v0 := (hm7 0 two_pos).2.2.2
    have v1 := (hm7 1 one_lt_two).2.2.2
    refine ne_of_lt ?_
    have : 0 < b.a.rho 0 * b.a.vfrac 0 := mul_pos hrp v0
    have : 0 < b.a.rho 0 * b.a.vfrac 1 := mul_pos hrp v1
    linarith

end Verif.PTE
