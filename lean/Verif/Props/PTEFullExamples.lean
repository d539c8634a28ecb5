import Verif.Props.PTEFullRhoUViol
import Verif.Props.PTEFullFixed
import Verif.Props.PTEFullFixedP
import Verif.Props.PTEFullPT

/-! # Concrete solves that meet the hypotheses of C130 and C131

One ideal gas alone in a cell, and two ideal gases for RhoT (see also `C131_rhoT_ideal_violated`) and RhoU (next to
`C131_rhoU_violated`). -/

set_option linter.unusedSectionVars false

namespace Verif.PTE

open Robust

/-- Density and volume fraction 1, temperature 300, pressure `q`. -/
noncomputable def oneGuess (q : ℝ) (x : PS ℝ) : PS ℝ :=
  { x with
    Tnorm := 0
    a := ⟨fun _ => 1, fun _ => 1, fun _ => 0, fun _ => 300, fun _ => q, fun _ => 0⟩ }

theorem oneGuess_ok (q : ℝ) (x : PS ℝ) : InputOk 1 1 (oneGuess q x) :=
  ⟨fun _ _ => one_pos, fun _ _ => one_pos, by simp [oneGuess]⟩

theorem oneGuess_rhobar (q : ℝ) (x : PS ℝ) : (initRhoBar 1 (oneGuess q x)).rhobar 0 = 1 := by
  rw [rhobar_eq _ one_pos]; unfold oneGuess; norm_num

/-- One material that no cap binds gets the whole cell, up to the guards. -/
theorem setVfrac_one {σ : ℝ} (hσ : 0 < σ) (hσ1 : σ < 1 / 2) {rb v : Nat → ℝ} (hr : rb 0 = 1) (hv : v 0 = 1) :
    (setVfracFromT σ 1 1 rb (fun _ => 0) v).1 = false ∧ (setVfracFromT σ 1 1 rb (fun _ => 0) v).2 0 = 1 / (1 + σ * (1 + σ)) := by
  have hvm : vfracMax σ rb (fun _ => 0) 0 = 1 := by
    unfold vfracMax
    rw [hr, ratio_pos_den _ le_rfl, zero_add]
    refine min_eq_right ?_
    rw [mul_one_div, le_div_iff₀ hσ]
    linarith
  set v1 := mapN 1 (fun m x => if x ≤ 0 then vfracMax σ rb (fun _ => 0) m else x) v with hv1
  have h1 : v1 0 = 1 := by rw [hv1, mapN_apply, if_pos one_pos, hv, if_neg (by norm_num)]
  have hnorm : ∀ w : Nat → ℝ, 0 ≤ w 0 → normalizeVfrac σ 1 1 w 0 = w 0 / (w 0 + σ) := fun w hw => by
    unfold normalizeVfrac
    rw [mapN_apply, if_pos one_pos, sumNeumaier_all, Finset.sum_range_one, ratio_pos_den _ hw]
    ring
  have h2 : normalizeVfrac σ 1 1 v1 0 = 1 / (1 + σ) := by rw [hnorm _ (by rw [h1]; norm_num), h1]
  have h3 : waterFill σ 1 (vfracMax σ rb (fun _ => 0)) 1 (normalizeVfrac σ 1 1 v1) 0 = 1 / (1 + σ) := by
    have hmin : min (vfracMax σ rb (fun _ => 0) 0) (normalizeVfrac σ 1 1 v1 0) = normalizeVfrac σ 1 1 v1 0 := by
      rw [hvm, h2]; exact min_eq_right (by rw [div_le_one (by linarith)]; linarith)
    have hc2 : (capPass 1 (vfracMax σ rb (fun _ => 0)) (normalizeVfrac σ 1 1 v1)).2.1 = 0 := by
      unfold capPass
      simp only [forN_succ, forN_zero, hmin, sub_self, zero_add]
    dsimp only [waterFill]
    rw [hc2, if_pos (by rw [abs_zero]; unfold minDv; positivity), (capPass_spec 1 _ _).1, if_pos one_pos, hmin, h2]
  have hns : ¬ forN 1 (fun a m => a + vfracMax σ rb (fun _ => 0) m) 0 < 1 := by
    simp only [forN_succ, forN_zero, hvm]; norm_num
  unfold setVfracFromT
  dsimp only
  rw [if_neg hns, ← hv1]
  refine ⟨rfl, ?_⟩
  dsimp only
  rw [hnorm _ (by rw [h3]; positivity), h3]
  field_simp

theorem one_vfrac {σ : ℝ} (hσ : 0 < σ) (hσ1 : σ < 1 / 10 ^ 12) :
    0 < 1 - 1 / (1 + σ * (1 + σ)) ∧ 1 - 1 / (1 + σ * (1 + σ)) < 1 / 10 ^ 11 := by
  have : 0 < 1 + σ * (1 + σ) := by positivity
  have h : 1 - 1 / (1 + σ * (1 + σ)) = σ * (1 + σ) / (1 + σ * (1 + σ)) := by field_simp; ring
  rw [h]
  refine ⟨by positivity, ?_⟩
  rw [div_lt_iff₀ this]
  nlinarith

/-- FixedT at 300: converges at once. -/
example {σ : ℝ} (hσ : 0 < σ) (hσ1 : σ < 1 / 10 ^ 12) (qr : (Nat → ℝ) → (Nat → ℝ) → Nat → ℝ) (x : PS ℝ) :
    let r := pteSolver σ (fixedTSys σ (twoIdeal 0) defaultSolver MixTols.fresh qr 1 1) defaultParams (fixedTCtor 300 (oneGuess 0 x))
    r.converged = true ∧ r.slow = false ∧ InputOk 1 1 (oneGuess 0 x) ∧ ∀ m T, 0 ≤ (twoIdeal 0).rhoPmin m T := by
  intro r
  set Y := fixedTSys σ (twoIdeal 0) defaultSolver MixTols.fresh qr 1 1 with hY
  have hsv := setVfrac_one hσ (by linarith) (rb := (initRhoBar 1 (oneGuess 0 x)).rhobar) (v := fun _ => 1)
    (oneGuess_rhobar 0 x) rfl
  have hv : (Y.init (fixedTCtor 300 (oneGuess 0 x))).1.a.vfrac 0 = 1 / (1 + σ * (1 + σ)) := hsv.2
  have hb := one_vfrac hσ hσ1
  have hcheck : (Y.check (Y.init (fixedTCtor 300 (oneGuess 0 x))).1).1 = true := by
    set s := (Y.init (fixedTCtor 300 (oneGuess 0 x))).1 with hs
    have hres : s.residual 0 = 1 - 1 / (1 + σ * (1 + σ)) := by
      obtain ⟨h1, -⟩ := fixedTResidual_rows 1 1 s.a.vfrac s.a.press
        (initRhoBar 1 { (fixedTCtor 300 (oneGuess 0 x)) with Tnorm := 1 }).residual
      rw [Finset.sum_range_one, hv] at h1
      exact h1
    have : fixedTCheck MixTols.fresh.tol 1 s.a.vfrac s.a.press s.residual := by
      refine ⟨Or.inr ?_, ?_⟩
      · simp only [forN_zero, Nat.sub_self]; norm_num [MixTols.fresh, tolDefault]
      · rw [hres, abs_of_pos hb.1]
        refine hb.2.trans ?_
        norm_num [MixTols.fresh, tolDefault]
    rw [hY]
    simp only [fixedTSys, decide_eq_true_eq]
    exact this
  obtain ⟨p1, p2, -⟩ := pteSolver_first (σ := σ) (Y := Y) (dp := defaultParams) (s0 := fixedTCtor 300 (oneGuess 0 x))
    (by change 0 < 1 * 128; norm_num) hcheck
  exact ⟨p1, p2, oneGuess_ok 0 x, fun _ _ => le_rfl⟩

/-- The parameters with the Newton step of `GetTguess` switched off. -/
noncomputable def plainSolver : SolverParams ℝ := { defaultSolver with iterateT := false }

/-- `GetTguess` without the Newton step keeps 300. -/
theorem one_tguess {σ : ℝ} (hσ : 0 < σ) (hσ1 : σ < 1 / 2) (s : PS ℝ) (hr : s.rhobar 0 = 1) (hv : s.a.vfrac 0 = 1)
    (hT : startT 1 300 s.Tnorm s.a.temp = 300) :
    let g := tguess σ (twoIdeal 0) twoIdealI plainSolver 1 1 s
    g.1 = 300 ∧ g.2.a.vfrac 0 = 1 / (1 + σ * (1 + σ)) ∧ g.2.a.rho 0 = 1 / (1 / (1 + σ * (1 + σ)) + σ) := by
  intro g
  obtain ⟨h1, h2⟩ := setVfrac_one hσ hσ1 (rb := s.rhobar) (v := s.a.vfrac) hr hv
  have hpos : 0 < 1 / (1 + σ * (1 + σ)) := by positivity
  have hpass : tguessPass σ (twoIdeal 0) twoIdealI.tMin 1 1 (10 ^ 15) s.rhobar none (300, s.a.vfrac, s.a.rho)
      = (false, 300, (setVfracFromT σ 1 1 s.rhobar (fun _ => 0) s.a.vfrac).2,
          fill 1 (fun m => ratio σ (s.rhobar m) ((setVfracFromT σ 1 1 s.rhobar (fun _ => 0) s.a.vfrac).2 m)) s.a.rho) := by
    have hT2 : forN 1 (fun T m => max (twoIdealI.tMin m) T) (300 : ℝ) = 300 := by
      simp [forN_succ, forN_zero, twoIdealI]
    unfold tguessPass
    simp only [clipNewton, Option.elim, hT2]
    rw [show (fun m => (twoIdeal 0).rhoPmin m 300) = fun _ => (0 : ℝ) from rfl, if_neg (by rw [h1]; simp)]
    refine if_neg ?_
    rw [Bool.not_eq_true]
    simp only [forN_succ, forN_zero, Bool.false_or, decide_eq_false_iff_not, not_lt, fill_apply, one_pos, if_true]
    rw [h2, hr, ratio_pos_den _ hpos.le]
    change (0 : ℝ) ≤ _
    positivity
  have hg : getTguess σ (twoIdeal 0) twoIdealI.tMin 1 1 plainSolver.tlimit s.rhobar
      (fun _ y => if plainSolver.iterateT = true then
        some (newtonStep σ (twoIdeal 0) twoIdealI 1 (s.utot * s.uscale) s.rhobar s.a.press y.2.2 y.1)
        else none) (startT 1 plainSolver.tdefault s.Tnorm s.a.temp, s.a.vfrac, s.a.rho)
      = (false, 300, (setVfracFromT σ 1 1 s.rhobar (fun _ => 0) s.a.vfrac).2,
          fill 1 (fun m => ratio σ (s.rhobar m) ((setVfracFromT σ 1 1 s.rhobar (fun _ => 0) s.a.vfrac).2 m)) s.a.rho) := by
    refine getTguess_first ?_
    rw [show startT 1 plainSolver.tdefault s.Tnorm s.a.temp = 300 from hT]
    exact hpass
  refine ⟨congrArg (fun r => r.2.1) hg, ?_, ?_⟩
  · rw [show g.2.a.vfrac = _ from congrArg (fun r => r.2.2.1) hg]; exact h2
  · rw [show g.2.a.rho = _ from congrArg (fun r => r.2.2.2) hg]
    dsimp only
    rw [fill_apply, if_pos one_pos, h2, hr, ratio_pos_den _ hpos.le]

theorem one_startT (q : ℝ) (x : PS ℝ) : startT 1 300 (oneGuess q x).Tnorm (oneGuess q x).a.temp = 300 := by
  unfold startT
  simp [oneGuess, forN]

/-- FixedP at 300: converges at once. -/
example {σ : ℝ} (hσ : 0 < σ) (hσ1 : σ < 1 / 10 ^ 12) (qr : (Nat → ℝ) → (Nat → ℝ) → Nat → ℝ) (x : PS ℝ) :
    let r := pteSolver σ (fixedPSys σ (twoIdeal 0) twoIdealI plainSolver MixTols.fresh qr 1 1) defaultParams
      (fixedPCtor 300 (oneGuess 0 x))
    r.converged = true ∧ r.slow = false := by
  intro r
  set Y := fixedPSys σ (twoIdeal 0) twoIdealI plainSolver MixTols.fresh qr 1 1 with hY
  obtain ⟨g1, g2, g3⟩ := one_tguess hσ (by linarith) (initRhoBar 1 (fixedPCtor 300 (oneGuess 0 x))) (oneGuess_rhobar 0 x) rfl
    (one_startT 0 x)
  have hb := one_vfrac hσ hσ1
  have hpos : 0 < 1 / (1 + σ * (1 + σ)) := by positivity
  have hcheck : (Y.check (Y.init (fixedPCtor 300 (oneGuess 0 x))).1).1 = true := by
    set s := (Y.init (fixedPCtor 300 (oneGuess 0 x))).1 with hs
    have hU : s.uscale = 300 := by change max |(300 : ℝ)| (1 / 10 ^ 14) = _; norm_num
    have hsr : s.residual = fixedPResidual σ 1 1 s.Pequil s.uscale s.a.vfrac s.a.press
      (tguess σ (twoIdeal 0) twoIdealI plainSolver 1 1 (initRhoBar 1 (fixedPCtor 300 (oneGuess 0 x)))).2.residual := rfl
    have hv : s.a.vfrac 0 = 1 / (1 + σ * (1 + σ)) := g2
    have hp : s.a.press 0 = 300 / (1 / (1 + σ * (1 + σ)) + σ) / (300 + σ) := by
      have : s.a.press 0 = ratio σ ((twoIdeal 0).pOf 0 ((tguess σ (twoIdeal 0) twoIdealI plainSolver 1 1
          (initRhoBar 1 (fixedPCtor 300 (oneGuess 0 x)))).2.a.rho 0) 300 ((twoIdeal 0).eOf 0 0 300)) 300 := by
        have e : s.a.press = fill 1 (fun m => ratio σ ((twoIdeal 0).pOf m ((tguess σ (twoIdeal 0) twoIdealI plainSolver 1 1
            (initRhoBar 1 (fixedPCtor 300 (oneGuess 0 x)))).2.a.rho m) (tguess σ (twoIdeal 0) twoIdealI plainSolver 1 1
            (initRhoBar 1 (fixedPCtor 300 (oneGuess 0 x)))).1 ((twoIdeal 0).eOf m 0 (tguess σ (twoIdeal 0) twoIdealI plainSolver 1 1
            (initRhoBar 1 (fixedPCtor 300 (oneGuess 0 x)))).1)) (max |(300 : ℝ)| (1 / 10 ^ 14))) (tguess σ (twoIdeal 0) twoIdealI
            plainSolver 1 1 (initRhoBar 1 (fixedPCtor 300 (oneGuess 0 x)))).2.a.press := rfl
        rw [e, fill_apply, if_pos one_pos, g1, show max |(300 : ℝ)| (1 / 10 ^ 14) = 300 by norm_num]
      rw [this, g3, ratio_pos_den _ (by norm_num)]
      unfold twoIdeal
      dsimp only
      have h3 : max (0 : ℝ) 300 - 0 + 0 = 300 := by norm_num
      rw [h3, max_eq_right (by positivity)]
      congr 1
      push_cast
      ring
    have hr1 : s.residual 1 = 1 - 1 / (1 + σ * (1 + σ)) := by
      have : s.residual 1 = 1 - sumNeumaier s.a.vfrac 1 := by
        rw [hsr]; unfold fixedPResidual; rw [Function.update_self]
      rw [this, sumNeumaier_all, Finset.sum_range_one, hv]
    have hr0 : s.residual 0 = 300 / (300 + σ) - 300 / (1 / (1 + σ * (1 + σ)) + σ) / (300 + σ) := by
      have : s.residual 0 = ratio σ 300 s.uscale - s.a.press 0 := by
        rw [hsr]; unfold fixedPResidual
        rw [Function.update_of_ne (by norm_num), fill_apply, if_pos one_pos]
        rfl
      rw [this, hU, hp, ratio_pos_den _ (by norm_num)]
    have hsm : |s.residual 0| * 300 < 1 / 10 ^ 6 := by
      have e : s.residual 0 = 300 / (300 + σ) * ((1 / (1 + σ * (1 + σ)) + σ - 1) / (1 / (1 + σ * (1 + σ)) + σ)) := by
        rw [hr0]; field_simp
      have h1 : 300 / (300 + σ) ≤ 1 := by rw [div_le_one (by linarith)]; linarith
      have h1' : 0 ≤ 300 / (300 + σ) := by positivity
      set w := 1 / (1 + σ * (1 + σ)) with hw
      have hd : 1 / 2 < w + σ := by linarith [hb.2]
      have h2 : |(w + σ - 1) / (w + σ)| ≤ 4 / 10 ^ 11 := by
        rw [abs_div, abs_of_pos (show 0 < w + σ by linarith), div_le_iff₀ (by linarith), abs_le]
        constructor <;> nlinarith [hb.1, hb.2]
      rw [e, abs_mul, abs_of_nonneg h1']
      nlinarith [abs_nonneg ((w + σ - 1) / (w + σ))]
    have : fixedPCheck MixTols.fresh.tol 1 s.uscale s.residual := by
      refine ⟨Or.inr ?_, ?_⟩
      · simp only [forN_succ, forN_zero, zero_add]
        rw [Real.sqrt_mul_self_eq_abs, hU]
        refine hsm.trans_le ?_
        norm_num [MixTols.fresh, tolDefault]
      · rw [hr1, abs_of_pos hb.1]
        refine hb.2.trans ?_
        norm_num [MixTols.fresh, tolDefault]
    rw [hY]
    simp only [fixedPSys, decide_eq_true_eq]
    exact this
  obtain ⟨p1, p2, -⟩ := pteSolver_first (σ := σ) (Y := Y) (dp := defaultParams) (s0 := fixedPCtor 300 (oneGuess 0 x))
    (by change 0 < 1 * 128; norm_num) hcheck
  exact ⟨p1, p2⟩

/-- PT with total energy 300: converges at once. -/
example {σ : ℝ} (hσ : 0 < σ) (hσ1 : σ < 1 / 10 ^ 12) (qr : (Nat → ℝ) → (Nat → ℝ) → Nat → ℝ) (x : PS ℝ) :
    let r := pteSolver σ (ptSys σ (twoIdeal 0) twoIdealI plainSolver MixTols.fresh qr 1 1 300) defaultParams (oneGuess 300 x)
    r.converged = true ∧ r.slow = false := by
  intro r
  set Y := ptSys σ (twoIdeal 0) twoIdealI plainSolver MixTols.fresh qr 1 1 300 with hY
  obtain ⟨h1, h2, h3, h4, h5, h6, h7⟩ := initBase_ok (E := twoIdeal 0) (p := plainSolver) hσ twoIdealI
    (by norm_num [plainSolver, defaultSolver]) (by norm_num [plainSolver, defaultSolver]) one_pos one_pos 300
    (fun _ _ _ => le_rfl) (oneGuess_ok 300 x)
  set b := initBase σ (twoIdeal 0) twoIdealI plainSolver 1 1 300 (oneGuess 300 x) with hb
  have hU : b.uscale = 300 := by rw [h3]; unfold oneGuess; norm_num
  have hut : b.utot = 300 / (300 + σ) := by rw [h4, hU]; unfold oneGuess; norm_num
  have hrb : b.rhobar 0 = 1 := by rw [h1 0 one_pos]; unfold oneGuess; norm_num
  obtain ⟨g1, -, -⟩ := one_tguess hσ (by linarith) ({ initRhoBar 1 (oneGuess 300 x) with
      uscale := max |(initRhoBar 1 (oneGuess 300 x)).rhoTotal * 300| (1 / 10 ^ 14)
      utot := ratio σ ((initRhoBar 1 (oneGuess 300 x)).rhoTotal * 300)
        (max |(initRhoBar 1 (oneGuess 300 x)).rhoTotal * 300| (1 / 10 ^ 14)) } : PS ℝ) (oneGuess_rhobar 300 x) rfl
    (one_startT 300 x)
  have hTn : b.Tnorm = 300 := g1
  have hpr : b.a.press 0 = 300 / (300 + σ) := by
    have : ∀ m, m < 1 → b.a.press m = ratio σ 300 b.uscale := fun m hm => by
      change fill 1 _ _ m = _
      rw [fill_apply, if_pos hm]
      unfold startPress
      rw [if_pos ⟨rfl, rfl⟩]
      rfl
    rw [this 0 one_pos, hU, ratio_pos_den _ (by norm_num)]
  have hvp : 0 < b.a.vfrac 0 := (h7 0 one_pos).1
  have hq : (0 : ℝ) < 300 / (300 + σ) := by positivity
  have hcheck : (Y.check (Y.init (oneGuess 300 x)).1).1 = true := by
    set s := (Y.init (oneGuess 300 x)).1 with hs
    have hP : s.Pequil = 300 / (300 + σ) := by
      have : s.Pequil = forN 1 (fun P m => P + |b.a.press m| * b.a.vfrac m) 0 / sumNeumaier b.a.vfrac 1 := rfl
      rw [this, sumNeumaier_all, Finset.sum_range_one, forN_add, Finset.sum_range_one, hpr, abs_of_pos hq, zero_add]
      field_simp
    have hre : (twoIdeal 0).rhoEOfPT 0 (s.Pequil * b.uscale) (1 * b.Tnorm) = (300 / (300 + σ), 300) := by
      rw [hP, hU, hTn]
      have h8 : (300 / (300 + σ) * 300 / ((((0 : ℕ) : ℝ) + 1) * max 0 (1 * 300))) = 300 / (300 + σ) := by
        rw [max_eq_right (by norm_num)]; field_simp; norm_num
      unfold twoIdeal
      dsimp only
      rw [h8, max_eq_right hq.le]
      norm_num
    have hv : s.a.vfrac 0 = 1 / (300 / (300 + σ) + σ) := by
      have : s.a.vfrac 0 = ratio σ (b.rhobar 0) ((twoIdeal 0).rhoEOfPT 0 (s.Pequil * b.uscale) (1 * b.Tnorm)).1 := by
        have e : s.a.vfrac = fill 1 (fun m => ratio σ (b.rhobar m)
          ((twoIdeal 0).rhoEOfPT m (s.Pequil * b.uscale) (1 * b.Tnorm)).1) b.a.vfrac := rfl
        rw [e, fill_apply, if_pos one_pos]
      rw [this, hre, hrb, ratio_pos_den _ hq.le]
    have hu : s.a.u 0 = 300 / (300 + σ) := by
      have : s.a.u 0 = ratio σ (((twoIdeal 0).rhoEOfPT 0 (s.Pequil * b.uscale) (1 * b.Tnorm)).2 * b.rhobar 0) b.uscale := by
        have e : s.a.u = fill 1 (fun m => ratio σ (((twoIdeal 0).rhoEOfPT m (s.Pequil * b.uscale) (1 * b.Tnorm)).2 * b.rhobar m)
          b.uscale) b.a.u := rfl
        rw [e, fill_apply, if_pos one_pos]
      rw [this, hre, hrb, hU, ratio_pos_den _ (by norm_num)]
      norm_num
    have hsr : s.residual = ptResidual 1 1 b.utot s.a.vfrac s.a.u (ptResid 1 1 b).residual := rfl
    have hr0 : s.residual 0 = 1 - 1 / (300 / (300 + σ) + σ) := by
      rw [hsr]; unfold ptResidual
      rw [Function.update_of_ne (by norm_num), Function.update_self, sumNeumaier_all, Finset.sum_range_one, hv]
    have hr1 : s.residual 1 = 0 := by
      rw [hsr]; unfold ptResidual
      rw [Function.update_self, sumNeumaier_all, Finset.sum_range_one, hu, hut, sub_self]
    have : ptCheck MixTols.fresh.tol s.residual := by
      refine ⟨?_, ?_⟩
      · have e : s.residual 0 = (300 / (300 + σ) + σ - 1) / (300 / (300 + σ) + σ) := by
          rw [hr0]; field_simp
        have e1 : 300 / (300 + σ) = 1 - σ / (300 + σ) := by field_simp; ring
        have e2 : σ / (300 + σ) ≤ σ := div_le_self hσ.le (by linarith)
        have e3 : 0 ≤ σ / (300 + σ) := by positivity
        have h9 : |s.residual 0| ≤ 4 / 10 ^ 12 := by
          rw [e, e1, abs_div, abs_of_pos (show 0 < 1 - σ / (300 + σ) + σ by linarith), div_le_iff₀ (by linarith), abs_le]
          constructor <;> nlinarith
        refine lt_of_le_of_lt h9 ?_
        norm_num [MixTols.fresh, tolDefault]
      · rw [hr1]; norm_num [MixTols.fresh, tolDefault]
    rw [hY]
    simp only [ptSys, decide_eq_true_eq]
    exact this
  obtain ⟨p1, p2, -⟩ := pteSolver_first (σ := σ) (Y := Y) (dp := defaultParams) (s0 := oneGuess 300 x)
    (by change 0 < 1 * 128; norm_num) hcheck
  exact ⟨p1, p2⟩

end Verif.PTE
