import Verif.Props.PTEScratchRhoU
import Verif.Props.PTEFullExamples

/-! # C132: FixedP does read members nothing has set; and calls that meet the hypotheses -/

set_option linter.unusedSectionVars false

namespace Verif.PTE

open Robust

/-- A material whose pressure is its density (no thermal pressure) and whose energy is its temperature. -/
noncomputable def coldEos : MatEOS ℝ where
  eOf := fun _ _ T => max 0 T
  pOf := fun _ rho _ _ => max 0 rho
  tOf := fun _ _ e => max 0 e
  rhoEOfPT := fun _ P T => (max 0 P, max 0 T)
  rhoPmin := fun _ _ => 0
  pMin := fun _ => 0
  pMaxAtT := fun _ _ => 10 ^ 20

/-- It takes density and temperature as inputs. -/
noncomputable def coldEosI : InitEOS ℝ where
  prefersP := fun _ => false
  tMin := fun _ => 0
  rhoMax := fun _ => 10 ^ 20
  cvRT := fun _ _ _ => 1
  cvRE := fun _ _ _ => 1
  bad := fun _ => false

/-- The members the constructor leaves alone. -/
noncomputable def garbage (ut us : ℝ) (x : PS ℝ) : PS ℝ := { x with utot := ut, uscale := us }

theorem cold_newton {σ : ℝ} (hσ : 0 < σ) (ut : ℝ) {rb pr rho : Nat → ℝ} (hr : rb 0 = 1) :
    newtonStep σ coldEos coldEosI 1 ut rb pr rho 300 = 300 - (300 - ut) / (1 + σ) := by
  unfold newtonStep sieCv
  simp only [coldEosI, coldEos, Bool.false_eq_true, if_false, forN_succ, forN_zero, hr]
  rw [max_eq_right (by norm_num), ratio_pos_den _ (by norm_num)]
  norm_num

theorem cold_tguess {σ : ℝ} (hσ : 0 < σ) (hσ1 : σ < 1 / 2) (s : PS ℝ) (hr : s.rhobar 0 = 1) (hv : s.a.vfrac 0 = 1)
    (hT : startT 1 300 s.Tnorm s.a.temp = 300) :
    let g := tguess σ coldEos coldEosI defaultSolver 1 1 s
    g.1 = min (10 ^ 15) (max 300 (300 - (300 - s.utot * s.uscale) / (1 + σ))) ∧
      g.2.a.vfrac 0 = 1 / (1 + σ * (1 + σ)) ∧ g.2.a.rho 0 = 1 / (1 / (1 + σ * (1 + σ)) + σ) := by
  intro g
  obtain ⟨h1, h2⟩ := setVfrac_one hσ hσ1 (rb := s.rhobar) (v := s.a.vfrac) hr hv
  have hpos : 0 < 1 / (1 + σ * (1 + σ)) := by positivity
  set T := min (10 ^ 15) (max 300 (300 - (300 - s.utot * s.uscale) / (1 + σ))) with hTd
  have hT0 : 0 ≤ T := le_min (by norm_num) ((by norm_num : (0 : ℝ) ≤ 300).trans (le_max_left _ _))
  have hpass : tguessPass σ coldEos coldEosI.tMin 1 1 (10 ^ 15) s.rhobar
      (some (newtonStep σ coldEos coldEosI 1 (s.utot * s.uscale) s.rhobar s.a.press s.a.rho 300)) (300, s.a.vfrac, s.a.rho)
      = (false, T, (setVfracFromT σ 1 1 s.rhobar (fun _ => 0) s.a.vfrac).2,
          fill 1 (fun m => ratio σ (s.rhobar m) ((setVfracFromT σ 1 1 s.rhobar (fun _ => 0) s.a.vfrac).2 m)) s.a.rho) := by
    have hT2 : forN 1 (fun T m => max (coldEosI.tMin m) T) T = T := by
      simp only [forN_succ, forN_zero, coldEosI, max_eq_right hT0]
    unfold tguessPass
    simp only [clipNewton, Option.elim, cold_newton hσ _ hr]
    rw [← hTd, hT2, show (fun m => coldEos.rhoPmin m T) = fun _ => (0 : ℝ) from rfl, if_neg (by rw [h1]; simp)]
    refine if_neg ?_
    rw [Bool.not_eq_true]
    simp only [forN_succ, forN_zero, Bool.false_or, decide_eq_false_iff_not, not_lt, fill_apply, one_pos, if_true]
    rw [h2, hr, ratio_pos_den _ hpos.le]
    change (0 : ℝ) ≤ _
    positivity
  have hg : getTguess σ coldEos coldEosI.tMin 1 1 (defaultSolver (K := ℝ)).tlimit s.rhobar
      (fun _ y => if (defaultSolver (K := ℝ)).iterateT = true then
        some (newtonStep σ coldEos coldEosI 1 (s.utot * s.uscale) s.rhobar s.a.press y.2.2 y.1)
        else none) (startT 1 (defaultSolver (K := ℝ)).tdefault s.Tnorm s.a.temp, s.a.vfrac, s.a.rho)
      = (false, T, (setVfracFromT σ 1 1 s.rhobar (fun _ => 0) s.a.vfrac).2,
          fill 1 (fun m => ratio σ (s.rhobar m) ((setVfracFromT σ 1 1 s.rhobar (fun _ => 0) s.a.vfrac).2 m)) s.a.rho) := by
    refine getTguess_first ?_
    rw [show startT 1 (defaultSolver (K := ℝ)).tdefault s.Tnorm s.a.temp = 300 from hT]
    exact hpass
  refine ⟨congrArg (fun r => r.2.1) hg, ?_, ?_⟩
  · rw [show g.2.a.vfrac = _ from congrArg (fun r => r.2.2.1) hg]; exact h2
  · rw [show g.2.a.rho = _ from congrArg (fun r => r.2.2.2) hg]
    dsimp only
    rw [fill_apply, if_pos one_pos, h2, hr, ratio_pos_den _ hpos.le]

/-- One cell of the material at density 1, to be brought to pressure 1: `Init` already meets the default tolerances, and hands
back the temperature it guessed. -/
theorem cold_solve {σ : ℝ} (hσ : 0 < σ) (hσ1 : σ < 1 / 10 ^ 12) (qr : (Nat → ℝ) → (Nat → ℝ) → Nat → ℝ) (x : PS ℝ) (ut us : ℝ) :
    let r := pteSolver σ (fixedPSys σ coldEos coldEosI defaultSolver MixTols.fresh qr 1 1) defaultParams
      (fixedPCtor 1 (oneGuess 0 (garbage ut us x)))
    r.converged = true ∧ r.s.a.temp 0 = min (10 ^ 15) (max 300 (300 - (300 - ut * us) / (1 + σ))) := by
  intro r
  set Y := fixedPSys σ coldEos coldEosI defaultSolver MixTols.fresh qr 1 1 with hY
  set s0 := fixedPCtor 1 (oneGuess 0 (garbage ut us x)) with hs0
  obtain ⟨g1, g2, g3⟩ := cold_tguess hσ (by linarith) (initRhoBar 1 s0) (oneGuess_rhobar 0 (garbage ut us x)) rfl
    (one_startT 0 (garbage ut us x))
  have hb := one_vfrac hσ hσ1
  have hpos : 0 < 1 / (1 + σ * (1 + σ)) := by positivity
  set s := (Y.init s0).1 with hs
  have hcheck : (Y.check s).1 = true := by
    have hU : s.uscale = 1 := by change max |(1 : ℝ)| (1 / 10 ^ 14) = _; norm_num
    have hsr : s.residual = fixedPResidual σ 1 1 s.Pequil s.uscale s.a.vfrac s.a.press
      (tguess σ coldEos coldEosI defaultSolver 1 1 (initRhoBar 1 s0)).2.residual := rfl
    have hv : s.a.vfrac 0 = 1 / (1 + σ * (1 + σ)) := g2
    have hp : s.a.press 0 = 1 / (1 / (1 + σ * (1 + σ)) + σ) / (1 + σ) := by
      have e : s.a.press = fill 1 (fun m => ratio σ (coldEos.pOf m ((tguess σ coldEos coldEosI defaultSolver 1 1
          (initRhoBar 1 s0)).2.a.rho m) (tguess σ coldEos coldEosI defaultSolver 1 1 (initRhoBar 1 s0)).1
          (coldEos.eOf m 0 (tguess σ coldEos coldEosI defaultSolver 1 1 (initRhoBar 1 s0)).1)) (max |(1 : ℝ)| (1 / 10 ^ 14)))
          (tguess σ coldEos coldEosI defaultSolver 1 1 (initRhoBar 1 s0)).2.a.press := rfl
      rw [e, fill_apply, if_pos one_pos, show max |(1 : ℝ)| (1 / 10 ^ 14) = 1 by norm_num, ratio_pos_den _ (by norm_num)]
      congr 1
      change max 0 _ = _
      rw [g3, max_eq_right (by positivity)]
    have hr1 : s.residual 1 = 1 - 1 / (1 + σ * (1 + σ)) := by
      have : s.residual 1 = 1 - sumNeumaier s.a.vfrac 1 := by
        rw [hsr]; unfold fixedPResidual; rw [Function.update_self]
      rw [this, sumNeumaier_all, Finset.sum_range_one, hv]
    have hr0 : s.residual 0 = 1 / (1 + σ) - 1 / (1 / (1 + σ * (1 + σ)) + σ) / (1 + σ) := by
      have : s.residual 0 = ratio σ 1 s.uscale - s.a.press 0 := by
        rw [hsr]; unfold fixedPResidual
        rw [Function.update_of_ne (by norm_num), fill_apply, if_pos one_pos]
        rfl
      rw [this, hU, hp, ratio_pos_den _ (by norm_num)]
    have hsm : |s.residual 0| * 1 < 1 / 10 ^ 6 := by
      have e : s.residual 0 = 1 / (1 + σ) * ((1 / (1 + σ * (1 + σ)) + σ - 1) / (1 / (1 + σ * (1 + σ)) + σ)) := by
        rw [hr0]; field_simp
      have h1 : 1 / (1 + σ) ≤ 1 := by rw [div_le_one (by linarith)]; linarith
      have h1' : 0 ≤ 1 / (1 + σ) := by positivity
      set w := 1 / (1 + σ * (1 + σ)) with hw
      have hd : 1 / 2 < w + σ := by linarith [hb.2]
      have h2 : |(w + σ - 1) / (w + σ)| ≤ 4 / 10 ^ 11 := by
        rw [abs_div, abs_of_pos (show 0 < w + σ by linarith), div_le_iff₀ (by linarith), abs_le]
        constructor <;> nlinarith [hb.1, hb.2]
      rw [e, abs_mul, abs_of_nonneg h1']
      nlinarith [abs_nonneg ((w + σ - 1) / (w + σ))]
    have : fixedPCheck MixTols.fresh.tol 1 s.uscale s.residual := by
      refine ⟨Or.inr ?_, ?_⟩
      · simp only [forN_succ, forN_zero, zero_add]
        rw [Real.sqrt_mul_self_eq_abs, hU]
        refine hsm.trans_le ?_
        norm_num [MixTols.fresh, tolDefault]
      · rw [hr1, abs_of_pos hb.1]
        refine hb.2.trans ?_
        norm_num [MixTols.fresh, tolDefault]
    rw [hY]
    simp only [fixedPSys, decide_eq_true_eq]
    exact this
  obtain ⟨p1, -, -, p4⟩ := pteSolver_first (σ := σ) (Y := Y) (dp := defaultParams) (s0 := s0)
    (by change 0 < 1 * 128; norm_num) hcheck
  refine ⟨p1, ?_⟩
  rw [p4]
  have et : (Y.finalize (Y.fixup s)).a.temp = mapN 1 (fun _ y => y * s.Tnorm) s.a.temp := rfl
  have es : s.a.temp = fill 1 (fun _ => 1) (tguess σ coldEos coldEosI defaultSolver 1 1 (initRhoBar 1 s0)).2.a.temp := rfl
  have eT : s.Tnorm = (tguess σ coldEos coldEosI defaultSolver 1 1 (initRhoBar 1 s0)).1 := rfl
  rw [et, mapN_apply, if_pos one_pos, es, fill_apply, if_pos one_pos, eT, g1, one_mul]
  rfl

/-- Violation: `Init` of FixedP guesses the temperature with `utotal_scale * uscale`, members neither the constructor nor `Init`
has set by then. Two calls that differ only in what those members happened to hold both report convergence, one with
temperature 300, the other with more than 900. -/
theorem C132_fixedP_violated {σ : ℝ} (hσ : 0 < σ) (hσ1 : σ < 1 / 10 ^ 12) (qr : (Nat → ℝ) → (Nat → ℝ) → Nat → ℝ) (x : PS ℝ) :
    ∃ s s' : PS ℝ, SameCall 2 1 s s' ∧
      let r := pteSolver σ (fixedPSys σ coldEos coldEosI defaultSolver MixTols.fresh qr 1 1) defaultParams (fixedPCtor 1 s)
      let r' := pteSolver σ (fixedPSys σ coldEos coldEosI defaultSolver MixTols.fresh qr 1 1) defaultParams (fixedPCtor 1 s')
      r.converged = true ∧ r'.converged = true ∧ r.s.a.temp 0 = 300 ∧ 900 < r'.s.a.temp 0 := by
  refine ⟨oneGuess 0 (garbage 0 1 x), oneGuess 0 (garbage 1000 1 x),
    ⟨rfl, rfl, rfl, rfl, rfl, rfl, fun _ _ => rfl, fun _ _ => rfl, fun _ _ => rfl, fun _ _ => rfl, fun _ _ => rfl, fun _ _ => rfl,
      fun _ _ => rfl⟩, ?_⟩
  obtain ⟨a1, a2⟩ := cold_solve hσ hσ1 qr x 0 1
  obtain ⟨b1, b2⟩ := cold_solve hσ hσ1 qr x 1000 1
  refine ⟨a1, b1, ?_, ?_⟩
  · rw [a2, max_eq_left, min_eq_right (by norm_num)]
    have : 0 ≤ (300 - 0 * 1) / (1 + σ) := by positivity
    linarith
  · rw [b2]
    refine lt_min (by norm_num) (lt_max_of_lt_right ?_)
    have h1 : (300 - 1000 * 1) / (1 + σ) = -(700 / (1 + σ)) := by ring
    have h2 : 600 < 700 / (1 + σ) := by rw [lt_div_iff₀ (by linarith)]; nlinarith
    rw [h1]
    linarith

/-- Calls that meet the hypothesis: scratch memory full of zeros, and full of sevens. -/
example (x : PS ℝ) (T : ℝ) (d : Derivs ℝ) : SameCall 2 2
    ({ x with
        a := ⟨fun _ => 1, fun _ => 1 / 2, fun _ => 3, fun _ => 300, fun _ => 5, fill 2 (fun _ => 0) x.a.u⟩
        rhobar := fill 2 (fun _ => 0) x.rhobar
        residual := fill 2 (fun _ => 0) x.residual
        jac := fill 4 (fun _ => 0) x.jac
        ms := 1
        uscale := 0 } : PS ℝ)
    ({ x with
        a := ⟨fun _ => 1, fun _ => 1 / 2, fun _ => 3, fun _ => 300, fun _ => 5, fill 2 (fun _ => 7) x.a.u⟩
        rhobar := fill 2 (fun _ => 7) x.rhobar
        residual := fill 2 (fun _ => 7) x.residual
        jac := fill 4 (fun _ => 7) x.jac
        Tequil := T
        d := d } : PS ℝ) := by
  have h : ∀ (k : Nat) (f g : Nat → ℝ) (a : Nat → ℝ) i, k ≤ i → fill k f a i = fill k g a i := by
    intro k f g a i hi
    rw [fill_apply, fill_apply, if_neg (by omega), if_neg (by omega)]
  exact ⟨rfl, rfl, rfl, rfl, rfl, rfl, h _ _ _ _, h _ _ _ _, fun _ _ => rfl, fun _ _ => rfl, h _ _ _ _, fun _ _ => rfl, h _ _ _ _⟩

end Verif.PTE
