import Verif.Lemmas.PTEScratch

/-!
# C132: the outcome does not depend on what the scratch memory held

`SameCall` and `SameOutcome` are in `Spec/PTEScratch`.
-/

set_option linter.unusedSectionVars false

namespace Verif.PTE

open Robust

theorem rhoTFixup_same {p : SolverParams ℝ} {n : Nat} {s s' : PS ℝ} (h : Same True True True False n n s s') :
    Same True True True False n n (rhoTFixup p n s) (rhoTFixup p n s') := by
  unfold rhoTFixup
  split_ifs
  · refine ⟨?_, ?_, ?_, ?_, ?_, ?_, ?_, ?_, ?_, ?_, ?_, ?_, ?_, ?_⟩
    all_goals
      simp only [rhoTResid, h.a, h.rhobar, h.rhoTotal, h.uscale, h.Tnorm, h.residual, h.utot trivial, h.Tequil trivial,
        implies_true, false_implies]
    · exact h.vtemp
    · exact h.utemp
    · exact h.dx
    · exact h.jac
  · exact h

theorem rhoT_alike {σ : ℝ} {E : MatEOS ℝ} {I : InitEOS ℝ} {p : SolverParams ℝ} {t : MixTols}
    {qr : (Nat → ℝ) → (Nat → ℝ) → Nat → ℝ} {n : Nat} {vt sieTot : ℝ} :
    Alike (rhoTSys σ E I p t qr n vt sieTot) (Same True True True False (n) n)
      (fun s s' => Same True True True False (n) n s s' ∧ s.jac = s'.jac)
      (fun s s' => Same True True True False (n) n s s' ∧ s.dx = s'.dx)
      (fun s s' => Same True True True False (n) n s s' ∧ s.dx = s'.dx)
      (fun s s' => Same True True True False (n) n s s' ∧ s.dx = s'.dx ∧ s.Ttemp = s'.Ttemp ∧ s.vtemp = s'.vtemp) := by
  constructor
  · intro s s' h
    simp only [rhoTSys]
    rw [h.a, h.residual]
  · intro s s' h
    refine ⟨⟨h.a, h.rhobar, h.rhoTotal, h.uscale, h.Tnorm, h.residual, h.utot, h.ms, h.Tequil, h.Pequil, h.vtemp, h.utemp, h.dx, ?_⟩,
      ?_⟩
    all_goals
      simp only [rhoTSys, rhoTJac, h.a, h.rhobar, h.uscale, h.Tnorm, h.utot trivial, h.ms trivial, h.Tequil trivial,
        rhoTJacobian_agree h.jac, implies_true]
  · rintro s s' ⟨h, hj⟩
    exact h.solve σ qr hj
    
  · rintro s s' ⟨h, hx⟩
    refine h.applyScale hx ?_
    simp only [h.a, h.rhobar, h.Tnorm, h.ms trivial, h.Tequil trivial, hx]
  · exact fun s s' h => h.1
  · rintro s s' x ⟨h, hx⟩
    have hv : ∀ f : Nat → ℝ, fill n f s.vtemp = fill n f s'.vtemp := fun f => fill_congr h.vtemp
    have hw : ∀ f : Nat → ℝ, fill n f s.utemp = fill n f s'.utemp := fun f => fill_congr h.utemp
    refine ⟨?_, ⟨?_, ?_, ?_, ?_, ?_, ?_, ?_, ?_, ?_, ?_, ?_, ?_, ?_, ?_⟩, ?_, ?_, ?_⟩
    all_goals
      simp only [rhoTSys, rhoTTest, rhoTResid, if_true, h.a, h.rhobar, h.rhoTotal, h.uscale, h.Tnorm, h.residual, h.utot trivial, h.ms trivial, h.Tequil trivial,
        hx, hv, hw, implies_true, false_implies]
    all_goals first | exact h.vtemp | exact h.utemp | exact h.jac
  · rintro s s' x ⟨h, hx, e0, e1⟩
    refine ⟨?_, ⟨?_, ?_, ?_, ?_, ?_, ?_, ?_, ?_, ?_, ?_, ?_, ?_, ?_, ?_⟩, ?_, ?_, ?_⟩
    all_goals
      simp only [rhoTSys, rhoTTest, rhoTResid, Bool.false_eq_true, if_false, h.a, h.rhobar, h.rhoTotal, h.uscale, h.Tnorm, h.residual, h.utot trivial, h.ms trivial, h.Tequil trivial,
        hx, e0, e1, implies_true, false_implies]
    all_goals first | exact h.vtemp | exact h.utemp | exact h.jac
  · rintro s s' ⟨h, -⟩
    have : Same True True True False (n) n (rhoTFixup p n s) (rhoTFixup p n s') := rhoTFixup_same h
    exact this

/-- C132, RhoT: two calls that differ only in the old contents of the scratch memory and of the members end alike: the same
status, counters and error, and the same six arrays. -/
theorem C132_rhoT {σ : ℝ} {E : MatEOS ℝ} {I : InitEOS ℝ} {p : SolverParams ℝ} {t : MixTols}
    {qr : (Nat → ℝ) → (Nat → ℝ) → Nat → ℝ} {n : Nat} (hn : 0 < n) {vt sieTot : ℝ} (dp : DriverParams ℝ) {s s' : PS ℝ}
    (h : SameCall n n s s') :
    SameOutcome (pteSolver σ (rhoTSys σ E I p t qr n vt sieTot) dp s)
      (pteSolver σ (rhoTSys σ E I p t qr n vt sieTot) dp s') := by
  have h0 := initBase_same (σ := σ) (E := E) (I := I) (p := p) (vt := vt) (sieTot := sieTot) h
  have hi : ∀ ms ut u pr, rhoTResidual n ms ut u pr (initBase σ E I p n vt sieTot s).residual =
      rhoTResidual n ms ut u pr (initBase σ E I p n vt sieTot s').residual := fun ms ut u pr => rhoTResidual_agree hn h0.residual
  refine outcome_of_rel (pteSolver_rel rhoT_alike σ dp (Out := fun s s' => s.a = s'.a) ?_ ?_ ?_)
  · refine ⟨?_, ?_, ?_, ?_, ?_, ?_, ?_, ?_, ?_, ?_, ?_, ?_, ?_, ?_⟩
    all_goals
      simp only [rhoTSys, rhoTInit, rhoTResid, hi, h0.a, h0.rhobar, h0.rhoTotal, h0.uscale, h0.Tnorm, h0.utot trivial, implies_true,
        false_implies]
    · exact h0.vtemp
    · exact h0.utemp
    · exact h0.dx
    · exact h0.jac
  · simp only [rhoTSys, rhoTInit, rhoTResid, hi, h0.a, h0.rhobar, h0.rhoTotal, h0.utot trivial]
  · intro t t' ht
    exact (rhoTFixup_same ht).finalize

theorem pt_alike {σ : ℝ} {E : MatEOS ℝ} {I : InitEOS ℝ} {p : SolverParams ℝ} {t : MixTols}
    {qr : (Nat → ℝ) → (Nat → ℝ) → Nat → ℝ} {n : Nat} {vt sieTot : ℝ} :
    Alike (ptSys σ E I p t qr n vt sieTot) (Same True False True True (2) n)
      (fun s s' => Same True False True True (2) n s s' ∧ s.jac = s'.jac)
      (fun s s' => Same True False True True (2) n s s' ∧ s.dx = s'.dx)
      (fun s s' => Same True False True True (2) n s s' ∧ s.dx = s'.dx)
      (fun s s' => Same True False True True (2) n s s' ∧ s.dx = s'.dx ∧ s.Ttemp = s'.Ttemp ∧ s.Ptemp = s'.Ptemp) := by
  constructor
  · intro s s' h
    simp only [ptSys]
    rw [h.residual]
  · intro s s' h
    refine ⟨⟨h.a, h.rhobar, h.rhoTotal, h.uscale, h.Tnorm, h.residual, h.utot, h.ms, h.Tequil, h.Pequil, h.vtemp, h.utemp, h.dx, ?_⟩,
      ?_⟩
    all_goals
      simp only [ptSys, ptJacobianOf, h.a, h.rhobar, h.uscale, h.Tnorm, h.utot trivial, h.Tequil trivial, h.Pequil trivial,
        ptJacobian_agree h.jac, implies_true]
  · rintro s s' ⟨h, hj⟩
    exact h.solve σ qr hj
    
  · rintro s s' ⟨h, hx⟩
    refine h.applyScale hx ?_
    simp only [h.uscale, h.Tnorm, h.Pequil trivial, h.Tequil trivial, hx]
  · exact fun s s' h => h.1
  · rintro s s' x ⟨h, hx⟩
    have hv : ∀ f : Nat → ℝ, fill n f s.vtemp = fill n f s'.vtemp := fun f => fill_congr h.vtemp
    have hw : ∀ f : Nat → ℝ, fill n f s.utemp = fill n f s'.utemp := fun f => fill_congr h.utemp
    refine ⟨?_, ⟨?_, ?_, ?_, ?_, ?_, ?_, ?_, ?_, ?_, ?_, ?_, ?_, ?_, ?_⟩, ?_, ?_, ?_⟩
    all_goals
      simp only [ptSys, ptTest, ptResid, if_true, h.a, h.rhobar, h.rhoTotal, h.uscale, h.Tnorm, h.residual, h.utot trivial, h.Tequil trivial, h.Pequil trivial,
        hx, hv, hw, implies_true, false_implies]
    all_goals first | exact h.vtemp | exact h.utemp | exact h.jac
  · rintro s s' x ⟨h, hx, e0, e1⟩
    refine ⟨?_, ⟨?_, ?_, ?_, ?_, ?_, ?_, ?_, ?_, ?_, ?_, ?_, ?_, ?_, ?_⟩, ?_, ?_, ?_⟩
    all_goals
      simp only [ptSys, ptTest, ptResid, Bool.false_eq_true, if_false, h.a, h.rhobar, h.rhoTotal, h.uscale, h.Tnorm, h.residual, h.utot trivial, h.Tequil trivial, h.Pequil trivial,
        hx, e0, e1, implies_true, false_implies]
    all_goals first | exact h.vtemp | exact h.utemp | exact h.jac
  · rintro s s' ⟨h, -⟩
    exact h

/-- C132, PT. -/
theorem C132_pt {σ : ℝ} {E : MatEOS ℝ} {I : InitEOS ℝ} {p : SolverParams ℝ} {t : MixTols}
    {qr : (Nat → ℝ) → (Nat → ℝ) → Nat → ℝ} {n : Nat} (hn : 0 < n) {vt sieTot : ℝ} (dp : DriverParams ℝ) {s s' : PS ℝ}
    (h : SameCall 2 n s s') :
    SameOutcome (pteSolver σ (ptSys σ E I p t qr n vt sieTot) dp s)
      (pteSolver σ (ptSys σ E I p t qr n vt sieTot) dp s') := by
  have h0 := initBase_same (σ := σ) (E := E) (I := I) (p := p) (vt := vt) (sieTot := sieTot) h
  have hi : ∀ ut v u, ptResidual n vt ut v u (initBase σ E I p n vt sieTot s).residual =
      ptResidual n vt ut v u (initBase σ E I p n vt sieTot s').residual := fun ut v u => ptResidual_agree h0.residual
  refine outcome_of_rel (pteSolver_rel pt_alike σ dp (Out := fun s s' => s.a = s'.a) ?_ ?_ ?_)
  · refine ⟨?_, ?_, ?_, ?_, ?_, ?_, ?_, ?_, ?_, ?_, ?_, ?_, ?_, ?_⟩
    all_goals
      simp only [ptSys, ptInit, ptResid, hi, h0.a, h0.rhobar, h0.rhoTotal, h0.uscale, h0.Tnorm, h0.utot trivial, implies_true,
        false_implies]
    · exact h0.vtemp
    · exact h0.utemp
    · exact h0.dx
    · exact h0.jac
  · simp only [ptSys, ptInit, ptResid, hi, h0.a, h0.rhobar, h0.rhoTotal, h0.uscale, h0.Tnorm, h0.utot trivial]
  · intro t t' ht
    simp only [ptSys, ptFinalize, id, ht.a, ht.Pequil trivial, ht.Tequil trivial, ht.uscale, ht.Tnorm]

theorem fixedT_alike {σ : ℝ} {E : MatEOS ℝ} {p : SolverParams ℝ} {t : MixTols}
    {qr : (Nat → ℝ) → (Nat → ℝ) → Nat → ℝ} {n : Nat} {vt : ℝ} :
    Alike (fixedTSys σ E p t qr n vt) (Same False False True False (n) n)
      (fun s s' => Same False False True False (n) n s s' ∧ s.jac = s'.jac)
      (fun s s' => Same False False True False (n) n s s' ∧ s.dx = s'.dx)
      (fun s s' => Same False False True False (n) n s s' ∧ s.dx = s'.dx)
      (fun s s' => Same False False True False (n) n s s' ∧ s.dx = s'.dx ∧ s.vtemp = s'.vtemp) := by
  constructor
  · intro s s' h
    simp only [fixedTSys]
    rw [h.a, h.residual]
  · intro s s' h
    refine ⟨⟨h.a, h.rhobar, h.rhoTotal, h.uscale, h.Tnorm, h.residual, h.utot, h.ms, h.Tequil, h.Pequil, h.vtemp, h.utemp, h.dx, ?_⟩,
      ?_⟩
    all_goals
      simp only [fixedTSys, fixedTJac, h.a, h.rhobar, h.uscale, h.Tnorm, h.Tequil trivial,
        fixedTJacobian_agree h.jac, implies_true]
  · rintro s s' ⟨h, hj⟩
    exact h.solve σ qr hj
    
  · rintro s s' ⟨h, hx⟩
    refine h.applyScale hx ?_
    simp only [h.a, h.rhobar, h.Tequil trivial, hx]
  · exact fun s s' h => h.1
  · rintro s s' x ⟨h, hx⟩
    have hv : ∀ f : Nat → ℝ, fill n f s.vtemp = fill n f s'.vtemp := fun f => fill_congr h.vtemp
    have hw : ∀ f : Nat → ℝ, fill n f s.utemp = fill n f s'.utemp := fun f => fill_congr h.utemp
    refine ⟨?_, ⟨?_, ?_, ?_, ?_, ?_, ?_, ?_, ?_, ?_, ?_, ?_, ?_, ?_, ?_⟩, ?_, ?_⟩
    all_goals
      simp only [fixedTSys, fixedTTest, fixedTResid, if_true, h.a, h.rhobar, h.rhoTotal, h.uscale, h.Tnorm, h.residual, h.Tequil trivial,
        hx, hv, hw, implies_true, false_implies]
    all_goals first | exact h.vtemp | exact h.utemp | exact h.jac
  · rintro s s' x ⟨h, hx, e0⟩
    refine ⟨?_, ⟨?_, ?_, ?_, ?_, ?_, ?_, ?_, ?_, ?_, ?_, ?_, ?_, ?_, ?_⟩, ?_, ?_⟩
    all_goals
      simp only [fixedTSys, fixedTTest, fixedTResid, Bool.false_eq_true, if_false, h.a, h.rhobar, h.rhoTotal, h.uscale, h.Tnorm, h.residual, h.Tequil trivial,
        hx, e0, implies_true, false_implies]
    all_goals first | exact h.vtemp | exact h.utemp | exact h.jac
  · rintro s s' ⟨h, -⟩
    exact h

/-- C132, FixedT: the constructor sets the temperature; the rest may hold anything. -/
theorem C132_fixedT {σ : ℝ} {E : MatEOS ℝ} {p : SolverParams ℝ} {t : MixTols}
    {qr : (Nat → ℝ) → (Nat → ℝ) → Nat → ℝ} {n : Nat} (hn : 0 < n) {vt : ℝ} (dp : DriverParams ℝ) {s s' : PS ℝ}
    (h : SameCall n n s s') (T : ℝ) :
    SameOutcome (pteSolver σ (fixedTSys σ E p t qr n vt) dp (fixedTCtor T s))
      (pteSolver σ (fixedTSys σ E p t qr n vt) dp (fixedTCtor T s')) := by
  have hb : ∀ f : Nat → ℝ, fill n f s.rhobar = fill n f s'.rhobar := fun f => fill_congr h.rhobar
  have hu : ∀ f : Nat → ℝ, fill n f s.a.u = fill n f s'.a.u := fun f => fill_congr h.u
  have hi : ∀ v u, fixedTResidual n vt v u s.residual = fixedTResidual n vt v u s'.residual :=
    fun v u => fixedTResidual_agree hn h.residual
  refine outcome_of_rel (pteSolver_rel fixedT_alike σ dp (Out := fun s s' => s.a = s'.a) ?_ ?_ ?_)
  · refine ⟨?_, ?_, ?_, ?_, ?_, ?_, ?_, ?_, ?_, ?_, ?_, ?_, ?_, ?_⟩
    all_goals
      simp only [fixedTSys, fixedTInit, fixedTResid, fixedTCtor, initRhoBar, hi, hb, hu, h.rho, h.vfrac, h.sie, h.temp, h.press,
        implies_true, false_implies]
    · exact h.vtemp
    · exact h.utemp
    · exact h.dx
    · exact h.jac
  · simp only [fixedTSys, fixedTInit, fixedTResid, fixedTCtor, initRhoBar, hi, hb, hu, h.rho, h.vfrac, h.sie, h.temp, h.press]
  · intro t t' ht
    exact ht.finalize

theorem fixedP_alike {σ : ℝ} {E : MatEOS ℝ} {I : InitEOS ℝ} {p : SolverParams ℝ} {t : MixTols}
    {qr : (Nat → ℝ) → (Nat → ℝ) → Nat → ℝ} {n : Nat} {vt : ℝ} :
    Alike (fixedPSys σ E I p t qr n vt) (Same False False True True (n + 1) n)
      (fun s s' => Same False False True True (n + 1) n s s' ∧ s.jac = s'.jac)
      (fun s s' => Same False False True True (n + 1) n s s' ∧ s.dx = s'.dx)
      (fun s s' => Same False False True True (n + 1) n s s' ∧ s.dx = s'.dx)
      (fun s s' => Same False False True True (n + 1) n s s' ∧ s.dx = s'.dx ∧ s.Ttemp = s'.Ttemp ∧ s.vtemp = s'.vtemp) := by
  constructor
  · intro s s' h
    simp only [fixedPSys]
    rw [h.uscale, h.residual]
  · intro s s' h
    refine ⟨⟨h.a, h.rhobar, h.rhoTotal, h.uscale, h.Tnorm, h.residual, h.utot, h.ms, h.Tequil, h.Pequil, h.vtemp, h.utemp, h.dx, ?_⟩,
      ?_⟩
    all_goals
      simp only [fixedPSys, fixedPJac, h.a, h.rhobar, h.uscale, h.Tnorm, h.Tequil trivial, h.Pequil trivial,
        fixedPJacobian_agree h.jac, implies_true]
  · rintro s s' ⟨h, hj⟩
    exact h.solve σ qr hj
    
  · rintro s s' ⟨h, hx⟩
    refine h.applyScale hx ?_
    simp only [h.a, h.rhobar, h.Tnorm, h.Tequil trivial, hx]
  · exact fun s s' h => h.1
  · rintro s s' x ⟨h, hx⟩
    have hv : ∀ f : Nat → ℝ, fill n f s.vtemp = fill n f s'.vtemp := fun f => fill_congr h.vtemp
    have hw : ∀ f : Nat → ℝ, fill n f s.utemp = fill n f s'.utemp := fun f => fill_congr h.utemp
    refine ⟨?_, ⟨?_, ?_, ?_, ?_, ?_, ?_, ?_, ?_, ?_, ?_, ?_, ?_, ?_, ?_⟩, ?_, ?_, ?_⟩
    all_goals
      simp only [fixedPSys, fixedPTest, fixedPResid, if_true, h.a, h.rhobar, h.rhoTotal, h.uscale, h.Tnorm, h.residual, h.Tequil trivial, h.Pequil trivial,
        hx, hv, hw, implies_true, false_implies]
    all_goals first | exact h.vtemp | exact h.utemp | exact h.jac
  · rintro s s' x ⟨h, hx, e0, e1⟩
    refine ⟨?_, ⟨?_, ?_, ?_, ?_, ?_, ?_, ?_, ?_, ?_, ?_, ?_, ?_, ?_, ?_⟩, ?_, ?_, ?_⟩
    all_goals
      simp only [fixedPSys, fixedPTest, fixedPResid, Bool.false_eq_true, if_false, h.a, h.rhobar, h.rhoTotal, h.uscale, h.Tnorm, h.residual, h.Tequil trivial, h.Pequil trivial,
        hx, e0, e1, implies_true, false_implies]
    all_goals first | exact h.vtemp | exact h.utemp | exact h.jac
  · rintro s s' ⟨h, -⟩
    exact h

/-- C132, FixedP, as far as it holds: `Init` reads `utotal_scale * uscale`, which nothing has set. If the two objects happen
to agree on that product, or the caller has turned the temperature iteration off, the outcome is the same. -/
theorem C132_fixedP_partial {σ : ℝ} {E : MatEOS ℝ} {I : InitEOS ℝ} {p : SolverParams ℝ} {t : MixTols}
    {qr : (Nat → ℝ) → (Nat → ℝ) → Nat → ℝ} {n : Nat} (hn : 0 < n) {vt : ℝ} (dp : DriverParams ℝ) {s s' : PS ℝ}
    (h : SameCall (n + 1) n s s') (P : ℝ)
    (hg : p.iterateT = false ∨ s.utot * s.uscale = s'.utot * s'.uscale) :
    SameOutcome (pteSolver σ (fixedPSys σ E I p t qr n vt) dp (fixedPCtor P s))
      (pteSolver σ (fixedPSys σ E I p t qr n vt) dp (fixedPCtor P s')) := by
  have hb : ∀ f : Nat → ℝ, fill n f s.rhobar = fill n f s'.rhobar := fun f => fill_congr h.rhobar
  have hu : ∀ f : Nat → ℝ, fill n f s.a.u = fill n f s'.a.u := fun f => fill_congr h.u
  have hi : ∀ P us v u, fixedPResidual σ n vt P us v u s.residual = fixedPResidual σ n vt P us v u s'.residual :=
    fun P us v u => fixedPResidual_agree h.residual
  have hg' : ∀ (rb pr : Nat → ℝ) (q : ℝ × (Nat → ℝ) × (Nat → ℝ)),
      (if p.iterateT = true then some (newtonStep σ E I n (s.utot * s.uscale) rb pr q.2.2 q.1) else none) =
      (if p.iterateT = true then some (newtonStep σ E I n (s'.utot * s'.uscale) rb pr q.2.2 q.1) else none) := by
    intro rb pr q
    rcases hg with hg | hg
    · rw [hg]; rfl
    · rw [hg]
  refine outcome_of_rel (pteSolver_rel fixedP_alike σ dp (Out := fun s s' => s.a = s'.a) ?_ ?_ ?_)
  · refine ⟨?_, ?_, ?_, ?_, ?_, ?_, ?_, ?_, ?_, ?_, ?_, ?_, ?_, ?_⟩
    all_goals
      simp only [fixedPSys, fixedPInit, fixedPResid, fixedPCtor, initRhoBar, tguess, hg', hi, hb, hu, h.rho, h.vfrac, h.sie, h.temp,
        h.press, implies_true, false_implies]
    · exact h.vtemp
    · exact h.utemp
    · exact h.dx
    · exact h.jac
  · simp only [fixedPSys, fixedPInit, fixedPResid, fixedPCtor, initRhoBar, tguess, hg', hi, hb, hu, h.rho, h.vfrac, h.sie, h.temp,
      h.press]
  · intro t t' ht
    exact ht.finalize

end Verif.PTE
