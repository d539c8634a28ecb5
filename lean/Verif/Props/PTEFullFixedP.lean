import Verif.Props.PTEFullRhoT

/-! # C130, C131 for `PTESolverFixedP` -/

set_option linter.unusedSectionVars false

namespace Verif.PTE

open Robust

variable {σ saf : ℝ} {E : MatEOS ℝ} {n : Nat} {c : RTConst}

/-- What does not change during a solve. -/
structure FPFix (c : RTConst) (P : ℝ) (s : PS ℝ) : Prop where
  rhobar : s.rhobar = c.rb
  uscale : s.uscale = c.U
  Tnorm : s.Tnorm = c.Tn
  P : s.Pequil = P

/-- The invariant. -/
structure FPInv (σ : ℝ) (E : MatEOS ℝ) (n : Nat) (vt : ℝ) (c : RTConst) (P : ℝ) (s : PS ℝ) : Prop where
  fix : FPFix c P s
  res : ∃ r0, s.residual = fixedPResidual σ n vt P c.U s.a.vfrac s.a.press r0
  T : 0 < s.Tequil
  mat : ∀ m, m < n → RTMat σ E c s m ∧ RTPress σ E c s m

/-- After `ScaleDx`. -/
structure FPScaled (σ saf : ℝ) (E : MatEOS ℝ) (n : Nat) (c : RTConst) (P : ℝ) (s : PS ℝ) : Prop where
  fix : FPFix c P s
  T : 0 < s.Tequil
  vpos : ∀ m, m < n → 0 < s.a.vfrac m
  dx : ∃ dx : Nat → ℝ, ∀ i, i < n + 1 → s.dx i = dx i * fixedPScaleDx σ saf E n c.Tn s.Tequil c.rb s.a.vfrac dx

/-- After a trial step. -/
structure FPTried (σ saf : ℝ) (E : MatEOS ℝ) (n : Nat) (vt : ℝ) (c : RTConst) (P : ℝ) (s : PS ℝ) : Prop where
  inv : FPInv σ E n vt c P s
  cache : ∃ (v dx : Nat → ℝ), 0 < s.Ttemp ∧ (∀ m, m < n → 0 < v m ∧ s.vtemp m = v m) ∧
    ∀ i, i < n + 1 → s.dx i = dx i * fixedPScaleDx σ saf E n c.Tn s.Ttemp c.rb v dx

theorem fixedP_trial_pos (hσ : 0 < σ) (hsaf0 : 0 ≤ saf) (hsaf1 : saf < 1) (E : MatEOS ℝ) (Tn : ℝ) {Te : ℝ} (hT : 0 < Te)
    (rb : Nat → ℝ) {v dx dx' : Nat → ℝ} (hv : ∀ m, m < n → 0 < v m) (hp : ∀ m T, 0 ≤ E.rhoPmin m T) {t : ℝ} (ht0 : 0 ≤ t)
    (ht1 : t ≤ 1) (hdx : ∀ i, i < n + 1 → dx' i = dx i * fixedPScaleDx σ saf E n Tn Te rb v dx) :
    0 < Te + t * dx' n ∧ ∀ m, m < n → 0 < v m + t * dx' m := by
  obtain ⟨-, -, h1, Tnew, -, h2⟩ := C22_fixedP hσ hsaf0 hsaf1 E (n := n) 1 Tn Te hT rb dx ⟨v, v, v, v, v, v⟩ hv hp ht0 ht1
  unfold fixedPTestUpdate at h1 h2
  dsimp only [stateFromVT] at h1 h2
  refine ⟨by rw [hdx n (by omega), mul_comm (dx n)]; exact h1, fun m hm => ?_⟩
  have h := (h2 m hm).1
  rw [fill_apply, if_pos hm] at h
  rw [hdx m (by omega), mul_comm (dx m)]
  exact h

theorem fpTest_aux {vt P : ℝ} (hσ : 0 < σ) (hsaf0 : 0 ≤ saf) (hsaf1 : saf < 1) (hU : 0 < c.U)
    (hrb : ∀ m, m < n → 0 < c.rb m) (hp : ∀ m T, 0 ≤ E.rhoPmin m T) {s : PS ℝ} (hf : FPFix c P s)
    (hc : ∃ (v dx : Nat → ℝ), 0 < s.Ttemp ∧ (∀ m, m < n → 0 < v m ∧ s.vtemp m = v m) ∧
      ∀ i, i < n + 1 → s.dx i = dx i * fixedPScaleDx σ saf E n c.Tn s.Ttemp c.rb v dx)
    {t : ℝ} (ht0 : 0 < t) (ht1 : t ≤ 1) : FPTried σ saf E n vt c P (fixedPTest σ E n vt s t false).1 := by
  obtain ⟨v, dx, hT, hv, hd⟩ := hc
  obtain ⟨p1, p2⟩ := fixedP_trial_pos hσ hsaf0 hsaf1 E c.Tn hT c.rb (fun m hm => (hv m hm).1) hp ht0.le ht1 hd
  have e : (fixedPTest σ E n vt s t false).1 = fixedPResid σ n vt { s with
      Tequil := s.Ttemp + t * s.dx n
      a := stateFromVT σ E n s.uscale (s.Tnorm * (s.Ttemp + t * s.dx n)) (s.Ttemp + t * s.dx n) s.rhobar
        (fill n (fun m => s.vtemp m + t * s.dx m) s.a.vfrac) s.a } := rfl
  rw [e]
  refine ⟨⟨⟨hf.rhobar, hf.uscale, hf.Tnorm, hf.P⟩, ⟨s.residual, ?_⟩, p1, fun m hm => ?_⟩, v, dx, hT, hv, hd⟩
  · unfold fixedPResid; dsimp only; rw [hf.uscale, hf.P]
  · have hvm : 0 < s.vtemp m + t * s.dx m := by rw [(hv m hm).2]; exact p2 m hm
    have hrm := hrb m hm
    have hUs : 0 < c.U + σ := by linarith
    have hrs : 0 < c.rb m + σ := by linarith
    unfold fixedPResid
    dsimp only [RTPress]
    rw [hf.rhobar, hf.uscale, hf.Tnorm]
    refine ⟨⟨?_, ?_, ?_, ?_, ?_⟩, ?_⟩ <;> simp only [stateFromVT, fill_apply, if_pos hm]
    · exact hvm
    · exact guarded_ratio hσ hvm _
    · refine ⟨c.rb m / (c.rb m + σ), le_rfl, by rw [div_le_one hrs]; linarith, ?_⟩
      rw [ratio_pos_den _ hrm.le]; field_simp
    · rw [ratio_pos_den _ hU.le]
    · rw [ratio_pos_den _ hU.le]

theorem fixedP_keeps {vt P : ℝ} (hσ : 0 < σ) (I : InitEOS ℝ) {p : SolverParams ℝ} (hsaf0 : 0 ≤ p.saf) (hsaf1 : p.saf < 1)
    (t : MixTols) (qr : (Nat → ℝ) → (Nat → ℝ) → Nat → ℝ) (hU : 0 < c.U)
    (hrb : ∀ m, m < n → 0 < c.rb m) (hp : ∀ m T, 0 ≤ E.rhoPmin m T) :
    Keeps (fixedPSys σ E I p t qr n vt) (fun _ => FPInv σ E n vt c P) (FPScaled σ p.saf E n c P)
      (FPTried σ p.saf E n vt c P) := by
  have cp : ∀ (s s' : PS ℝ), FPInv σ E n vt c P s → s'.rhobar = s.rhobar → s'.uscale = s.uscale → s'.Tnorm = s.Tnorm →
      s'.Pequil = s.Pequil → s'.residual = s.residual → s'.Tequil = s.Tequil → s'.a = s.a → FPInv σ E n vt c P s' := by
    intro s s' h e1 e2 e3 e4 e5 e6 e7
    refine ⟨⟨e1.trans h.fix.rhobar, e2.trans h.fix.uscale, e3.trans h.fix.Tnorm, e4.trans h.fix.P⟩, ?_, by rw [e6]; exact h.T,
      fun m hm => ?_⟩
    · rw [e5, e7]; exact h.res
    · obtain ⟨h1, h2⟩ := h.mat m hm
      refine ⟨⟨?_, ?_, ?_, ?_, ?_⟩, ?_⟩
      · rw [e7]; exact h1.vpos
      · rw [e7, e6]; exact h1.temp
      · rw [e7]; exact h1.mass
      · rw [e7, e6]; exact h1.energy
      · rw [e7, e6]; exact h1.u
      · unfold RTPress at h2 ⊢; rw [e7, e6]; exact h2
  constructor
  · intro k s h
    exact cp s _ h rfl rfl rfl rfl rfl rfl rfl
  · intro k s h
    change FPInv σ E n vt c P (solveMember σ qr (n + 1) s).1
    unfold solveMember
    split
    · exact h
    · exact cp s _ h rfl rfl rfl rfl rfl rfl rfl
  · intro k s h
    exact cp s _ h rfl rfl rfl rfl rfl rfl rfl
  · intro k s h
    refine ⟨⟨h.fix.rhobar, h.fix.uscale, h.fix.Tnorm, h.fix.P⟩, h.T, fun m hm => (h.mat m hm).1.vpos, s.dx,
      fun i hi => ?_⟩
    have e : ((fixedPSys σ E I p t qr n vt).scaleDx s).1.dx i
        = s.dx i * fixedPScaleDx σ p.saf E n s.Tnorm s.Tequil s.rhobar s.a.vfrac s.dx := by
      simp only [fixedPSys, applyScale, mapN_apply, if_pos hi]
    rw [e, h.fix.Tnorm, h.fix.rhobar]
    rfl
  · intro s h
    obtain ⟨dx, hd⟩ := h.dx
    have e : (fixedPTest σ E n vt s 1 true).1
        = (fixedPTest σ E n vt { s with Ttemp := s.Tequil, vtemp := fill n s.a.vfrac s.vtemp } 1 false).1 := rfl
    change FPTried σ p.saf E n vt c P (fixedPTest σ E n vt s 1 true).1
    rw [e]
    exact fpTest_aux (s := { s with Ttemp := s.Tequil, vtemp := fill n s.a.vfrac s.vtemp }) hσ hsaf0 hsaf1 hU hrb hp
      ⟨h.fix.rhobar, h.fix.uscale, h.fix.Tnorm, h.fix.P⟩
      ⟨s.a.vfrac, dx, h.T, fun m hm => ⟨h.vpos m hm, by dsimp only; rw [fill_apply, if_pos hm]⟩, hd⟩ one_pos le_rfl
  · intro s t h ht0 ht1
    exact fpTest_aux hσ hsaf0 hsaf1 hU hrb hp h.inv.fix h.cache ht0 ht1
  · intro k s h
    exact h.inv

/-- The constants of a FixedP solve. -/
noncomputable def fpConst (rb : Nat → ℝ) (P Tn : ℝ) : RTConst where
  rb := rb
  rt := 0
  U := max |P| (1 / 10 ^ 14)
  ut := 0
  Tn := Tn
  pin := fun _ => 0

theorem fixedP_init (hσ : 0 < σ) (I : InitEOS ℝ) {p : SolverParams ℝ} (htl : 0 < p.tlimit) (htd : 0 < p.tdefault)
    (hn : 0 < n) {vt : ℝ} (hvt : 0 < vt) (P : ℝ) (hp : ∀ m T, m < n → 0 ≤ E.rhoPmin m T) {s0 : PS ℝ} (h : InputOk n vt s0) :
    ∃ Tn, 0 < Tn ∧ FPInv σ E n vt (fpConst (initRhoBar n s0).rhobar P Tn) P
      (fixedPInit σ E I p n vt (fixedPCtor P s0)).1 := by
  have hrbs : ∀ m, m < n → (initRhoBar n s0).rhobar m = s0.a.rho m * s0.a.vfrac m := fun m hm => rhobar_eq s0 hm
  have hrb : ∀ m, m < n → 0 < (initRhoBar n s0).rhobar m := fun m hm => by
    rw [hrbs m hm]; exact mul_pos (h.rho m hm) (h.vfrac m hm)
  set s1 := initRhoBar n (fixedPCtor P s0) with hs1
  have hg := tguess_ok hσ I (p := p) hn hvt htl htd hp (s := s1) ⟨h.rho, h.vfrac, h.sum⟩ hrbs
  dsimp only at hg
  set g := tguess σ E I p n vt s1 with hgd
  set s := (fixedPInit σ E I p n vt (fixedPCtor P s0)).1 with hs
  have hU : 0 < max |P| (1 / 10 ^ 14) := lt_of_lt_of_le (by norm_num) (le_max_right _ _)
  have ht : ∀ m, m < n → s.a.temp m = 1 := fun m hm => by
    change fill n _ _ m = _
    rw [fill_apply, if_pos hm]
  have hTe : s.Tequil = 1 := ht 0 hn
  have hTT : (fpConst (initRhoBar n s0).rhobar P g.1).Tn * s.Tequil = g.1 := by rw [hTe]; exact mul_one _
  have hsie : ∀ m, m < n → s.a.sie m = E.eOf m (s.a.rho m) g.1 := fun m hm => by
    change fill n _ _ m = _
    rw [fill_apply, if_pos hm]; rfl
  refine ⟨g.1, hg.T, ⟨rfl, rfl, rfl, rfl⟩, ⟨s0.residual, rfl⟩, by rw [hTe]; exact one_pos, fun m hm =>
    ⟨⟨hg.vfrac m hm, by rw [ht m hm, hTe], hg.mass m hm, ?_, ?_⟩, ?_⟩⟩
  · rw [hTT, hsie m hm]; exact guarded_self hσ (hrb m hm) _
  · rw [hTT]
    have : s.a.u m = ratio σ (E.eOf m (s.a.rho m) g.1 * (initRhoBar n s0).rhobar m) (max |P| (1 / 10 ^ 14)) := by
      change fill n _ _ m = _
      rw [fill_apply, if_pos hm]; rfl
    rw [this, ratio_pos_den _ hU.le, mul_comm]; rfl
  · unfold RTPress
    rw [hTT, hsie m hm]
    have : s.a.press m = ratio σ (E.pOf m (s.a.rho m) g.1 (E.eOf m (s.a.rho m) g.1)) (max |P| (1 / 10 ^ 14)) := by
      change fill n _ _ m = _
      rw [fill_apply, if_pos hm]; rfl
    rw [this, ratio_pos_den _ hU.le]; rfl

/-- C130, FixedP: whatever the equations of state, the linear solver, the tolerances and the outcome, the arrays returned hold
a common positive temperature and, for every material, its mass, a positive volume fraction, and the energy and pressure its
own EOS has there. -/
theorem C130_fixedP_state (hσ : 0 < σ) (E : MatEOS ℝ) (I : InitEOS ℝ) {p : SolverParams ℝ} (hsaf0 : 0 ≤ p.saf)
    (hsaf1 : p.saf < 1) (htl : 0 < p.tlimit) (htd : 0 < p.tdefault) (t : MixTols)
    (qr : (Nat → ℝ) → (Nat → ℝ) → Nat → ℝ) {dp : DriverParams ℝ} (hf0 : 0 < dp.lineFac) (hf1 : dp.lineFac ≤ 1)
    (hn : 0 < n) {vt : ℝ} (hvt : 0 < vt) (P : ℝ) (hp : ∀ m T, 0 ≤ E.rhoPmin m T) {s0 : PS ℝ} (h : InputOk n vt s0) :
    let r := pteSolver σ (fixedPSys σ E I p t qr n vt) dp (fixedPCtor P s0)
    ∃ T > 0, ∀ m, m < n → r.s.a.temp m = T ∧ Mixed σ E (s0.a.rho m * s0.a.vfrac m) T r.s.a m ∧
      Guarded σ (max |P| (1 / 10 ^ 14)) (r.s.a.press m) (E.pOf m (r.s.a.rho m) T (r.s.a.sie m)) := by
  intro r
  obtain ⟨Tn, hTn, h0⟩ := fixedP_init hσ I htl htd hn hvt P (fun m T _ => hp m T) h
  have hU : 0 < (fpConst (initRhoBar n s0).rhobar P Tn).U := lt_of_lt_of_le (by norm_num) (le_max_right _ _)
  have hk := fixedP_keeps (E := E) (vt := vt) (P := P) (c := fpConst (initRhoBar n s0).rhobar P Tn) hσ I hsaf0 hsaf1 t qr hU
    (fun m hm => rhobar_pos h hm) hp
  obtain ⟨k, s, -, q2, q3, -⟩ := pteSolver_keeps hσ hk hf0 hf1 (fixedPCtor P s0) h0
  change r.s = finalizeBase n s at q3
  refine ⟨Tn * s.Tequil, mul_pos hTn q2.T, fun m hm => ?_⟩
  obtain ⟨h1, h2⟩ := q2.mat m hm
  rw [rhobar_eq s0 hm |>.symm]
  refine ⟨?_, ⟨by rw [q3]; exact h1.vpos, by rw [q3]; exact h1.mass, by rw [q3]; exact h1.energy⟩, ?_⟩
  · rw [q3]; unfold finalizeBase; dsimp only; rw [mapN_apply, if_pos hm, q2.fix.Tnorm, h1.temp, mul_comm]; rfl
  · have e : r.s.a.press m = s.a.press m * max |P| (1 / 10 ^ 14) := by
      rw [q3]; unfold finalizeBase; dsimp only; rw [mapN_apply, if_pos hm, q2.fix.uscale]; rfl
    rw [e, h2, show r.s.a.rho = s.a.rho by rw [q3]; rfl, show r.s.a.sie = s.a.sie by rw [q3]; rfl]
    exact guarded_div hσ hU _

/-- C131, FixedP: if the solver reports convergence (not through the slow-convergence exit) the volume fractions fill the
given volume within the tolerance, and every material's EOS pressure is the given one within the tolerance, as an absolute
difference. -/
theorem C131_fixedP_equilibrium (hσ : 0 < σ) (E : MatEOS ℝ) (I : InitEOS ℝ) {p : SolverParams ℝ} (hsaf0 : 0 ≤ p.saf)
    (hsaf1 : p.saf < 1) (htl : 0 < p.tlimit) (htd : 0 < p.tdefault) (t : MixTols)
    (qr : (Nat → ℝ) → (Nat → ℝ) → Nat → ℝ) {dp : DriverParams ℝ} (hf0 : 0 < dp.lineFac) (hf1 : dp.lineFac ≤ 1)
    (hn : 0 < n) {vt : ℝ} (hvt : 0 < vt) (P : ℝ) (hp : ∀ m T, 0 ≤ E.rhoPmin m T) {s0 : PS ℝ} (h : InputOk n vt s0)
    (hc : (pteSolver σ (fixedPSys σ E I p t qr n vt) dp (fixedPCtor P s0)).converged = true)
    (hsl : (pteSolver σ (fixedPSys σ E I p t qr n vt) dp (fixedPCtor P s0)).slow = false) :
    let r := pteSolver σ (fixedPSys σ E I p t qr n vt) dp (fixedPCtor P s0)
    let U := max |P| (1 / 10 ^ 14)
    |∑ m ∈ Finset.range n, r.s.a.vfrac m - vt| < t.tol.relV ∧
    ∀ m, m < n → |P - E.pOf m (r.s.a.rho m) (r.s.a.temp m) (r.s.a.sie m)| * (U / (U + σ)) < max t.tol.relP t.tol.absP := by
  intro r U
  obtain ⟨Tn, hTn, h0⟩ := fixedP_init hσ I htl htd hn hvt P (fun m T _ => hp m T) h
  have hU : 0 < U := lt_of_lt_of_le (by norm_num) (le_max_right _ _)
  have hUs : 0 < U + σ := by linarith
  have hk := fixedP_keeps (E := E) (vt := vt) (P := P) (c := fpConst (initRhoBar n s0).rhobar P Tn) hσ I hsaf0 hsaf1 t qr hU
    (fun m hm => rhobar_pos h hm) hp
  obtain ⟨k, s, -, q2, q3, q4⟩ := pteSolver_keeps hσ hk hf0 hf1 (fixedPCtor P s0) h0
  have q4 := q4 hc hsl
  change r.s = finalizeBase n s at q3
  simp only [fixedPSys, decide_eq_true_eq] at q4
  obtain ⟨r0, hres⟩ := q2.res
  have hus : s.uscale = U := q2.fix.uscale
  rw [hres, hus, show (fpConst (initRhoBar n s0).rhobar P Tn).U = U from rfl] at q4
  obtain ⟨g1, g2⟩ := C18_fixedP_meaning σ t.tol vt P U hU.le s.a.vfrac s.a.press r0 q4
  refine ⟨by rw [show r.s.a.vfrac = s.a.vfrac by rw [q3]; rfl]; exact g1, fun m hm => ?_⟩
  obtain ⟨h1, h2⟩ := q2.mat m hm
  have ht : r.s.a.temp m = Tn * s.Tequil := by
    rw [q3]; unfold finalizeBase; dsimp only; rw [mapN_apply, if_pos hm, q2.fix.Tnorm, h1.temp, mul_comm]; rfl
  have hpm : s.a.press m = E.pOf m (r.s.a.rho m) (r.s.a.temp m) (r.s.a.sie m) / (U + σ) := by
    rw [h2, ht, show r.s.a.rho = s.a.rho by rw [q3]; rfl, show r.s.a.sie = s.a.sie by rw [q3]; rfl]; rfl
  have := g2 m hm
  rw [ratio_pos_den _ hU.le, hpm, ← sub_div, abs_div, abs_of_pos hUs, div_mul_eq_mul_div, ← mul_div_assoc] at *
  exact this

end Verif.PTE
