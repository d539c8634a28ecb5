import Verif.Props.PTEFullRhoT

/-! # C130, C131 for `PTESolverPT` -/

set_option linter.unusedSectionVars false

namespace Verif.PTE

open Robust

variable {σ : ℝ} {E : MatEOS ℝ} {n : Nat} {c : RTConst}

/-- What does not change during a solve. -/
structure PTFix (c : RTConst) (s : PS ℝ) : Prop where
  rhobar : s.rhobar = c.rb
  uscale : s.uscale = c.U
  Tnorm : s.Tnorm = c.Tn
  utot : s.utot = c.ut

/-- Material `m` is in the state its EOS gives at the common pressure and temperature, in the solver's units. -/
structure PTMat (σ : ℝ) (E : MatEOS ℝ) (c : RTConst) (s : PS ℝ) (m : Nat) : Prop where
  eos : (s.a.rho m, s.a.sie m) = E.rhoEOfPT m (s.Pequil * c.U) (s.Tequil * c.Tn)
  vfrac : s.a.vfrac m = ratio σ (c.rb m) (s.a.rho m)
  u : s.a.u m = c.rb m * s.a.sie m / (c.U + σ)

/-- The invariant. -/
structure PTInv (σ : ℝ) (E : MatEOS ℝ) (n : Nat) (vt : ℝ) (c : RTConst) (s : PS ℝ) : Prop where
  fix : PTFix c s
  res : ∃ r0, s.residual = ptResidual n vt c.ut s.a.vfrac s.a.u r0
  T : 0 < s.Tequil
  P : ∀ m, m < n → E.pMin m < 0 → ratio σ (E.pMin m) c.U < s.Pequil
  mat : ∀ m, m < n → PTMat σ E c s m

/-- After `ScaleDx`. -/
structure PTScaled (σ : ℝ) (E : MatEOS ℝ) (n : Nat) (c : RTConst) (s : PS ℝ) : Prop where
  fix : PTFix c s
  T : 0 < s.Tequil
  P : ∀ m, m < n → E.pMin m < 0 → ratio σ (E.pMin m) c.U < s.Pequil
  dx : ∃ dx : Nat → ℝ, ∀ i, i < 2 → s.dx i = dx i * ptScaleDx σ E n c.U c.Tn s.Pequil s.Tequil dx

/-- After a trial step. -/
structure PTTried (σ : ℝ) (E : MatEOS ℝ) (n : Nat) (vt : ℝ) (c : RTConst) (s : PS ℝ) : Prop where
  inv : PTInv σ E n vt c s
  cache : 0 < s.Ttemp ∧ (∀ m, m < n → E.pMin m < 0 → ratio σ (E.pMin m) c.U < s.Ptemp) ∧
    ∃ dx : Nat → ℝ, ∀ i, i < 2 → s.dx i = dx i * ptScaleDx σ E n c.U c.Tn s.Ptemp s.Ttemp dx

theorem ptTest_aux {vt : ℝ} (hσ : 0 < σ) (hU : 0 < c.U) {s : PS ℝ} (hf : PTFix c s)
    (hc : 0 < s.Ttemp ∧ (∀ m, m < n → E.pMin m < 0 → ratio σ (E.pMin m) c.U < s.Ptemp) ∧
      ∃ dx : Nat → ℝ, ∀ i, i < 2 → s.dx i = dx i * ptScaleDx σ E n c.U c.Tn s.Ptemp s.Ttemp dx)
    {t : ℝ} (ht0 : 0 < t) (ht1 : t ≤ 1) : PTTried σ E n vt c (ptTest σ E n vt s t false).1 := by
  obtain ⟨hT, hP, dx, hd⟩ := hc
  obtain ⟨-, -, p1, p2⟩ := C22_pt_partial hσ E (n := n) c.U c.Tn s.Ptemp s.Ttemp hT c.rb dx ⟨dx, dx, dx, dx, dx, dx⟩ ht0.le ht1
  unfold ptTestUpdate at p1 p2
  dsimp only at p1 p2
  have e : (ptTest σ E n vt s t false).1 = ptResid n vt { s with
      Pequil := s.Ptemp + t * s.dx 1
      Tequil := s.Ttemp + t * s.dx 0
      a := (ptTestUpdate σ E n s.uscale s.Tnorm s.rhobar s.dx s.Ptemp s.Ttemp t s.a).2 } := rfl
  rw [e]
  refine ⟨⟨⟨hf.rhobar, hf.uscale, hf.Tnorm, hf.utot⟩, ⟨s.residual, ?_⟩, ?_, fun m hm hneg => ?_, fun m hm => ?_⟩,
    hT, hP, dx, hd⟩
  · unfold ptResid; dsimp only; rw [hf.utot]
  · change 0 < s.Ttemp + t * s.dx 0
    rw [hd 0 (by norm_num), mul_comm (dx 0)]; exact p1
  · change _ < s.Ptemp + t * s.dx 1
    rw [hd 1 (by norm_num), mul_comm (dx 1)]; exact p2 m hm (hP m hm hneg)
  · unfold ptResid ptTestUpdate
    dsimp only
    rw [hf.rhobar, hf.uscale, hf.Tnorm]
    refine ⟨?_, ?_, ?_⟩ <;> simp only [fill_apply, if_pos hm]
    rw [ratio_pos_den _ hU.le, mul_comm (c.rb m)]

theorem pt_keeps {vt sieTot : ℝ} (hσ : 0 < σ) (I : InitEOS ℝ) {p : SolverParams ℝ}
    (t : MixTols) (qr : (Nat → ℝ) → (Nat → ℝ) → Nat → ℝ) (hU : 0 < c.U) :
    Keeps (ptSys σ E I p t qr n vt sieTot) (fun _ => PTInv σ E n vt c) (PTScaled σ E n c) (PTTried σ E n vt c) := by
  have cp : ∀ (s s' : PS ℝ), PTInv σ E n vt c s → s'.rhobar = s.rhobar → s'.uscale = s.uscale → s'.Tnorm = s.Tnorm →
      s'.utot = s.utot → s'.Pequil = s.Pequil → s'.residual = s.residual → s'.Tequil = s.Tequil → s'.a = s.a →
      PTInv σ E n vt c s' := by
    intro s s' h e1 e2 e3 e3' e4 e5 e6 e7
    refine ⟨⟨e1.trans h.fix.rhobar, e2.trans h.fix.uscale, e3.trans h.fix.Tnorm, e3'.trans h.fix.utot⟩, ?_,
      by rw [e6]; exact h.T, fun m hm hneg => by rw [e4]; exact h.P m hm hneg, fun m hm => ?_⟩
    · rw [e5, e7]; exact h.res
    · obtain ⟨h1, h2, h3⟩ := h.mat m hm
      exact ⟨by rw [e7, e6, e4]; exact h1, by rw [e7]; exact h2, by rw [e7]; exact h3⟩
  constructor
  · intro k s h
    exact cp s _ h rfl rfl rfl rfl rfl rfl rfl rfl
  · intro k s h
    change PTInv σ E n vt c (solveMember σ qr 2 s).1
    unfold solveMember
    split
    · exact h
    · exact cp s _ h rfl rfl rfl rfl rfl rfl rfl rfl
  · intro k s h
    exact cp s _ h rfl rfl rfl rfl rfl rfl rfl rfl
  · intro k s h
    refine ⟨⟨h.fix.rhobar, h.fix.uscale, h.fix.Tnorm, h.fix.utot⟩, h.T, h.P, s.dx, fun i hi => ?_⟩
    have e : ((ptSys σ E I p t qr n vt sieTot).scaleDx s).1.dx i
        = s.dx i * ptScaleDx σ E n s.uscale s.Tnorm s.Pequil s.Tequil s.dx := by
      simp only [ptSys, applyScale, mapN_apply, if_pos hi]
    rw [e, h.fix.Tnorm, h.fix.uscale]
    rfl
  · intro s h
    have e : (ptTest σ E n vt s 1 true).1
        = (ptTest σ E n vt { s with Ttemp := s.Tequil, Ptemp := s.Pequil } 1 false).1 := rfl
    change PTTried σ E n vt c (ptTest σ E n vt s 1 true).1
    rw [e]
    exact ptTest_aux (s := { s with Ttemp := s.Tequil, Ptemp := s.Pequil }) hσ hU
      ⟨h.fix.rhobar, h.fix.uscale, h.fix.Tnorm, h.fix.utot⟩ ⟨h.T, h.P, h.dx⟩ one_pos le_rfl
  · intro s t h ht0 ht1
    exact ptTest_aux hσ hU h.inv.fix h.cache ht0 ht1
  · intro k s h
    exact h.inv

theorem pt_init (hσ : 0 < σ) (I : InitEOS ℝ) {p : SolverParams ℝ} (htl : 0 < p.tlimit) (htd : 0 < p.tdefault)
    (hn : 0 < n) {vt : ℝ} (hvt : 0 < vt) (sieTot : ℝ) (hp : ∀ m T, m < n → 0 ≤ E.rhoPmin m T) {s0 : PS ℝ}
    (h : InputOk n vt s0) :
    let i := initBase σ E I p n vt sieTot s0
    0 < i.Tnorm ∧ (∀ m, m < n → i.rhobar m = s0.a.rho m * s0.a.vfrac m) ∧
    PTInv σ E n vt (rtConst n sieTot i.Tnorm i.rhobar σ s0) (ptInit σ E I p n vt sieTot s0).1 := by
  intro i
  obtain ⟨h1, h2, h3, h4, h5, h6, h7⟩ := initBase_ok (E := E) hσ I htl htd hn hvt sieTot hp h
  refine ⟨h5, h1, ?_⟩
  set s := (ptInit σ E I p n vt sieTot s0).1 with hs
  set c := rtConst n sieTot i.Tnorm i.rhobar σ s0 with hcd
  have hut : i.utot = c.ut := by rw [h4, h3]; rfl
  have hUi : i.uscale = c.U := h3
  have hU : 0 < c.U := lt_of_lt_of_le (by norm_num) (le_max_right _ _)
  have hPd : s.Pequil = forN n (fun P m => P + |i.a.press m| * i.a.vfrac m) 0 / sumNeumaier i.a.vfrac n := rfl
  have hP0 : 0 ≤ s.Pequil := by
    rw [hPd, forN_add, zero_add, sumNeumaier_all]
    exact div_nonneg (Finset.sum_nonneg fun m hm => mul_nonneg (abs_nonneg _) (h7 m (Finset.mem_range.mp hm)).1.le)
      (Finset.sum_nonneg fun m hm => (h7 m (Finset.mem_range.mp hm)).1.le)
  have hrho : ∀ m, m < n → s.a.rho m = (E.rhoEOfPT m (s.Pequil * i.uscale) (1 * i.Tnorm)).1 := fun m hm => by
    change fill n _ _ m = _
    rw [fill_apply, if_pos hm]; rfl
  have hsie : ∀ m, m < n → s.a.sie m = (E.rhoEOfPT m (s.Pequil * i.uscale) (1 * i.Tnorm)).2 := fun m hm => by
    change fill n _ _ m = _
    rw [fill_apply, if_pos hm]; rfl
  refine ⟨⟨rfl, hUi, rfl, hut⟩, ⟨i.residual |> ptResidual n vt i.utot i.a.vfrac i.a.u, ?_⟩, one_pos, fun m hm hneg => ?_,
    fun m hm => ⟨?_, ?_, ?_⟩⟩
  · rw [← hut]; rfl
  · rw [ratio_pos_den _ hU.le]
    exact lt_of_lt_of_le (div_neg_of_neg_of_pos hneg (by linarith)) hP0
  · rw [hrho m hm, hsie m hm, hUi]; rfl
  · rw [hrho m hm]
    change fill n _ _ m = _
    rw [fill_apply, if_pos hm]; rfl
  · have : s.a.u m = ratio σ ((E.rhoEOfPT m (s.Pequil * i.uscale) (1 * i.Tnorm)).2 * i.rhobar m) i.uscale := by
      change fill n _ _ m = _
      rw [fill_apply, if_pos hm]; rfl
    rw [this, ← hsie m hm, hUi, ratio_pos_den _ hU.le, mul_comm]; rfl

/-- The driver run on a PT object. -/
theorem pt_run (hσ : 0 < σ) (E : MatEOS ℝ) (I : InitEOS ℝ) {p : SolverParams ℝ} (htl : 0 < p.tlimit) (htd : 0 < p.tdefault)
    (t : MixTols) (qr : (Nat → ℝ) → (Nat → ℝ) → Nat → ℝ) {dp : DriverParams ℝ} (hf0 : 0 < dp.lineFac) (hf1 : dp.lineFac ≤ 1)
    (hn : 0 < n) {vt : ℝ} (hvt : 0 < vt) (sieTot : ℝ) (hp : ∀ m T, m < n → 0 ≤ E.rhoPmin m T) {s0 : PS ℝ} (h : InputOk n vt s0) :
    let r := pteSolver σ (ptSys σ E I p t qr n vt sieTot) dp s0
    ∃ c s, (∀ m, m < n → c.rb m = s0.a.rho m * s0.a.vfrac m) ∧ 0 < c.Tn ∧
      c.U = max |(∑ m ∈ Finset.range n, s0.a.rho m * s0.a.vfrac m) * sieTot| (1 / 10 ^ 14) ∧
      c.ut = (∑ m ∈ Finset.range n, s0.a.rho m * s0.a.vfrac m) * sieTot / (c.U + σ) ∧
      PTInv σ E n vt c s ∧ r.s = ptFinalize n s ∧
      (r.converged = true → r.slow = false → ptCheck t.tol s.residual) := by
  intro r
  obtain ⟨h1, h2, h3⟩ := pt_init (E := E) hσ I htl htd hn hvt sieTot hp h
  have hk := pt_keeps (E := E) (n := n) (vt := vt) (sieTot := sieTot) (p := p)
    (c := rtConst n sieTot (initBase σ E I p n vt sieTot s0).Tnorm (initBase σ E I p n vt sieTot s0).rhobar σ s0) hσ I t qr
    (lt_of_lt_of_le (by norm_num) (le_max_right _ _))
  obtain ⟨k, s, -, q2, q3, q4⟩ := pteSolver_keeps hσ hk hf0 hf1 s0 h3
  refine ⟨_, s, h2, h1, rfl, rfl, q2, q3, fun hc hsl => ?_⟩
  have := q4 hc hsl
  simpa [ptSys] using this

/-- C130, PT: whatever the equations of state, the linear solver, the tolerances and the outcome, the arrays returned hold one
pressure and one positive temperature; every material's density and energy are those its own EOS gives at that pressure and
temperature; and a material with a positive density has kept its mass. The pressure lies above every negative minimum
pressure. -/
theorem C130_pt_state (hσ : 0 < σ) (E : MatEOS ℝ) (I : InitEOS ℝ) {p : SolverParams ℝ} (htl : 0 < p.tlimit)
    (htd : 0 < p.tdefault) (t : MixTols) (qr : (Nat → ℝ) → (Nat → ℝ) → Nat → ℝ) {dp : DriverParams ℝ}
    (hf0 : 0 < dp.lineFac) (hf1 : dp.lineFac ≤ 1) (hn : 0 < n) {vt : ℝ} (hvt : 0 < vt) (sieTot : ℝ)
    (hp : ∀ m T, m < n → 0 ≤ E.rhoPmin m T) {s0 : PS ℝ} (h : InputOk n vt s0) :
    let r := pteSolver σ (ptSys σ E I p t qr n vt sieTot) dp s0
    ∃ P T, 0 < T ∧ ∀ m, m < n → r.s.a.press m = P ∧ r.s.a.temp m = T ∧
      (r.s.a.rho m, r.s.a.sie m) = E.rhoEOfPT m P T ∧
      (0 < r.s.a.rho m → Guarded σ (r.s.a.rho m) (r.s.a.rho m * r.s.a.vfrac m) (s0.a.rho m * s0.a.vfrac m)) ∧
      (E.pMin m < 0 → E.pMin m < P) := by
  intro r
  obtain ⟨c, s, c2, c3, c4, c5, hI, hr, -⟩ := pt_run (n := n) hσ E I htl htd t qr hf0 hf1 hn hvt sieTot hp h
  have hU : 0 < c.U := by rw [c4]; exact lt_of_lt_of_le (by norm_num) (le_max_right _ _)
  change r.s = _ at hr
  refine ⟨s.Pequil * c.U, s.Tequil * c.Tn, mul_pos hI.T c3, fun m hm => ?_⟩
  have hm' := hI.mat m hm
  have hrho : r.s.a.rho = s.a.rho := by rw [hr]; rfl
  have hsie : r.s.a.sie = s.a.sie := by rw [hr]; rfl
  have hv : r.s.a.vfrac = s.a.vfrac := by rw [hr]; rfl
  refine ⟨?_, ?_, ?_, fun hpos => ?_, fun hneg => ?_⟩
  · rw [hr]; unfold ptFinalize; dsimp only; rw [fill_apply, if_pos hm, hI.fix.uscale]
  · rw [hr]; unfold ptFinalize; dsimp only; rw [fill_apply, if_pos hm, hI.fix.Tnorm]
  · rw [hrho, hsie]; exact hm'.eos
  · rw [hrho] at hpos ⊢
    rw [hv, hm'.vfrac, mul_comm, ← c2 m hm]
    exact guarded_ratio hσ hpos _
  · have h1 := hI.P m hm hneg
    rw [ratio_pos_den _ hU.le] at h1
    have h2 := mul_lt_mul_of_pos_right h1 hU
    refine lt_of_le_of_lt ?_ h2
    rw [div_mul_eq_mul_div, le_div_iff₀ (by linarith)]
    nlinarith

/-- C131, PT: if the solver reports convergence (not through the slow-convergence exit) the volume fractions fill the given
volume and the materials' energies sum to the total, each within its tolerance. -/
theorem C131_pt_equilibrium (hσ : 0 < σ) (E : MatEOS ℝ) (I : InitEOS ℝ) {p : SolverParams ℝ} (htl : 0 < p.tlimit)
    (htd : 0 < p.tdefault) (t : MixTols) (qr : (Nat → ℝ) → (Nat → ℝ) → Nat → ℝ) {dp : DriverParams ℝ}
    (hf0 : 0 < dp.lineFac) (hf1 : dp.lineFac ≤ 1) (hn : 0 < n) {vt : ℝ} (hvt : 0 < vt) (sieTot : ℝ)
    (hp : ∀ m T, m < n → 0 ≤ E.rhoPmin m T) {s0 : PS ℝ} (h : InputOk n vt s0)
    (hc : (pteSolver σ (ptSys σ E I p t qr n vt sieTot) dp s0).converged = true)
    (hsl : (pteSolver σ (ptSys σ E I p t qr n vt sieTot) dp s0).slow = false) :
    let r := pteSolver σ (ptSys σ E I p t qr n vt sieTot) dp s0
    let utotal := (∑ m ∈ Finset.range n, s0.a.rho m * s0.a.vfrac m) * sieTot
    |∑ m ∈ Finset.range n, r.s.a.vfrac m - vt| < t.tol.relV ∧
    |∑ m ∈ Finset.range n, s0.a.rho m * s0.a.vfrac m * r.s.a.sie m - utotal|
      < t.tol.relE * (max |utotal| (1 / 10 ^ 14) + σ) := by
  intro r utotal
  obtain ⟨c, s, c2, c3, c4, c5, hI, hr, hch⟩ := pt_run (n := n) hσ E I htl htd t qr hf0 hf1 hn hvt sieTot hp h
  have hch := hch hc hsl
  have hU : 0 < c.U := by rw [c4]; exact lt_of_lt_of_le (by norm_num) (le_max_right _ _)
  have hUs : 0 < c.U + σ := by linarith
  change r.s = _ at hr
  obtain ⟨r0, hres⟩ := hI.res
  rw [hres] at hch
  obtain ⟨g1, g2⟩ := C18_pt_meaning t.tol vt c.ut s.a.vfrac s.a.u r0 hch
  have hsie : r.s.a.sie = s.a.sie := by rw [hr]; rfl
  have hv : r.s.a.vfrac = s.a.vfrac := by rw [hr]; rfl
  refine ⟨by rw [hv]; exact g1, ?_⟩
  have e4 : ∑ m ∈ Finset.range n, s0.a.rho m * s0.a.vfrac m * r.s.a.sie m - utotal
      = (∑ m ∈ Finset.range n, s.a.u m - c.ut) * (c.U + σ) := by
    rw [sub_mul, c5, div_mul_cancel₀ _ hUs.ne', Finset.sum_mul]
    congr 1
    refine Finset.sum_congr rfl fun m hm => ?_
    have hm := Finset.mem_range.mp hm
    rw [(hI.mat m hm).u, hsie, c2 m hm, div_mul_cancel₀ _ hUs.ne']
  rw [e4, abs_mul, abs_of_pos hUs, ← c4]
  exact mul_lt_mul_of_pos_right g2 hUs

end Verif.PTE
