import Verif.Lemmas.PTEFull

/-! # C130, C131 for `PTESolverFixedT` and `PTESolverFixedP` -/

set_option linter.unusedSectionVars false

namespace Verif.PTE

open Robust

variable {σ saf : ℝ} {E : MatEOS ℝ} {n : Nat}

/-! ## FixedT -/

/-- Material `m` is in the state its EOS gives at temperature `T`, in the solver's units. -/
structure FTMat (σ : ℝ) (E : MatEOS ℝ) (rb : Nat → ℝ) (U T : ℝ) (a : Mats ℝ) (m : Nat) : Prop where
  mix : Mixed σ E (rb m) T a m
  press : a.press m = E.pOf m (a.rho m) T (a.sie m) / (U + σ)

/-- What does not change during a solve. -/
structure FTFix (rb : Nat → ℝ) (U T : ℝ) (tp : Nat → ℝ) (s : PS ℝ) : Prop where
  rhobar : s.rhobar = rb
  uscale : s.uscale = U
  T : s.Tequil = T
  Tnorm : s.Tnorm = 1
  temp : s.a.temp = tp

/-- The invariant. -/
structure FTInv (σ : ℝ) (E : MatEOS ℝ) (n : Nat) (vt : ℝ) (rb : Nat → ℝ) (U T : ℝ) (tp : Nat → ℝ) (s : PS ℝ) : Prop where
  fix : FTFix rb U T tp s
  res : ∃ r0, s.residual = fixedTResidual n vt s.a.vfrac s.a.press r0
  mat : ∀ m, m < n → FTMat σ E rb U T s.a m

/-- After `ScaleDx`. -/
structure FTScaled (σ saf : ℝ) (E : MatEOS ℝ) (n : Nat) (rb : Nat → ℝ) (U T : ℝ) (tp : Nat → ℝ) (s : PS ℝ) : Prop where
  fix : FTFix rb U T tp s
  vpos : ∀ m, m < n → 0 < s.a.vfrac m
  dx : ∃ dx : Nat → ℝ, ∀ i, i < n → s.dx i = dx i * fixedTScaleDx σ saf E n T rb s.a.vfrac dx

/-- After a trial step. -/
structure FTTried (σ saf : ℝ) (E : MatEOS ℝ) (n : Nat) (vt : ℝ) (rb : Nat → ℝ) (U T : ℝ) (tp : Nat → ℝ) (s : PS ℝ) : Prop where
  inv : FTInv σ E n vt rb U T tp s
  cache : ∃ (v dx : Nat → ℝ), (∀ m, m < n → 0 < v m ∧ s.vtemp m = v m) ∧
    ∀ i, i < n → s.dx i = dx i * fixedTScaleDx σ saf E n T rb v dx

theorem fixedT_trial_pos (hσ : 0 < σ) (hsaf0 : 0 ≤ saf) (hsaf1 : saf < 1) (E : MatEOS ℝ) (T : ℝ) (rb : Nat → ℝ)
    {v dx dx' : Nat → ℝ} (hv : ∀ m, m < n → 0 < v m) (hp : ∀ m T, m < n → 0 ≤ E.rhoPmin m T) {t : ℝ} (ht0 : 0 ≤ t)
    (ht1 : t ≤ 1) (hdx : ∀ i, i < n → dx' i = dx i * fixedTScaleDx σ saf E n T rb v dx) {m : Nat} (hm : m < n) :
    0 < v m + t * dx' m := by
  have h := (C22_fixedT hσ hsaf0 hsaf1 E (n := n) 1 T rb dx ⟨v, v, v, v, v, v⟩ hv (fun m hm => hp m T hm) ht0 ht1).2.2 m hm
  dsimp only at h
  have h1 := h.1
  unfold fixedTTestUpdate at h1
  dsimp only [stateFromVT] at h1
  rw [fill_apply, if_pos hm] at h1
  rw [hdx m hm, mul_comm (dx m)]
  exact h1

theorem ftTest_aux {vt U T : ℝ} {rb tp : Nat → ℝ} (hσ : 0 < σ) (hsaf0 : 0 ≤ saf) (hsaf1 : saf < 1) (hU : 0 < U)
    (hrb : ∀ m, m < n → 0 < rb m) (hp : ∀ m T, m < n → 0 ≤ E.rhoPmin m T)
    {s : PS ℝ} (hf : FTFix rb U T tp s)
    (hc : ∃ (v dx : Nat → ℝ), (∀ m, m < n → 0 < v m ∧ s.vtemp m = v m) ∧
      ∀ i, i < n → s.dx i = dx i * fixedTScaleDx σ saf E n T rb v dx)
    {t : ℝ} (ht0 : 0 < t) (ht1 : t ≤ 1) : FTTried σ saf E n vt rb U T tp (fixedTTest σ E n vt s t false).1 := by
  obtain ⟨v, dx, hv, hd⟩ := hc
  have e : (fixedTTest σ E n vt s t false).1 = fixedTResid n vt { s with
      a := { stateFromVT σ E n s.uscale s.Tequil s.Tequil s.rhobar (fill n (fun m => s.vtemp m + t * s.dx m) s.a.vfrac) s.a with
        temp := s.a.temp } } := rfl
  rw [e]
  refine ⟨⟨⟨hf.rhobar, hf.uscale, hf.T, hf.Tnorm, hf.temp⟩, ⟨s.residual, rfl⟩, fun m hm => ?_⟩, v, dx, hv, hd⟩
  have hvm : 0 < s.vtemp m + t * s.dx m := by
    rw [(hv m hm).2]
    exact fixedT_trial_pos hσ hsaf0 hsaf1 E T rb (fun m hm => (hv m hm).1) hp ht0.le ht1 hd hm
  have hrm := hrb m hm
  have hrs : 0 < rb m + σ := by linarith
  unfold fixedTResid
  dsimp only
  rw [hf.rhobar, hf.uscale, hf.T]
  refine ⟨⟨?_, ?_, ?_⟩, ?_⟩ <;> simp only [stateFromVT, fill_apply, if_pos hm]
  · exact hvm
  · exact guarded_ratio hσ hvm _
  · refine ⟨rb m / (rb m + σ), le_rfl, by rw [div_le_one hrs]; linarith, ?_⟩
    rw [ratio_pos_den _ hrm.le]; field_simp
  · rw [ratio_pos_den _ hU.le]

theorem fixedT_keeps {vt U T : ℝ} {rb tp : Nat → ℝ} (hσ : 0 < σ) {p : SolverParams ℝ} (hsaf0 : 0 ≤ p.saf) (hsaf1 : p.saf < 1)
    (t : MixTols) (qr : (Nat → ℝ) → (Nat → ℝ) → Nat → ℝ) (hU : 0 < U)
    (hrb : ∀ m, m < n → 0 < rb m) (hp : ∀ m T, m < n → 0 ≤ E.rhoPmin m T) :
    Keeps (fixedTSys σ E p t qr n vt) (fun _ => FTInv σ E n vt rb U T tp) (FTScaled σ p.saf E n rb U T tp)
      (FTTried σ p.saf E n vt rb U T tp) := by
  constructor
  · intro k s h
    exact ⟨⟨h.fix.rhobar, h.fix.uscale, h.fix.T, h.fix.Tnorm, h.fix.temp⟩, h.res, h.mat⟩
  · intro k s h
    change FTInv σ E n vt rb U T tp (solveMember σ qr n s).1
    unfold solveMember
    split
    · exact h
    · exact ⟨⟨h.fix.rhobar, h.fix.uscale, h.fix.T, h.fix.Tnorm, h.fix.temp⟩, h.res, h.mat⟩
  · intro k s h
    exact ⟨⟨h.fix.rhobar, h.fix.uscale, h.fix.T, h.fix.Tnorm, h.fix.temp⟩, h.res, h.mat⟩
  · intro k s h
    refine ⟨⟨h.fix.rhobar, h.fix.uscale, h.fix.T, h.fix.Tnorm, h.fix.temp⟩, fun m hm => (h.mat m hm).mix.vfrac, s.dx,
      fun i hi => ?_⟩
    have e : ((fixedTSys σ E p t qr n vt).scaleDx s).1.dx i
        = s.dx i * fixedTScaleDx σ p.saf E n s.Tequil s.rhobar s.a.vfrac s.dx := by
      simp only [fixedTSys, applyScale, mapN_apply, if_pos hi]
    rw [e, h.fix.T, h.fix.rhobar]
    rfl
  · intro s h
    obtain ⟨dx, hd⟩ := h.dx
    have e : (fixedTTest σ E n vt s 1 true).1
        = (fixedTTest σ E n vt { s with vtemp := fill n s.a.vfrac s.vtemp } 1 false).1 := rfl
    change FTTried σ p.saf E n vt rb U T tp (fixedTTest σ E n vt s 1 true).1
    rw [e]
    exact ftTest_aux (s := { s with vtemp := fill n s.a.vfrac s.vtemp }) hσ hsaf0 hsaf1 hU hrb hp
      ⟨h.fix.rhobar, h.fix.uscale, h.fix.T, h.fix.Tnorm, h.fix.temp⟩
      ⟨s.a.vfrac, dx, fun m hm => ⟨h.vpos m hm, by dsimp only; rw [fill_apply, if_pos hm]⟩, hd⟩ one_pos le_rfl
  · intro s t h ht0 ht1
    exact ftTest_aux hσ hsaf0 hsaf1 hU hrb hp h.inv.fix h.cache ht0 ht1
  · intro k s h
    exact h.inv

/-- The volume fractions FixedT starts from (`mixed_cell_models.hpp:1530`). -/
noncomputable def ftStart (σ : ℝ) (E : MatEOS ℝ) (n : Nat) (vt T : ℝ) (s0 : PS ℝ) : Nat → ℝ :=
  (setVfracFromT σ n vt (initRhoBar n s0).rhobar (fun m => E.rhoPmin m T) s0.a.vfrac).2

/-- The energy scale of FixedT: `Σ ρ|e|` at its starting densities, but at least `1e-14` (`mixed_cell_models.hpp:1535-1543`). -/
noncomputable def ftScale (σ : ℝ) (E : MatEOS ℝ) (n : Nat) (vt T : ℝ) (s0 : PS ℝ) : ℝ :=
  let r := fun m => ratio σ (s0.a.rho m * s0.a.vfrac m) (ftStart σ E n vt T s0 m)
  max (∑ m ∈ Finset.range n, |E.eOf m (r m) T| * r m) (1 / 10 ^ 14)

theorem setVfracFromT_pos (hσ : 0 < σ) (hn : 0 < n) {vt : ℝ} (hvt : 0 < vt)
    {rhobar rhoPmin v : Nat → ℝ} (hr : ∀ m, m < n → 0 < rhobar m) (hp : ∀ m, m < n → 0 ≤ rhoPmin m)
    (hv : ∀ m, m < n → 0 < v m) :
    ∀ m, m < n → 0 < (setVfracFromT σ n vt rhobar rhoPmin v).2 m := by
  by_cases h : (setVfracFromT σ n vt rhobar rhoPmin v).1 = true
  · rw [setVfracFromT_fail hv h]; exact hv
  · exact (C20_success_sum hσ hn hvt hr hp (by simpa using h)).1

theorem fixedT_init (hσ : 0 < σ) (hn : 0 < n) {vt T : ℝ} (hvt : 0 < vt) (hp : ∀ m T, m < n → 0 ≤ E.rhoPmin m T)
    {s0 : PS ℝ} (hr : ∀ m, m < n → 0 < s0.a.rho m) (hv : ∀ m, m < n → 0 < s0.a.vfrac m) :
    FTInv σ E n vt (initRhoBar n s0).rhobar (ftScale σ E n vt T s0) T s0.a.temp
      (fixedTInit σ E n vt (fixedTCtor T s0)).1 := by
  have hrbs : ∀ m, m < n → (initRhoBar n s0).rhobar m = s0.a.rho m * s0.a.vfrac m := fun m hm => rhobar_eq s0 hm
  have hrb : ∀ m, m < n → 0 < (initRhoBar n s0).rhobar m := fun m hm => by
    rw [hrbs m hm]; exact mul_pos (hr m hm) (hv m hm)
  have hvp := setVfracFromT_pos hσ hn hvt hrb (rhoPmin := fun m => E.rhoPmin m T) (fun m hm => hp m T hm) hv
  set rb := (initRhoBar n s0).rhobar with hrbd
  set v := (setVfracFromT σ n vt rb (fun m => E.rhoPmin m T) s0.a.vfrac).2 with hvd
  have hsc : max (forN n (fun t m => t + |E.eOf m (ratio σ (rb m) (v m)) T| * ratio σ (rb m) (v m)) 0) (1 / 10 ^ 14)
      = ftScale σ E n vt T s0 := by
    unfold ftScale
    dsimp only
    rw [forN_add, zero_add]
    congr 1
    refine Finset.sum_congr rfl fun m hm => ?_
    rw [hrbs m (Finset.mem_range.mp hm)]
    rfl
  have hU : 0 < ftScale σ E n vt T s0 := by
    unfold ftScale; exact lt_of_lt_of_le (by norm_num) (le_max_right _ _)
  set s := (fixedTInit σ E n vt (fixedTCtor T s0)).1 with hs
  have hus : s.uscale = ftScale σ E n vt T s0 := hsc
  refine ⟨⟨rfl, hus, rfl, rfl, rfl⟩, ⟨s0.residual, rfl⟩, fun m hm => ⟨⟨hvp m hm, ?_, ?_⟩, ?_⟩⟩
  · have e : s.a.rho m = ratio σ (rb m) (v m) := by
      change fill n _ _ m = _
      rw [fill_apply, if_pos hm]; rfl
    rw [e]; exact guarded_ratio hσ (hvp m hm) _
  · have e : s.a.rho m = ratio σ (rb m) (v m) := by
      change fill n _ _ m = _
      rw [fill_apply, if_pos hm]; rfl
    have e2 : s.a.sie m = E.eOf m (ratio σ (rb m) (v m)) T := by
      change fill n _ _ m = _
      rw [fill_apply, if_pos hm]; rfl
    rw [e, e2]; exact guarded_self hσ (hrb m hm) _
  · have e : s.a.rho m = ratio σ (rb m) (v m) := by
      change fill n _ _ m = _
      rw [fill_apply, if_pos hm]; rfl
    have e2 : s.a.sie m = E.eOf m (ratio σ (rb m) (v m)) T := by
      change fill n _ _ m = _
      rw [fill_apply, if_pos hm]; rfl
    have e3 : s.a.press m = ratio σ (E.pOf m (ratio σ (rb m) (v m)) T (E.eOf m (ratio σ (rb m) (v m)) T)) s.uscale := by
      change fill n _ _ m = _
      rw [fill_apply, if_pos hm]; rfl
    rw [e3, e, e2, hus, ratio_pos_den _ hU.le]

/-- C130, FixedT: whatever the equations of state, the linear solver, the tolerances and the outcome, every material returns
with its mass, a positive volume fraction, and the energy and pressure its own EOS has at its density and the given
temperature. The temperature array is as the caller left it. -/
theorem C130_fixedT_state (hσ : 0 < σ) (E : MatEOS ℝ) {p : SolverParams ℝ} (hsaf0 : 0 ≤ p.saf) (hsaf1 : p.saf < 1)
    (t : MixTols) (qr : (Nat → ℝ) → (Nat → ℝ) → Nat → ℝ) {dp : DriverParams ℝ} (hf0 : 0 < dp.lineFac)
    (hf1 : dp.lineFac ≤ 1) (hn : 0 < n) {vt : ℝ} (hvt : 0 < vt) (T : ℝ) (hp : ∀ m T, m < n → 0 ≤ E.rhoPmin m T) {s0 : PS ℝ}
    (hr : ∀ m, m < n → 0 < s0.a.rho m) (hv : ∀ m, m < n → 0 < s0.a.vfrac m) :
    let r := pteSolver σ (fixedTSys σ E p t qr n vt) dp (fixedTCtor T s0)
    ∀ m, m < n → Mixed σ E (s0.a.rho m * s0.a.vfrac m) T r.s.a m ∧
      Guarded σ (ftScale σ E n vt T s0) (r.s.a.press m) (E.pOf m (r.s.a.rho m) T (r.s.a.sie m)) ∧
      r.s.a.temp m = s0.a.temp m := by
  intro r m hm
  have hU : 0 < ftScale σ E n vt T s0 := by
    unfold ftScale; exact lt_of_lt_of_le (by norm_num) (le_max_right _ _)
  have hk := fixedT_keeps (E := E) (vt := vt) (T := T) (rb := (initRhoBar n s0).rhobar) (tp := s0.a.temp) hσ hsaf0 hsaf1 t qr hU
    (fun m hm => by rw [rhobar_eq s0 hm]; exact mul_pos (hr m hm) (hv m hm)) hp
  obtain ⟨k, s, -, q2, q3, -⟩ := pteSolver_keeps hσ hk hf0 hf1 (fixedTCtor T s0) (fixedT_init hσ hn hvt hp hr hv)
  change r.s = finalizeBase n s at q3
  have hmat := q2.mat m hm
  rw [rhobar_eq s0 hm |>.symm]
  refine ⟨⟨by rw [q3]; exact hmat.mix.vfrac, by rw [q3]; exact hmat.mix.mass, by rw [q3]; exact hmat.mix.energy⟩, ?_, ?_⟩
  · have e : r.s.a.press m = s.a.press m * ftScale σ E n vt T s0 := by
      rw [q3]; unfold finalizeBase; dsimp only; rw [mapN_apply, if_pos hm, q2.fix.uscale]
    rw [e, hmat.press, show r.s.a.rho = s.a.rho by rw [q3]; rfl, show r.s.a.sie = s.a.sie by rw [q3]; rfl]
    exact guarded_div hσ hU _
  · rw [q3]; unfold finalizeBase; dsimp only; rw [mapN_apply, if_pos hm, q2.fix.Tnorm, q2.fix.temp, mul_one]

/-- C131, FixedT: if the solver reports convergence (not through the slow-convergence exit) the volume fractions fill the
given volume within the tolerance, and neighbouring materials' EOS pressures agree within the tolerance. -/
theorem C131_fixedT_equilibrium (hσ : 0 < σ) (E : MatEOS ℝ) {p : SolverParams ℝ} (hsaf0 : 0 ≤ p.saf) (hsaf1 : p.saf < 1)
    (t : MixTols) (qr : (Nat → ℝ) → (Nat → ℝ) → Nat → ℝ) {dp : DriverParams ℝ} (hf0 : 0 < dp.lineFac)
    (hf1 : dp.lineFac ≤ 1) (hn : 0 < n) {vt : ℝ} (hvt : 0 < vt) (T : ℝ) (hp : ∀ m T, m < n → 0 ≤ E.rhoPmin m T) {s0 : PS ℝ}
    (hr : ∀ m, m < n → 0 < s0.a.rho m) (hv : ∀ m, m < n → 0 < s0.a.vfrac m)
    (hc : (pteSolver σ (fixedTSys σ E p t qr n vt) dp (fixedTCtor T s0)).converged = true)
    (hsl : (pteSolver σ (fixedTSys σ E p t qr n vt) dp (fixedTCtor T s0)).slow = false) :
    let r := pteSolver σ (fixedTSys σ E p t qr n vt) dp (fixedTCtor T s0)
    let P := fun m => E.pOf m (r.s.a.rho m) T (r.s.a.sie m)
    |∑ m ∈ Finset.range n, r.s.a.vfrac m - vt| < t.tol.relV ∧
    ∀ m, m + 1 < n → |P m - P (m + 1)| <
      max (t.tol.relP * |∑ m ∈ Finset.range n, r.s.a.vfrac m * P m|) (t.tol.absP * (ftScale σ E n vt T s0 + σ)) := by
  intro r P
  have hU : 0 < ftScale σ E n vt T s0 := by
    unfold ftScale; exact lt_of_lt_of_le (by norm_num) (le_max_right _ _)
  have hUs : 0 < ftScale σ E n vt T s0 + σ := by linarith
  have hk := fixedT_keeps (E := E) (vt := vt) (T := T) (rb := (initRhoBar n s0).rhobar) (tp := s0.a.temp) hσ hsaf0 hsaf1 t qr hU
    (fun m hm => by rw [rhobar_eq s0 hm]; exact mul_pos (hr m hm) (hv m hm)) hp
  obtain ⟨k, s, -, q2, q3, q4⟩ := pteSolver_keeps hσ hk hf0 hf1 (fixedTCtor T s0) (fixedT_init hσ hn hvt hp hr hv)
  have q4 := q4 hc hsl
  change r.s = finalizeBase n s at q3
  simp only [fixedTSys, decide_eq_true_eq] at q4
  obtain ⟨r0, hres⟩ := q2.res
  rw [hres] at q4
  obtain ⟨g1, g2⟩ := C18_fixedT_meaning t.tol vt s.a.vfrac s.a.press r0 q4
  have hvf : r.s.a.vfrac = s.a.vfrac := by rw [q3]; rfl
  have hP : ∀ m, m < n → P m = s.a.press m * (ftScale σ E n vt T s0 + σ) := fun m hm => by
    rw [(q2.mat m hm).press, div_mul_cancel₀ _ hUs.ne']
    change E.pOf m _ _ _ = _
    rw [q3]; rfl
  refine ⟨by rw [hvf]; exact g1, fun m hm => ?_⟩
  have eS : ∑ m ∈ Finset.range n, r.s.a.vfrac m * P m
      = (∑ m ∈ Finset.range n, s.a.vfrac m * s.a.press m) * (ftScale σ E n vt T s0 + σ) := by
    rw [Finset.sum_mul]
    refine Finset.sum_congr rfl fun m hm => ?_
    rw [hP m (Finset.mem_range.mp hm), hvf]; ring
  rw [eS, abs_mul, abs_of_pos hUs, ← mul_assoc, ← max_mul_of_nonneg _ _ hUs.le, hP m (by omega), hP (m + 1) hm, ← sub_mul,
    abs_mul, abs_of_pos hUs]
  exact mul_lt_mul_of_pos_right (g2 m hm) hUs

end Verif.PTE
