import Verif.Props.PTEScratch

/-! # C132 for `PTESolverRhoU`, whose `Init` also uses the Jacobian's memory as scratch space -/

set_option linter.unusedSectionVars false

namespace Verif.PTE

open Robust

section
variable {K : Type*} [Field K] [LinearOrder K] [IsStrictOrderedRing K]

/-- Where two flat memories agree once `k` entries of the four copies have been made. -/
def Known (N n k i : Nat) : Prop :=
  N * N ≤ i ∨ i < k ∨ (n ≤ i ∧ i < n + k) ∨ (2 * n ≤ i ∧ i < 2 * n + k) ∨ (3 * n ≤ i ∧ i < 3 * n + k)

/-- Where they agree when the residual has been copied too. -/
def Known2 (N n i : Nat) : Prop := N * N ≤ i ∨ i < 4 * n + N

theorem idealVfrac_same {σ : K} {E : MatEOS K} {n N : Nat} {Tn P T : K} : ∀ f m (s s' : IdealState K), m + f ≤ n →
    s.rho = s'.rho → s.vfrac = s'.vfrac → s.sie = s'.sie → s.temp = s'.temp → s.press = s'.press →
    (∀ i, Known2 N n i → s.mem i = s'.mem i) →
    let r := idealVfrac σ E n N Tn P T f m s
    let r' := idealVfrac σ E n N Tn P T f m s'
    r.1 = r'.1 ∧ r.2.rho = r'.2.rho ∧ r.2.vfrac = r'.2.vfrac ∧ r.2.sie = r'.2.sie ∧ r.2.temp = r'.2.temp ∧
      r.2.press = r'.2.press ∧ r.2.mem = s.mem ∧ r'.2.mem = s'.mem := by
  intro f
  induction f with
  | zero => intro m s s' _ h1 h2 h3 h4 h5 _; exact ⟨rfl, h1, h2, h3, h4, h5, rfl, rfl⟩
  | succ f ih =>
    intro m s s' hm h1 h2 h3 h4 h5 h6
    have e1 : s.mem (offRhobar N n + m) = s'.mem (offRhobar N n + m) :=
      h6 _ (.inl (by unfold offRhobar offU offRes; omega))
    have e2 : ∀ v : Nat → K, fill (m + 1) (fun i => s.mem (2 * n + i)) v = fill (m + 1) (fun i => s'.mem (2 * n + i)) v := by
      intro v
      funext i
      rw [fill_apply, fill_apply]
      split_ifs with hi
      · exact h6 _ (.inr (by omega))
      · rfl
    simp only [idealVfrac]
    rw [e1, h2, h4, h5]
    split_ifs
    · exact ⟨rfl, h1, e2 _, h3, rfl, rfl, rfl, rfl⟩
    · exact ih (m + 1) _ _ (by omega) h1 rfl h3 rfl rfl h6

theorem store_same {o n N m0 : Nat} {f f' : Nat → K} {a b : Nat → K} (hf : ∀ m, m < n → f m = f' m)
    (h : ∀ i, Known2 N m0 i → a i = b i) : ∀ i, Known2 N m0 i → store o n f a i = store o n f' b i := by
  unfold store
  refine forN_rel (R := fun _ (t t' : Nat → K) => ∀ i, Known2 N m0 i → t i = t' i) h ?_
  intro m t t' hm ht i hi
  rw [Function.update_apply, Function.update_apply]
  split_ifs
  · exact hf m hm
  · exact ht i hi

theorem tryIdeal_same {σ : K} {E : MatEOS K} {n N : Nat} {us Tn vt : K} {resid resid' : (Nat → K) → (Nat → K) → (Nat → K) → (Nat → K) → Nat → K}
    (hres : resid = resid') {s s' : IdealState K}
    (h1 : s.rho = s'.rho) (h2 : s.vfrac = s'.vfrac) (h3 : s.sie = s'.sie) (h4 : s.temp = s'.temp) (h5 : s.press = s'.press)
    (h6 : ∀ i, N * N ≤ i → s.mem i = s'.mem i) :
    let r := tryIdealPTE σ E n N us Tn vt resid s
    let r' := tryIdealPTE σ E n N us Tn vt resid' s'
    r.rho = r'.rho ∧ r.vfrac = r'.vfrac ∧ r.sie = r'.sie ∧ r.temp = r'.temp ∧ r.press = r'.press ∧
      ∀ i, N * N ≤ i → r.mem i = r'.mem i := by
  subst hres
  have hid : idealPTE σ n us Tn vt s = idealPTE σ n us Tn vt s' := by
    unfold idealPTE
    rw [h1, h2, h3, h4, h5]
  have hm1 := forN_rel (n := n)
    (body := fun a m => Function.update (Function.update (Function.update (Function.update a
      (0 + m) (a (offU N + m))) (n + m) (s.press m)) (2 * n + m) (s.vfrac m)) (3 * n + m) (s.rho m))
    (body' := fun a m => Function.update (Function.update (Function.update (Function.update a
      (0 + m) (a (offU N + m))) (n + m) (s'.press m)) (2 * n + m) (s'.vfrac m)) (3 * n + m) (s'.rho m))
    (s := s.mem) (s' := s'.mem)
    (R := fun k t t' => ∀ i, Known N n k i → t i = t' i)
    (by
      intro i hi
      rcases hi with hi | hi | hi | hi | hi
      · exact h6 i hi
      all_goals omega)
    (by
      intro m t t' hm ht i hi
      have hu : t (offU N + m) = t' (offU N + m) := ht _ (.inl (by unfold offU offRes; omega))
      simp only [Function.update_apply, h1, h2, h5, hu]
      split_ifs with a1 a2 a3 a4
      iterate 4 rfl
      refine ht i ?_
      unfold Known at hi ⊢
      omega)
  set m1 := forN n (fun a m => Function.update (Function.update (Function.update (Function.update a
      (0 + m) (a (offU N + m))) (n + m) (s.press m)) (2 * n + m) (s.vfrac m)) (3 * n + m) (s.rho m)) s.mem with hm1d
  set m1' := forN n (fun a m => Function.update (Function.update (Function.update (Function.update a
      (0 + m) (a (offU N + m))) (n + m) (s'.press m)) (2 * n + m) (s'.vfrac m)) (3 * n + m) (s'.rho m)) s'.mem with hm1d'
  have hm2 := forN_rel (n := N)
    (body := fun (t : (Nat → K) × K) m =>
      let a := Function.update t.1 (4 * n + m) (t.1 (offRes N + m))
      (a, t.2 + a (4 * n + m) * a (4 * n + m)))
    (body' := fun (t : (Nat → K) × K) m =>
      let a := Function.update t.1 (4 * n + m) (t.1 (offRes N + m))
      (a, t.2 + a (4 * n + m) * a (4 * n + m)))
    (s := (m1, 0)) (s' := (m1', 0))
    (R := fun k t t' => t.2 = t'.2 ∧ ∀ i, (N * N ≤ i ∨ i < 4 * n + k) → t.1 i = t'.1 i)
    ⟨rfl, fun i hi => hm1 i (by unfold Known; omega)⟩
    (by
      rintro m ⟨t, x⟩ ⟨t', x'⟩ hm ⟨hx, ht⟩
      dsimp only at hx ht ⊢
      have hr : t (offRes N + m) = t' (offRes N + m) := ht _ (.inl (by unfold offRes; omega))
      refine ⟨?_, ?_⟩
      · rw [Function.update_self, Function.update_self, hx, hr]
      · intro i hi
        rw [Function.update_apply, Function.update_apply]
        split_ifs
        · exact hr
        · exact ht i (by omega))
  set c := forN N (fun (t : (Nat → K) × K) m =>
      let a := Function.update t.1 (4 * n + m) (t.1 (offRes N + m))
      (a, t.2 + a (4 * n + m) * a (4 * n + m))) (m1, 0) with hcd
  set c' := forN N (fun (t : (Nat → K) × K) m =>
      let a := Function.update t.1 (4 * n + m) (t.1 (offRes N + m))
      (a, t.2 + a (4 * n + m) * a (4 * n + m))) (m1', 0) with hcd'
  obtain ⟨hno, hm2⟩ := hm2
  have hv := idealVfrac_same (σ := σ) (E := E) (n := n) (N := N) (Tn := Tn) (P := (idealPTE σ n us Tn vt s').1)
    (T := (idealPTE σ n us Tn vt s').2) n 0 { s with mem := c.1 } { s' with mem := c'.1 } (by omega) h1 h2 h3 h4 h5 hm2
  dsimp only at hv
  unfold tryIdealPTE
  dsimp only
  rw [← hm1d, ← hm1d', ← hcd, ← hcd', hid]
  generalize idealVfrac σ E n N Tn (idealPTE σ n us Tn vt s').1 (idealPTE σ n us Tn vt s').2 n 0 { s with mem := c.1 } = r at hv ⊢
  generalize idealVfrac σ E n N Tn (idealPTE σ n us Tn vt s').1 (idealPTE σ n us Tn vt s').2 n 0 { s' with mem := c'.1 } = r' at hv ⊢
  obtain ⟨v0, v1, v2, v3, v4, v5, v6, v7⟩ := hv
  have hmem : ∀ i, Known2 N n i → r.2.mem i = r'.2.mem i := by rw [v6, v7]; exact hm2
  have hrb : ∀ m, r.2.mem (offRhobar N n + m) = r'.2.mem (offRhobar N n + m) :=
    fun m => hmem _ (.inl (by unfold offRhobar offU offRes; omega))
  rw [← v0]
  by_cases hr : r.1 = true
  · rw [if_pos hr, if_pos hr]
    exact ⟨v1, v2, v3, v4, v5, fun i hi => hmem i (.inl hi)⟩
  rw [if_neg hr, if_neg hr]
  have hrho : fill n (fun m => ratio σ (r.2.mem (offRhobar N n + m)) (r.2.vfrac m)) r.2.rho =
      fill n (fun m => ratio σ (r'.2.mem (offRhobar N n + m)) (r'.2.vfrac m)) r'.2.rho := by
    simp only [hrb, v1, v2]
  rw [hrho, v2, v4]
  simp only [hrb]
  set T := (idealPTE σ n us Tn vt s').2
  set rho := fill n (fun m => ratio σ (r'.2.mem (offRhobar N n + m)) (r'.2.vfrac m)) r'.2.rho
  have hpr : fill n (fun m => ratio σ (E.pOf m (rho m) (Tn * T) (E.eOf m (rho m) (Tn * T))) us) r.2.press =
      fill n (fun m => ratio σ (E.pOf m (rho m) (Tn * T) (E.eOf m (rho m) (Tn * T))) us) r'.2.press := by rw [v5]
  rw [hpr]
  have hm3 := store_same (o := offU N) (n := n) (N := N) (m0 := n)
    (f := fun m => r'.2.mem (offRhobar N n + m) * ratio σ (E.eOf m (rho m) (Tn * T)) us)
    (f' := fun m => r'.2.mem (offRhobar N n + m) * ratio σ (E.eOf m (rho m) (Tn * T)) us) (fun _ _ => rfl) hmem
  set m3 := store (offU N) n (fun m => r'.2.mem (offRhobar N n + m) * ratio σ (E.eOf m (rho m) (Tn * T)) us) r.2.mem
  set m3' := store (offU N) n (fun m => r'.2.mem (offRhobar N n + m) * ratio σ (E.eOf m (rho m) (Tn * T)) us) r'.2.mem
  have hu3 : (fun m => m3 (offU N + m)) = fun m => m3' (offU N + m) := by
    funext m
    exact hm3 _ (.inl (by unfold offU offRes; omega))
  rw [hu3]
  set press := fill n (fun m => ratio σ (E.pOf m (rho m) (Tn * T) (E.eOf m (rho m) (Tn * T))) us) r'.2.press
  have hm4 := store_same (o := offRes N) (n := N) (N := N) (m0 := n)
    (f := resid r'.2.vfrac (fun m => m3' (offU N + m)) press r'.2.temp)
    (f' := resid r'.2.vfrac (fun m => m3' (offU N + m)) press r'.2.temp) (fun _ _ => rfl) hm3
  set m4 := store (offRes N) N (resid r'.2.vfrac (fun m => m3' (offU N + m)) press r'.2.temp) m3
  set m4' := store (offRes N) N (resid r'.2.vfrac (fun m => m3' (offU N + m)) press r'.2.temp) m3'
  have k1 : ∀ m, m4 (offRes N + m) = m4' (offRes N + m) := fun m => hm4 _ (.inl (by unfold offRes; omega))
  have k2 : ∀ m, m4 (offU N + m) = m4' (offU N + m) := fun m => hm4 _ (.inl (by unfold offU offRes; omega))
  have k3 : ∀ m, m4 (offRhobar N n + m) = m4' (offRhobar N n + m) :=
    fun m => hm4 _ (.inl (by unfold offRhobar offU offRes; omega))
  simp only [k1, hno]
  have hfill : ∀ (o : Nat) (a b : Nat → K), o + n ≤ 4 * n → a = b →
      fill n (fun m => m4 (o + m)) a = fill n (fun m => m4' (o + m)) b := by
    intro o a b ho hab
    subst hab
    funext i
    rw [fill_apply, fill_apply]
    split_ifs with hi
    · exact hm4 _ (.inr (by omega))
    · rfl
  split_ifs
  · refine ⟨hfill _ _ _ (by omega) rfl, hfill _ _ _ (by omega) rfl, v3, rfl, hfill _ _ _ (by omega) rfl, ?_⟩
    have q1 := forN_rel (n := n) (body := fun (a : Nat → K) m => Function.update a (offU N + m) (a (0 + m)))
      (body' := fun (a : Nat → K) m => Function.update a (offU N + m) (a (0 + m))) (s := m4) (s' := m4')
      (R := fun _ t t' => ∀ i, Known2 N n i → t i = t' i) hm4
      (by
        intro m t t' hm ht i hi
        rw [Function.update_apply, Function.update_apply]
        split_ifs
        · exact ht _ (.inr (by omega))
        · exact ht i hi)
    have q2 := forN_rel (n := N) (body := fun (a : Nat → K) m => Function.update a (offRes N + m) (a (4 * n + m)))
      (body' := fun (a : Nat → K) m => Function.update a (offRes N + m) (a (4 * n + m))) (s := _) (s' := _)
      (R := fun _ t t' => ∀ i, Known2 N n i → t i = t' i) q1
      (by
        intro m t t' hm ht i hi
        rw [Function.update_apply, Function.update_apply]
        split_ifs
        · exact ht _ (.inr (by omega))
        · exact ht i hi)
    exact fun i hi => q2 i (.inl hi)
  · refine ⟨rfl, rfl, ?_, rfl, rfl, fun i hi => hm4 i (.inl hi)⟩
    simp only [k2, k3, v3]

end

theorem rhoU_alike {σ : ℝ} {E : MatEOS ℝ} {I : InitEOS ℝ} {p : SolverParams ℝ} {t : MixTols}
    {qr : (Nat → ℝ) → (Nat → ℝ) → Nat → ℝ} {n : Nat} {vt sieTot : ℝ} :
    Alike (rhoUSys σ E I p t qr n vt sieTot) (Same True False False False (2 * n) n)
      (fun s s' => Same True False False False (2 * n) n s s' ∧ s.jac = s'.jac ∧ s.dU = s'.dU)
      (fun s s' => Same True False False False (2 * n) n s s' ∧ s.dx = s'.dx ∧ s.dU = s'.dU)
      (fun s s' => Same True False False False (2 * n) n s s' ∧ s.dx = s'.dx)
      (fun s s' => Same True False False False (2 * n) n s s' ∧ s.dx = s'.dx ∧ s.vtemp = s'.vtemp ∧ s.utemp = s'.utemp) := by
  constructor
  · intro s s' h
    simp only [rhoUSys]
    rw [h.a, h.residual, h.rhobar, h.rhoTotal]
  · intro s s' h
    refine ⟨⟨h.a, h.rhobar, h.rhoTotal, h.uscale, h.Tnorm, h.residual, h.utot, h.ms, h.Tequil, h.Pequil, h.vtemp, h.utemp, h.dx, ?_⟩,
      ?_, ?_⟩
    all_goals
      simp only [rhoUSys, rhoUJac, h.a, h.rhobar, h.uscale, h.Tnorm, rhoUJacobian_agree h.jac, implies_true]
  · rintro s s' ⟨h, hj, hU⟩
    obtain ⟨a1, a2, a3⟩ := h.solve σ qr hj
    refine ⟨a1, fun hf => ⟨(a2 hf).1, (a2 hf).2, ?_⟩, a3⟩
    rcases solveMember_same σ qr hj h.residual h.dx with ⟨x, e1, e2⟩ | ⟨e1, e2⟩
    · simp only [rhoUSys, e1, e2, hU]
    · simp only [rhoUSys, e1, e2, hU]
  · rintro s s' ⟨h, hx, hU⟩
    refine h.applyScale hx ?_
    simp only [h.a, h.rhobar, h.Tnorm, hx, hU]
  · exact fun s s' h => h.1
  · rintro s s' x ⟨h, hx⟩
    have hv : ∀ f : Nat → ℝ, fill n f s.vtemp = fill n f s'.vtemp := fun f => fill_congr h.vtemp
    have hw : ∀ f : Nat → ℝ, fill n f s.utemp = fill n f s'.utemp := fun f => fill_congr h.utemp
    refine ⟨?_, ⟨?_, ?_, ?_, ?_, ?_, ?_, ?_, ?_, ?_, ?_, ?_, ?_, ?_, ?_⟩, ?_, ?_, ?_⟩
    all_goals
      simp only [rhoUSys, rhoUTest, rhoUResid, if_true, h.a, h.rhobar, h.rhoTotal, h.uscale, h.Tnorm, h.residual, h.utot trivial,
        hx, hv, hw, implies_true, false_implies]
    exact h.jac
  · rintro s s' x ⟨h, hx, e0, e1⟩
    refine ⟨?_, ⟨?_, ?_, ?_, ?_, ?_, ?_, ?_, ?_, ?_, ?_, ?_, ?_, ?_, ?_⟩, ?_, ?_, ?_⟩
    all_goals
      simp only [rhoUSys, rhoUTest, rhoUResid, Bool.false_eq_true, if_false, h.a, h.rhobar, h.rhoTotal, h.uscale, h.Tnorm, h.residual,
        h.utot trivial, hx, e0, e1, implies_true, false_implies]
    exact h.jac
  · rintro s s' ⟨h, -⟩
    exact h

/-- C132, RhoU: its `Init` moreover saves four arrays and the residual in the memory of the Jacobian. -/
theorem C132_rhoU {σ : ℝ} {E : MatEOS ℝ} {I : InitEOS ℝ} {p : SolverParams ℝ} {t : MixTols}
    {qr : (Nat → ℝ) → (Nat → ℝ) → Nat → ℝ} {n : Nat} {vt sieTot : ℝ} (dp : DriverParams ℝ) {s s' : PS ℝ}
    (h : SameCall (2 * n) n s s') :
    SameOutcome (pteSolver σ (rhoUSys σ E I p t qr n vt sieTot) dp s)
      (pteSolver σ (rhoUSys σ E I p t qr n vt sieTot) dp s') := by
  have h0 := initBase_same (σ := σ) (E := E) (I := I) (p := p) (vt := vt) (sieTot := sieTot) h
  set b := initBase σ E I p n vt sieTot s with hb
  set b' := initBase σ E I p n vt sieTot s' with hb'
  have hr : (rhoUResid n vt b).residual = (rhoUResid n vt b').residual := by
    simp only [rhoUResid]
    rw [h0.a, h0.utot trivial]
    exact rhoUResidual_agree h0.residual
  have hI := tryIdeal_same (σ := σ) (E := E) (n := n) (N := 2 * n) (us := b.uscale) (Tn := b.Tnorm) (vt := vt)
    (resid := fun v u pr t => rhoUResidual n vt b.utot v u pr t (rhoUResid n vt b).residual)
    (resid' := fun v u pr t => rhoUResidual n vt b'.utot v u pr t (rhoUResid n vt b').residual)
    (by rw [hr, h0.utot trivial])
    (s := toIdeal (2 * n) n (rhoUResid n vt b)) (s' := toIdeal (2 * n) n (rhoUResid n vt b'))
    (by simp only [toIdeal, rhoUResid, h0.a]) (by simp only [toIdeal, rhoUResid, h0.a]) (by simp only [toIdeal, rhoUResid, h0.a])
    (by simp only [toIdeal, rhoUResid, h0.a]) (by simp only [toIdeal, rhoUResid, h0.a])
    (by
      intro i hi
      simp only [toIdeal]
      rw [hr]
      have e1 : (rhoUResid n vt b).jac i = (rhoUResid n vt b').jac i := h0.jac i hi
      have e2 : (rhoUResid n vt b).a = (rhoUResid n vt b').a := h0.a
      have e3 : (rhoUResid n vt b).rhobar = (rhoUResid n vt b').rhobar := h0.rhobar
      rw [e1, e2, e3])
  have hS : Same True False False False (2 * n) n (rhoUInit σ E I p n vt sieTot s).1 (rhoUInit σ E I p n vt sieTot s').1 := by
    simp only [rhoUInit, ← hb, ← hb']
    have e1 : (rhoUResid n vt b).uscale = b.uscale := rfl
    have e2 : (rhoUResid n vt b).Tnorm = b.Tnorm := rfl
    have e3 : (rhoUResid n vt b).utot = b.utot := rfl
    have f1 : (rhoUResid n vt b').uscale = b.uscale := h0.uscale.symm
    have f2 : (rhoUResid n vt b').Tnorm = b.Tnorm := h0.Tnorm.symm
    have f3 : (rhoUResid n vt b').utot = b'.utot := rfl
    rw [e1, e2, e3, f1, f2, f3]
    obtain ⟨i1, i2, i3, i4, i5, i6⟩ := hI
    refine ⟨?_, ?_, h0.rhoTotal, h0.uscale, h0.Tnorm, ?_, h0.utot, False.elim, False.elim, False.elim, h0.vtemp, h0.utemp, h0.dx, ?_⟩
    · simp only [ofIdeal]
      rw [i1, i2, i3, i4, i5]
      congr 1
      funext i
      exact i6 _ (by unfold offU offRes; omega)
    · funext i
      exact i6 _ (by unfold offRhobar offU offRes; omega)
    · funext i
      exact i6 _ (by unfold offRes; omega)
    · exact i6
  refine outcome_of_rel (pteSolver_rel rhoU_alike σ dp (Out := fun s s' => s.a = s'.a) hS ?_ ?_)
  · show residualNorm (2 * n) (rhoUInit σ E I p n vt sieTot s).1.residual = residualNorm (2 * n) (rhoUInit σ E I p n vt sieTot s').1.residual
    rw [hS.residual]
  · intro t t' ht
    exact ht.finalize

end Verif.PTE
