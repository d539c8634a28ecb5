import Verif.Spec.PTEScratch
import Verif.Lemmas.PTEFull

/-! # Simulation lemmas: the driver and the parts of the solvers do not see the old contents of scratch memory -/

set_option linter.unusedSectionVars false

namespace Verif

theorem forN_rel {S S' : Type*} {n : Nat} {body : S → Nat → S} {body' : S' → Nat → S'} {s : S} {s' : S'}
    (R : Nat → S → S' → Prop) (h0 : R 0 s s')
    (hs : ∀ m t t', m < n → R m t t' → R (m + 1) (body t m) (body' t' m)) : R n (forN n body s) (forN n body' s') := by
  have : ∀ k, k ≤ n → R k (forN k body s) (forN k body' s') := by
    intro k
    induction k with
    | zero => exact fun _ => h0
    | succ k ih => exact fun hk => hs k _ _ (by omega) (ih (by omega))
  exact this n le_rfl

theorem fill_congr {K : Type*} {n : Nat} {f : Nat → K} {a b : Nat → K} (h : ∀ i, n ≤ i → a i = b i) :
    fill n f a = fill n f b := by
  funext i
  rw [fill_apply, fill_apply]
  split_ifs with h1
  · rfl
  · exact h i (by omega)

namespace PTE

open Robust

section Driver
variable {S K : Type*} [Field K] [LinearOrder K]

/-- What the driver needs of a class to make two runs go alike; `A`: start of a pass, `B`: after `Jacobian`, `C`: after
`Solve`, `D`: after `ScaleDx`, `F`: after `TestUpdate`. -/
structure Alike (Y : Sys S K) (A B C D F : S → S → Prop) : Prop where
  check : ∀ s s', A s s' → Y.check s = Y.check s'
  jac : ∀ s s', A s s' → B (Y.jacobian s) (Y.jacobian s')
  solve : ∀ s s', B s s' → (Y.solve s).2 = (Y.solve s').2 ∧ ((Y.solve s).2 = true → C (Y.solve s).1 (Y.solve s').1) ∧
    ((Y.solve s).2 = false → A (Y.solve s).1 (Y.solve s').1)
  scale : ∀ s s', C s s' → (Y.scaleDx s).2 = (Y.scaleDx s').2 ∧ D (Y.scaleDx s).1 (Y.scaleDx s').1
  weak : ∀ s s', D s s' → A s s'
  test : ∀ s s' x, D s s' → (Y.testUpdate s x true).2 = (Y.testUpdate s' x true).2 ∧
    F (Y.testUpdate s x true).1 (Y.testUpdate s' x true).1
  again : ∀ s s' x, F s s' → (Y.testUpdate s x false).2 = (Y.testUpdate s' x false).2 ∧
    F (Y.testUpdate s x false).1 (Y.testUpdate s' x false).1
  fix : ∀ s s', F s s' → A (Y.fixup s) (Y.fixup s')

/-- Two driver states with the same numbers and related objects. -/
structure DRel (A : S → S → Prop) (d d' : DState S K) : Prop where
  s : A d.s d'.s
  err : d.err = d'.err
  converged : d.converged = d'.converged
  close : d.close = d'.close
  small : d.small = d'.small
  slow : d.slow = d'.slow
  maxNiter : d.maxNiter = d'.maxNiter
  maxLine : d.maxLine = d'.maxLine
  niter : d.niter = d'.niter

variable {Y : Sys S K} {A B C D F : S → S → Prop}

theorem lineLoop_rel (h : Alike Y A B C D F) (α fac e g : K) : ∀ f it s s' err sc ml, F s s' →
    F (lineLoop Y α fac e g f it s err sc ml).1 (lineLoop Y α fac e g f it s' err sc ml).1 ∧
    (lineLoop Y α fac e g f it s err sc ml).2 = (lineLoop Y α fac e g f it s' err sc ml).2 := by
  intro f
  induction f with
  | zero => intro it s s' err sc ml hs; exact ⟨hs, rfl⟩
  | succ f ih =>
    intro it s s' err sc ml hs
    obtain ⟨h1, h2⟩ := h.again s s' sc hs
    unfold lineLoop
    dsimp only
    rw [← h1]
    split_ifs
    · exact ⟨h2, rfl⟩
    · exact ih _ _ _ _ _ _ h2

theorem lineSearch_rel (h : Alike Y A B C D F) (σ : K) (p : DriverParams K) {s s' : S} (hs : D s s') (e g : K) (ml : Nat) :
    F (lineSearch σ Y p s e g ml).1 (lineSearch σ Y p s' e g ml).1 ∧
    (lineSearch σ Y p s e g ml).2 = (lineSearch σ Y p s' e g ml).2 := by
  obtain ⟨h1, h2⟩ := h.test s s' 1 hs
  obtain ⟨h3, h4⟩ := h.again _ _ (1 / 2) h2
  unfold lineSearch
  dsimp only
  rw [← h1, ← h3]
  split_ifs
  · exact lineLoop_rel h _ _ _ _ _ _ _ _ _ _ _ h4
  · exact lineLoop_rel h _ _ _ _ _ _ _ _ _ _ _ h4
  · exact ⟨h2, rfl⟩

theorem driverTail_rel (h : Alike Y A B C D F) (σ : K) (p : DriverParams K) (mi k : Nat) (sc : K) {d d' : DState S K}
    (hd : DRel D d d') :
    (driverTail σ Y p mi k sc d).1 = (driverTail σ Y p mi k sc d').1 ∧
    DRel A (driverTail σ Y p mi k sc d).2 (driverTail σ Y p mi k sc d').2 := by
  obtain ⟨h1, h2⟩ := lineSearch_rel h σ p hd.s d.err (-2 * sc * d.err) d.maxLine
  unfold driverTail
  dsimp only
  rw [← hd.err, ← hd.maxLine, ← hd.close, ← h2]
  split_ifs
  · exact ⟨rfl, h.fix _ _ h1, rfl, rfl, rfl, hd.small, rfl, hd.maxNiter, rfl, hd.niter⟩
  · exact ⟨rfl, h.fix _ _ h1, rfl, hd.converged, rfl, hd.small, hd.slow, hd.maxNiter, rfl, hd.niter⟩

theorem driverMid_rel (h : Alike Y A B C D F) (σ : K) (p : DriverParams K) (mi k : Nat) {d d' : DState S K}
    (hd : DRel A d d') :
    (driverMid σ Y p mi k d).1 = (driverMid σ Y p mi k d').1 ∧
    DRel A (driverMid σ Y p mi k d).2 (driverMid σ Y p mi k d').2 := by
  obtain ⟨h1, h2, h3⟩ := h.solve _ _ (h.jac _ _ hd.s)
  unfold driverMid
  dsimp only
  rw [← h1, ← hd.small]
  by_cases hf : (Y.solve (Y.jacobian d.s)).2 = false
  · rw [if_pos hf, if_pos hf]
    exact ⟨rfl, h3 hf, hd.err, rfl, hd.close, rfl, hd.slow, hd.maxNiter, hd.maxLine, hd.niter⟩
  · rw [if_neg hf, if_neg hf]
    obtain ⟨h4, h5⟩ := h.scale _ _ (h2 (by simpa using hf))
    rw [← h4]
    split_ifs
    all_goals first
      | exact ⟨rfl, h.weak _ _ h5, hd.err, rfl, hd.close, rfl, hd.slow, hd.maxNiter, hd.maxLine, hd.niter⟩
      | exact driverTail_rel h σ p mi k _ ⟨h5, hd.err, hd.converged, hd.close, rfl, hd.slow, hd.maxNiter, hd.maxLine, hd.niter⟩

theorem driverLoop_rel (h : Alike Y A B C D F) (σ : K) (p : DriverParams K) (mi : Nat) : ∀ f k (d d' : DState S K),
    DRel A d d' → DRel A (driverLoop σ Y p mi f k d) (driverLoop σ Y p mi f k d') := by
  intro f
  induction f with
  | zero =>
    intro k d d' hd
    exact ⟨hd.s, hd.err, hd.converged, hd.close, hd.small, hd.slow, hd.maxNiter, hd.maxLine, rfl⟩
  | succ f ih =>
    intro k d d' hd
    have hb : (driverBody σ Y p mi k d).1 = (driverBody σ Y p mi k d').1 ∧
        DRel A (driverBody σ Y p mi k d).2 (driverBody σ Y p mi k d').2 := by
      unfold driverBody
      dsimp only
      rw [← h.check _ _ hd.s, ← hd.maxNiter]
      split_ifs
      · exact ⟨rfl, hd.s, hd.err, rfl, rfl, hd.small, hd.slow, rfl, hd.maxLine, rfl⟩
      · exact driverMid_rel h σ p mi k ⟨hd.s, hd.err, rfl, rfl, hd.small, hd.slow, rfl, hd.maxLine, rfl⟩
    unfold driverLoop
    dsimp only
    rw [← hb.1]
    split_ifs
    · exact hb.2
    · exact ih _ _ _ hb.2

theorem pteSolver_rel (h : Alike Y A B C D F) (σ : K) (p : DriverParams K) {s s' : S} {Out : S → S → Prop}
    (hi : A (Y.init s).1 (Y.init s').1) (he : (Y.init s).2 = (Y.init s').2)
    (hf : ∀ t t', A t t' → Out (Y.finalize (Y.fixup t)) (Y.finalize (Y.fixup t'))) :
    DRel Out (pteSolver σ Y p s) (pteSolver σ Y p s') := by
  unfold pteSolver
  dsimp only
  rw [he]
  have := driverLoop_rel h σ p (Y.nmat * p.maxIterPerMat) (Y.nmat * p.maxIterPerMat) 0
    { s := (Y.init s).1, err := (Y.init s').2, converged := false, close := false, small := 0, slow := false,
      maxNiter := 0, maxLine := 0, niter := 0 }
    { s := (Y.init s').1, err := (Y.init s').2, converged := false, close := false, small := 0, slow := false,
      maxNiter := 0, maxLine := 0, niter := 0 } ⟨hi, rfl, rfl, rfl, rfl, rfl, rfl, rfl, rfl⟩
  exact ⟨hf _ _ this.s, this.err, this.converged, this.close, this.small, this.slow, this.maxNiter, this.maxLine, this.niter⟩

end Driver

section Parts
variable {K : Type*} [Field K] [LinearOrder K] [IsStrictOrderedRing K]

theorem skipFill_agree {n ms : Nat} {f : Nat → K} {a b : Nat → K} (h0 : a 0 = b 0) (h : ∀ i, n ≤ i → a i = b i) :
    skipFill n ms f a = skipFill n ms f b := by
  unfold skipFill
  have hR := forN_rel (n := n)
    (body := fun (s : Nat × (Nat → K)) m => if m = ms then s else (s.1 + 1, Function.update s.2 s.1 (f m)))
    (body' := fun (s : Nat × (Nat → K)) m => if m = ms then s else (s.1 + 1, Function.update s.2 s.1 (f m)))
    (s := (1, a)) (s' := (1, b))
    (R := fun m t t' => t.1 = t'.1 ∧ m + (if ms < m then 0 else 1) ≤ t.1 ∧ ∀ i, i < t.1 ∨ n ≤ i → t.2 i = t'.2 i)
    ⟨rfl, by simp, fun i hi => by
      rcases hi with hi | hi
      · have : i = 0 := by simpa using hi
        rw [this]; exact h0
      · exact h i hi⟩
    (by
      rintro m ⟨t1, t2⟩ ⟨u1, u2⟩ hm ⟨h1, h2, h3⟩
      dsimp only at h1 h2 h3 ⊢
      subst h1
      by_cases hms : m = ms
      · subst hms
        simp only [if_true, true_and]
        refine ⟨?_, h3⟩
        rw [if_neg (lt_irrefl _)] at h2
        rw [if_pos (by omega)]
        omega
      · rw [if_neg hms, if_neg hms]
        refine ⟨rfl, ?_, ?_⟩
        · dsimp only
          split_ifs at h2 ⊢ <;> omega
        · intro i hi
          dsimp only at hi ⊢
          rw [Function.update_apply, Function.update_apply]
          split_ifs with he
          · rfl
          · exact h3 i (by omega))
  obtain ⟨_, h2, h3⟩ := hR
  funext i
  refine h3 i ?_
  split_ifs at h2 <;> omega

theorem rhoTResidual_agree {n ms : Nat} (hn : 0 < n) {utot : K} {u press r r' : Nat → K} (h : ∀ i, n ≤ i → r i = r' i) :
    rhoTResidual n ms utot u press r = rhoTResidual n ms utot u press r' := by
  unfold rhoTResidual
  refine skipFill_agree (by simp) fun i hi => ?_
  rw [Function.update_of_ne (by omega), Function.update_of_ne (by omega), h i hi]

theorem ptResidual_agree {n : Nat} {vt utot : K} {v u r r' : Nat → K} (h : ∀ i, 2 ≤ i → r i = r' i) :
    ptResidual n vt utot v u r = ptResidual n vt utot v u r' := by
  unfold ptResidual
  funext i
  simp only [Function.update_apply]
  split_ifs with h1 h2
  · rfl
  · rfl
  · exact h i (by omega)

theorem fixedTResidual_agree {n : Nat} (hn : 0 < n) {vt : K} {v p r r' : Nat → K} (h : ∀ i, n ≤ i → r i = r' i) :
    fixedTResidual n vt v p r = fixedTResidual n vt v p r' := by
  unfold fixedTResidual
  have := forN_rel (n := n - 1) (body := fun r m => Function.update r (1 + m) (p m - p (m + 1)))
    (body' := fun r m => Function.update r (1 + m) (p m - p (m + 1)))
    (s := Function.update r 0 (vt - sumNeumaier v n)) (s' := Function.update r' 0 (vt - sumNeumaier v n))
    (R := fun m t t' => ∀ i, i < 1 + m ∨ n ≤ i → t i = t' i)
    (by
      intro i hi
      rw [Function.update_apply, Function.update_apply]
      split_ifs with h1
      · rfl
      · exact h i (by omega))
    (by
      intro m t t' hm ht i hi
      rw [Function.update_apply, Function.update_apply]
      split_ifs with h1
      · rfl
      · exact ht i (by omega))
  funext i
  exact this i (by omega)

theorem fixedPResidual_agree {σ : K} {n : Nat} {vt P us : K} {v p r r' : Nat → K} (h : ∀ i, n + 1 ≤ i → r i = r' i) :
    fixedPResidual σ n vt P us v p r = fixedPResidual σ n vt P us v p r' := by
  unfold fixedPResidual
  funext i
  rw [Function.update_apply, Function.update_apply]
  split_ifs with h1
  · rfl
  · rw [fill_apply, fill_apply]
    split_ifs with h2
    · rfl
    · exact h i (by omega)

theorem rhoUResidual_agree {n : Nat} {vt utot : K} {v u p t r r' : Nat → K} (h : ∀ i, 2 * n ≤ i → r i = r' i) :
    rhoUResidual n vt utot v u p t r = rhoUResidual n vt utot v u p t r' := by
  unfold rhoUResidual
  dsimp only
  have h1 := forN_rel (n := n - 1) (body := fun r m => Function.update r (2 + m) (p (m + 1) - p m))
    (body' := fun r m => Function.update r (2 + m) (p (m + 1) - p m))
    (s := Function.update (Function.update r 0 (vt - sumNeumaier v n)) 1 (utot - sumNeumaier u n))
    (s' := Function.update (Function.update r' 0 (vt - sumNeumaier v n)) 1 (utot - sumNeumaier u n))
    (R := fun m t t' => ∀ i, i < 2 + m ∨ 2 * n ≤ i → t i = t' i)
    (by
      intro i hi
      simp only [Function.update_apply]
      split_ifs with h1 h2
      · rfl
      · rfl
      · exact h i (by omega))
    (by
      intro m t t' hm ht i hi
      rw [Function.update_apply, Function.update_apply]
      split_ifs with h1
      · rfl
      · exact ht i (by omega))
  have h2 := forN_rel (n := 2 * n - (n + 1)) (body := fun r k => Function.update r (n + 1 + k) (t (1 + k) - t k))
    (body' := fun r k => Function.update r (n + 1 + k) (t (1 + k) - t k))
    (s := _) (s' := _)
    (R := fun m t t' => ∀ i, i < n + 1 + m ∨ 2 * n ≤ i → t i = t' i)
    (fun i hi => h1 i (by omega))
    (by
      intro m t t' hm ht i hi
      rw [Function.update_apply, Function.update_apply]
      split_ifs with h1
      · rfl
      · exact ht i (by omega))
  funext i
  exact h2 i (by omega)

theorem rhoTJacobian_agree {n ms : Nat} {d : Derivs K} {j j' : Nat → K} (h : ∀ i, n * n ≤ i → j i = j' i) :
    rhoTJacobian n ms d j = rhoTJacobian n ms d j' := by
  unfold rhoTJacobian
  rw [fill_congr h]

theorem ptJacobian_agree {a b c d : K} {j j' : Nat → K} (h : ∀ i, 4 ≤ i → j i = j' i) :
    ptJacobian a b c d j = ptJacobian a b c d j' := by
  unfold ptJacobian
  funext i
  simp only [Function.update_apply]
  split_ifs
  iterate 4 rfl
  exact h i (by omega)

theorem fixedTJacobian_agree {n : Nat} {d : Nat → K} {j j' : Nat → K} (h : ∀ i, n * n ≤ i → j i = j' i) :
    fixedTJacobian n d j = fixedTJacobian n d j' := by
  unfold fixedTJacobian
  rw [fill_congr h]

theorem fixedPJacobian_agree {n : Nat} {d e : Nat → K} {j j' : Nat → K} (h : ∀ i, (n + 1) * (n + 1) ≤ i → j i = j' i) :
    fixedPJacobian n d e j = fixedPJacobian n d e j' := by
  unfold fixedPJacobian
  rw [fill_congr h]

theorem rhoUJacobian_agree {n : Nat} {d : DerivsU K} {j j' : Nat → K} (h : ∀ i, 2 * n * (2 * n) ≤ i → j i = j' i) :
    rhoUJacobian n d j = rhoUJacobian n d j' := by
  unfold rhoUJacobian
  rw [fill_congr h]

/-! ## The starting point -/

/-- The members and arrays the rest of a run reads. `fu`, `fm`, `fT`, `fP`: whether the class reads `utotal_scale`, the special
material, `Tequil`, `Pequil`. -/
structure Same (fu fm fT fP : Prop) (N n : Nat) (s s' : PS K) : Prop where
  a : s.a = s'.a
  rhobar : s.rhobar = s'.rhobar
  rhoTotal : s.rhoTotal = s'.rhoTotal
  uscale : s.uscale = s'.uscale
  Tnorm : s.Tnorm = s'.Tnorm
  residual : s.residual = s'.residual
  utot : fu → s.utot = s'.utot
  ms : fm → s.ms = s'.ms
  Tequil : fT → s.Tequil = s'.Tequil
  Pequil : fP → s.Pequil = s'.Pequil
  vtemp : ∀ i, n ≤ i → s.vtemp i = s'.vtemp i
  utemp : ∀ i, n ≤ i → s.utemp i = s'.utemp i
  dx : ∀ i, N ≤ i → s.dx i = s'.dx i
  jac : ∀ i, N * N ≤ i → s.jac i = s'.jac i

/-- The same before the residual has been computed. -/
structure Same0 (fu : Prop) (N n : Nat) (s s' : PS K) : Prop where
  a : s.a = s'.a
  rhobar : s.rhobar = s'.rhobar
  rhoTotal : s.rhoTotal = s'.rhoTotal
  uscale : s.uscale = s'.uscale
  Tnorm : s.Tnorm = s'.Tnorm
  utot : fu → s.utot = s'.utot
  residual : ∀ i, N ≤ i → s.residual i = s'.residual i
  vtemp : ∀ i, n ≤ i → s.vtemp i = s'.vtemp i
  utemp : ∀ i, n ≤ i → s.utemp i = s'.utemp i
  dx : ∀ i, N ≤ i → s.dx i = s'.dx i
  jac : ∀ i, N * N ≤ i → s.jac i = s'.jac i

theorem initRhoBar_same {N n : Nat} {s s' : PS K} (h : SameCall N n s s') :
    (initRhoBar n s).rhobar = (initRhoBar n s').rhobar ∧ (initRhoBar n s).rhoTotal = (initRhoBar n s').rhoTotal := by
  have : fill n (fun m => s.a.rho m * s.a.vfrac m) s.rhobar = fill n (fun m => s'.a.rho m * s'.a.vfrac m) s'.rhobar := by
    rw [h.rho, h.vfrac]; exact fill_congr h.rhobar
  unfold initRhoBar
  dsimp only
  rw [this]
  exact ⟨rfl, rfl⟩

theorem initBase_same {σ : K} {E : MatEOS K} {I : InitEOS K} {p : SolverParams K} {N n : Nat} {vt sieTot : K} {s s' : PS K}
    (h : SameCall N n s s') :
    Same0 True N n (initBase σ E I p n vt sieTot s) (initBase σ E I p n vt sieTot s') := by
  have hb : ∀ f : Nat → K, fill n f s.rhobar = fill n f s'.rhobar := fun f => fill_congr h.rhobar
  have hu : ∀ f : Nat → K, fill n f s.a.u = fill n f s'.a.u := fun f => fill_congr h.u
  constructor
  all_goals
    simp only [initBase, tguess, initRhoBar, hb, h.rho, h.vfrac, h.sie, h.temp, h.press, h.Tnorm, hu, forall_const]
  · rfl
  · exact h.residual
  · exact h.vtemp
  · exact h.utemp
  · exact h.dx
  · exact h.jac

theorem solveMember_same (σ : K) (qr : (Nat → K) → (Nat → K) → Nat → K) {N : Nat} {s s' : PS K}
    (hj : s.jac = s'.jac) (hr : s.residual = s'.residual) (hx : ∀ i, N ≤ i → s.dx i = s'.dx i) :
    (∃ x, solveMember σ qr N s = ({ s with dx := x }, true) ∧ solveMember σ qr N s' = ({ s' with dx := x }, true)) ∨
    (solveMember σ qr N s = (s, false) ∧ solveMember σ qr N s' = (s', false)) := by
  have he : solveAxb σ qr N s.jac (fill N s.residual s.dx) = solveAxb σ qr N s'.jac (fill N s'.residual s'.dx) := by
    rw [hj, hr, fill_congr hx]
  unfold solveMember
  rw [← he]
  cases solveAxb σ qr N s.jac (fill N s.residual s.dx) with
  | none => exact .inr ⟨rfl, rfl⟩
  | some x => exact .inl ⟨x, rfl, rfl⟩

theorem Same.dx_set {fu fm fT fP : Prop} {N n : Nat} {s s' : PS K} (h : Same fu fm fT fP N n s s') (x : Nat → K) :
    Same fu fm fT fP N n { s with dx := x } { s' with dx := x } :=
  ⟨h.a, h.rhobar, h.rhoTotal, h.uscale, h.Tnorm, h.residual, h.utot, h.ms, h.Tequil, h.Pequil, h.vtemp, h.utemp, fun _ _ => rfl, h.jac⟩

theorem Same.solve (σ : K) (qr : (Nat → K) → (Nat → K) → Nat → K) {fu fm fT fP : Prop} {N n : Nat} {s s' : PS K}
    (h : Same fu fm fT fP N n s s') (hj : s.jac = s'.jac) :
    (solveMember σ qr N s).2 = (solveMember σ qr N s').2 ∧
    ((solveMember σ qr N s).2 = true → Same fu fm fT fP N n (solveMember σ qr N s).1 (solveMember σ qr N s').1 ∧
      (solveMember σ qr N s).1.dx = (solveMember σ qr N s').1.dx) ∧
    ((solveMember σ qr N s).2 = false → Same fu fm fT fP N n (solveMember σ qr N s).1 (solveMember σ qr N s').1) := by
  rcases solveMember_same σ qr hj h.residual h.dx with ⟨x, e1, e2⟩ | ⟨e1, e2⟩
  · rw [e1, e2]
    exact ⟨rfl, fun _ => ⟨h.dx_set x, rfl⟩, fun hf => absurd hf (by simp)⟩
  · rw [e1, e2]
    exact ⟨rfl, fun hf => absurd hf (by simp), fun _ => h⟩

theorem Same.applyScale {fu fm fT fP : Prop} {N n : Nat} {s s' : PS K} (h : Same fu fm fT fP N n s s') (hx : s.dx = s'.dx)
    {c c' : K} (hc : c = c') :
    (applyScale N c s).2 = (applyScale N c' s').2 ∧ Same fu fm fT fP N n (applyScale N c s).1 (applyScale N c' s').1 ∧
    (PTE.applyScale N c s).1.dx = (PTE.applyScale N c' s').1.dx := by
  subst hc
  unfold PTE.applyScale
  dsimp only
  rw [hx]
  exact ⟨rfl, h.dx_set _, rfl⟩

theorem Same.finalize {fu fm fT fP : Prop} {N n : Nat} {s s' : PS K} (h : Same fu fm fT fP N n s s') :
    (finalizeBase n s).a = (finalizeBase n s').a := by
  unfold finalizeBase
  dsimp only
  rw [h.a, h.Tnorm, h.uscale]

theorem outcome_of_rel {d d' : DState (PS K) K} (h : DRel (fun s s' => s.a = s'.a) d d') : SameOutcome d d' :=
  ⟨h.converged, h.niter, h.maxNiter, h.maxLine, h.small, h.slow, h.err, h.s⟩

end Parts

end PTE

end Verif
