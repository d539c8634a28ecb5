import Verif.Props.IeeePTE

/-! # C147: the driver of the PTE iteration on machine numbers -/

namespace Verif

open Ieee PTE Classical Rounding

namespace Ieee

variable {S : Type*} {rnd : ℝ → ℝ} {Ω : ℝ}

/-- Invariant rule for the main loop. -/
theorem driverLoopE_inv {Y : Sys S Ext} {p : DriverParams Ext} {maxIter : Nat}
    (P : Nat → DState S Ext → Prop) (Q : DState S Ext → Prop)
    (hbrk : ∀ k d, k < maxIter → P k d → (driverBodyE rnd Ω Y p maxIter k d).1 = true → Q (driverBodyE rnd Ω Y p maxIter k d).2)
    (hcont : ∀ k d, k < maxIter → P k d → (driverBodyE rnd Ω Y p maxIter k d).1 = false →
      P (k + 1) (driverBodyE rnd Ω Y p maxIter k d).2)
    (hend : ∀ d, P maxIter d → Q { d with niter := maxIter }) :
    ∀ f k d, k + f = maxIter → P k d → Q (driverLoopE rnd Ω Y p maxIter f k d) := by
  intro f
  induction f with
  | zero =>
    intro k d hk hP
    have : k = maxIter := by omega
    subst this
    exact hend d hP
  | succ f ih =>
    intro k d hk hP
    rw [driverLoopE]
    by_cases hb : (driverBodyE rnd Ω Y p maxIter k d).1 = true
    · rw [if_pos hb]
      exact hbrk k d (by omega) hP hb
    · rw [if_neg hb]
      exact ih (k + 1) _ (by omega) (hcont k d (by omega) hP (by simpa using hb))

/-- `Y` counting the calls of `Solve` and `TestUpdate`. -/
def tally (Y : Sys S Ext) : Sys (S × Nat × Nat) Ext where
  nmat := Y.nmat
  init s := (((Y.init s.1).1, s.2), (Y.init s.1).2)
  check s := Y.check s.1
  jacobian s := (Y.jacobian s.1, s.2)
  solve s := (((Y.solve s.1).1, s.2.1 + 1, s.2.2), (Y.solve s.1).2)
  scaleDx s := (((Y.scaleDx s.1).1, s.2), (Y.scaleDx s.1).2)
  testUpdate s t c := (((Y.testUpdate s.1 t c).1, s.2.1, s.2.2 + 1), (Y.testUpdate s.1 t c).2)
  fixup s := (Y.fixup s.1, s.2)
  finalize s := (Y.finalize s.1, s.2)

theorem lineLoop_tally (Y : Sys S Ext) (α fac errOld g : Ext) : ∀ f it (s : S × Nat × Nat) err scale ml,
    let l := lineLoopE rnd Ω (tally Y) α fac errOld g f it s err scale ml
    l.1.2.1 = s.2.1 ∧ l.1.2.2 ≤ s.2.2 + f := by
  intro f
  induction f with
  | zero => intros; exact ⟨rfl, le_rfl⟩
  | succ f ih =>
    intro it s err scale ml
    rw [lineLoopE]
    dsimp only
    split_ifs
    · exact ⟨rfl, by show s.2.2 + 1 ≤ _; omega⟩
    · obtain ⟨h1, h2⟩ := ih (it + 1) ((tally Y).testUpdate s scale false).1 ((tally Y).testUpdate s scale false).2 (mul rnd Ω scale fac)
        (max it ml)
      refine ⟨h1, h2.trans ?_⟩
      show s.2.2 + 1 + f ≤ _
      omega

theorem lineSearch_tally (Y : Sys S Ext) (p : DriverParams Ext) (s : S × Nat × Nat) (errOld g : Ext) (ml : Nat) :
    let l := lineSearchE rnd Ω (tally Y) p s errOld g ml
    l.1.2.1 = s.2.1 ∧ l.1.2.2 ≤ s.2.2 + (2 + p.lineMax) := by
  unfold lineSearchE
  dsimp only
  split_ifs with h1
  · obtain ⟨a, b⟩ := lineLoop_tally (rnd := rnd) (Ω := Ω) Y p.lineAlpha p.lineFac errOld g p.lineMax 0
      ((tally Y).testUpdate ((tally Y).testUpdate s (.fin 1) true).1 (.fin (1 / 2)) false).1 ((tally Y).testUpdate s (.fin 1) true).2
      (parabolaE rnd Ω ((tally Y).testUpdate s (.fin 1) true).2
        ((tally Y).testUpdate ((tally Y).testUpdate s (.fin 1) true).1 (.fin (1 / 2)) false).2 errOld) ml
    refine ⟨a, b.trans ?_⟩
    show s.2.2 + 1 + 1 + p.lineMax ≤ _
    omega
  · obtain ⟨a, b⟩ := lineLoop_tally (rnd := rnd) (Ω := Ω) Y p.lineAlpha p.lineFac errOld g p.lineMax 0
      ((tally Y).testUpdate ((tally Y).testUpdate s (.fin 1) true).1 (.fin (1 / 2)) false).1 ((tally Y).testUpdate s (.fin 1) true).2
      (.fin (1 / 2)) ml
    refine ⟨a, b.trans ?_⟩
    show s.2.2 + 1 + 1 + p.lineMax ≤ _
    omega
  · exact ⟨rfl, by show s.2.2 + 1 ≤ _; omega⟩

end Ieee

variable {S : Type*} {rnd : ℝ → ℝ} {Ω : ℝ}

/-- C147: whatever the arithmetic does (NaN and infinities included), the driver stops after at most `nmat * pte_max_iter_per_mat`
linear solves and `2 + line_search_max_iter` trial updates for each. -/
theorem C147_driver_bounded (rnd : ℝ → ℝ) (Ω : ℝ) (Y : Sys S Ext) (p : DriverParams Ext) (s0 : S) :
    let r := pteSolverE rnd Ω (tally Y) p (s0, 0, 0)
    let maxIter := Y.nmat * p.maxIterPerMat
    r.niter ≤ maxIter ∧ r.maxNiter ≤ maxIter ∧ r.s.2.1 ≤ maxIter ∧ r.s.2.2 ≤ maxIter * (2 + p.lineMax) := by
  intro r maxIter
  have body : ∀ k (d : DState (S × Nat × Nat) Ext),
      let b := (driverBodyE rnd Ω (tally Y) p maxIter k d).2
      b.niter = k ∧ b.maxNiter = max d.maxNiter k ∧ b.s.2.1 ≤ d.s.2.1 + 1 ∧ b.s.2.2 ≤ d.s.2.2 + (2 + p.lineMax) := by
    intro k d
    unfold driverBodyE driverMidE driverTailE
    dsimp only
    have key := fun (s : S × Nat × Nat) e g ml => lineSearch_tally (rnd := rnd) (Ω := Ω) Y p s e g ml
    dsimp only at key
    split_ifs
    · exact ⟨rfl, rfl, Nat.le_succ _, Nat.le_add_right _ _⟩
    · exact ⟨rfl, rfl, le_rfl, Nat.le_add_right _ _⟩
    all_goals first
      | exact ⟨rfl, rfl, le_rfl, Nat.le_add_right _ _⟩
      | exact ⟨rfl, rfl, (key _ _ _ _).1.le, (key _ _ _ _).2⟩
  have h := driverLoopE_inv (rnd := rnd) (Ω := Ω) (Y := tally Y) (p := p) (maxIter := maxIter)
    (P := fun k d => d.maxNiter ≤ k ∧ d.s.2.1 ≤ k ∧ d.s.2.2 ≤ k * (2 + p.lineMax))
    (Q := fun d => d.niter ≤ maxIter ∧ d.maxNiter ≤ maxIter ∧ d.s.2.1 ≤ maxIter ∧ d.s.2.2 ≤ maxIter * (2 + p.lineMax))
    ?_ ?_ ?_ maxIter 0
    { s := ((tally Y).init (s0, 0, 0)).1, err := ((tally Y).init (s0, 0, 0)).2, converged := false, close := false, small := 0,
      slow := false, maxNiter := 0, maxLine := 0, niter := 0 } (by omega)
    ⟨le_rfl, le_rfl, Nat.zero_le _⟩
  · exact h
  · intro k d hk hP _
    obtain ⟨b1, b2, b3, b4⟩ := body k d
    have : (k + 1) * (2 + p.lineMax) ≤ maxIter * (2 + p.lineMax) := Nat.mul_le_mul_right _ hk
    rw [add_mul, one_mul] at this
    refine ⟨by omega, by omega, by omega, by omega⟩
  · intro k d hk hP _
    obtain ⟨b1, b2, b3, b4⟩ := body k d
    rw [add_mul, one_mul]
    refine ⟨by omega, by omega, by omega⟩
  · intro d hP
    exact ⟨le_rfl, hP⟩

/-- C147: what `converged` means, whatever the arithmetic does. Without the slow-convergence flag the returned state passed the
convergence test (before `Fixup` and `Finalize`). With the flag, the state before the last update was acceptable, and the update itself
was not tested: either its error exceeded `pte_slow_convergence_thresh` times the old one, or it was the last update allowed. -/
theorem C147_driver_converged (rnd : ℝ → ℝ) (Ω : ℝ) (Y : Sys S Ext) (p : DriverParams Ext) (s0 : S) :
    let r := pteSolverE rnd Ω Y p s0
    (r.slow = true → r.converged = true) ∧
    (r.converged = true → r.slow = false → ∃ s, (Y.check s).1 = true ∧ r.s = Y.finalize (Y.fixup s)) ∧
    (r.slow = true → ∃ s l errOld, Y.check s = (false, true) ∧
      (∃ g ml, lineSearchE rnd Ω Y p (Y.scaleDx (Y.solve (Y.jacobian s)).1).1 errOld g ml = l) ∧ r.err = l.2.1 ∧
      (lt (mul rnd Ω p.slowThresh errOld) r.err ∨ r.niter = Y.nmat * p.maxIterPerMat - 1) ∧
      r.s = Y.finalize (Y.fixup (Y.fixup l.1))) := by
  intro r
  have h := driverLoopE_inv (rnd := rnd) (Ω := Ω) (Y := Y) (p := p) (maxIter := Y.nmat * p.maxIterPerMat)
    (P := fun _ d => d.slow = false ∧ d.converged = false)
    (Q := fun d => (d.slow = true → d.converged = true) ∧
      (d.converged = true → d.slow = false → (Y.check d.s).1 = true) ∧
      (d.slow = true → ∃ s l errOld, Y.check s = (false, true) ∧
        (∃ g ml, lineSearchE rnd Ω Y p (Y.scaleDx (Y.solve (Y.jacobian s)).1).1 errOld g ml = l) ∧ d.err = l.2.1 ∧
        (lt (mul rnd Ω p.slowThresh errOld) d.err ∨ d.niter = Y.nmat * p.maxIterPerMat - 1) ∧ d.s = Y.fixup l.1))
    ?_ ?_ ?_ (Y.nmat * p.maxIterPerMat) 0
    { s := (Y.init s0).1, err := (Y.init s0).2, converged := false,
      close := false, small := 0, slow := false, maxNiter := 0, maxLine := 0, niter := 0 } (by omega)
    ⟨rfl, rfl⟩
  · obtain ⟨h1, h2, h3⟩ := h
    refine ⟨h1, fun hc hs => ⟨_, h2 hc hs, rfl⟩, fun hs => ?_⟩
    obtain ⟨s, l, e, q1, q2, q3, q4, q5⟩ := h3 hs
    refine ⟨s, l, e, q1, q2, q3, q4, ?_⟩
    rw [← q5]
    rfl
  · intro k d _ hP hb
    revert hb
    unfold driverBodyE driverMidE driverTailE
    dsimp only
    by_cases c1 : (Y.check d.s).1 = true
    · rw [if_pos c1]
      intro _
      exact ⟨fun h => by simp [hP.1] at h, fun _ _ => c1, fun h => by simp [hP.1] at h⟩
    · rw [if_neg c1]
      have c1' : (Y.check d.s).1 = false := by simpa using c1
      generalize (if lt (absE (stdMin (.fin 1) (Y.scaleDx (Y.solve (Y.jacobian d.s)).1).2)) p.smallThresh then d.small + 1
        else d.small) = sm
      split_ifs with c2 c3 c4
      · intro _
        exact ⟨fun h => by simp [hP.1] at h, fun h => by simp at h, fun h => by simp [hP.1] at h⟩
      · intro _
        exact ⟨fun h => by simp [hP.1] at h, fun h => by simp at h, fun h => by simp [hP.1] at h⟩
      · intro _
        exact ⟨fun _ => rfl, fun _ h => by simp at h,
          fun _ => ⟨d.s, _, d.err, Prod.ext c1' c4.2, ⟨_, _, rfl⟩, rfl, c4.1, rfl⟩⟩
      · intro hb; simp at hb
  · intro k d _ hP hb
    revert hb
    unfold driverBodyE driverMidE driverTailE
    dsimp only
    by_cases c1 : (Y.check d.s).1 = true
    · rw [if_pos c1]
      intro hb; simp at hb
    · rw [if_neg c1]
      have c1' : (Y.check d.s).1 = false := by simpa using c1
      split_ifs <;> intro hb <;> first | (simp at hb; done) | exact ⟨hP.1, c1'⟩
  · intro d hP
    exact ⟨fun h => by simp [hP.1] at h, fun h => by simp [hP.2] at h, fun h => by simp [hP.1] at h⟩

/-- C147 is violated: a full step whose error is NaN — by `C147_norm_nan` also one whose residual overflows — is accepted without
backtracking, whatever the old error was. -/
theorem C147_nan_step_accepted_violated (rnd : ℝ → ℝ) (Ω : ℝ) (Y : Sys S Ext) (p : DriverParams Ext) (s : S) (errOld g : Ext) (ml : Nat)
    (h : (Y.testUpdate s (.fin 1) true).2 = .nan) :
    lineSearchE rnd Ω Y p s errOld g ml = ((Y.testUpdate s (.fin 1) true).1, .nan, ml) := by
  unfold lineSearchE
  dsimp only
  rw [h, if_neg]
  intro hc
  cases hq : add rnd Ω errOld (mul rnd Ω p.lineAlpha g) <;> rw [hq] at hc <;> exact hc.elim

/-- C147 is violated: a NaN old error accepts every full step. -/
theorem C147_nan_old_error_violated (rnd : ℝ → ℝ) (Ω : ℝ) (Y : Sys S Ext) (p : DriverParams Ext) (s : S) (g : Ext) (ml : Nat) :
    lineSearchE rnd Ω Y p s .nan g ml = ((Y.testUpdate s (.fin 1) true).1, (Y.testUpdate s (.fin 1) true).2, ml) := by
  unfold lineSearchE
  dsimp only
  rw [add_nan', if_neg]
  exact fun hc => hc

/-- C147 is violated: a step limit of NaN from `ScaleDx` is taken for "no limit": `std::min(1.0, NaN)` is 1. -/
theorem C147_nan_scale_violated (rnd : ℝ → ℝ) (Ω : ℝ) (Y : Sys S Ext) (p : DriverParams Ext) (maxIter k : Nat) (d : DState S Ext)
    (h : ∀ s, (Y.scaleDx s).2 = .nan) :
    driverMidE rnd Ω Y p maxIter k d =
      driverMidE rnd Ω { Y with scaleDx := fun s => ((Y.scaleDx s).1, .fin 1) } p maxIter k d := by
  have e1 : stdMin (.fin 1) .nan = .fin 1 := by
    unfold stdMin; rw [if_neg (show ¬ lt .nan (.fin 1) from fun h => h)]
  have e2 : stdMin (.fin 1) (.fin 1) = .fin 1 := by
    unfold stdMin; rw [if_neg (show ¬ lt (.fin 1) (.fin 1) from lt_irrefl (1 : ℝ))]
  unfold driverMidE
  dsimp only
  rw [h, e1, e2]
  have e3 : ∀ s errOld g ml, lineSearchE rnd Ω { Y with scaleDx := fun s => ((Y.scaleDx s).1, .fin 1) } p s errOld g ml =
      lineSearchE rnd Ω Y p s errOld g ml := by
    intro s errOld g ml
    have e4 : ∀ α fac f it s err scale ml, lineLoopE rnd Ω { Y with scaleDx := fun s => ((Y.scaleDx s).1, .fin 1) } α fac errOld g f it s err scale ml =
        lineLoopE rnd Ω Y α fac errOld g f it s err scale ml := by
      intro α fac f
      induction f with
      | zero => intros; rfl
      | succ f ih =>
        intro it s err scale ml
        rw [lineLoopE, lineLoopE]
        dsimp only
        rw [ih]
    unfold lineSearchE
    dsimp only
    rw [e4]
  have e5 : ∀ scale d, driverTailE rnd Ω { Y with scaleDx := fun s => ((Y.scaleDx s).1, .fin 1) } p maxIter k scale d =
      driverTailE rnd Ω Y p maxIter k scale d := by
    intro scale d
    unfold driverTailE
    rw [e3]
  rw [e5]

/-! ### A converged status with a NaN residual -/

/-- A solver whose error halves from step to step, the state staying acceptable but never converged, and whose `N`th update goes
wrong: the error is NaN and the state is no longer acceptable. -/
noncomputable def fading (N : Nat) : Sys Nat Ext where
  nmat := 1
  init _ := (0, .fin 1)
  check s := (false, decide (s < N))
  jacobian s := s
  solve s := (s, true)
  scaleDx s := (s, .fin 1)
  testUpdate s _ _ := (s + 1, if s + 1 < N then .fin ((2 : ℝ) ^ (-((s + 1 : Nat) : ℤ))) else .nan)
  fixup s := s
  finalize s := s

namespace Ieee

theorem pow_float {k : Nat} (hk : k ≤ 1000) : IsFloat 53 (-1074) ((2 : ℝ) ^ (-(k : ℤ))) :=
  ⟨1, -(k : ℤ), by norm_num, by omega, by rw [Int.cast_one, one_mul]⟩

theorem pow_le_one' (k : Nat) : (2 : ℝ) ^ (-(k : ℤ)) ≤ 1 := zpow_le_one_of_nonpos₀ (by norm_num) (by omega)

theorem half_pow (k : Nat) : (2 : ℝ) ^ (-((k + 1 : Nat) : ℤ)) = 2 ^ (-(k : ℤ)) / 2 := by
  rw [Nat.cast_add, Nat.cast_one, neg_add, zpow_add₀ (by norm_num)]
  norm_num [div_eq_mul_inv]

theorem ofReal_small (h : ToNearest 53 (-1074) rnd) {x : ℝ} (hx : |x| ≤ 2) : ofReal rnd maxDouble x = .fin (rnd x) := by
  refine ofReal_fin (le_trans (abs_rnd_le h (y := 2) ⟨1, 1, by norm_num, by norm_num, by norm_num⟩ hx) ?_)
  exact le_trans (by norm_num) maxDouble_large

end Ieee

theorem Ieee.fading_step (h : ToNearest 53 (-1074) rnd) {N k : Nat} (hN : N ≤ 900) (hk : k < N) {d : DState Nat Ext}
    (hs : d.s = k) (he : d.err = .fin ((2 : ℝ) ^ (-(k : ℤ)))) (hsm : d.small = 0) :
    let b := driverBodyE rnd maxDouble (fading N) (paramsE rnd defaultParams) N k d
    (k + 1 < N → b.1 = false ∧ b.2.s = k + 1 ∧ b.2.err = .fin ((2 : ℝ) ^ (-((k + 1 : Nat) : ℤ))) ∧ b.2.small = 0) ∧
    (k + 1 = N → b.1 = true ∧ b.2.s = N ∧ b.2.err = .nan ∧ b.2.converged = true) := by
  have hp := zpow_pos (a := (2 : ℝ)) (by norm_num) (-(k : ℤ))
  have hp1 := pow_le_one' k
  set P := (2 : ℝ) ^ (-(k : ℤ)) with hP
  have hP2 : P / 2 = (2 : ℝ) ^ (-((k + 1 : Nat) : ℤ)) := (half_pow k).symm
  have hfl2 : IsFloat 53 (-1074) (P / 2) := by rw [hP2]; exact pow_float (by omega)
  have hfl4 : IsFloat 53 (-1074) (P / 4) := by
    have : P / 4 = (2 : ℝ) ^ (-((k + 1 + 1 : Nat) : ℤ)) := by rw [half_pow, half_pow]; ring
    rw [this]; exact pow_float (by omega)
  have f1 : IsFloat 53 (-1074) 1 := ⟨1, 0, by norm_num, by norm_num, by norm_num⟩
  have f2 : IsFloat 53 (-1074) 2 := ⟨1, 1, by norm_num, by norm_num, by norm_num⟩
  have f8 : IsFloat 53 (-1074) (1 / 8) := ⟨1, -3, by norm_num, by norm_num, by norm_num⟩
  have fh : IsFloat 53 (-1074) (1 / 2) := ⟨1, -1, by norm_num, by norm_num, by norm_num⟩
  have hα : rnd (1 / 100) ≤ 1 / 8 := rnd_le h f8 (by norm_num)
  have hα0 : 0 ≤ rnd (1 / 100) := Ieee.rnd_nonneg h (by norm_num)
  have hth : rnd (1 / 10 ^ 16) ≤ 1 := rnd_le h f1 (by norm_num)
  have hsl : 1 / 2 ≤ rnd (99 / 100) := rnd_ge h fh (by norm_num)
  have hsl1 : rnd (99 / 100) ≤ 1 := rnd_le h f1 (by norm_num)
  have e1 : stdMin (.fin 1) (.fin 1) = .fin 1 := by
    unfold stdMin; rw [if_neg (show ¬ lt (.fin 1) (.fin 1) from lt_irrefl (1 : ℝ))]
  have m1 : mul rnd maxDouble (.fin (-2)) (.fin 1) = .fin (-2) := by
    simp only [mul]
    rw [ofReal_small h (by norm_num)]
    rw [show (-2 : ℝ) * 1 = -2 by norm_num, h.exact (⟨-1, 1, by norm_num, by norm_num, by norm_num⟩ : IsFloat 53 (-1074) (-2))]
  have hfP2 : IsFloat 53 (-1074) (-(2 * P)) := by
    refine ⟨-1, -(k : ℤ) + 1, by norm_num, by omega, ?_⟩
    rw [zpow_add₀ (by norm_num), ← hP]; norm_num; ring
  have m2 : mul rnd maxDouble (.fin (-2)) (.fin P) = .fin (-(2 * P)) := by
    simp only [mul]
    rw [ofReal_small h (by rw [abs_mul, abs_of_pos hp]; norm_num; linarith), show (-2 : ℝ) * P = -(2 * P) by ring, h.exact hfP2]
  obtain ⟨q, hq, hq1⟩ : ∃ q, mul rnd maxDouble (.fin (rnd (1 / 100))) (.fin (-(2 * P))) = .fin q ∧ -(P / 4) ≤ q ∧ q ≤ 0 := by
    simp only [mul]
    have b1 : -(P / 4) ≤ rnd (1 / 100) * -(2 * P) := by nlinarith
    have b2 : rnd (1 / 100) * -(2 * P) ≤ 0 := by nlinarith
    rw [ofReal_small h (by rw [abs_le]; constructor <;> linarith)]
    refine ⟨_, rfl, ?_, ?_⟩
    · have hf : IsFloat 53 (-1074) (-(P / 4)) := hfl4.neg
      exact rnd_ge h hf b1
    · exact rnd_le h isFloat_zero b2
  obtain ⟨z, hz, hz1⟩ : ∃ z, add rnd maxDouble (.fin P) (.fin q) = .fin z ∧ P / 2 ≤ z := by
    simp only [add]
    rw [ofReal_small h (by rw [abs_le]; constructor <;> linarith [hq1.1, hq1.2])]
    exact ⟨_, rfl, rnd_ge h hfl2 (by linarith [hq1.1])⟩
  obtain ⟨w, hw, hw1⟩ : ∃ w, mul rnd maxDouble (.fin (rnd (99 / 100))) (.fin P) = .fin w ∧ P / 2 ≤ w := by
    simp only [mul]
    rw [ofReal_small h (by rw [abs_le]; constructor <;> nlinarith)]
    exact ⟨_, rfl, rnd_ge h hfl2 (by nlinarith)⟩
  set p := paramsE rnd (defaultParams : DriverParams ℝ) with hpp
  have pα : p.lineAlpha = .fin (rnd (1 / 100)) := rfl
  have pth : p.smallThresh = .fin (rnd (1 / 10 ^ 16)) := rfl
  have psl : p.slowThresh = .fin (rnd (99 / 100)) := rfl
  have ptr : p.smallTries = 2 := rfl
  have thr : ¬ lt (absE (.fin 1)) p.smallThresh := by
    rw [pth]; show ¬ |(1 : ℝ)| < _; rw [abs_one]; exact not_lt.2 hth
  -- the line search takes the full step
  have hls : ∀ (ml : Nat), lineSearchE rnd maxDouble (fading N) p k (.fin P) (.fin (-(2 * P))) ml =
      (k + 1, (if k + 1 < N then .fin (P / 2) else .nan), ml) := by
    intro ml
    unfold lineSearchE
    have ht : (fading N).testUpdate k (.fin 1) true = (k + 1, if k + 1 < N then .fin (P / 2) else .nan) := by
      rw [hP2]; rfl
    dsimp only
    rw [ht, pα, hq, hz]
    rw [if_neg]
    by_cases hc : k + 1 < N
    · dsimp only; rw [if_pos hc]; exact not_lt.2 hz1
    · dsimp only; rw [if_neg hc]; exact fun h => h
  have hb : driverBodyE rnd maxDouble (fading N) p N k d =
      driverTailE rnd maxDouble (fading N) p N k (.fin 1)
        { d with s := k, niter := k, maxNiter := max d.maxNiter k, converged := false, close := true, small := 0 } := by
    unfold driverBodyE driverMidE
    have c1 : (fading N).check d.s = (false, true) := by rw [hs]; show (false, decide (k < N)) = _; rw [decide_eq_true hk]
    dsimp only
    rw [c1]
    rw [if_neg (by simp)]
    have c2 : (fading N).solve ((fading N).jacobian d.s) = (k, true) := by rw [hs]; rfl
    rw [c2]
    rw [if_neg (by simp)]
    have c3 : (fading N).scaleDx k = (k, .fin 1) := rfl
    dsimp only
    rw [c3]
    dsimp only
    rw [e1, if_neg thr, ptr, hsm, if_neg (by omega)]
  dsimp only
  rw [hb]
  unfold driverTailE
  dsimp only
  rw [he, m1, m2, hls]
  constructor
  · intro hc
    rw [if_pos hc, if_neg]
    · exact ⟨rfl, rfl, by dsimp only; rw [hP2], rfl⟩
    · rintro ⟨h1 | h1, -⟩
      · rw [psl, hw] at h1
        exact absurd h1 (not_lt.2 hw1)
      · omega
  · intro hc
    rw [if_neg (by omega : ¬ k + 1 < N), if_pos ⟨Or.inr (by omega), rfl⟩]
    exact ⟨rfl, hc, rfl, rfl⟩

/-- C147 is violated: with the default parameters, in double precision with any rounding to nearest, the driver can report
`converged` with a NaN residual and a state that is not even acceptable: the update of the last allowed iteration is never looked
at. -/
theorem C147_last_iteration_nan_violated (h : ToNearest 53 (-1074) rnd) :
    let r := pteSolverE rnd maxDouble (fading 128) (paramsE rnd defaultParams) 0
    r.converged = true ∧ r.err = .nan ∧ (fading 128).check r.s = (false, false) := by
  have key := driverLoopE_inv (rnd := rnd) (Ω := maxDouble) (Y := fading 128) (p := paramsE rnd defaultParams) (maxIter := 128)
    (P := fun k d => k < 128 ∧ d.s = k ∧ d.err = .fin ((2 : ℝ) ^ (-(k : ℤ))) ∧ d.small = 0)
    (Q := fun d => d.converged = true ∧ d.err = .nan ∧ d.s = 128) ?_ ?_ ?_ 128 0
    { s := 0, err := .fin 1, converged := false, close := false, small := 0, slow := false, maxNiter := 0, maxLine := 0, niter := 0 }
    (by omega) ⟨by omega, rfl, by norm_num, rfl⟩
  · obtain ⟨k1, k2, k3⟩ := key
    refine ⟨k1, k2, ?_⟩
    have : (pteSolverE rnd maxDouble (fading 128) (paramsE rnd defaultParams) 0).s = 128 := k3
    rw [this]
    rfl
  · intro k d hk hP hb
    obtain ⟨h1, h2⟩ := Ieee.fading_step h (N := 128) (by norm_num) hP.1 hP.2.1 hP.2.2.1 hP.2.2.2
    by_cases hc : k + 1 < 128
    · rw [(h1 hc).1] at hb; cases hb
    · have := h2 (by omega)
      exact ⟨this.2.2.2, this.2.2.1, this.2.1⟩
  · intro k d hk hP hb
    obtain ⟨h1, h2⟩ := Ieee.fading_step h (N := 128) (by norm_num) hP.1 hP.2.1 hP.2.2.1 hP.2.2.2
    by_cases hc : k + 1 < 128
    · exact ⟨hc, (h1 hc).2⟩
    · rw [(h2 (by omega)).1] at hb; cases hb
  · intro d hP
    exact absurd hP.1 (by omega)

end Verif
