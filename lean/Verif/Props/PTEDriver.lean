import Verif.Lemmas.PTEDriver
import Verif.Model.PTECheck
import Verif.Props.PTEJacobian

/-! # C17, C18: the Newton driver of the PTE solvers -/

namespace Verif.PTE

open Robust

set_option linter.unusedSectionVars false

variable {S K : Type*} [Field K] [LinearOrder K] [IsStrictOrderedRing K]

/-! ## C17 -/

/-- Recording the calls does not change what the driver computes, for any solver. -/
theorem C17_record_faithful (σ : K) (Y : Sys S K) (p : DriverParams K) (s0 : S) :
    pteSolver σ Y p s0 = (pteSolver σ (logSys Y) p (s0, [])).erase := by
  unfold pteSolver
  have h := driverLoop_erase σ Y p (Y.nmat * p.maxIterPerMat) (Y.nmat * p.maxIterPerMat) 0
    { s := ((logSys Y).init (s0, [])).1, err := ((logSys Y).init (s0, [])).2, converged := false,
      close := false, small := 0, slow := false, maxNiter := 0, maxLine := 0, niter := 0 }
  have e : (logSys Y).nmat = Y.nmat := rfl
  dsimp only
  rw [e]
  dsimp only [DState.erase, logSys] at h ⊢
  rw [h]

/-- C17: the driver always stops, after at most `nmat * pte_max_iter_per_mat` Newton iterations (linear
solves) and at most `2 + line_search_max_iter` trial updates per iteration, and every trial update uses a
step fraction in `(0,1]` — for every solver, initial state and error history. -/
theorem C17_bounded {σ : K} (hσ : 0 < σ) (Y : Sys S K) {p : DriverParams K} (hf0 : 0 < p.lineFac)
    (hf1 : p.lineFac ≤ 1) (s0 : S) :
    let r := pteSolver σ (logSys Y) p (s0, [])
    let maxIter := Y.nmat * p.maxIterPerMat
    r.niter ≤ maxIter ∧ r.maxNiter ≤ maxIter ∧
    r.s.2.countP Ev.isSolve ≤ maxIter ∧
    r.s.2.countP Ev.isTest ≤ maxIter * (2 + p.lineMax) ∧
    ∀ t c e, Ev.test t c e ∈ r.s.2 → 0 < t ∧ t ≤ 1 := by
  intro r maxIter
  have nb : ∀ k (d : DState (S × List (Ev K)) K),
      (driverBody σ (logSys Y) p maxIter k d).2.niter = k ∧
      (driverBody σ (logSys Y) p maxIter k d).2.maxNiter = max d.maxNiter k := by
    intro k d
    unfold driverBody driverMid driverTail
    dsimp only
    split_ifs <;> exact ⟨rfl, rfl⟩
  have h := driverLoop_inv (σ := σ) (Y := logSys Y) (p := p) (maxIter := maxIter)
    (P := fun k d => Adds [] d.s.2 k (k * (2 + p.lineMax)) ∧ d.maxNiter ≤ k)
    (Q := fun d => Adds [] d.s.2 maxIter (maxIter * (2 + p.lineMax)) ∧ d.niter ≤ maxIter ∧
      d.maxNiter ≤ maxIter)
    ?_ ?_ ?_ maxIter 0
    { s := ((logSys Y).init (s0, [])).1, err := ((logSys Y).init (s0, [])).2, converged := false,
      close := false, small := 0, slow := false, maxNiter := 0, maxLine := 0, niter := 0 } (by omega)
    ⟨by rw [zero_mul]; exact Adds.refl _, le_rfl⟩
  · obtain ⟨⟨m, hm, h1, h2, h3⟩, h4, h5⟩ := h
    have e : r.s.2 = m := by
      change (driverLoop σ (logSys Y) p maxIter maxIter 0 _).s.2 = m
      rw [hm, List.append_nil]
    rw [e]
    exact ⟨h4, h5, h1, h2, h3⟩
  · intro k d hk hP _
    obtain ⟨n1, n2⟩ := nb k d
    have := hP.1.trans (driverBody_adds hσ Y hf0 hf1 maxIter k d)
    refine ⟨this.mono (by omega) ?_, by omega, by omega⟩
    have : (k + 1) * (2 + p.lineMax) ≤ maxIter * (2 + p.lineMax) := Nat.mul_le_mul_right _ hk
    nlinarith
  · intro k d hk hP _
    obtain ⟨n1, n2⟩ := nb k d
    refine ⟨(hP.1.trans (driverBody_adds hσ Y hf0 hf1 maxIter k d)).mono le_rfl ?_, by omega⟩
    rw [add_mul, one_mul]
  · intro d hP
    exact ⟨hP.1, le_rfl, hP.2⟩

/-- With the default parameters: at most 128 iterations per material and 8 trial updates each. -/
example (σ : ℚ) (hσ : 0 < σ) (Y : Sys S ℚ) (s0 : S) :
    (pteSolver σ (logSys Y) defaultParams (s0, [])).s.2.countP
      Ev.isTest ≤ Y.nmat * 128 * 8 :=
  (C17_bounded hσ Y (p := defaultParams) (by norm_num [defaultParams]) (by norm_num [defaultParams]) s0).2.2.2.1

theorem lineLoop_descent (Y : Sys S K) {α fac errOld g : K} (hf0 : 0 < fac) (hf1 : fac ≤ 1) :
    ∀ f it (s : S) err scale ml, 0 < scale → scale ≤ 1 → 0 < f →
      ∃ (s1 : S) (t : K), 0 < t ∧ t ≤ 1 ∧
        ((lineLoop Y α fac errOld g f it s err scale ml).1,
          (lineLoop Y α fac errOld g f it s err scale ml).2.1) = Y.testUpdate s1 t false ∧
        ((lineLoop Y α fac errOld g f it s err scale ml).2.1 < errOld + α * t * g ∨
          (t = scale * fac ^ (f - 1) ∧ errOld + α * t * g ≤ (lineLoop Y α fac errOld g f it s err scale ml).2.1)) := by
  intro f
  induction f with
  | zero => intro it s err scale ml _ _ h; omega
  | succ f ih =>
    intro it s err scale ml h0 h1 _
    dsimp only [lineLoop]
    by_cases hc : (Y.testUpdate s scale false).2 < errOld + α * scale * g
    · rw [if_pos hc]
      exact ⟨s, scale, h0, h1, rfl, Or.inl hc⟩
    · rw [if_neg hc]
      rcases Nat.eq_zero_or_pos f with rfl | hf
      · exact ⟨s, scale, h0, h1, rfl, Or.inr ⟨by simp, not_lt.mp hc⟩⟩
      · obtain ⟨s1, t, ht0, ht1, he, hd⟩ := ih (it + 1) (Y.testUpdate s scale false).1
          (Y.testUpdate s scale false).2 (scale * fac) (max it ml) (mul_pos h0 hf0)
          (mul_le_one₀ h1 hf0.le hf1) hf
        refine ⟨s1, t, ht0, ht1, he, ?_⟩
        rcases hd with hd | ⟨hd1, hd2⟩
        · exact Or.inl hd
        · right
          refine ⟨?_, hd2⟩
          rw [hd1, mul_assoc, ← pow_succ']
          congr 2
          omega

/-- C17: what a line search leaves. The state is the one produced by a trial update with some step
fraction `t ∈ (0,1]` and the error is the one that update returned. Either the error meets the
sufficient-decrease condition for `t` — hence does not exceed the old error — or all
`line_search_max_iter` backtracking trials were used up and `t` is at most `(3/4) fac^(max-1)`. -/
theorem C17_line_search {σ : K} (hσ : 0 < σ) (Y : Sys S K) {p : DriverParams K} (hα : 0 ≤ p.lineAlpha)
    (hf0 : 0 < p.lineFac) (hf1 : p.lineFac ≤ 1) (hm : 0 < p.lineMax) (s : S) {errOld scale : K} (ml : Nat)
    (he : 0 ≤ errOld) (hs : 0 ≤ scale) :
    let l := lineSearch σ Y p s errOld (-2 * scale * errOld) ml
    ∃ (s1 : S) (t : K) (b : Bool), 0 < t ∧ t ≤ 1 ∧ (l.1, l.2.1) = Y.testUpdate s1 t b ∧
      ((l.2.1 ≤ (1 - 2 * p.lineAlpha * scale * t) * errOld ∧ l.2.1 ≤ errOld) ∨
        t ≤ 3 / 4 * p.lineFac ^ (p.lineMax - 1)) := by
  intro l
  have fin : ∀ {e t : K}, 0 < t → e ≤ errOld + p.lineAlpha * t * (-2 * scale * errOld) →
      e ≤ (1 - 2 * p.lineAlpha * scale * t) * errOld ∧ e ≤ errOld := by
    intro e t ht h
    have : 0 ≤ p.lineAlpha * t * (scale * errOld) := mul_nonneg (mul_nonneg hα ht.le) (mul_nonneg hs he)
    constructor <;> nlinarith
  by_cases h1 : (Y.testUpdate s 1 true).2 > errOld + p.lineAlpha * (-2 * scale * errOld)
  · set q := Y.testUpdate (Y.testUpdate s 1 true).1 (1 / 2) false with hq
    set sc := (if q.2 < (Y.testUpdate s 1 true).2 ∧ q.2 < errOld
      then parabola σ (Y.testUpdate s 1 true).2 q.2 errOld else 1 / 2) with hsc
    have hl : l = lineLoop Y p.lineAlpha p.lineFac errOld (-2 * scale * errOld) p.lineMax 0 q.1
        (Y.testUpdate s 1 true).2 sc ml := by
      change lineSearch σ Y p s errOld (-2 * scale * errOld) ml = _
      unfold lineSearch
      rw [if_pos h1]
    have hsr : 0 < sc ∧ sc ≤ 3 / 4 := by
      rw [hsc]
      split_ifs with h
      · have := parabola_range hσ h.1 h.2
        constructor <;> linarith [this.1, this.2]
      · constructor <;> norm_num
    obtain ⟨s1, t, ht0, ht1, hte, hd⟩ := lineLoop_descent Y (errOld := errOld) hf0 hf1 p.lineMax 0 q.1
      (Y.testUpdate s 1 true).2 sc ml hsr.1 (by linarith [hsr.2]) hm
    rw [← hl] at hte hd
    refine ⟨s1, t, false, ht0, ht1, hte, ?_⟩
    rcases hd with hd | ⟨hd, _⟩
    · exact Or.inl (fin ht0 hd.le)
    · right
      rw [hd]
      exact mul_le_mul_of_nonneg_right hsr.2 (pow_nonneg hf0.le _)
  · have hl : l = ((Y.testUpdate s 1 true).1, (Y.testUpdate s 1 true).2, ml) := by
      change lineSearch σ Y p s errOld (-2 * scale * errOld) ml = _
      unfold lineSearch
      rw [if_neg h1]
    refine ⟨s, 1, true, one_pos, le_rfl, by rw [hl], Or.inl ?_⟩
    rw [hl]
    have := not_lt.mp h1
    exact fin one_pos (by linarith)

/-! ## C18: meaning of `converged` -/

/-- C18: if the driver reports `converged` without the slow-convergence flag, the returned state is some
state on which `CheckPTE` returned true, after only `Fixup` and the unscaling `Finalize`. If it reports
`converged` with the flag, the state on which `CheckPTE` last ran was acceptable (not converged), and the
returned state comes from one more, unchecked, Newton update of that state. -/
theorem C18_converged (σ : K) (Y : Sys S K) (p : DriverParams K) (s0 : S) :
    let r := pteSolver σ Y p s0
    (r.slow = true → r.converged = true) ∧
    (r.converged = true → r.slow = false →
      ∃ s, (Y.check s).1 = true ∧ r.s = Y.finalize (Y.fixup s)) ∧
    (r.slow = true → ∃ s l, Y.check s = (false, true) ∧
      (∃ errOld g ml, lineSearch σ Y p (Y.scaleDx (Y.solve (Y.jacobian s)).1).1 errOld g ml = l ∧
        r.err = l.2.1) ∧
      r.s = Y.finalize (Y.fixup (Y.fixup l.1))) := by
  intro r
  have h := driverLoop_inv (σ := σ) (Y := Y) (p := p) (maxIter := Y.nmat * p.maxIterPerMat)
    (P := fun _ d => d.slow = false ∧ d.converged = false)
    (Q := fun d => (d.slow = true → d.converged = true) ∧
      (d.converged = true → d.slow = false → (Y.check d.s).1 = true) ∧
      (d.slow = true → ∃ s l, Y.check s = (false, true) ∧
        (∃ errOld g ml, lineSearch σ Y p (Y.scaleDx (Y.solve (Y.jacobian s)).1).1 errOld g ml = l ∧
          d.err = l.2.1) ∧ d.s = Y.fixup l.1))
    ?_ ?_ ?_ (Y.nmat * p.maxIterPerMat) 0
    { s := (Y.init s0).1, err := (Y.init s0).2, converged := false,
      close := false, small := 0, slow := false, maxNiter := 0, maxLine := 0, niter := 0 } (by omega)
    ⟨rfl, rfl⟩
  · obtain ⟨h1, h2, h3⟩ := h
    refine ⟨h1, fun hc hs => ⟨_, h2 hc hs, rfl⟩, fun hs => ?_⟩
    obtain ⟨s, l, q1, q2, q3⟩ := h3 hs
    refine ⟨s, l, q1, q2, ?_⟩
    rw [← q3]
    rfl
  · intro k d _ hP hb
    revert hb
    unfold driverBody driverMid driverTail
    dsimp only
    by_cases c1 : (Y.check d.s).1 = true
    · rw [if_pos c1]
      intro _
      exact ⟨fun h => by simp [hP.1] at h, fun _ _ => c1, fun h => by simp [hP.1] at h⟩
    · rw [if_neg c1]
      have c1' : (Y.check d.s).1 = false := by simpa using c1
      generalize (if |min 1 (Y.scaleDx (Y.solve (Y.jacobian d.s)).1).2| < p.smallThresh then d.small + 1
        else d.small) = sm
      split_ifs with c2 c3 c4
      · intro _
        exact ⟨fun h => by simp [hP.1] at h, fun h => by simp at h, fun h => by simp [hP.1] at h⟩
      · intro _
        exact ⟨fun h => by simp [hP.1] at h, fun h => by simp at h, fun h => by simp [hP.1] at h⟩
      · intro _
        exact ⟨fun _ => rfl, fun _ h => by simp at h,
          fun _ => ⟨d.s, _, Prod.ext c1' c4.2, ⟨_, _, _, rfl, rfl⟩, rfl⟩⟩
      · intro hb; simp at hb
  · intro k d _ hP hb
    revert hb
    unfold driverBody driverMid driverTail
    dsimp only
    by_cases c1 : (Y.check d.s).1 = true
    · rw [if_pos c1]
      intro hb; simp at hb
    · rw [if_neg c1]
      have c1' : (Y.check d.s).1 = false := by simpa using c1
      split_ifs <;> intro hb <;> first | (simp at hb; done) | exact ⟨hP.1, c1'⟩
  · intro d hP
    exact ⟨fun h => by simp [hP.1] at h, fun h => by simp [hP.2] at h, fun h => by simp [hP.1] at h⟩

/-- A system whose trial updates all end in an unacceptable state with a larger error. -/
def stuckSys : Sys Bool ℚ where
  nmat := 1
  init _ := (false, 1 / 100)
  check s := (false, !s)
  jacobian s := s
  solve s := (s, true)
  scaleDx s := (s, 1)
  testUpdate _ _ _ := (true, 1)
  fixup s := s
  finalize s := s

/-- C18 is violated in the slow-convergence branch: there is a system for which the driver, with the
default parameters, reports `converged` although the state it returns passes neither the convergence
test nor the weaker acceptance test, and has a larger error than the state it started from. -/
theorem C18_violated :
    let r := pteSolver (1 / 10 ^ 300 : ℚ) stuckSys defaultParams true
    r.converged = true ∧ stuckSys.check r.s = (false, false) ∧ (stuckSys.init true).2 < r.err := by
  decide +kernel

/-- C18 for solvers whose `Fixup` does nothing (PT, FixedT, FixedP, RhoU): an unflagged `converged`
means that the returned state is exactly a checked state, unscaled. -/
theorem C18_converged_no_fixup (σ : K) (Y : Sys S K) (p : DriverParams K) (s0 : S)
    (hfix : ∀ s, Y.fixup s = s) :
    let r := pteSolver σ Y p s0
    r.converged = true → r.slow = false → ∃ s, (Y.check s).1 = true ∧ r.s = Y.finalize s := by
  intro r hc hs
  obtain ⟨s, h1, h2⟩ := (C18_converged σ Y p s0).2.1 hc hs
  exact ⟨s, h1, by rw [h2, hfix]⟩

/-! ### What a passed `CheckPTE` says about the mixture -/

theorem abs_le_sqrt_sum {n : Nat} (f : Nat → ℝ) {m : Nat} (hm : m < n) :
    |f m| ≤ Real.sqrt (∑ i ∈ Finset.range n, f i * f i) := by
  apply Real.le_sqrt_of_sq_le
  rw [sq_abs, sq]
  exact Finset.single_le_sum (f := fun i => f i * f i) (fun i _ => mul_self_nonneg _) (Finset.mem_range.mpr hm)

/-- `err` is below one of the two tolerances. -/
theorem small_le {a err rel scale abs : ℝ} (h : small err rel scale abs) (ha : a ≤ err) :
    a < max (rel * |scale|) abs := by
  rcases h with h | h
  · exact lt_of_lt_of_le (lt_of_le_of_lt ha h) (le_max_left _ _)
  · exact lt_of_lt_of_le (lt_of_le_of_lt ha h) (le_max_right _ _)

/-- C18, RhoT: if the test passes, the energies sum to the total within the energy tolerance and any
material's pressure is within the pressure tolerance of material `ms`. -/
theorem C18_rhoT_meaning (t : Tol) {n ms : Nat} (hms : ms < n) (utot : ℝ) (vfrac u press res : Nat → ℝ)
    (h : rhoTCheck t n vfrac press (rhoTResidual n ms utot u press res)) :
    |∑ m ∈ Finset.range n, u m - utot| < t.relE ∧
    ∀ m, m < n → m ≠ ms → |press m - press ms| <
      max (t.relP * |∑ m ∈ Finset.range n, vfrac m * press m|) t.absP := by
  obtain ⟨hp, hu⟩ := h
  have r := rhoTResidual_rows hms utot u press res
  rw [r.1] at hu
  refine ⟨by rwa [abs_sub_comm], fun m hm hne => ?_⟩
  rw [forN_add, zero_add] at hp
  refine small_le hp ?_
  rw [sumNeumaier_eq, Finset.filter_true_of_mem (fun i _ => by omega)]
  have hpos := pos_range hms hm hne
  have := abs_le_sqrt_sum (n := n - 1) (fun i => rhoTResidual n ms utot u press res (i + 1))
    (m := pos ms m - 1) (by omega)
  rw [show pos ms m - 1 + 1 = pos ms m by omega, r.2 m hm hne, abs_sub_comm] at this
  exact this

/-- C18, PT: volumes and energies sum to their totals within the tolerances. -/
theorem C18_pt_meaning (t : Tol) {n : Nat} (vt utot : ℝ) (vfrac u res : Nat → ℝ)
    (h : ptCheck t (ptResidual n vt utot vfrac u res)) :
    |∑ m ∈ Finset.range n, vfrac m - vt| < t.relV ∧ |∑ m ∈ Finset.range n, u m - utot| < t.relE := by
  unfold ptCheck ptResidual at h
  simp only [Function.update_apply, sumNeumaier_all] at h
  norm_num at h
  exact ⟨by rw [abs_sub_comm]; exact h.1, by rw [abs_sub_comm]; exact h.2⟩

/-- C18, FixedT: volumes sum to the total and neighbouring pressures agree within the tolerances. -/
theorem C18_fixedT_meaning (t : Tol) {n : Nat} (vt : ℝ) (vfrac press res : Nat → ℝ)
    (h : fixedTCheck t n vfrac press (fixedTResidual n vt vfrac press res)) :
    |∑ m ∈ Finset.range n, vfrac m - vt| < t.relV ∧
    ∀ m, m + 1 < n → |press m - press (m + 1)| <
      max (t.relP * |∑ m ∈ Finset.range n, vfrac m * press m|) t.absP := by
  obtain ⟨hp, hv⟩ := h
  have r := fixedTResidual_rows n vt vfrac press res
  rw [r.1] at hv
  refine ⟨by rwa [abs_sub_comm], fun m hm => ?_⟩
  have hsum : ∑ m ∈ Finset.range n, vfrac m * press m
      = forN (n - 1) (fun a m => a + vfrac (m + 1) * press (m + 1)) (vfrac 0 * press 0) := by
    obtain ⟨k, rfl⟩ : ∃ k, n = k + 1 := ⟨n - 1, by omega⟩
    rw [forN_add, Finset.sum_range_succ', add_comm]; rfl
  rw [hsum]
  refine small_le hp ?_
  rw [forN_add, zero_add]
  have := abs_le_sqrt_sum (n := n - 1) (fun i => fixedTResidual n vt vfrac press res (i + 1))
    (m := m) (by omega)
  rwa [r.2 m hm] at this

/-- C18, FixedP: volumes sum to the total and, for a non-negative scale, each pressure (unscaled) is
within the larger of the two pressure tolerances — an absolute bound — of the requested one. -/
theorem C18_fixedP_meaning (σ : ℝ) (t : Tol) {n : Nat} (vt P uscale : ℝ) (hu : 0 ≤ uscale)
    (vfrac press res : Nat → ℝ)
    (h : fixedPCheck t n uscale (fixedPResidual σ n vt P uscale vfrac press res)) :
    |∑ m ∈ Finset.range n, vfrac m - vt| < t.relV ∧
    ∀ m, m < n → |ratio σ P uscale - press m| * uscale < max t.relP t.absP := by
  obtain ⟨hp, hv⟩ := h
  have e : ∀ m, m < n → fixedPResidual σ n vt P uscale vfrac press res m = ratio σ P uscale - press m := by
    intro m hm
    unfold fixedPResidual
    rw [Function.update_of_ne (by omega), fill_apply, if_pos hm]
  have e' : fixedPResidual σ n vt P uscale vfrac press res n = vt - ∑ m ∈ Finset.range n, vfrac m := by
    unfold fixedPResidual
    rw [Function.update_self, sumNeumaier_all]
  rw [e'] at hv
  refine ⟨by rwa [abs_sub_comm], fun m hm => ?_⟩
  rw [forN_add, zero_add] at hp
  have := abs_le_sqrt_sum (n := n) (fixedPResidual σ n vt P uscale vfrac press res) hm
  rw [e m hm] at this
  have h2 := mul_le_mul_of_nonneg_right this hu
  rcases hp with hp | hp
  · exact lt_of_le_of_lt h2 (lt_of_lt_of_le hp (le_max_left _ _))
  · exact lt_of_le_of_lt h2 (lt_of_lt_of_le hp (le_max_right _ _))

/-- C18, RhoU: neighbouring pressures and temperatures agree within the tolerances (nothing is said about
volumes or energies, see `C18_rhoU_energy_violated`). -/
theorem C18_rhoU_meaning_partial (σ : ℝ) (t : Tol) {n : Nat} (rhoTotal vt utot : ℝ)
    (rhobar vfrac u press temp res : Nat → ℝ)
    (h : rhoUCheck σ t n rhoTotal rhobar vfrac press temp
      (rhoUResidual n vt utot vfrac u press temp res)) :
    ∀ m, m + 1 < n →
      |press (m + 1) - press m| < max (t.relP * |∑ m ∈ Finset.range n, vfrac m * press m|) t.absP ∧
      |temp (m + 1) - temp m| <
        max (t.relT * ratio σ (∑ m ∈ Finset.range n, rhobar m * temp m) rhoTotal) t.absT := by
  obtain ⟨hp, hT⟩ := h
  intro m hm
  have r := rhoUResidual_rows (by omega : 1 ≤ n) vt utot vfrac u press temp res
  have hsum : ∀ f : Nat → ℝ, ∑ m ∈ Finset.range n, f m
      = forN (n - 1) (fun a m => a + f (m + 1)) (f 0) := by
    intro f
    obtain ⟨k, rfl⟩ : ∃ k, n = k + 1 := ⟨n - 1, by omega⟩
    rw [forN_add, Finset.sum_range_succ', add_comm]; rfl
  rw [hsum, hsum]
  constructor
  · refine small_le hp ?_
    rw [forN_add, zero_add]
    have := abs_le_sqrt_sum (n := n - 1)
      (fun i => rhoUResidual n vt utot vfrac u press temp res (i + 1 + 1)) (m := m) (by omega)
    rwa [show m + 1 + 1 = 2 + m by omega, r.2.2.1 m hm] at this
  · have := abs_le_sqrt_sum (n := n - 1)
      (fun i => rhoUResidual n vt utot vfrac u press temp res (i + 1 + n)) (m := m) (by omega)
    rw [show m + 1 + n = n + 1 + m by omega, r.2.2.2 m hm] at this
    have this' := this
    rw [forN_add, zero_add] at hT
    rcases hT with h | h
    · exact lt_of_lt_of_le (lt_of_le_of_lt this' h) (le_max_left _ _)
    · exact lt_of_lt_of_le (lt_of_le_of_lt this' h) (le_max_right _ _)

/-- C18 is violated for RhoU: with the default tolerances the test passes for any number of materials in
pressure and temperature equilibrium however far the volumes and energies are from their totals. -/
theorem C18_rhoU_energy_violated (σ : ℝ) (n : Nat) (hn : 1 ≤ n) (rhoTotal : ℝ) (rhobar res : Nat → ℝ) (D : ℝ) :
    ∃ (vt utot : ℝ) (vfrac u press temp : Nat → ℝ),
      rhoUCheck σ tolDefault n rhoTotal rhobar vfrac press temp
        (rhoUResidual n vt utot vfrac u press temp res) ∧
      |∑ m ∈ Finset.range n, vfrac m - vt| ≥ D ∧ |∑ m ∈ Finset.range n, u m - utot| ≥ D := by
  refine ⟨-|D|, -|D|, fun _ => 0, fun _ => 0, fun _ => 1, fun _ => 1, ?_, ?_, ?_⟩
  · have r := rhoUResidual_rows hn (-|D|) (-|D|) (fun _ => 0) (fun _ => 0) (fun _ => 1) (fun _ => 1) res
    have z1 : ∀ i, i < n - 1 → rhoUResidual n (-|D|) (-|D|) (fun _ => 0) (fun _ => 0) (fun _ => 1)
        (fun _ => 1) res (i + 1 + 1) = 0 := by
      intro i hi
      rw [show i + 1 + 1 = 2 + i by omega, r.2.2.1 i (by omega), sub_self]
    have z2 : ∀ i, i < n - 1 → rhoUResidual n (-|D|) (-|D|) (fun _ => 0) (fun _ => 0) (fun _ => 1)
        (fun _ => 1) res (i + 1 + n) = 0 := by
      intro i hi
      rw [show i + 1 + n = n + 1 + i by omega, r.2.2.2 i (by omega), sub_self]
    constructor
    · right
      rw [forN_add, zero_add, Finset.sum_eq_zero fun i hi => by rw [z1 i (Finset.mem_range.mp hi), zero_mul],
        Real.sqrt_zero]
      norm_num [tolDefault]
    · right
      rw [forN_add, zero_add, Finset.sum_eq_zero fun i hi => by rw [z2 i (Finset.mem_range.mp hi), zero_mul],
        Real.sqrt_zero]
      norm_num [tolDefault]
  · simp [le_abs_self]
  · simp [le_abs_self]

/-- The hypotheses of the `_meaning` theorems are met by a two-material state in equilibrium. -/
example : rhoTCheck tolDefault 2 (fun _ => 1 / 2) (fun _ => 3)
    (rhoTResidual 2 0 2 (fun _ => 1) (fun _ => 3) (fun _ => 0)) := by
  constructor
  · left
    norm_num [sumNeumaier, forN, rhoTResidual, skipFill, Function.update_apply, tolDefault]
  · norm_num [sumNeumaier, forN, rhoTResidual, skipFill, Function.update_apply, tolDefault]

/-- C18: the tests with the default tolerances, with their numbers: relative 1e-6 in pressure, energy and volume, 1e-4 in
temperature (for RhoU and FixedP the same in the units of the residual). `errP`, `errT` are root sums of squares of the
residuals, `meanP`, `meanT` the mean pressure and temperature. -/
theorem C18_default_tolerances (σ : ℝ) (n : Nat) (rhoTotal uscale : ℝ) (rhobar vfrac press temp r : Nat → ℝ) :
    (rhoTCheck tolDefault n vfrac press r ↔
      let errP := Real.sqrt (sumNeumaier r (n - 1) 1 (-1) (fun x => x * x))
      errP < max (10⁻¹ ^ 6 * |∑ m ∈ Finset.range n, vfrac m * press m|) (10⁻¹ ^ 6) ∧ |r 0| < 10⁻¹ ^ 6) ∧
    (ptCheck tolDefault r ↔ |r 0| < 10⁻¹ ^ 6 ∧ |r 1| < 10⁻¹ ^ 6) ∧
    (1 ≤ n → (fixedTCheck tolDefault n vfrac press r ↔
      Real.sqrt (∑ m ∈ Finset.range (n - 1), r (m + 1) ^ 2) <
        max (10⁻¹ ^ 6 * |∑ m ∈ Finset.range n, vfrac m * press m|) (10⁻¹ ^ 6) ∧ |r 0| < 10⁻¹ ^ 6)) ∧
    (fixedPCheck tolDefault n uscale r ↔
      Real.sqrt (∑ m ∈ Finset.range n, r m ^ 2) * uscale < 10⁻¹ ^ 6 ∧ |r n| < 10⁻¹ ^ 6) ∧
    (1 ≤ n → (rhoUCheck σ tolDefault n rhoTotal rhobar vfrac press temp r ↔
      Real.sqrt (∑ m ∈ Finset.range (n - 1), r (m + 1 + 1) ^ 2) <
        max (10⁻¹ ^ 6 * |∑ m ∈ Finset.range n, vfrac m * press m|) (10⁻¹ ^ 6) ∧
      Real.sqrt (∑ m ∈ Finset.range (n - 1), r (m + 1 + n) ^ 2) <
        max (10⁻¹ ^ 4 * ratio σ (∑ m ∈ Finset.range n, rhobar m * temp m) rhoTotal) (10⁻¹ ^ 4))) := by
  have e6 : (10⁻¹ : ℝ) ^ 6 = 1 / 10 ^ 6 := by norm_num
  have e4 : (10⁻¹ : ℝ) ^ 4 = 1 / 10 ^ 4 := by norm_num
  have hsum : ∀ (f : Nat → ℝ), 1 ≤ n → f 0 + ∑ m ∈ Finset.range (n - 1), f (m + 1) = ∑ m ∈ Finset.range n, f m := by
    intro f hn
    obtain ⟨k, rfl⟩ : ∃ k, n = k + 1 := ⟨n - 1, by omega⟩
    rw [Finset.sum_range_succ', Nat.add_sub_cancel, add_comm]
  simp only [e6, e4]
  refine ⟨?_, Iff.rfl, fun hn => ?_, ?_, fun hn => ?_⟩
  · simp only [rhoTCheck, small, tolDefault, forN_add, zero_add, lt_max_iff]
  · simp only [fixedTCheck, small, tolDefault, forN_add, zero_add, lt_max_iff, ← pow_two]
    rw [hsum (fun m => vfrac m * press m) hn]
  · simp only [fixedPCheck, tolDefault, forN_add, zero_add, or_self, ← pow_two]
  · simp only [rhoUCheck, small, tolDefault, forN_add, zero_add, lt_max_iff, ← pow_two]
    rw [hsum (fun m => vfrac m * press m) hn, hsum (fun m => rhobar m * temp m) hn]

theorem small_mono {err rel scale abs rel' abs' : ℝ} (h : small err rel scale abs) (hr : rel ≤ rel') (ha : abs ≤ abs') :
    small err rel' scale abs' := by
  rcases h with h | h
  · exact Or.inl (h.trans_le (mul_le_mul_of_nonneg_right hr (abs_nonneg _)))
  · exact Or.inr (h.trans_le ha)

/-- C18: with the default tolerances a state that passes the test of a solver also passes its relaxed ("sufficient")
test, for each of the five solvers; so a converged state is never reported as unacceptable. -/
theorem C18_converged_is_acceptable (σ : ℝ) (n : Nat) (rhoTotal uscale : ℝ) (rhobar vfrac press temp r : Nat → ℝ) :
    (rhoTCheck tolDefault n vfrac press r → rhoTCheck tolSufficient n vfrac press r) ∧
    (ptCheck tolDefault r → ptCheck tolSufficient r) ∧
    (fixedTCheck tolDefault n vfrac press r → fixedTCheck tolSufficient n vfrac press r) ∧
    (fixedPCheck tolDefault n uscale r → fixedPCheck tolSufficient n uscale r) ∧
    (rhoUCheck σ tolDefault n rhoTotal rhobar vfrac press temp r →
      rhoUCheck σ tolSufficient n rhoTotal rhobar vfrac press temp r) := by
  have hP : tolDefault.relP ≤ tolSufficient.relP := by norm_num [tolDefault, tolSufficient, sufficientOf]
  have hE : tolDefault.relE ≤ tolSufficient.relE := by norm_num [tolDefault, tolSufficient, sufficientOf]
  have hV : tolDefault.relV ≤ tolSufficient.relV := by norm_num [tolDefault, tolSufficient, sufficientOf]
  have hT : tolDefault.relT ≤ tolSufficient.relT := by norm_num [tolDefault, tolSufficient, sufficientOf]
  have aP : tolDefault.absP ≤ tolSufficient.absP := by norm_num [tolDefault, tolSufficient, sufficientOf]
  have aT : tolDefault.absT ≤ tolSufficient.absT := by norm_num [tolDefault, tolSufficient, sufficientOf]
  have T0 : 0 < tolDefault.relT := by norm_num [tolDefault]
  refine ⟨?_, ?_, ?_, ?_, ?_⟩
  · exact fun h => ⟨small_mono h.1 hP aP, h.2.trans_le hE⟩
  · exact fun h => ⟨h.1.trans_le hV, h.2.trans_le hE⟩
  · exact fun h => ⟨small_mono h.1 hP aP, h.2.trans_le hV⟩
  · exact fun h => ⟨h.1.imp (fun a => a.trans_le hP) (fun a => a.trans_le aP), h.2.trans_le hV⟩
  · rintro ⟨h1, h2⟩
    refine ⟨small_mono h1 hP aP, ?_⟩
    rcases h2 with h2 | h2
    · left
      refine h2.trans_le ?_
      have h0 := (Real.sqrt_nonneg _).trans_lt h2
      exact mul_le_mul_of_nonneg_right hT (le_of_lt ((pos_iff_pos_of_mul_pos h0).1 T0))
    · exact Or.inr (h2.trans_le aT)

/-- C18: the relaxed tolerances of a fresh `MixParams` are 1e-4 (1e-3 in temperature). -/
theorem C18_sufficient_tolerances : MixTols.fresh.tol = ⟨10⁻¹ ^ 6, 10⁻¹ ^ 4, 10⁻¹ ^ 6, 10⁻¹ ^ 6, 10⁻¹ ^ 6, 10⁻¹ ^ 4⟩ ∧
    MixTols.fresh.suff = ⟨10⁻¹ ^ 4, 10⁻¹ ^ 3, 10⁻¹ ^ 4, 10⁻¹ ^ 4, 10⁻¹ ^ 4, 10⁻¹ ^ 3⟩ ∧ MixTols.fresh.suff = tolSufficient := by
  refine ⟨?_, ?_, rfl⟩ <;> norm_num [MixTols.fresh, tolDefault, sufficientOf]

/-- C18 is violated for changed tolerances: the relaxed tolerances are computed when the parameters are made and do not follow a
later assignment. After tightening the tolerances however far (here for the PT solver, to `ε` each) the solver still
accepts a stalled state with residuals up to 1e-4; after loosening them beyond 1e-4 a converged state is not acceptable. -/
theorem C18_assigned_tolerances_violated (ε : ℝ) (x : ℝ) :
    let p := MixTols.fresh.assign ⟨ε, ε, ε, ε, ε, ε⟩
    (|x| < 10⁻¹ ^ 4 → ptCheck p.suff (fun _ => x)) ∧ (ε ≤ |x| → ¬ ptCheck p.tol (fun _ => x)) ∧
    (10⁻¹ ^ 4 ≤ |x| → |x| < ε → ptCheck p.tol (fun _ => x) ∧ ¬ ptCheck p.suff (fun _ => x)) ∧
    sufficientOf p.tol = ⟨100 * ε, 10 * ε, 100 * ε, 100 * ε, 100 * ε, 10 * ε⟩ := by
  intro p
  have hs : p.suff = ⟨10⁻¹ ^ 4, 10⁻¹ ^ 3, 10⁻¹ ^ 4, 10⁻¹ ^ 4, 10⁻¹ ^ 4, 10⁻¹ ^ 3⟩ := C18_sufficient_tolerances.2.1
  rw [hs]
  exact ⟨fun h => ⟨h, h⟩, fun h hc => absurd hc.1 (not_lt.2 h), fun h1 h2 => ⟨⟨h2, h2⟩, fun hc => absurd hc.1 (not_lt.2 h1)⟩, rfl⟩

end Verif.PTE
