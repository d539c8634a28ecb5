import Verif.Model.PTEDriver
import Verif.Lemmas.PTEDriver

/-! # An invariant rule for the driver `PTESolver`

`P k` holds at the start of pass `k`, `Q` after `ScaleDx`, `R` after a trial step. -/

set_option linter.unusedSectionVars false

namespace Verif.PTE

open Robust

variable {S K : Type*} [Field K] [LinearOrder K] [IsStrictOrderedRing K]

/-- What the member functions of a solver keep. -/
structure Keeps (Y : Sys S K) (P : Nat → S → Prop) (Q R : S → Prop) : Prop where
  jacobian : ∀ k s, P k s → P k (Y.jacobian s)
  solve : ∀ k s, P k s → P k (Y.solve s).1
  scaleDx : ∀ k s, P k s → P k (Y.scaleDx s).1
  scaled : ∀ k s, P k s → Q (Y.scaleDx s).1
  first : ∀ s, Q s → R (Y.testUpdate s 1 true).1
  again : ∀ s t, R s → 0 < t → t ≤ 1 → R (Y.testUpdate s t false).1
  fixup : ∀ k s, R s → P (k + 1) (Y.fixup s)

theorem lineLoop_keeps {Y : Sys S K} {P : Nat → S → Prop} {Q R : S → Prop} (h : Keeps Y P Q R) {α fac errOld g : K}
    (hf0 : 0 < fac) (hf1 : fac ≤ 1) :
    ∀ f it (s : S) err scale ml, R s → 0 < scale → scale ≤ 1 → R (lineLoop Y α fac errOld g f it s err scale ml).1 := by
  intro f
  induction f with
  | zero => intro it s err scale ml hs _ _; exact hs
  | succ f ih =>
    intro it s err scale ml hs h0 h1
    dsimp only [lineLoop]
    split_ifs with hc
    · exact h.again s scale hs h0 h1
    · exact ih _ _ _ _ _ (h.again s scale hs h0 h1) (by positivity) (by nlinarith)

theorem lineSearch_keeps {σ : K} (hσ : 0 < σ) {Y : Sys S K} {P : Nat → S → Prop} {Q R : S → Prop} (h : Keeps Y P Q R)
    {p : DriverParams K} (hf0 : 0 < p.lineFac) (hf1 : p.lineFac ≤ 1) {s : S} (hs : Q s) (errOld g : K) (ml : Nat) :
    R (lineSearch σ Y p s errOld g ml).1 := by
  unfold lineSearch
  dsimp only
  have h1 := h.first s hs
  have h2 := h.again _ (1 / 2) h1 (by norm_num) (by norm_num)
  split_ifs with hc hd
  · have := parabola_range hσ hd.1 hd.2
    exact lineLoop_keeps h hf0 hf1 _ _ _ _ _ _ h2 (by linarith [this.1]) (by linarith [this.2])
  · exact lineLoop_keeps h hf0 hf1 _ _ _ _ _ _ h2 (by norm_num) (by norm_num)
  · exact h1

/-- One pass: it ends with the invariant of this pass (stopped before the step) or of the next. -/
theorem driverBody_keeps {σ : K} (hσ : 0 < σ) {Y : Sys S K} {P : Nat → S → Prop} {Q R : S → Prop} (h : Keeps Y P Q R)
    {p : DriverParams K} (hf0 : 0 < p.lineFac) (hf1 : p.lineFac ≤ 1) (maxIter k : Nat) (d : DState S K) (hd : P k d.s) (hs : d.slow = false) :
    let r := driverBody σ Y p maxIter k d
    r.2.niter = k ∧
    (r.1 = true → ∃ j, k ≤ j ∧ P j r.2.s ∧ (r.2.converged = true → r.2.slow = false → (Y.check r.2.s).1 = true)) ∧
    (r.1 = false → P (k + 1) r.2.s ∧ r.2.slow = false ∧ r.2.converged = false) := by
  intro r
  have hr : r = driverBody σ Y p maxIter k d := rfl
  unfold driverBody at hr
  dsimp only at hr
  split_ifs at hr with hc
  · rw [hr]
    exact ⟨rfl, fun _ => ⟨k, le_rfl, hd, fun _ _ => hc⟩, fun hx => absurd hx (by simp)⟩
  · unfold driverMid at hr
    dsimp only at hr
    generalize (if |min 1 (Y.scaleDx (Y.solve (Y.jacobian d.s)).1).2| < p.smallThresh then d.small + 1 else d.small) = sm at hr
    split_ifs at hr with h1 h2
    · rw [hr]
      refine ⟨rfl, fun _ => ⟨k, le_rfl, h.solve k _ (h.jacobian k _ hd), fun hx => absurd hx (by simp)⟩,
        fun hx => absurd hx (by simp)⟩
    · rw [hr]
      refine ⟨rfl, fun _ => ⟨k, le_rfl, h.scaleDx k _ (h.solve k _ (h.jacobian k _ hd)), fun hx => absurd hx (by simp)⟩,
        fun hx => absurd hx (by simp)⟩
    · have hQ := h.scaled k _ (h.solve k _ (h.jacobian k _ hd))
      unfold driverTail at hr
      dsimp only at hr
      split_ifs at hr with h3
      · rw [hr]
        refine ⟨rfl, fun _ => ⟨k + 1, by omega, h.fixup k _ (lineSearch_keeps hσ h hf0 hf1 hQ _ _ _), fun _ hx => ?_⟩,
          fun hx => absurd hx (by simp)⟩
        exact absurd hx (by simp)
      · rw [hr]
        exact ⟨rfl, fun hx => absurd hx (by simp), fun _ => ⟨h.fixup k _ (lineSearch_keeps hσ h hf0 hf1 hQ _ _ _), hs,
          by simpa using hc⟩⟩

theorem driverLoop_keeps {σ : K} (hσ : 0 < σ) {Y : Sys S K} {P : Nat → S → Prop} {Q R : S → Prop} (h : Keeps Y P Q R)
    {p : DriverParams K} (hf0 : 0 < p.lineFac) (hf1 : p.lineFac ≤ 1) (maxIter : Nat) :
    ∀ f k (d : DState S K), P k d.s → d.slow = false → d.converged = false →
      let r := driverLoop σ Y p maxIter f k d
      ∃ j, r.niter ≤ j ∧ P j r.s ∧ (r.converged = true → r.slow = false → (Y.check r.s).1 = true) := by
  intro f
  induction f with
  | zero =>
    intro k d hd hs hc
    exact ⟨k, le_rfl, hd, fun hx => absurd hx (by simp [driverLoop, hc])⟩
  | succ f ih =>
    intro k d hd hs hc
    have hb := driverBody_keeps hσ h hf0 hf1 maxIter k d hd hs
    dsimp only [driverLoop]
    dsimp only at hb
    split_ifs with h1
    · obtain ⟨j, hj, hP, hcv⟩ := hb.2.1 h1
      exact ⟨j, by rw [hb.1]; exact hj, hP, hcv⟩
    · obtain ⟨hP, hsl, hcv⟩ := hb.2.2 (by simpa using h1)
      exact ih (k + 1) _ hP hsl hcv

/-- **Invariant rule for `PTESolver`.** -/
theorem pteSolver_keeps {σ : K} (hσ : 0 < σ) {Y : Sys S K} {P : Nat → S → Prop} {Q R : S → Prop} (h : Keeps Y P Q R)
    {p : DriverParams K} (hf0 : 0 < p.lineFac) (hf1 : p.lineFac ≤ 1) (s0 : S) (h0 : P 0 (Y.init s0).1) :
    let r := pteSolver σ Y p s0
    ∃ j s, r.niter ≤ j ∧ P j s ∧ r.s = Y.finalize (Y.fixup s) ∧
      (r.converged = true → r.slow = false → (Y.check s).1 = true) := by
  intro r
  obtain ⟨j, hj, hP, hc⟩ := driverLoop_keeps hσ h hf0 hf1 (Y.nmat * p.maxIterPerMat) (Y.nmat * p.maxIterPerMat) 0
    { s := (Y.init s0).1, err := (Y.init s0).2, converged := false, close := false, small := 0, slow := false,
      maxNiter := 0, maxLine := 0, niter := 0 } h0 rfl rfl
  exact ⟨j, _, hj, hP, rfl, hc⟩

end Verif.PTE
