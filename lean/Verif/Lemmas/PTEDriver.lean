import Verif.Model.PTEDriver
import Verif.Lemmas.Robust
import Verif.Tactics

namespace Verif.PTE

open Robust

set_option linter.unusedSectionVars false

variable {S K : Type*} [Field K] [LinearOrder K] [IsStrictOrderedRing K]

/-- Invariant rule for the main loop. -/
theorem driverLoop_inv {σ : K} {Y : Sys S K} {p : DriverParams K} {maxIter : Nat}
    (P : Nat → DState S K → Prop) (Q : DState S K → Prop)
    (hbrk : ∀ k d, k < maxIter → P k d → (driverBody σ Y p maxIter k d).1 = true →
      Q (driverBody σ Y p maxIter k d).2)
    (hcont : ∀ k d, k < maxIter → P k d → (driverBody σ Y p maxIter k d).1 = false →
      P (k + 1) (driverBody σ Y p maxIter k d).2)
    (hend : ∀ d, P maxIter d → Q { d with niter := maxIter }) :
    ∀ f k d, k + f = maxIter → P k d → Q (driverLoop σ Y p maxIter f k d) := by
  intro f
  induction f with
  | zero =>
    intro k d hk hP
    have : k = maxIter := by omega
    subst this
    exact hend d hP
  | succ f ih =>
    intro k d hk hP
    dsimp only [driverLoop]
    by_cases hb : (driverBody σ Y p maxIter k d).1 = true
    · rw [if_pos hb]
      exact hbrk k d (by omega) hP hb
    · rw [if_neg hb]
      exact ih (k + 1) _ (by omega) (hcont k d (by omega) hP (by simpa using hb))

/-- The pseudo-parabolic scale lies strictly between 1/4 and 3/4 whenever it is used. -/
theorem parabola_range {σ err errMid errOld : K} (hσ : 0 < σ) (h1 : errMid < err) (h2 : errMid < errOld) :
    1 / 4 < parabola σ err errMid errOld ∧ parabola σ err errMid errOld < 3 / 4 := by
  unfold parabola
  have hD : 0 ≤ err - 2 * errMid + errOld := by linarith
  rw [ratio_pos_den _ hD]
  have hden : 0 < err - 2 * errMid + errOld + σ := by linarith
  constructor
  · have : -1 < (errMid - err) / (err - 2 * errMid + errOld + σ) := by
      rw [lt_div_iff₀ hden]; linarith
    linarith
  · have : (errMid - err) / (err - 2 * errMid + errOld + σ) < 0 := div_neg_of_neg_of_pos (by linarith) hden
    linarith

/-! ### A system that records its calls -/

/-- A recorded call. -/
inductive Ev (K : Type*)
  | solve
  | test (scale : K) (cache : Bool) (err : K)

/-- Is it a call of `Solve`? -/
def Ev.isSolve : Ev K → Bool
  | .solve => true
  | .test .. => false

/-- Is it a call of `TestUpdate`? -/
def Ev.isTest : Ev K → Bool
  | .solve => false
  | .test .. => true

/-- `Y` with a record of the calls to `Solve` and `TestUpdate`, latest first. -/
def logSys (Y : Sys S K) : Sys (S × List (Ev K)) K where
  nmat := Y.nmat
  init s := (((Y.init s.1).1, s.2), (Y.init s.1).2)
  check s := Y.check s.1
  jacobian s := (Y.jacobian s.1, s.2)
  solve s := (((Y.solve s.1).1, Ev.solve :: s.2), (Y.solve s.1).2)
  scaleDx s := (((Y.scaleDx s.1).1, s.2), (Y.scaleDx s.1).2)
  testUpdate s t c :=
    (((Y.testUpdate s.1 t c).1, Ev.test t c (Y.testUpdate s.1 t c).2 :: s.2), (Y.testUpdate s.1 t c).2)
  fixup s := (Y.fixup s.1, s.2)
  finalize s := (Y.finalize s.1, s.2)

/-- Forget the record. -/
def DState.erase (d : DState (S × List (Ev K)) K) : DState S K :=
  { s := d.s.1, err := d.err, converged := d.converged, close := d.close, small := d.small,
    slow := d.slow, maxNiter := d.maxNiter, maxLine := d.maxLine, niter := d.niter }

theorem lineLoop_erase (Y : Sys S K) (α fac errOld g : K) :
    ∀ f it (s : S × List (Ev K)) err scale ml,
      lineLoop Y α fac errOld g f it s.1 err scale ml
        = ((lineLoop (logSys Y) α fac errOld g f it s err scale ml).1.1,
          (lineLoop (logSys Y) α fac errOld g f it s err scale ml).2) := by
  intro f
  induction f with
  | zero => intros; rfl
  | succ f ih =>
    intro it s err scale ml
    dsimp only [lineLoop]
    have e : ((logSys Y).testUpdate s scale false).2 = (Y.testUpdate s.1 scale false).2 := rfl
    rw [e]
    split_ifs
    · rfl
    · exact ih (it + 1) ((logSys Y).testUpdate s scale false).1 _ _ _

theorem lineSearch_erase (σ : K) (Y : Sys S K) (p : DriverParams K) (s : S × List (Ev K)) (errOld g : K)
    (ml : Nat) :
    lineSearch σ Y p s.1 errOld g ml
      = ((lineSearch σ (logSys Y) p s errOld g ml).1.1, (lineSearch σ (logSys Y) p s errOld g ml).2) := by
  unfold lineSearch
  have e : ((logSys Y).testUpdate s 1 true).2 = (Y.testUpdate s.1 1 true).2 := rfl
  dsimp only
  rw [e]
  have e' : ((logSys Y).testUpdate ((logSys Y).testUpdate s 1 true).1 (1 / 2) false).2
      = (Y.testUpdate (Y.testUpdate s.1 1 true).1 (1 / 2) false).2 := rfl
  rw [e']
  by_cases h1 : (Y.testUpdate s.1 1 true).2 > errOld + p.lineAlpha * g
  · simp only [if_pos h1]
    exact lineLoop_erase Y _ _ _ _ _ _ ((logSys Y).testUpdate ((logSys Y).testUpdate s 1 true).1 (1 / 2) false).1
      _ _ _
  · simp only [if_neg h1]
    rfl

theorem driverTail_erase (σ : K) (Y : Sys S K) (p : DriverParams K) (maxIter k : Nat) (scale : K)
    (d : DState (S × List (Ev K)) K) :
    driverTail σ Y p maxIter k scale d.erase
      = ((driverTail σ (logSys Y) p maxIter k scale d).1,
         (driverTail σ (logSys Y) p maxIter k scale d).2.erase) := by
  unfold driverTail
  have h := lineSearch_erase σ Y p d.s d.err (-2 * scale * d.err) d.maxLine
  dsimp only [DState.erase]
  rw [h]
  generalize lineSearch σ (logSys Y) p d.s d.err (-2 * scale * d.err) d.maxLine = L
  dsimp only
  by_cases hc : (L.2.1 > p.slowThresh * d.err ∨ k = maxIter - 1) ∧ d.close = true
  · refine (if_pos hc).trans ?_
    rw [if_pos hc]; rfl
  · refine (if_neg hc).trans ?_
    rw [if_neg hc]; rfl

theorem driverMid_erase (σ : K) (Y : Sys S K) (p : DriverParams K) (maxIter k : Nat)
    (d : DState (S × List (Ev K)) K) :
    driverMid σ Y p maxIter k d.erase
      = ((driverMid σ (logSys Y) p maxIter k d).1, (driverMid σ (logSys Y) p maxIter k d).2.erase) := by
  unfold driverMid
  have e2 : ((logSys Y).solve ((logSys Y).jacobian d.s)).2 = (Y.solve (Y.jacobian d.s.1)).2 := rfl
  have e3 : ((logSys Y).scaleDx ((logSys Y).solve ((logSys Y).jacobian d.s)).1).2
      = (Y.scaleDx (Y.solve (Y.jacobian d.s.1)).1).2 := rfl
  have e5 : d.erase.s = d.s.1 := rfl
  have e6 : d.erase.small = d.small := rfl
  dsimp only
  rw [e2, e3, e5, e6]
  by_cases h1 : (Y.solve (Y.jacobian d.s.1)).2 = false
  · simp only [if_pos h1]; rfl
  · simp only [if_neg h1]
    generalize (if |min 1 (Y.scaleDx (Y.solve (Y.jacobian d.s.1)).1).2| < p.smallThresh then d.small + 1
      else d.small) = sm
    by_cases h2 : p.smallTries ≤ sm
    · simp only [if_pos h2]; rfl
    · simp only [if_neg h2]
      exact driverTail_erase σ Y p maxIter k _
        { d with s := ((logSys Y).scaleDx ((logSys Y).solve ((logSys Y).jacobian d.s)).1).1, small := sm }

theorem driverBody_erase (σ : K) (Y : Sys S K) (p : DriverParams K) (maxIter k : Nat)
    (d : DState (S × List (Ev K)) K) :
    driverBody σ Y p maxIter k d.erase
      = ((driverBody σ (logSys Y) p maxIter k d).1, (driverBody σ (logSys Y) p maxIter k d).2.erase) := by
  unfold driverBody
  have e1 : (logSys Y).check d.s = Y.check d.s.1 := rfl
  have e5 : d.erase.s = d.s.1 := rfl
  dsimp only
  rw [e1, e5]
  by_cases h1 : (Y.check d.s.1).1 = true
  · simp only [if_pos h1]; rfl
  · simp only [if_neg h1]
    exact driverMid_erase σ Y p maxIter k
      { d with niter := k, maxNiter := max d.maxNiter k, converged := (Y.check d.s.1).1,
               close := (Y.check d.s.1).2 }

theorem driverLoop_erase (σ : K) (Y : Sys S K) (p : DriverParams K) (maxIter : Nat) :
    ∀ f k (d : DState (S × List (Ev K)) K),
      driverLoop σ Y p maxIter f k d.erase = (driverLoop σ (logSys Y) p maxIter f k d).erase := by
  intro f
  induction f with
  | zero => intros; rfl
  | succ f ih =>
    intro k d
    dsimp only [driverLoop]
    rw [driverBody_erase]
    by_cases h : (driverBody σ (logSys Y) p maxIter k d).1 = true
    · simp only [if_pos h]
    · simp only [if_neg h]
      exact ih _ _

/-! ### Call counts and scales -/

/-- What one call sequence adds to the record: at most `a` solves and `b` tests, all with scale in
`(0,1]`. -/
def Adds (l l' : List (Ev K)) (a b : Nat) : Prop :=
  ∃ m : List (Ev K), l' = m ++ l ∧ m.countP Ev.isSolve ≤ a ∧
    m.countP Ev.isTest ≤ b ∧
    ∀ t c e, Ev.test t c e ∈ m → 0 < t ∧ t ≤ 1

theorem Adds.refl (l : List (Ev K)) : Adds l l 0 0 := ⟨[], by simp⟩

theorem Adds.trans {l l' l'' : List (Ev K)} {a b a' b' : Nat} (h : Adds l l' a b) (h' : Adds l' l'' a' b') :
    Adds l l'' (a + a') (b + b') := by
  obtain ⟨m, rfl, h1, h2, h3⟩ := h
  obtain ⟨m', rfl, h1', h2', h3'⟩ := h'
  refine ⟨m' ++ m, by simp, ?_, ?_, ?_⟩
  · rw [List.countP_append]; omega
  · rw [List.countP_append]; omega
  · intro t c e he
    rcases List.mem_append.mp he with he | he
    · exact h3' t c e he
    · exact h3 t c e he

theorem Adds.mono {l l' : List (Ev K)} {a b a' b' : Nat} (h : Adds l l' a b) (ha : a ≤ a') (hb : b ≤ b') :
    Adds l l' a' b' := by
  obtain ⟨m, h0, h1, h2, h3⟩ := h
  exact ⟨m, h0, h1.trans ha, h2.trans hb, h3⟩

theorem Adds.test (l : List (Ev K)) {t : K} (h0 : 0 < t) (h1 : t ≤ 1) (c : Bool) (e : K) :
    Adds l (Ev.test t c e :: l) 0 1 := by
  refine ⟨[Ev.test t c e], rfl, by simp [Ev.isSolve], by simp [Ev.isTest], ?_⟩
  intro t' c' e' he
  simp only [List.mem_singleton] at he
  injection he with h h' h''
  subst h
  exact ⟨h0, h1⟩

theorem Adds.solve (l : List (Ev K)) : Adds l (Ev.solve :: l) 1 0 :=
  ⟨[Ev.solve], rfl, by simp [Ev.isSolve], by simp [Ev.isTest], by intro t c e he; simp at he⟩

theorem lineLoop_adds (Y : Sys S K) {α fac errOld g : K} (hf0 : 0 < fac) (hf1 : fac ≤ 1) :
    ∀ f it (s : S × List (Ev K)) err scale ml, 0 < scale → scale ≤ 1 →
      Adds s.2 (lineLoop (logSys Y) α fac errOld g f it s err scale ml).1.2 0 f := by
  intro f
  induction f with
  | zero => intro it s err scale ml _ _; exact Adds.refl _
  | succ f ih =>
    intro it s err scale ml h0 h1
    dsimp only [lineLoop]
    have ht := Adds.test s.2 h0 h1 false (Y.testUpdate s.1 scale false).2
    split_ifs
    · exact ht.mono le_rfl (by omega)
    · have := ih (it + 1) ((logSys Y).testUpdate s scale false).1 ((logSys Y).testUpdate s scale false).2
        (scale * fac) (max it ml) (mul_pos h0 hf0) (mul_le_one₀ h1 hf0.le hf1)
      exact (ht.trans this).mono le_rfl (by omega)

theorem lineSearch_adds {σ : K} (hσ : 0 < σ) (Y : Sys S K) {p : DriverParams K} (hf0 : 0 < p.lineFac)
    (hf1 : p.lineFac ≤ 1) (s : S × List (Ev K)) (errOld g : K) (ml : Nat) :
    Adds s.2 (lineSearch σ (logSys Y) p s errOld g ml).1.2 0 (2 + p.lineMax) := by
  unfold lineSearch
  have t1 := Adds.test s.2 one_pos le_rfl true (Y.testUpdate s.1 1 true).2
  dsimp only
  split_ifs with h h2
  · have t2 := Adds.test ((logSys Y).testUpdate s 1 true).1.2 (by norm_num : (0 : K) < 1 / 2) (by norm_num)
      false (Y.testUpdate (Y.testUpdate s.1 1 true).1 (1 / 2) false).2
    have hp := parabola_range hσ h2.1 h2.2
    have t3 := lineLoop_adds Y (α := p.lineAlpha) (errOld := errOld) (g := g) hf0 hf1 p.lineMax 0
      ((logSys Y).testUpdate ((logSys Y).testUpdate s 1 true).1 (1 / 2) false).1
      ((logSys Y).testUpdate s 1 true).2 _ ml (by linarith [hp.1]) (by linarith [hp.2])
    exact ((t1.trans t2).trans t3).mono le_rfl (by omega)
  · have t2 := Adds.test ((logSys Y).testUpdate s 1 true).1.2 (by norm_num : (0 : K) < 1 / 2) (by norm_num)
      false (Y.testUpdate (Y.testUpdate s.1 1 true).1 (1 / 2) false).2
    have t3 := lineLoop_adds Y (α := p.lineAlpha) (errOld := errOld) (g := g) hf0 hf1 p.lineMax 0
      ((logSys Y).testUpdate ((logSys Y).testUpdate s 1 true).1 (1 / 2) false).1
      ((logSys Y).testUpdate s 1 true).2 (1 / 2) ml (by norm_num) (by norm_num)
    exact ((t1.trans t2).trans t3).mono le_rfl (by omega)
  · exact t1.mono le_rfl (by omega)

theorem driverTail_adds {σ : K} (hσ : 0 < σ) (Y : Sys S K) {p : DriverParams K} (hf0 : 0 < p.lineFac)
    (hf1 : p.lineFac ≤ 1) (maxIter k : Nat) (scale : K) (d : DState (S × List (Ev K)) K) :
    Adds d.s.2 (driverTail σ (logSys Y) p maxIter k scale d).2.s.2 0 (2 + p.lineMax) := by
  unfold driverTail
  have t2 := lineSearch_adds hσ Y hf0 hf1 d.s d.err (-2 * scale * d.err) d.maxLine
  dsimp only
  split_ifs
  · exact t2
  · exact t2

theorem driverMid_adds {σ : K} (hσ : 0 < σ) (Y : Sys S K) {p : DriverParams K} (hf0 : 0 < p.lineFac)
    (hf1 : p.lineFac ≤ 1) (maxIter k : Nat) (d : DState (S × List (Ev K)) K) :
    Adds d.s.2 (driverMid σ (logSys Y) p maxIter k d).2.s.2 1 (2 + p.lineMax) := by
  unfold driverMid
  dsimp only
  have t1 := Adds.solve d.s.2
  generalize (if |min 1 ((logSys Y).scaleDx ((logSys Y).solve ((logSys Y).jacobian d.s)).1).2| < p.smallThresh
    then d.small + 1 else d.small) = sm
  split_ifs
  · exact t1.mono (by omega) (by omega)
  · exact t1.mono (by omega) (by omega)
  · exact (t1.trans (driverTail_adds hσ Y hf0 hf1 maxIter k
      (min 1 ((logSys Y).scaleDx ((logSys Y).solve ((logSys Y).jacobian d.s)).1).2)
      { d with s := ((logSys Y).scaleDx ((logSys Y).solve ((logSys Y).jacobian d.s)).1).1, small := sm })).mono
      (by omega) (by omega)

theorem driverBody_adds {σ : K} (hσ : 0 < σ) (Y : Sys S K) {p : DriverParams K} (hf0 : 0 < p.lineFac)
    (hf1 : p.lineFac ≤ 1) (maxIter k : Nat) (d : DState (S × List (Ev K)) K) :
    Adds d.s.2 (driverBody σ (logSys Y) p maxIter k d).2.s.2 1 (2 + p.lineMax) := by
  unfold driverBody
  dsimp only
  split_ifs
  · exact (Adds.refl _).mono (by omega) (by omega)
  · exact driverMid_adds hσ Y hf0 hf1 maxIter k
      { d with niter := k, maxNiter := max d.maxNiter k, converged := ((logSys Y).check d.s).1,
               close := ((logSys Y).check d.s).2 }

end Verif.PTE
