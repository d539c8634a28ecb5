import Verif.Spec.PTEMerit
import Verif.Props.PTEFullRhoU

/-! # What `PTESolver` reports as the residual -/

set_option linter.unusedSectionVars false

namespace Verif.PTE

open Robust

section
variable {S K : Type*} [Field K] [LinearOrder K] [IsStrictOrderedRing K]

/-- A relation between the state and the error held by every member function holds at the end of the solve. -/
structure Reports (Y : Sys S K) (R : S → K → Prop) : Prop where
  jacobian : ∀ s e, R s e → R (Y.jacobian s) e
  solve : ∀ s e, R s e → R (Y.solve s).1 e
  scaleDx : ∀ s e, R s e → R (Y.scaleDx s).1 e
  test : ∀ s e t c, R s e → R (Y.testUpdate s t c).1 (Y.testUpdate s t c).2
  fixup : ∀ s e, R s e → R (Y.fixup s) e

theorem lineLoop_reports {Y : Sys S K} {R : S → K → Prop} (h : Reports Y R) {α fac errOld g : K} :
    ∀ f it (s : S) (e err scale : K) ml, R s e → 1 ≤ f →
      R (lineLoop Y α fac errOld g f it s err scale ml).1 (lineLoop Y α fac errOld g f it s err scale ml).2.1 := by
  intro f
  induction f with
  | zero => intro _ _ _ _ _ _ _ hf; omega
  | succ f ih =>
    intro it s e err scale ml hs _
    dsimp only [lineLoop]
    have h1 := h.test s e scale false hs
    split_ifs
    · exact h1
    · rcases Nat.eq_zero_or_pos f with rfl | hf
      · exact h1
      · exact ih _ _ _ _ _ _ h1 hf

theorem lineSearch_reports {σ : K} {Y : Sys S K} {R : S → K → Prop} (h : Reports Y R) {p : DriverParams K}
    (hl : 1 ≤ p.lineMax) {s : S} {e : K} (hs : R s e) (errOld g : K) (ml : Nat) :
    R (lineSearch σ Y p s errOld g ml).1 (lineSearch σ Y p s errOld g ml).2.1 := by
  unfold lineSearch
  dsimp only
  have h1 := h.test s e 1 true hs
  split_ifs
  · exact lineLoop_reports h _ _ _ _ _ _ _ (h.test _ _ (1 / 2) false h1) hl
  · exact lineLoop_reports h _ _ _ _ _ _ _ (h.test _ _ (1 / 2) false h1) hl
  · exact h1

theorem driverBody_reports {σ : K} {Y : Sys S K} {R : S → K → Prop} (h : Reports Y R) {p : DriverParams K}
    (hl : 1 ≤ p.lineMax) (maxIter k : Nat) {d : DState S K} (hd : R d.s d.err) :
    R (driverBody σ Y p maxIter k d).2.s (driverBody σ Y p maxIter k d).2.err := by
  unfold driverBody
  dsimp only
  split_ifs
  · exact hd
  · unfold driverMid
    dsimp only
    have h1 := h.solve _ _ (h.jacobian _ _ hd)
    have h2 := h.scaleDx _ _ h1
    split_ifs
    · exact h1
    all_goals first
      | exact h2
      | (unfold driverTail
         dsimp only
         split_ifs <;> exact h.fixup _ _ (lineSearch_reports h hl h2 _ _ _))

theorem driverLoop_reports {σ : K} {Y : Sys S K} {R : S → K → Prop} (h : Reports Y R) {p : DriverParams K}
    (hl : 1 ≤ p.lineMax) (maxIter : Nat) : ∀ f k (d : DState S K), R d.s d.err →
      R (driverLoop σ Y p maxIter f k d).s (driverLoop σ Y p maxIter f k d).err := by
  intro f
  induction f with
  | zero => intro k d hd; exact hd
  | succ f ih =>
    intro k d hd
    dsimp only [driverLoop]
    split_ifs
    · exact driverBody_reports h hl _ _ hd
    · exact ih _ _ (driverBody_reports h hl _ _ hd)

/-- The relation between the state before `Finalize` and the error returned. -/
theorem pteSolver_reports {σ : K} {Y : Sys S K} {R : S → K → Prop} (h : Reports Y R) {p : DriverParams K}
    (hl : 1 ≤ p.lineMax) {s0 : S} (h0 : R (Y.init s0).1 (Y.init s0).2) :
    ∃ s, R s (pteSolver σ Y p s0).err ∧ (pteSolver σ Y p s0).s = Y.finalize s := by
  unfold pteSolver
  dsimp only
  exact ⟨_, h.fixup _ _ (driverLoop_reports h hl _ _ _ _ h0), rfl⟩

theorem residualNorm_eq (N : Nat) (r : Nat → K) : residualNorm N r = 1 / 2 * ∑ i ∈ Finset.range N, r i ^ 2 := by
  unfold residualNorm
  rw [sumNeumaier_eq, Finset.filter_true_of_mem (fun i _ => by omega)]
  simp only [add_zero, sq]

theorem norm_pt (n : Nat) (vt ut : K) (v u r : Nat → K) :
    residualNorm 2 (ptResidual n vt ut v u r) = meritVU n vt ut v u := by
  rw [residualNorm_eq, Finset.sum_range_succ, Finset.sum_range_one]
  simp [ptResidual, meritVU, sumNeumaier_all]

theorem norm_rhoT {n k : Nat} (hk : k < n) (ut : K) (u p r : Nat → K) :
    residualNorm n (rhoTResidual n k ut u p r) = meritUP n k ut u p := by
  obtain ⟨r1, r2⟩ := rhoTResidual_rows hk ut u p r
  have e : ∑ m ∈ (Finset.range n).filter (· ≠ k), rhoTResidual n k ut u p r (pos k m) ^ 2
      = ∑ m ∈ (Finset.range n).filter (· ≠ k), (p k - p m) ^ 2 := Finset.sum_congr rfl fun m hm => by
    simp only [Finset.mem_filter, Finset.mem_range] at hm
    rw [r2 m hm.1 hm.2]
  rw [residualNorm_eq, sum_pos hk, r1, meritUP, sum_update hk (fun m => (p k - p m) ^ 2) _ (fun _ _ _ => rfl), sub_self, e]
  ring

theorem norm_fixedT {n : Nat} (hn : 0 < n) (vt : K) (v p r : Nat → K) :
    residualNorm n (fixedTResidual n vt v p r) = meritVP n vt v p := by
  obtain ⟨r1, r2⟩ := fixedTResidual_rows n vt v p r
  obtain ⟨k, rfl⟩ : ∃ k, n = k + 1 := ⟨n - 1, by omega⟩
  have e : ∑ m ∈ Finset.range k, fixedTResidual (k + 1) vt v p r (m + 1) ^ 2 = ∑ m ∈ Finset.range k, (p m - p (m + 1)) ^ 2 :=
    Finset.sum_congr rfl fun m hm => by rw [r2 m (by simpa using hm)]
  rw [residualNorm_eq, Finset.sum_range_succ', r1, meritVP, Nat.add_sub_cancel, e, add_comm]

theorem norm_fixedP (σ : K) (n : Nat) (vt P U : K) (v p r : Nat → K) :
    residualNorm (n + 1) (fixedPResidual σ n vt P U v p r) = meritVPfix n vt (ratio σ P U) v p := by
  have e : ∑ m ∈ Finset.range n, fixedPResidual σ n vt P U v p r m ^ 2 = ∑ m ∈ Finset.range n, (ratio σ P U - p m) ^ 2 :=
    Finset.sum_congr rfl fun m hm => by
      have hm := Finset.mem_range.1 hm
      unfold fixedPResidual
      rw [Function.update_of_ne (by omega), fill_apply, if_pos hm]
  rw [residualNorm_eq, Finset.sum_range_succ, meritVPfix, e, add_comm]
  unfold fixedPResidual
  rw [Function.update_self, sumNeumaier_all]

theorem norm_rhoU {n : Nat} (hn : 1 ≤ n) (vt ut : K) (v u p t r : Nat → K) :
    residualNorm (2 * n) (rhoUResidual n vt ut v u p t r) = meritAll n vt ut v u p t := by
  obtain ⟨r1, r2, r3, r4⟩ := rhoUResidual_rows hn vt ut v u p t r
  obtain ⟨k, rfl⟩ : ∃ k, n = k + 1 := ⟨n - 1, by omega⟩
  have e1 : ∑ m ∈ Finset.range k, rhoUResidual (k + 1) vt ut v u p t r (2 + m) ^ 2 = ∑ m ∈ Finset.range k, (p (m + 1) - p m) ^ 2 :=
    Finset.sum_congr rfl fun m hm => by rw [r3 m (by simpa using hm)]
  have e2 : ∑ m ∈ Finset.range k, rhoUResidual (k + 1) vt ut v u p t r (2 + k + m) ^ 2 = ∑ m ∈ Finset.range k, (t (m + 1) - t m) ^ 2 :=
    Finset.sum_congr rfl fun m hm => by rw [← r4 m (by simpa using hm)]; congr 2; ring
  rw [residualNorm_eq, meritAll, Nat.add_sub_cancel, show 2 * (k + 1) = (2 + k) + k by ring, Finset.sum_range_add,
    Finset.sum_range_add, Finset.sum_range_succ, Finset.sum_range_one, r1, r2, e1, e2]

end

end Verif.PTE
