import Verif.Model.MixUtils
import Verif.Lemmas.Robust
import Verif.Tactics

namespace Verif.PTE

open Robust

set_option linter.unusedSectionVars false

variable {K : Type*} [Field K] [LinearOrder K] [IsStrictOrderedRing K]

theorem argmaxV_spec {n : Nat} {v : Nat → K} (hn : 0 < n) (hv : ∀ m, m < n → -1 < v m) :
    (argmaxV n v).1 < n ∧ (∀ m, m < n → v m ≤ v (argmaxV n v).1) := by
  have h := forN_inv (n := n) (s := ((0 : Nat), (-1 : K)))
    (body := fun s m => if v m > s.2 then (m, v m) else s)
    (P := fun k s => (k = 0 ∧ s = (0, -1)) ∨
      (0 < k ∧ s.1 < k ∧ s.2 = v s.1 ∧ ∀ m, m < k → v m ≤ s.2))
    (Or.inl ⟨rfl, rfl⟩) ?_
  · rcases h with h | h
    · omega
    · unfold argmaxV
      exact ⟨h.2.1, fun m hm => h.2.2.1 ▸ h.2.2.2 m hm⟩
  · intro m t hm ht
    right
    rcases ht with ⟨rfl, rfl⟩ | ⟨h0, h1, h2, h3⟩
    · have := hv 0 hm
      dsimp only
      rw [if_pos this]
      refine ⟨by omega, by omega, rfl, fun m' hm' => ?_⟩
      have : m' = 0 := by omega
      subst this; exact le_rfl
    · split_ifs with hc
      · refine ⟨by omega, by dsimp; omega, rfl, fun m' hm' => ?_⟩
        rcases Nat.lt_succ_iff_lt_or_eq.mp hm' with h | rfl
        · exact (h3 m' h).trans hc.le
        · exact le_rfl
      · refine ⟨by omega, by omega, h2, fun m' hm' => ?_⟩
        rcases Nat.lt_succ_iff_lt_or_eq.mp hm' with h | rfl
        · exact h3 m' h
        · exact not_lt.mp hc

theorem subOthers_eq (n imax : Nat) (tot : K) (f : Nat → K) :
    subOthers n imax tot f = tot - ∑ m ∈ (Finset.range n).filter (· ≠ imax), f m := by
  unfold subOthers
  induction n with
  | zero => simp
  | succ n ih =>
    rw [forN_succ, ih, Finset.range_add_one, Finset.filter_insert]
    by_cases h : n = imax
    · simp [h]
    · rw [if_neg h, if_pos h, Finset.sum_insert (by simp)]; ring

/-- A sum with one entry replaced. -/
theorem sum_update {n i : Nat} (hi : i < n) (f g : Nat → K) (hg : ∀ m, m < n → m ≠ i → g m = f m) :
    ∑ m ∈ Finset.range n, g m = g i + ∑ m ∈ (Finset.range n).filter (· ≠ i), f m := by
  rw [← Finset.add_sum_erase _ _ (Finset.mem_range.mpr hi)]
  congr 1
  have : (Finset.range n).erase i = (Finset.range n).filter (· ≠ i) := by
    ext m; simp [and_comm]
  rw [this]
  refine Finset.sum_congr rfl fun m hm => ?_
  simp only [Finset.mem_filter, Finset.mem_range] at hm
  exact hg m hm.1 hm.2

theorem argmaxAbs_spec {n : Nat} {v : Nat → K} (h0 : ∃ m, m < n ∧ v m ≠ 0) :
    (argmaxAbs n v).1 < n ∧ (∀ m, m < n → |v m| ≤ |v (argmaxAbs n v).1|) := by
  have h := forN_inv (n := n) (s := ((0 : Nat), (0 : K)))
    (body := fun s m => if |v m| > s.2 then (m, |v m|) else s)
    (P := fun k s => (s = (0, 0) ∧ ∀ m, m < k → v m = 0) ∨
      (s.1 < k ∧ s.2 = |v s.1| ∧ ∀ m, m < k → |v m| ≤ s.2))
    (Or.inl ⟨rfl, fun _ h => absurd h (Nat.not_lt_zero _)⟩) ?_
  · rcases h with h | h
    · obtain ⟨m, hm, hne⟩ := h0
      exact absurd (h.2 m hm) hne
    · unfold argmaxAbs
      exact ⟨h.1, fun m hm => h.2.1 ▸ h.2.2 m hm⟩
  · intro m t hm ht
    rcases ht with ⟨rfl, hz⟩ | ⟨h1, h2, h3⟩
    · dsimp only
      split_ifs with hc
      · right
        refine ⟨by dsimp; omega, rfl, fun m' hm' => ?_⟩
        rcases Nat.lt_succ_iff_lt_or_eq.mp hm' with h | rfl
        · rw [hz m' h, abs_zero]; exact abs_nonneg _
        · exact le_rfl
      · left
        refine ⟨rfl, fun m' hm' => ?_⟩
        rcases Nat.lt_succ_iff_lt_or_eq.mp hm' with h | rfl
        · exact hz m' h
        · exact abs_nonpos_iff.mp (not_lt.mp hc)
    · right
      split_ifs with hc
      · refine ⟨by dsimp; omega, rfl, fun m' hm' => ?_⟩
        rcases Nat.lt_succ_iff_lt_or_eq.mp hm' with h | rfl
        · exact (h3 m' h).trans hc.le
        · exact le_rfl
      · refine ⟨by omega, h2, fun m' hm' => ?_⟩
        rcases Nat.lt_succ_iff_lt_or_eq.mp hm' with h | rfl
        · exact h3 m' h
        · exact not_lt.mp hc

theorem sumNeumaier_eq (data : Nat → K) (n offset : Nat) (iskip : Int) (op : K → K) :
    sumNeumaier data n offset iskip op =
      ∑ i ∈ (Finset.range n).filter (fun i : Nat => (i : Int) ≠ iskip), op (data (i + offset)) := by
  unfold sumNeumaier
  have h := forN_inv (n := n) (s := ((0 : K), (0 : K)))
    (body := fun (s : K × K) i =>
      if iskip ≥ 0 ∧ (i : Int) = iskip then s
      else
        let x := op (data (i + offset))
        let t := s.1 + x
        if |s.1| ≥ |x| then (t, s.2 + ((s.1 - t) + x)) else (t, s.2 + ((x - t) + s.1)))
    (P := fun k s => s.2 = 0 ∧ s.1 = ∑ i ∈ (Finset.range k).filter (fun i : Nat => (i : Int) ≠ iskip),
      op (data (i + offset))) ⟨rfl, by simp⟩ ?_
  · dsimp only
    rw [h.1, h.2, add_zero]
  · rintro m ⟨s, c⟩ _ ⟨h1, h2⟩
    dsimp only at h1 h2 ⊢
    rw [Finset.range_add_one, Finset.filter_insert]
    by_cases hk : (m : Int) = iskip
    · rw [if_pos ⟨by omega, hk⟩, if_neg (by simpa using hk)]
      exact ⟨h1, h2⟩
    · rw [if_neg (fun h => hk h.2), if_pos hk, Finset.sum_insert (by simp)]
      subst h1 h2
      split_ifs <;> exact ⟨by ring, by ring⟩

theorem sumNeumaier_all (data : Nat → K) (n : Nat) :
    sumNeumaier data n = ∑ i ∈ Finset.range n, data i := by
  rw [sumNeumaier_eq]
  rw [Finset.filter_true_of_mem (fun i _ => by omega)]
  simp

end Verif.PTE
