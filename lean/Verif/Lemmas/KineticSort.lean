import Verif.Model.Kinetic
import Verif.Spec.Ordering
import Mathlib.Data.List.Nodup
import Mathlib.Data.List.Perm.Subperm

/-! Loop invariants for `SortGibbs`. -/

namespace Verif.Kinetic

theorem mem_down {n j k : Nat} : k ∈ down n j ↔ j < k ∧ k < n := by
  simp [down, List.mem_range'_1]; omega

theorem initOrder_eq (n : Nat) (o : Nat → Nat) (i : Nat) :
    initOrder n o i = if i < n then i else o i := by
  unfold initOrder
  induction n with
  | zero => simp
  | succ n ih =>
    rw [List.range_succ, List.foldl_append]
    simp only [List.foldl_cons, List.foldl_nil, Function.update_apply]
    split_ifs with h1 h2 h2
    · exact h1.symm
    · omega
    · rw [ih, if_pos (by omega)]
    · rw [ih, if_neg (by omega)]

/-- `o` maps `[0,n)` to itself injectively. -/
def IsInj (n : Nat) (o : Nat → Nat) : Prop :=
  (∀ i < n, o i < n) ∧ ∀ i < n, ∀ i' < n, o i = o i' → i = i'

theorem swap_apply (o : Nat → Nat) (j k i : Nat) :
    swap o j k i = if i = k then o j else if i = j then o k else o i := by
  unfold swap
  simp only [Function.update_apply]

theorem swap_isInj {n : Nat} {o : Nat → Nat} (h : IsInj n o) {j k : Nat} (hj : j < n) (hk : k < n) :
    IsInj n (swap o j k) := by
  obtain ⟨h1, h2⟩ := h
  refine ⟨fun i hi => ?_, fun i hi i' hi' he => ?_⟩
  · rw [swap_apply]; split_ifs
    exacts [h1 _ hj, h1 _ hk, h1 _ hi]
  · rw [swap_apply, swap_apply] at he
    split_ifs at he with a b c d e f g
    · omega
    · have := h2 _ hj _ hk he; omega
    · exact absurd (h2 _ hj _ hi' he).symm (by omega)
    · have := h2 _ hk _ hj he; omega
    · omega
    · exact absurd (h2 _ hk _ hi' he).symm (by omega)
    · exact absurd (h2 _ hi _ hj he) (by omega)
    · exact absurd (h2 _ hi _ hk he) (by omega)
    · exact h2 _ hi _ hi' he

theorem isOrdering_of_isInj {n : Nat} {o : Nat → Nat} (h : IsInj n o) : Spec.IsOrdering n o := by
  unfold Spec.IsOrdering
  have hnd : ((List.range n).map o).Nodup := by
    refine List.Nodup.map_on ?_ List.nodup_range
    intro x hx y hy hxy
    exact h.2 x (List.mem_range.mp hx) y (List.mem_range.mp hy) hxy
  refine (List.Nodup.subperm hnd ?_).perm_of_length_le (by simp)
  intro x hx
  obtain ⟨i, hi, rfl⟩ := List.mem_map.mp hx
  exact List.mem_range.mpr (h.1 i (List.mem_range.mp hi))

theorem isInj_of_isOrdering {n : Nat} {o : Nat → Nat} (h : Spec.IsOrdering n o) : IsInj n o := by
  unfold Spec.IsOrdering at h
  refine ⟨fun i hi => ?_, fun i hi i' hi' he => ?_⟩
  · exact List.mem_range.mp (h.subset (List.mem_map.mpr ⟨i, List.mem_range.mpr hi, rfl⟩))
  · have hnd : ((List.range n).map o).Nodup := (h.nodup_iff).mpr List.nodup_range
    exact List.inj_on_of_nodup_map hnd (List.mem_range.mpr hi) (List.mem_range.mpr hi') he

variable {K : Type*} [LinearOrder K]

/-- Invariant: positions below `j` dominate everything after them. -/
def Dom (gibbs : Nat → K) (n j : Nat) (o : Nat → Nat) : Prop :=
  ∀ i < j, ∀ m, i < m → m < n → gibbs (o m) ≤ gibbs (o i)

theorem sortRow_inv {gibbs : Nat → K} {n j : Nat} (ks : List Nat) (o : Nat → Nat) (done : Nat → Prop)
    (hks : ∀ k ∈ ks, j < k ∧ k < n) (hj : j < n) (hi : IsInj n o) (hd : Dom gibbs n j o)
    (hdone : ∀ m, done m → j < m → m < n → gibbs (o m) ≤ gibbs (o j)) :
    IsInj n (sortRow gibbs j ks o) ∧ Dom gibbs n j (sortRow gibbs j ks o) ∧
    ∀ m, (done m ∨ m ∈ ks) → j < m → m < n →
      gibbs (sortRow gibbs j ks o m) ≤ gibbs (sortRow gibbs j ks o j) := by
  induction ks generalizing o done with
  | nil => exact ⟨hi, hd, fun m hm => hdone m (by simpa using hm)⟩
  | cons k ks ih =>
    obtain ⟨hjk, hkn⟩ := hks k (by simp)
    have hks' : ∀ k ∈ ks, j < k ∧ k < n := fun k' hk' => hks k' (by simp [hk'])
    have key : ∀ o', sortRow gibbs j (k :: ks) o = sortRow gibbs j ks o' →
        IsInj n o' → Dom gibbs n j o' →
        (∀ m, (done m ∨ m = k) → j < m → m < n → gibbs (o' m) ≤ gibbs (o' j)) →
        IsInj n (sortRow gibbs j (k :: ks) o) ∧ Dom gibbs n j (sortRow gibbs j (k :: ks) o) ∧
        ∀ m, (done m ∨ m ∈ k :: ks) → j < m → m < n →
          gibbs (sortRow gibbs j (k :: ks) o m) ≤ gibbs (sortRow gibbs j (k :: ks) o j) := by
      intro o' he h1 h2 h3
      have := ih o' (fun m => done m ∨ m = k) hks' h1 h2 h3
      rw [← he] at this
      exact ⟨this.1, this.2.1, fun m hm => this.2.2 m (by simpa [or_assoc] using hm)⟩
    by_cases hc : gibbs (o k) > gibbs (o j)
    · refine key (swap o j k) (by simp [sortRow, hc]) (swap_isInj hi hj hkn) ?_ ?_
      · intro i hij m him hmn
        rw [swap_apply, swap_apply, if_neg (by omega : ¬ i = k), if_neg (by omega : ¬ i = j)]
        split_ifs
        · exact hd i hij j hij hj
        · exact hd i hij k (by omega) hkn
        · exact hd i hij m him hmn
      · intro m hm hjm hmn
        rw [swap_apply, swap_apply, if_neg (by omega : ¬ j = k), if_pos rfl,
          if_neg (by omega : ¬ m = j)]
        split_ifs with h
        · exact hc.le
        · exact (hdone m (by rcases hm with h' | h'; exacts [h', absurd h' h]) hjm hmn).trans hc.le
    · refine key o (by simp [sortRow, hc]) hi hd ?_
      intro m hm hjm hmn
      rcases hm with h | rfl
      · exact hdone m h hjm hmn
      · exact not_lt.mp hc

theorem sortGibbs_inv (n : Nat) (gibbs : Nat → K) (o : Nat → Nat) :
    IsInj n (sortGibbs n gibbs o) ∧ Dom gibbs n (n - 1) (sortGibbs n gibbs o) := by
  unfold sortGibbs
  have h0 : IsInj n (initOrder n o) := by
    refine ⟨fun i hi => ?_, fun i hi i' hi' he => ?_⟩
    · rw [initOrder_eq, if_pos hi]; exact hi
    · rw [initOrder_eq, initOrder_eq, if_pos hi, if_pos hi'] at he; exact he
  suffices H : ∀ c, c ≤ n - 1 →
      IsInj n ((List.range c).foldl (fun o j => sortRow gibbs j (down n j) o) (initOrder n o)) ∧
      Dom gibbs n c ((List.range c).foldl (fun o j => sortRow gibbs j (down n j) o)
        (initOrder n o)) from H _ le_rfl
  intro c
  induction c with
  | zero => exact fun _ => ⟨h0, fun i hi => absurd hi (by omega)⟩
  | succ c ih =>
    intro hc
    obtain ⟨h1, h2⟩ := ih (by omega)
    rw [List.range_succ, List.foldl_append]
    simp only [List.foldl_cons, List.foldl_nil]
    obtain ⟨r1, r2, r3⟩ := sortRow_inv (down n c) _ (fun _ => False)
      (fun k hk => mem_down.mp hk) (by omega) h1 h2 (fun _ h => h.elim)
    refine ⟨r1, fun i hi m him hmn => ?_⟩
    rcases Nat.lt_succ_iff_lt_or_eq.mp hi with h | rfl
    · exact r2 i h m him hmn
    · exact r3 m (Or.inr (mem_down.mpr ⟨him, hmn⟩)) him hmn

end Verif.Kinetic
