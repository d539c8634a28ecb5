import Verif.Model.CInterface
import Verif.Tactics

/-! # C24: scratch rows of concurrently processed cells -/

namespace Verif.CApi

/-- Two running iterations never hold the same token or the same loop index. -/
private def Inv (ncell ntok : Nat) (s : Sched) : Prop :=
  s.active.Pairwise (fun a b => a.token ≠ b.token ∧ a.iloop ≠ b.iloop) ∧
  (∀ a ∈ s.active, a.iloop ∈ s.started ∧ a.iloop < ncell ∧ a.token < ntok)

private theorem inv_reach {ncell ntok : Nat} {s : Sched} (h : Reach ncell ntok s) : Inv ncell ntok s := by
  induction h with
  | init => exact ⟨List.Pairwise.nil, by simp⟩
  | step _ hs ih =>
    obtain ⟨h1, h2⟩ := ih
    cases hs with
    | start i t hi hnew ht hfree =>
      refine ⟨List.pairwise_cons.2 ⟨fun b hb => ⟨(hfree b hb).symm, ?_⟩, h1⟩, ?_⟩
      · rintro rfl
        exact hnew (h2 b hb).1
      · intro a ha
        rcases List.mem_cons.1 ha with rfl | ha
        · exact ⟨List.mem_cons_self, hi, ht⟩
        · exact ⟨List.mem_cons_of_mem _ (h2 a ha).1, (h2 a ha).2⟩
    | finish a ha =>
      exact ⟨h1.sublist List.erase_sublist, fun b hb => h2 b (List.mem_of_mem_erase hb)⟩

/-- C24: under every schedule of starts and finishes, the scratch rows of the cells being processed are
pairwise different and lie within the allocated rows. -/
theorem C24_exclusive_rows {ncell ntok : Nat} {s : Sched} (h : Reach ncell ntok s) :
    s.active.Pairwise (fun a b => rowOf ncell ntok a ≠ rowOf ncell ntok b) ∧
    ∀ a ∈ s.active, rowOf ncell ntok a < scratchRows ncell ntok := by
  obtain ⟨h1, h2⟩ := inv_reach h
  unfold rowOf smallLoop scratchRows
  by_cases hs : ncell < ntok
  · simp only [hs, decide_true, if_true]
    exact ⟨h1.imp fun h => h.2, fun a ha => by have := (h2 a ha).2; omega⟩
  · simp only [hs, decide_false, Bool.false_eq_true, if_false]
    exact ⟨h1.imp fun h => h.1, fun a ha => by have := (h2 a ha).2; omega⟩

/-- Three cells, two tokens: cells 2 and 0 in flight on rows 1 and 0 after cell 1 has come and gone. -/
example : Reach 3 2 ⟨[⟨0, 0⟩, ⟨2, 1⟩], [0, 2, 1]⟩ := by
  refine Reach.step (s := ⟨[⟨2, 1⟩], [2, 1]⟩) ?_
    (SchedStep.start ⟨[⟨2, 1⟩], [2, 1]⟩ 0 0 (by norm_num) (by simp) (by norm_num) (by simp))
  refine Reach.step (s := ⟨[⟨2, 1⟩, ⟨1, 0⟩], [2, 1]⟩) ?_
    (SchedStep.finish ⟨[⟨2, 1⟩, ⟨1, 0⟩], [2, 1]⟩ ⟨1, 0⟩ (by simp))
  refine Reach.step (s := ⟨[⟨1, 0⟩], [1]⟩) ?_
    (SchedStep.start ⟨[⟨1, 0⟩], [1]⟩ 2 1 (by norm_num) (by simp) (by norm_num) (by simp))
  exact Reach.step Reach.init (SchedStep.start ⟨[], []⟩ 1 0 (by norm_num) (by simp) (by norm_num) (by simp))

/-- Sequential execution of one iteration. -/
def runProg {C R : Type*} (p : Prog C R) (x : C × R) : C × R := p.foldl (fun x f => f x) x

private theorem runProg_append {C R : Type*} (p q : Prog C R) (x : C × R) :
    runProg (p ++ q) x = runProg q (runProg p x) := by simp [runProg]

private def MInv {C R : Type*} (ncell ntok : Nat) (cellOf : Nat → Nat) (progs : Nat → Prog C R)
    (c0 : Nat → C) (s : Mem C R) : Prop :=
  (s.active.map Prod.fst).Pairwise (fun a b => a.token ≠ b.token ∧ a.iloop ≠ b.iloop) ∧
  (∀ a ∈ s.active, a.1.iloop ∈ s.started ∧ a.1.iloop < ncell ∧ a.1.token < ntok) ∧
  (∀ a ∈ s.active, ∃ done r, progs a.1.iloop = done ++ a.2 ∧
    (s.cell (cellOf a.1.iloop), s.row (rowOf ncell ntok a.1)) = runProg done (c0 (cellOf a.1.iloop), r)) ∧
  (∀ i ∈ s.started, i < ncell ∧ ((∃ a ∈ s.active, a.1.iloop = i) ∨
    ∃ r, s.cell (cellOf i) = (runProg (progs i) (c0 (cellOf i), r)).1)) ∧
  (∀ j, (∀ i ∈ s.started, cellOf i ≠ j) → s.cell j = c0 j)

private theorem row_ne {ncell ntok : Nat} {a b : Active} (h : a.token ≠ b.token ∧ a.iloop ≠ b.iloop) :
    rowOf ncell ntok a ≠ rowOf ncell ntok b := by
  unfold rowOf; split_ifs
  · exact h.2
  · exact h.1

private theorem minv_reach {C R : Type*} {ncell ntok : Nat} {cellOf : Nat → Nat} {progs : Nat → Prog C R}
    {c0 : Nat → C} {r0 : Nat → R} (hinj : ∀ i j, i < ncell → j < ncell → cellOf i = cellOf j → i = j)
    {s : Mem C R} (h : MemReach ncell ntok cellOf progs c0 r0 s) :
    MInv ncell ntok cellOf progs c0 s := by
  induction h with
  | init => exact ⟨List.Pairwise.nil, by simp, by simp, by simp, by simp⟩
  | @step s s' _ hs ih =>
    obtain ⟨h1, h2, h3, h4, h5⟩ := ih
    cases hs with
    | start i t hi hnew ht hfree =>
      refine ⟨?_, ?_, ?_, ?_, ?_⟩
      · refine List.pairwise_cons.2 ⟨fun b hb => ?_, h1⟩
        obtain ⟨b', hb', rfl⟩ := List.mem_map.1 hb
        refine ⟨(hfree b' hb').symm, ?_⟩
        intro e
        exact hnew (by rw [show i = b'.1.iloop from e]; exact (h2 b' hb').1)
      · intro a ha
        rcases List.mem_cons.1 ha with rfl | ha
        · exact ⟨List.mem_cons_self, hi, ht⟩
        · exact ⟨List.mem_cons_of_mem _ (h2 a ha).1, (h2 a ha).2⟩
      · intro a ha
        rcases List.mem_cons.1 ha with rfl | ha
        · refine ⟨[], s.row (rowOf ncell ntok ⟨i, t⟩), rfl, ?_⟩
          have : s.cell (cellOf i) = c0 (cellOf i) :=
            h5 _ fun j hj e => hnew (by
              have := hinj j i (h4 j hj).1 hi e
              rwa [← this])
          simp [runProg, this]
        · exact h3 a ha
      · intro j hj
        rcases List.mem_cons.1 hj with rfl | hj
        · exact ⟨hi, Or.inl ⟨_, List.mem_cons_self, rfl⟩⟩
        · refine ⟨(h4 j hj).1, ?_⟩
          rcases (h4 j hj).2 with ⟨a, ha, e⟩ | h
          · exact Or.inl ⟨a, List.mem_cons_of_mem _ ha, e⟩
          · exact Or.inr h
      · intro j hj
        exact h5 j fun i' hi' => hj i' (List.mem_cons_of_mem _ hi')
    | run pre post a f fs hact =>
      rw [hact] at h1 h2 h3 h4
      have hmem : (a, f :: fs) ∈ pre ++ (a, f :: fs) :: post := by simp
      have hother : ∀ b, b ∈ pre ++ post → (b.1.token ≠ a.token ∧ b.1.iloop ≠ a.iloop) := by
        intro b hb
        rw [List.map_append, List.map_cons, List.pairwise_append] at h1
        rcases List.mem_append.1 hb with hb | hb
        · exact h1.2.2 b.1 (List.mem_map_of_mem hb) a (by simp)
        · have := (List.pairwise_cons.1 h1.2.1).1 b.1 (List.mem_map_of_mem hb)
          exact ⟨this.1.symm, this.2.symm⟩
      have hsplit : ∀ x : Prog C R, ∀ b, b ∈ pre ++ (a, x) :: post → b = (a, x) ∨ b ∈ pre ++ post := by
        intro x b hb
        simp only [List.mem_append, List.mem_cons] at hb ⊢
        tauto
      have hsub : ∀ x : Prog C R, ∀ b, b ∈ pre ++ post → b ∈ pre ++ (a, x) :: post := by
        intro x b hb
        simp only [List.mem_append, List.mem_cons] at hb ⊢
        tauto
      refine ⟨?_, ?_, ?_, ?_, ?_⟩
      · simpa using h1
      · intro b hb
        rcases hsplit _ b hb with rfl | hb
        · exact h2 (a, f :: fs) hmem
        · exact h2 b (hsub _ b hb)
      · intro b hb
        rcases hsplit _ b hb with rfl | hb
        · obtain ⟨done, r, hd, he⟩ := h3 _ hmem
          refine ⟨done ++ [f], r, by simpa using hd, ?_⟩
          rw [runProg_append, ← he]
          simp [runProg]
        · obtain ⟨done, r, hd, he⟩ := h3 b (hsub _ b hb)
          refine ⟨done, r, hd, ?_⟩
          have hne := hother b hb
          have hc : cellOf b.1.iloop ≠ cellOf a.iloop := fun e =>
            hne.2 (hinj _ _ (h2 b (hsub _ b hb)).2.1 (h2 _ hmem).2.1 e)
          have hr : rowOf ncell ntok b.1 ≠ rowOf ncell ntok a := row_ne hne
          simp only [Function.update_of_ne hc, Function.update_of_ne hr]
          exact he
      · intro j hj
        refine ⟨(h4 j hj).1, ?_⟩
        rcases (h4 j hj).2 with ⟨b, hb, e⟩ | ⟨r, hr⟩
        · rcases hsplit _ b hb with rfl | hb
          · exact Or.inl ⟨(a, fs), by simp, e⟩
          · exact Or.inl ⟨b, hsub _ b hb, e⟩
        · by_cases hja : j = a.iloop
          · exact Or.inl ⟨(a, fs), by simp, hja.symm⟩
          · refine Or.inr ⟨r, ?_⟩
            have hc : cellOf j ≠ cellOf a.iloop := fun e =>
              hja (hinj _ _ (h4 j hj).1 (h2 _ hmem).2.1 e)
            simp only [Function.update_of_ne hc]
            exact hr
      · intro j hj
        have hc : j ≠ cellOf a.iloop := fun e => hj a.iloop (h2 _ hmem).1 e.symm
        simp only [Function.update_of_ne hc]
        exact h5 j hj
    | finish pre post a hact =>
      rw [hact] at h1 h2 h3 h4
      have hmem : (a, ([] : Prog C R)) ∈ pre ++ (a, []) :: post := by simp
      have hsub : ∀ b, b ∈ pre ++ post → b ∈ pre ++ (a, ([] : Prog C R)) :: post := by
        intro b hb
        simp only [List.mem_append, List.mem_cons] at hb ⊢
        tauto
      refine ⟨?_, fun b hb => h2 b (hsub b hb), fun b hb => h3 b (hsub b hb), ?_, h5⟩
      · rw [List.map_append, List.map_cons] at h1
        rw [List.map_append]
        exact h1.sublist (List.Sublist.append_left (List.sublist_cons_self _ _) _)
      · intro j hj
        refine ⟨(h4 j hj).1, ?_⟩
        rcases (h4 j hj).2 with ⟨b, hb, e⟩ | h
        · simp only [List.mem_append, List.mem_cons] at hb
          rcases hb with hb | rfl | hb
          · exact Or.inl ⟨b, by simp [hb], e⟩
          · obtain ⟨done, r, hd, he⟩ := h3 _ hmem
            right
            refine ⟨r, ?_⟩
            subst e
            have hd' : progs a.iloop = done := by simpa using hd
            show s.cell (cellOf a.iloop) = _
            rw [hd', ← he]
          · exact Or.inl ⟨b, by simp [hb], e⟩
        · exact Or.inr h

/-- C24: schedule independence. Iterations that touch only their own cell and scratch row, dispatched to
different cells, and whose cell result does not depend on what an earlier iteration left in the row: once
the loop is over every cell holds what processing it alone would give, and cells not named in the offset
list are untouched, whatever the interleaving, the number of tokens and the token assignment. -/
theorem C24_schedule_independent {C R : Type*} {ncell ntok : Nat} {cellOf : Nat → Nat}
    {progs : Nat → Prog C R} {c0 : Nat → C} {r0 : Nat → R}
    (hinj : ∀ i j, i < ncell → j < ncell → cellOf i = cellOf j → i = j)
    (hdet : ∀ i, i < ncell → ∀ r r',
      (runProg (progs i) (c0 (cellOf i), r)).1 = (runProg (progs i) (c0 (cellOf i), r')).1)
    {s : Mem C R} (h : MemReach ncell ntok cellOf progs c0 r0 s)
    (hall : ∀ i, i < ncell → i ∈ s.started) (hend : s.active = []) :
    (∀ i r, i < ncell → s.cell (cellOf i) = (runProg (progs i) (c0 (cellOf i), r)).1) ∧
    (∀ j, (∀ i, i < ncell → cellOf i ≠ j) → s.cell j = c0 j) := by
  obtain ⟨_, _, _, h4, h5⟩ := minv_reach hinj h
  refine ⟨fun i r hi => ?_, fun j hj => h5 j fun i hi => hj i (h4 i hi).1⟩
  rcases (h4 i (hall i hi)).2 with ⟨a, ha, _⟩ | ⟨r', hr'⟩
  · rw [hend] at ha; simp at ha
  · rw [hr', hdet i hi r' r]

/-- The hypotheses are met: two cells on one shared row, one after the other; the result does not depend
on the row's first contents. -/
example : ∃ s : Mem Nat Nat, MemReach 2 1 (fun i => i)
      (fun _ => [fun x => (x.1, x.1), fun x => (x.1 + x.2, x.2)]) (fun i => i + 1) (fun _ => 7) s ∧
    (∀ i, i < 2 → i ∈ s.started) ∧ s.active = [] := by
  have h0 := MemReach.init (ncell := 2) (ntok := 1) (cellOf := fun i => i)
    (progs := fun _ => [fun x : Nat × Nat => (x.1, x.1), fun x => (x.1 + x.2, x.2)])
    (c0 := fun i => i + 1) (r0 := fun _ => 7)
  have h1 := MemReach.step h0 (MemStep.start _ 1 0 (by norm_num) (by simp) (by norm_num) (by simp))
  have h2 := MemReach.step h1 (MemStep.run _ [] [] ⟨1, 0⟩ _ _ rfl)
  have h3 := MemReach.step h2 (MemStep.run _ [] [] ⟨1, 0⟩ _ _ rfl)
  have h4 := MemReach.step h3 (MemStep.finish _ [] [] ⟨1, 0⟩ rfl)
  have h5 := MemReach.step h4 (MemStep.start _ 0 0 (by norm_num) (by simp) (by norm_num) (by simp))
  have h6 := MemReach.step h5 (MemStep.run _ [] [] ⟨0, 0⟩ _ _ rfl)
  have h7 := MemReach.step h6 (MemStep.run _ [] [] ⟨0, 0⟩ _ _ rfl)
  have h8 := MemReach.step h7 (MemStep.finish _ [] [] ⟨0, 0⟩ rfl)
  exact ⟨_, h8, fun i hi => by simp; omega, rfl⟩

end Verif.CApi
