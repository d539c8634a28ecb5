import Verif.Model.Ownership
import Mathlib.Data.List.Perm.Basic
import Mathlib.Data.List.Perm.Lattice
import Mathlib.Data.List.Nodup
import Mathlib.Data.List.Range

/-!
# C56: `Finalize` frees owned memory exactly once
-/

namespace Verif
namespace Own

open Ser (DataStatus)

/-- Pointers a list of boxes must free. -/
def ownedBoxes (l : List Box) : List Ptr := (l.filter fun b => b.status = .Allocated).map Box.ptr

/-- Pointers an EOS must free. -/
def owned (o : Tab) : List Ptr :=
  ownedBoxes o.boxes ++
    (if o.names ≠ .null ∧ (o.namesStatus = .OnHost ∨ o.namesStatus = .OnDevice) then [o.names] else [])

/-- All blocks ever allocated. -/
def allocated (s : State) : List Ptr := (List.range s.next).map Ptr.heap

/-- Every allocated block is, exactly once, either freed or owned by an EOS object; an EOS marked
unmanaged owns no table. -/
def Inv (s : State) : Prop :=
  List.Perm (s.freed ++ s.objs.flatMap owned) (allocated s) ∧
  ∀ o ∈ s.objs, o.mem = .UnManaged → ownedBoxes o.boxes = []

theorem allocBoxes_owned (l : List (Option Nat)) : ∀ n,
    n ≤ (allocBoxes n l).2 ∧
    ownedBoxes (allocBoxes n l).1 = (List.range' n ((allocBoxes n l).2 - n)).map Ptr.heap := by
  induction l with
  | nil => intro n; simp [allocBoxes, ownedBoxes]
  | cons x l ih =>
    intro n
    cases x with
    | none =>
      obtain ⟨h1, h2⟩ := ih (n + 1)
      simp only [allocBoxes]
      refine ⟨by omega, ?_⟩
      have e : (allocBoxes (n + 1) l).2 - n = ((allocBoxes (n + 1) l).2 - (n + 1)) + 1 := by omega
      rw [e, List.range'_succ]
      simp only [ownedBoxes] at h2
      simp [ownedBoxes, h2]
    | some k =>
      obtain ⟨h1, h2⟩ := ih n
      simp only [allocBoxes]
      refine ⟨h1, ?_⟩
      rw [← h2]
      simp [ownedBoxes]

theorem deviceBoxes_owned (l : List Box) : ∀ n,
    n ≤ (deviceBoxes n l).2 ∧
    ownedBoxes (deviceBoxes n l).1 = (List.range' n ((deviceBoxes n l).2 - n)).map Ptr.heap := by
  induction l with
  | nil => intro n; simp [deviceBoxes, ownedBoxes]
  | cons b l ih =>
    intro n
    by_cases hb : b.status = .Empty
    · obtain ⟨h1, h2⟩ := ih n
      simp only [deviceBoxes, hb, if_true]
      refine ⟨h1, ?_⟩
      rw [← h2]
      simp [ownedBoxes]
    · obtain ⟨h1, h2⟩ := ih (n + 1)
      simp only [deviceBoxes, hb, if_false]
      refine ⟨by omega, ?_⟩
      have e : (deviceBoxes (n + 1) l).2 - n = ((deviceBoxes (n + 1) l).2 - (n + 1)) + 1 := by omega
      rw [e, List.range'_succ]
      simp only [ownedBoxes] at h2
      simp [ownedBoxes, h2]

theorem finalizeBoxes_spec (l : List Box) :
    (finalizeBoxes l).2 = ownedBoxes l ∧ ownedBoxes (finalizeBoxes l).1 = [] := by
  induction l with
  | nil => simp [finalizeBoxes, ownedBoxes]
  | cons b l ih =>
    obtain ⟨h1, h2⟩ := ih
    simp only [ownedBoxes] at h1 h2
    unfold finalizeBoxes
    by_cases hb : b.status = .Allocated <;> simp [hb, ownedBoxes, h1, h2]

theorem finalize_spec (o : Tab) (h : o.mem = .UnManaged → ownedBoxes o.boxes = []) :
    (finalize o).2 = owned o ∧ owned (finalize o).1 = [] ∧ ownedBoxes (finalize o).1.boxes = [] := by
  obtain ⟨h1, h2⟩ := finalizeBoxes_spec o.boxes
  have hn : (if o.namesStatus ≠ .UnManaged ∧ o.names ≠ .null ∧
      (o.namesStatus = .OnHost ∨ o.namesStatus = .OnDevice) then [o.names] else []) =
      (if o.names ≠ .null ∧ (o.namesStatus = .OnHost ∨ o.namesStatus = .OnDevice) then [o.names]
        else []) := by
    rcases o.namesStatus <;> simp
  by_cases hm : o.mem = .UnManaged
  · refine ⟨?_, ?_, ?_⟩
    · simp only [finalize, owned, hn, hm, ne_eq, not_true_eq_false, if_false, h hm]
    · simp [finalize, owned, hm, h hm]
    · simp [finalize, hm, h hm]
  · refine ⟨?_, ?_, ?_⟩
    · simp only [finalize, owned, hn, ne_eq, hm, not_false_eq_true, if_true, h1]
    · simp [finalize, owned, hm, h2]
    · simp [finalize, hm, h2]

theorem allocated_grow (n k : Nat) (h : n ≤ k) : (List.range k).map Ptr.heap =
    (List.range n).map Ptr.heap ++ (List.range' n (k - n)).map Ptr.heap := by
  rw [← List.map_append]
  congr 1
  obtain ⟨j, rfl⟩ := Nat.exists_eq_add_of_le h
  rw [List.range_eq_range', List.range_eq_range', Nat.add_sub_cancel_left]
  have := List.range'_append_1 (s := 0) (m := n) (n := j)
  rw [Nat.zero_add] at this
  exact this.symm

theorem inv_add (s : State) (hs : Inv s) (k : Nat) (hk : s.next ≤ k) (o : Tab)
    (ho : owned o = (List.range' s.next (k - s.next)).map Ptr.heap)
    (hm : o.mem = .UnManaged → ownedBoxes o.boxes = []) :
    Inv { s with next := k, objs := s.objs ++ [o] } := by
  refine ⟨?_, ?_⟩
  · simp only [allocated, List.flatMap_append, List.flatMap_cons, List.flatMap_nil, List.append_nil]
    rw [allocated_grow s.next k hk, ← List.append_assoc, ho]
    exact hs.1.append_right _
  · intro x hx
    simp only [List.mem_append, List.mem_singleton] at hx
    rcases hx with hx | rfl
    · exact hs.2 x hx
    · exact hm

theorem inv_load (s : State) (hs : Inv s) (bs : List (Option Nat)) (n : Bool) :
    Inv (load s bs n) := by
  obtain ⟨h1, h2⟩ := allocBoxes_owned bs s.next
  unfold load
  cases n
  · apply inv_add s hs _ h1
    · simp [owned, h2]
    · intro h; exact absurd h (by simp)
  · simp only [if_true]
    apply inv_add s hs _ (by omega)
    · simp only [owned, h2]
      have e : (allocBoxes s.next bs).2 + 1 - s.next = ((allocBoxes s.next bs).2 - s.next) + 1 := by
        omega
      rw [e, List.range'_concat]
      simp only [List.map_append, List.map_cons, List.map_nil]
      rw [if_pos (by simp)]
      congr 3
      omega
    · intro h; exact absurd h (by simp)

theorem inv_device (s : State) (hs : Inv s) (o : Tab) : Inv (getOnDevice s o) := by
  obtain ⟨h1, h2⟩ := deviceBoxes_owned o.boxes s.next
  unfold getOnDevice
  split_ifs
  · apply inv_add s hs _ (by omega)
    · simp only [owned, h2]
      have e : (deviceBoxes s.next o.boxes).2 + 1 - s.next =
          ((deviceBoxes s.next o.boxes).2 - s.next) + 1 := by omega
      rw [e, List.range'_concat]
      simp only [List.map_append, List.map_cons, List.map_nil]
      rw [if_pos (by simp)]
      congr 3
      omega
    · intro h; exact absurd h (by simp)
  · apply inv_add s hs _ h1
    · simp [owned, h2]
    · intro h; exact absurd h (by simp)

theorem inv_step (s : State) (hs : Inv s) (op : Op) : Inv (step s op) := by
  cases op with
  | load bs n => exact inv_load s hs bs n
  | device i =>
    simp only [step]
    cases h : s.objs[i]? with
    | none => exact hs
    | some o => exact inv_device s hs o
  | fromBytes i a =>
    simp only [step]
    cases h : s.objs[i]? with
    | none => exact hs
    | some o =>
      have hb : ownedBoxes (deserialize o a).boxes = [] := by
        simp [deserialize, ownedBoxes]
      apply inv_add s hs s.next le_rfl
      · simp only [owned, hb, Nat.sub_self, List.range'_zero, List.map_nil, List.nil_append]
        rw [if_neg]
        unfold deserialize
        simp only
        split_ifs <;> simp
      · intro _; exact hb
  | fin i =>
    simp only [step]
    cases h : s.objs[i]? with
    | none => exact hs
    | some o =>
      obtain ⟨hi, hget⟩ := List.getElem?_eq_some_iff.1 h
      have hmem : o ∈ s.objs := hget ▸ List.getElem_mem hi
      obtain ⟨f1, f2, f3⟩ := finalize_spec o (hs.2 o hmem)
      have hsplit : s.objs = s.objs.take i ++ o :: s.objs.drop (i + 1) := by
        rw [← hget]; simp
      refine ⟨?_, ?_⟩
      · simp only [allocated]
        rw [List.set_eq_take_append_cons_drop, if_pos hi, f1]
        have := hs.1
        rw [hsplit] at this
        simp only [List.flatMap_append, List.flatMap_cons, f2, List.nil_append] at this ⊢
        refine List.Perm.trans ?_ this
        rw [List.append_assoc]
        apply List.Perm.append_left
        rw [← List.append_assoc, ← List.append_assoc]
        apply List.Perm.append_right
        exact List.perm_append_comm
      · intro x hx
        rcases List.mem_or_eq_of_mem_set hx with hx | rfl
        · exact hs.2 x hx
        · intro _; exact f3

theorem inv_run (ops : List Op) : Inv (run ops) := by
  unfold run
  have : ∀ (l : List Op) (s : State), Inv s → Inv (l.foldl step s) := by
    intro l
    induction l with
    | nil => intro s hs; exact hs
    | cons op l ih => intro s hs; exact ih _ (inv_step s hs op)
  exact this ops _ ⟨by simp [allocated], by simp⟩

/-- C56: for every history of loading, copying to the device, deserialising (from a buffer or a shared
block) and finalising, in any order and any number of times, no pointer is freed twice and only
blocks this library allocated are freed — never the caller's buffer, never a null pointer. -/
theorem C56_no_double_free (ops : List Op) :
    (run ops).freed.Nodup ∧ ∀ p ∈ (run ops).freed, ∃ id, id < (run ops).next ∧ p = .heap id := by
  have h := inv_run ops
  have hnd : (allocated (run ops)).Nodup := by
    unfold allocated
    exact List.Nodup.map (fun a b hab => by simpa using hab) List.nodup_range
  have hall : ((run ops).freed ++ (run ops).objs.flatMap owned).Nodup := h.1.nodup_iff.2 hnd
  refine ⟨(List.nodup_append.1 hall).1, ?_⟩
  intro p hp
  have : p ∈ allocated (run ops) := h.1.subset (List.mem_append_left _ hp)
  simp only [allocated, List.mem_map, List.mem_range] at this
  obtain ⟨id, h1, h2⟩ := this
  exact ⟨id, h1, h2.symm⟩

/-- C56: finalising an EOS twice frees nothing the second time. -/
theorem C56_finalize_idempotent (ops : List Op) (o : Tab) (ho : o ∈ (run ops).objs) :
    (finalize (finalize o).1).2 = [] := by
  obtain ⟨f1, f2, f3⟩ := finalize_spec o ((inv_run ops).2 o ho)
  rw [(finalize_spec (finalize o).1 (fun _ => f3)).1, f2]

theorem fin_keeps (s : State) (i : Nat) : (step s (.fin i)).objs.length = s.objs.length ∧
    (step s (.fin i)).next = s.next := by
  simp only [step]
  cases h : s.objs[i]? <;> simp

theorem fin_all (s : State) (hs : Inv s) : ∀ k, k ≤ s.objs.length →
    let s' := (List.range k).foldl (fun t i => step t (.fin i)) s
    Inv s' ∧ s'.objs.length = s.objs.length ∧
      ∀ i o, s'.objs[i]? = some o → i < k → owned o = [] := by
  intro k
  induction k with
  | zero => intro _; exact ⟨hs, rfl, fun i o _ h => absurd h (by omega)⟩
  | succ k ih =>
    intro hk
    obtain ⟨h1, h2, h3⟩ := ih (by omega)
    simp only [List.range_succ, List.foldl_append, List.foldl_cons, List.foldl_nil]
    set t := (List.range k).foldl (fun t i => step t (.fin i)) s with ht
    refine ⟨inv_step t h1 _, by rw [(fin_keeps t k).1, h2], ?_⟩
    intro i o hi hik
    have hk' : k < t.objs.length := by omega
    have hget : t.objs[k]? = some t.objs[k] := List.getElem?_eq_getElem hk'
    have hstep : (step t (.fin k)).objs = t.objs.set k (finalize t.objs[k]).1 := by
      simp only [step, hget]
    rw [hstep, List.getElem?_set] at hi
    split_ifs at hi with e e2
    · have : o = (finalize t.objs[k]).1 := by simpa using hi.symm
      rw [this]
      exact (finalize_spec _ (h1.2 _ (List.getElem_mem hk'))).2.1
    · exact h3 i o hi (by omega)

/-- C56: a history that ends by finalising every EOS has freed every block it ever allocated, each
exactly once: nothing leaks. -/
theorem C56_all_finalized_no_leak (ops : List Op) :
    let s := run ops
    let s' := (List.range s.objs.length).foldl (fun t i => step t (.fin i)) s
    List.Perm s'.freed ((List.range s'.next).map Ptr.heap) := by
  intro s s'
  obtain ⟨h1, h2, h3⟩ := fin_all s (inv_run ops) s.objs.length le_rfl
  have : s'.objs.flatMap owned = [] := by
    rw [List.flatMap_eq_nil_iff]
    intro o ho
    obtain ⟨i, hi, rfl⟩ := List.getElem_of_mem ho
    exact h3 i _ (List.getElem?_eq_getElem hi) (by rw [← h2]; exact hi)
  have hp := h1.1
  change List.Perm (s'.freed ++ s'.objs.flatMap owned) _ at hp
  rw [this, List.append_nil] at hp
  exact hp

/-- A history with slices, phase names, a device copy, a deserialised copy and repeated finalisation:
seven blocks allocated, each freed once. -/
example : (run [.load [none, some 0, none] true, .device 0, .fromBytes 0 100, .fin 2, .fin 0, .fin 0,
    .fromBytes 1 200, .fin 1, .fin 3]).freed =
    [.heap 0, .heap 1, .heap 2, .heap 3, .heap 4, .heap 5, .heap 6] := by decide

/-- C56, the limit of the guarantee: a plain C++ copy of an EOS is shallow.  Finalising an object and
its copy frees the same blocks twice (for every EOS that owns anything): copies made other than by
`GetOnDevice` or serialisation must not be finalised. -/
theorem C56_shallow_copy_violated (ops : List Op) (o : Tab) (ho : o ∈ (run ops).objs)
    (hne : owned o ≠ []) : ¬ ((finalize o).2 ++ (finalize o).2).Nodup := by
  rw [(finalize_spec o ((inv_run ops).2 o ho)).1]
  intro h
  obtain ⟨p, hp⟩ := List.exists_mem_of_ne_nil _ hne
  exact (List.nodup_append.1 h).2.2 p hp p hp rfl

end Own
end Verif
