import Verif.Model.TypeLists
import Verif.Tactics
import Mathlib.Data.List.Nodup
import Mathlib.Data.List.Basic
import Mathlib.Data.Rat.Defs
import Mathlib.Algebra.Order.Ring.Rat

set_option linter.unusedSectionVars false

/-! # C35 (the EOS variant's type list), C53 and C71 (type-based indexing) -/

namespace Verif.Types

variable {β : Type*}

/-! ## C35 -/

theorem flattenHelper_ty (acc l : List (Ty β)) (rest : List (Entry β)) :
    flattenHelper acc (l.map .ty ++ rest) = flattenHelper (acc ++ l) rest := by
  induction l generalizing acc with
  | nil => simp
  | cons x xs ih =>
    rw [List.map_cons, List.cons_append, flattenHelper, ih]
    simp

theorem flattenHelper_lists (acc : List (Ty β)) (ls : List (List (Ty β))) :
    flattenHelper acc (ls.map fun l => .list (l.map .ty)) = acc ++ ls.flatten := by
  induction ls generalizing acc with
  | nil => simp [flattenHelper]
  | cons x xs ih =>
    rw [List.map_cons, flattenHelper, flattenHelper_ty, ih]
    simp

theorem filterTys_eq (p : Ty β → Bool) (l : List (Ty β)) : filterTys p l = l.filter p := by
  induction l with
  | nil => rfl
  | cons x xs ih => simp only [filterTys, ih, List.filter_cons]

theorem filterNested_eq (ms : List Mod) (l : List (Ty β)) :
    filterNested ms l = l.filter fun t => ms.all fun m => notDuplicateNested m t := by
  induction ms generalizing l with
  | nil => simp [filterNested]
  | cons m ms ih =>
    have : flatten [.list ((filterTys (notDuplicateNested m) l).map .ty)]
        = l.filter (notDuplicateNested m) := by
      have := flattenHelper_lists [] [filterTys (notDuplicateNested m) l]
      simpa [flatten, filterTys_eq] using this
    rw [filterNested, this, ih, List.filter_filter]
    congr 1
    funext t
    simp [Bool.and_comm]

open Classical in
/-- C35: applying a list of modifier templates to a list of types gives every modifier applied to
every type, in order, minus directly repeated modifiers `M<M<T>>` of the listed ones. -/
theorem C35_transform (l : List (Ty β)) (mods : List Mod) :
    transformList l mods =
      (mods.flatMap fun m => l.map (.app m)).filter
        fun t => decide (∀ m ∈ mods, ¬ ∃ u, t = .app m (.app m u)) := by
  have h1 : flatten (mods.map fun m => .list (l.map fun t => .ty (.app m t)))
      = mods.flatMap fun m => l.map (.app m) := by
    have := flattenHelper_lists [] (mods.map fun m => l.map (Ty.app m))
    simp only [List.map_map, Function.comp_def, List.nil_append] at this
    simpa [flatten, List.flatMap] using this
  rw [transformList, h1, filterNested_eq]
  apply List.filter_congr
  intro t _
  rw [Bool.eq_iff_iff]
  simp only [List.all_eq_true, decide_eq_true_eq]
  refine forall₂_congr fun m _ => ?_
  cases t with
  | base b => simp [notDuplicateNested]
  | app m1 u =>
    cases u with
    | base b => simp [notDuplicateNested]
    | app m2 v =>
      simp only [notDuplicateNested, Bool.not_eq_true', Ty.app.injEq, not_exists, not_and]
      constructor
      · intro h w e1 e2
        simp [e1, e2] at h
      · intro h
        by_contra hc
        simp only [Bool.not_eq_false, Bool.and_eq_true, beq_iff_eq] at hc
        exact h v hc.1 hc.2 rfl

/-- With one modifier that heads none of the types nothing is filtered. -/
theorem transform_one (l : List (Ty β)) (m : Mod) (h : ∀ t ∈ l, ∀ u, t ≠ .app m u) :
    transformList l [m] = l.map (.app m) := by
  rw [C35_transform]
  simp only [List.flatMap_cons, List.flatMap_nil, List.append_nil]
  rw [List.filter_eq_self]
  intro t ht
  obtain ⟨u, hu, rfl⟩ := List.mem_map.1 ht
  simp only [List.mem_singleton, forall_eq, decide_eq_true_eq, not_exists, Ty.app.injEq, true_and]
  intro v hv
  exact h u hu v hv

/-- The list the variant is made of, written out. -/
theorem combined1_eq (full : List β) :
    combined1 full = full.map .base ++ (full.map (fun b => .app .shifted (.base b)) ++
      (full.map (fun b => .app .scaled (.base b)) ++
        full.map fun b => .app .scaled (.app .shifted (.base b)))) := by
  have h1 : shiftedList full = full.map fun b => .app .shifted (.base b) := by
    rw [shiftedList, fullList, transform_one]
    · simp [List.map_map, Function.comp_def]
    · intro t ht u; obtain ⟨b, -, rfl⟩ := List.mem_map.1 ht; simp
  have h2 : scaled1 full = full.map fun b => .app .scaled (.base b) := by
    rw [scaled1, fullList, transform_one]
    · simp [List.map_map, Function.comp_def]
    · intro t ht u; obtain ⟨b, -, rfl⟩ := List.mem_map.1 ht; simp
  have h3 : scaledOfShifted full = full.map fun b => .app .scaled (.app .shifted (.base b)) := by
    rw [scaledOfShifted, h1, transform_one]
    · simp [List.map_map, Function.comp_def]
    · intro t ht u; obtain ⟨b, -, rfl⟩ := List.mem_map.1 ht; simp
  rw [combined1, scaledList, h1, h2, h3, fullList]

theorem rampedAll_eq (full : List β) : rampedAll full = (combined1 full).map (.app .ramp) := by
  rw [rampedAll, transform_one]
  intro t ht u
  rw [combined1_eq] at ht
  simp only [List.mem_append, List.mem_map] at ht
  rcases ht with ⟨b, -, rfl⟩ | ⟨b, -, rfl⟩ | ⟨b, -, rfl⟩ | ⟨b, -, rfl⟩ <;> simp

/-- C35: the variant's type list consists of exactly the types the host interface can build: base,
optionally shifted, optionally scaled outside the shift, optionally ramped outside both. -/
theorem C35_members_exact {K : Type*} (full : List β) (scale shift r0 a b c : K) (t : Ty β) :
    t ∈ combined full ↔
      ∃ e ∈ full, ∃ sc sh ra : Bool,
        t = typeOf e (CApi.applyAll .base sc sh ra scale shift r0 a b c) := by
  rw [combined, rampedAll_eq, combined1_eq]
  simp only [List.mem_append, List.mem_map, List.map_append, List.map_map, Function.comp_def]
  constructor
  · rintro ((⟨e, he, rfl⟩ | ⟨e, he, rfl⟩ | ⟨e, he, rfl⟩ | ⟨e, he, rfl⟩) |
      (⟨e, he, rfl⟩ | ⟨e, he, rfl⟩ | ⟨e, he, rfl⟩ | ⟨e, he, rfl⟩))
    · exact ⟨e, he, false, false, false, rfl⟩
    · exact ⟨e, he, false, true, false, rfl⟩
    · exact ⟨e, he, true, false, false, rfl⟩
    · exact ⟨e, he, true, true, false, rfl⟩
    · exact ⟨e, he, false, false, true, rfl⟩
    · exact ⟨e, he, false, true, true, rfl⟩
    · exact ⟨e, he, true, false, true, rfl⟩
    · exact ⟨e, he, true, true, true, rfl⟩
  · rintro ⟨e, he, sc, sh, ra, rfl⟩
    cases sc <;> cases sh <;> cases ra <;>
      simp [CApi.applyAll, CApi.applyShiftAndScale, typeOf, he]

/-- C35: whatever the enable flags and parameter values, what `init_sg_*` stores has a type in the
variant (given the base EOS is in the base list). -/
theorem C35_init_in_variant {K : Type*} [Field K] [LinearOrder K] (full : List β) (e : β)
    (he : e ∈ full) (σ : K) (rho0 : CApi.Desc K → K) (rmid r1 : CApi.Desc K → K → K → K → K)
    (enabled : Nat → Int) (vals : Nat → K) :
    typeOf e (CApi.initSg σ rho0 rmid r1 enabled vals).1 ∈ combined full := by
  unfold CApi.initSg
  exact (C35_members_exact full _ _ _ _ _ _ _).2 ⟨e, he, _, _, _, rfl⟩

/-- C35: no duplicates (a `variant` with duplicate alternatives could not be constructed by type), and
eight alternatives per base EOS. -/
theorem C35_no_duplicates (full : List β) (h : full.Nodup) :
    (combined full).Nodup ∧ (combined full).length = 8 * full.length := by
  have hm : ∀ f : β → Ty β, Function.Injective f → (full.map f).Nodup := fun f hf => h.map hf
  have i0 : Function.Injective (Ty.base : β → Ty β) := fun a b e => by simpa using e
  have i1 : Function.Injective (fun b : β => Ty.app .shifted (.base b)) := fun a b e => by simpa using e
  have i2 : Function.Injective (fun b : β => Ty.app .scaled (.base b)) := fun a b e => by simpa using e
  have i3 : Function.Injective (fun b : β => Ty.app .scaled (.app .shifted (.base b))) :=
    fun a b e => by simpa using e
  have n1 : (combined1 full).Nodup := by
    rw [combined1_eq]
    refine List.Nodup.append (hm _ i0) (List.Nodup.append (hm _ i1)
      (List.Nodup.append (hm _ i2) (hm _ i3) ?_) ?_) ?_
    all_goals
      intro t ht ht'
      simp only [List.mem_append, List.mem_map] at ht ht'
      obtain ⟨b, -, rfl⟩ := ht
      simp at ht'
  have ir : Function.Injective (Ty.app .ramp : Ty β → Ty β) := fun a b e => by simpa using e
  constructor
  · rw [combined, rampedAll_eq]
    refine n1.append (n1.map ir) ?_
    intro t ht ht'
    obtain ⟨u, -, rfl⟩ := List.mem_map.1 ht'
    rw [combined1_eq] at ht
    simp at ht
  · rw [combined, rampedAll_eq, combined1_eq]
    simp only [List.length_append, List.length_map]
    omega

/-- C35 non-vacuity: with two base types there are sixteen alternatives, one of which is the ramped
scaled shifted second type. -/
example : (combined [false, true]).length = 16 ∧
    Ty.app .ramp (.app .scaled (.app .shifted (.base true))) ∈ combined [false, true] := by
  refine ⟨(C35_no_duplicates [false, true] (by decide)).2, ?_⟩
  exact (C35_members_exact (K := Unit) _ () () () () () () _).2 ⟨true, by simp, true, true, true, rfl⟩

/-! ## C53 -/

section idx
variable {K : Type*} [DecidableEq β]

theorem getIndexFrom_spec (t : β) (i : Nat) (l : List β) :
    (∀ j, getIndexFrom t i l = some j →
      ∃ k, j = i + k ∧ l[k]? = some t ∧ ∀ m < k, l[m]? ≠ some t) ∧
    (getIndexFrom t i l = none ↔ t ∉ l) := by
  induction l generalizing i with
  | nil => simp [getIndexFrom]
  | cons h ts ih =>
    unfold getIndexFrom
    split_ifs with heq
    · subst heq
      refine ⟨fun j hj => ⟨0, ?_, by simp, by simp⟩, by simp⟩
      simpa using hj.symm
    · obtain ⟨ih1, ih2⟩ := ih (i + 1)
      constructor
      · intro j hj
        obtain ⟨k, rfl, hk, hm⟩ := ih1 j hj
        refine ⟨k + 1, by omega, by simpa using hk, ?_⟩
        intro m hmlt
        cases m with
        | zero => simpa using Ne.symm heq
        | succ m => simpa using hm m (by omega)
      · rw [ih2]; simp [heq]

/-- C53: the slot of a type is its first occurrence in the list, it is in bounds, and it exists exactly
for the types in the list; different types have different slots. -/
theorem C53_index_first_occurrence (t : β) (l : List β) :
    (∀ i, getIndex t l = some i → i < l.length ∧ l[i]? = some t ∧ ∀ m < i, l[m]? ≠ some t) ∧
    (getIndex t l = none ↔ t ∉ l) ∧
    (∀ t' i, getIndex t l = some i → getIndex t' l = some i → t = t') := by
  obtain ⟨h1, h2⟩ := getIndexFrom_spec t 0 l
  have key : ∀ (t : β) i, getIndex t l = some i →
      i < l.length ∧ l[i]? = some t ∧ ∀ m < i, l[m]? ≠ some t := by
    intro t i hi
    obtain ⟨k, rfl, hk, hm⟩ := (getIndexFrom_spec t 0 l).1 i hi
    rw [Nat.zero_add]
    exact ⟨(List.getElem?_eq_some_iff.1 hk).1, hk, hm⟩
  refine ⟨key t, h2, fun t' i hi hi' => ?_⟩
  have := (key t i hi).2.1
  rw [(key t' i hi').2.1] at this
  exact (Option.some.inj this).symm

/-- A history of writes through type indices (`SafeSet<T>(lambda, v)`, any mixture of the overloads
with and without a numeric index). -/
def runWrites (lam : Lam β K) (ops : List (Bool × β × Nat × K)) : Lam β K :=
  ops.foldl (fun lam o => (safeSet o.1 lam o.2.1 o.2.2.1 o.2.2.2).2) lam

/-- Specification: the last value written through `t` in a history. -/
def lastWrite (t : β) (ops : List (Bool × β × Nat × K)) : Option K :=
  (ops.filter fun o => o.2.1 = t).getLast?.map (·.2.2.2)

theorem runWrites_typed (ts : List β) (d : Nat → K) (ops : List (Bool × β × Nat × K)) :
    ∃ d', runWrites (.typed ts d) ops = .typed ts d' ∧
      ∀ t i, getIndex t ts = some i → d' i = (lastWrite t ops).getD (d i) := by
  induction ops using List.reverseRecOn with
  | nil => exact ⟨d, rfl, fun t i _ => by simp [lastWrite]⟩
  | append_singleton ops o ih =>
    obtain ⟨d', h1, h2⟩ := ih
    obtain ⟨nm, t0, idx, v⟩ := o
    have hrun : runWrites (.typed ts d) (ops ++ [(nm, t0, idx, v)])
        = (safeSet nm (.typed ts d') t0 idx v).2 := by
      rw [← h1]; simp [runWrites, List.foldl_append]
    have hlast : ∀ t, lastWrite t (ops ++ [(nm, t0, idx, v)])
        = if t0 = t then some v else lastWrite t ops := by
      intro t
      unfold lastWrite
      rw [List.filter_append]
      split_ifs with h
      · simp [h]
      · simp [h]
    cases hi : getIndex t0 ts with
    | none =>
      refine ⟨d', by rw [hrun]; simp [safeSet, hi], fun t i ht => ?_⟩
      have hne : t0 ≠ t := by rintro rfl; rw [hi] at ht; cases ht
      rw [hlast, if_neg hne]
      exact h2 t i ht
    | some i0 =>
      refine ⟨Function.update d' i0 v, by rw [hrun]; simp [safeSet, hi], fun t i ht => ?_⟩
      rw [hlast]
      by_cases htt : t0 = t
      · subst htt
        rw [hi] at ht
        obtain rfl := Option.some.inj ht
        simp
      · have hne : i ≠ i0 := by
          rintro rfl
          exact htt ((C53_index_first_occurrence t0 ts).2.2 t i hi ht)
        rw [Function.update_of_ne hne, if_neg htt]
        exact h2 t i ht

/-- C53: after any history of writes through types, reading through a type of the container returns
the last value written through that very type (or the initial content if there was none): writes
through other types, or through types absent from the container, have no effect on it. All three
ways of reading agree. -/
theorem C53_read_after_writes (ts : List β) (d : Nat → K) (ops : List (Bool × β × Nat × K)) (t : β)
    (i : Nat) (ht : getIndex t ts = some i) (numeric : Bool) (idx : Nat) (out : K) :
    safeGet numeric (runWrites (.typed ts d) ops) t idx out
      = (true, (lastWrite t ops).getD (d i)) ∧
    mustGet numeric (runWrites (.typed ts d) ops) t idx = some ((lastWrite t ops).getD (d i)) := by
  obtain ⟨d', h1, h2⟩ := runWrites_typed ts d ops
  rw [h1]
  simp [safeGet, mustGet, ht, h2 t i ht]

/-- C53: a type absent from a type-indexed container, a null pointer, or a container without the needed
kind of index: the read reports failure and leaves the output as it was, the write reports failure
and leaves the container as it was; the `Must` versions stop instead of returning anything. -/
theorem C53_absent (lam : Lam β K) (t : β) (numeric : Bool) (idx : Nat) (out v : K) :
    (match lam with
      | .null => True
      | .typed ts _ => t ∉ ts
      | .raw _ => numeric = false
      | .other => True) ↔
    (safeGet numeric lam t idx out = (false, out) ∧ safeSet numeric lam t idx v = (false, lam) ∧
      mustGet numeric lam t idx = none ∧ mustSet numeric lam t idx v = none) := by
  cases lam with
  | null => simp [safeGet, safeSet, mustGet, mustSet]
  | other => simp [safeGet, safeSet, mustGet, mustSet]
  | raw d => cases numeric <;> simp [safeGet, safeSet, mustGet, mustSet]
  | typed ts d =>
    simp only [safeGet, safeSet, mustGet, mustSet]
    rw [← (C53_index_first_occurrence t ts).2.1]
    cases getIndex t ts <;> simp

/-- C53: a type-indexed container is never accessed through the numeric index by accident: the result
does not depend on the numeric index nor on whether one was given. -/
theorem C53_numeric_index_ignored (ts : List β) (d : Nat → K) (t : β) (n n' : Bool) (i i' : Nat)
    (out v : K) :
    safeGet n (.typed ts d) t i out = safeGet n' (.typed ts d) t i' out ∧
    safeSet n (.typed ts d) t i v = safeSet n' (.typed ts d) t i' v ∧
    mustGet n (.typed ts d) t i = mustGet n' (.typed ts d) t i' ∧
    mustSet n (.typed ts d) t i v = mustSet n' (.typed ts d) t i' v := ⟨rfl, rfl, rfl, rfl⟩

/-- C53: on a raw pointer with a numeric index, a write changes exactly that slot, and reading it gives
the written value. -/
theorem C53_raw_pointer (d : Nat → K) (t t' : β) (idx idx' : Nat) (v out : K) :
    safeGet true (safeSet true (.raw d) t idx v).2 t' idx' out
      = (true, if idx' = idx then v else d idx') := by
  by_cases h : idx' = idx <;> simp [safeSet, safeGet, h]

/-- C53: the `Must` versions on a raw pointer, and every mixture of the two kinds of access: a write through
either changes exactly that slot for every later read through either. -/
theorem C53_raw_pointer_must (d : Nat → K) (t t' : β) (idx idx' : Nat) (v out : K) :
    (∃ lam, mustSet true (.raw d) t idx v = some lam ∧ (safeSet true (.raw d) t idx v) = (true, lam) ∧
      mustGet true lam t' idx' = some (if idx' = idx then v else d idx') ∧
      safeGet true lam t' idx' out = (true, if idx' = idx then v else d idx')) := by
  refine ⟨_, rfl, rfl, ?_, ?_⟩ <;> by_cases h : idx' = idx <;> simp [mustGet, safeGet, h]

/-- C53 non-vacuity: a container for types 5 and 7; a write through 9 is refused. -/
example : safeGet false (runWrites (.typed [5, 7] (fun _ => (0:ℚ))) [(true, 7, 0, 1), (false, 5, 0, 2),
    (false, 9, 0, 3)]) 7 0 100 = (true, 1) := by decide +kernel

/-! ## C71 -/

/-- C71: two index objects address different slots exactly when their *types* differ. -/
theorem C71_objects_by_type_partial (ts : List β) (x y : β × Nat) (hx : x.1 ∈ ts) (hne : x.1 ≠ y.1) :
    slotOfObject ts x ≠ slotOfObject ts y := by
  unfold slotOfObject
  intro h
  cases hi : getIndex x.1 ts with
  | none => exact (C53_index_first_occurrence x.1 ts).2.1.1 hi hx
  | some i => exact hne ((C53_index_first_occurrence x.1 ts).2.2 y.1 i hi (by rw [← h, hi]))

/-- C71 is violated: index objects of one vectorised type (`MassFractions(0)`, `MassFractions(1)`, ...)
all address the same slot of a `VariadicIndexer`, whatever the list and the numbers. -/
theorem C71_vectorised_alias_violated (ts : List β) (t : β) (m n : Nat) :
    slotOfObject ts (t, m) = slotOfObject ts (t, n) := rfl

end idx

end Verif.Types
