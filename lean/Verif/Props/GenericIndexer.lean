import Verif.Spec.GenericIndexer
import Mathlib.Tactic.NormNum
import Mathlib.Algebra.Order.Field.Rat

/-! # C140: arrays seen through index maps -/

namespace Verif

open GenIdx

namespace GenIdx

variable {K : Type*}

theorem set_map (h : Heap K) (v : K) (x : Indexer K) (i : Nat) : (x.set h v i).1.map = h.map := by
  induction x generalizing i with
  | ref a => rfl
  | ptr a off => rfl
  | own f => rfl
  | viaRef x m ih => exact ih _
  | viaOwn x m ih => exact ih _

theorem position_congr {h h' : Heap K} (e : h.map = h'.map) (x : Indexer K) (i : Nat) : x.position h i = x.position h' i := by
  induction x generalizing i with
  | ref a => rfl
  | ptr a off => rfl
  | own f => rfl
  | viaRef x m ih => simp only [Indexer.position, e]; exact ih _
  | viaOwn x m ih => simp only [Indexer.position]; exact ih _

theorem set_position (h : Heap K) (v : K) (x : Indexer K) (i j : Nat) :
    (x.set h v i).2.position (x.set h v i).1 j = x.position h j := by
  induction x generalizing i j with
  | ref a => rfl
  | ptr a off => rfl
  | own f => rfl
  | viaRef x m ih =>
    simp only [Indexer.set, Indexer.position]
    rw [set_map]
    exact ih _ _
  | viaOwn x m ih => simp only [Indexer.set, Indexer.position]; exact ih _ _

theorem set_target (h : Heap K) (v : K) (x : Indexer K) (i : Nat) : (x.set h v i).2.target = x.target := by
  induction x generalizing i with
  | ref a => rfl
  | ptr a off => rfl
  | own f => rfl
  | viaRef x m ih => exact ih _
  | viaOwn x m ih => exact ih _

end GenIdx

/-- C140: reading through an indexer reads the element of the array that its maps lead to, whatever indexers are nested. -/
theorem C140_read {K : Type*} (h : Heap K) (x : Indexer K) (a : Nat) (hx : x.target = some a) (i : Nat) :
    x.get h i = h.arr a (x.position h i) := by
  induction x generalizing i with
  | ref b => simp only [Indexer.target, Option.some.injEq] at hx; subst hx; rfl
  | ptr b off => simp only [Indexer.target, Option.some.injEq] at hx; subst hx; rfl
  | own f => simp [Indexer.target] at hx
  | viaRef x m ih => exact ih hx _
  | viaOwn x m ih => exact ih hx _

/-- C140: an assignment through an indexer to an array changes exactly the element its maps lead to, in that array, and nothing else. -/
theorem C140_write {K : Type*} (h : Heap K) (x : Indexer K) (a : Nat) (hx : x.target = some a) (i : Nat) (v : K) (b k : Nat) :
    (x.set h v i).1.arr b k = (if b = a ∧ k = x.position h i then v else h.arr b k) ∧ (x.set h v i).1.map = h.map := by
  refine ⟨?_, set_map h v x i⟩
  have base : ∀ (c p : Nat), Function.update h.arr c (Function.update (h.arr c) p v) b k =
      if b = c ∧ k = p then v else h.arr b k := by
    intro c p
    by_cases hb : b = c
    · subst hb
      by_cases hk : k = p
      · subst hk; simp
      · simp [hk]
    · simp [hb]
  induction x generalizing i with
  | ref c => simp only [Indexer.target, Option.some.injEq] at hx; subst hx; exact base _ _
  | ptr c off => simp only [Indexer.target, Option.some.injEq] at hx; subst hx; exact base _ _
  | own f => simp [Indexer.target] at hx
  | viaRef x m ih => exact ih hx _
  | viaOwn x m ih => exact ih hx _

/-- C140: an indexer made from a temporary array works on its own copy: an assignment through it changes no array of the program. -/
theorem C140_own {K : Type*} (h : Heap K) (x : Indexer K) (hx : x.target = none) (i : Nat) (v : K) : (x.set h v i).1 = h := by
  induction x generalizing i with
  | ref b => simp [Indexer.target] at hx
  | ptr b off => simp [Indexer.target] at hx
  | own f => rfl
  | viaRef x m ih => exact ih hx _
  | viaOwn x m ih => exact ih hx _

/-- C140: after `x[i] = v`, `x[j]` is `v` for every `j` that leads to the same element, and unchanged for every other `j`; with an array
of its own as well. -/
theorem C140_read_after_write {K : Type*} (h : Heap K) (x : Indexer K) (i j : Nat) (v : K) :
    (x.set h v i).2.get (x.set h v i).1 j = if x.position h j = x.position h i then v else x.get h j := by
  induction x generalizing i j with
  | ref a =>
    simp only [Indexer.set, Indexer.get, Indexer.position, Function.update_self]
    by_cases hij : j = i
    · subst hij; simp
    · simp [hij]
  | ptr a off =>
    change Function.update h.arr a (Function.update (h.arr a) (off + i) v) a (off + j) = if off + j = off + i then v else h.arr a (off + j)
    rw [Function.update_self, Function.update_apply]
  | own f =>
    simp only [Indexer.set, Indexer.get, Indexer.position]
    by_cases hij : j = i
    · subst hij; simp
    · simp [hij]
  | viaRef x m ih =>
    simp only [Indexer.set, Indexer.get, Indexer.position]
    rw [set_map]
    exact ih _ _
  | viaOwn x m ih =>
    simp only [Indexer.set, Indexer.get, Indexer.position]
    exact ih _ _

/-- C140: an index map given as a variable is used as it is at the time of the access; one given as a temporary is fixed when the
indexer is made. -/
theorem C140_map_lifetime {K : Type*} (h : Heap K) (x : Indexer K) (a : Nat) (hx : x = .ref a) (m : Nat) (f g : Nat → Nat) (i : Nat) :
    let h' : Heap K := { h with map := Function.update h.map m g }
    (Indexer.viaRef x m).get h' i = h.arr a (g i) ∧ (Indexer.viaOwn x f).get h' i = h.arr a (f i) := by
  subst hx
  simp [Indexer.get]

/-- C140: filling `n` elements through an indexer whose first `n` elements are different elements of an array `a` puts the values where the
indexer reads them and leaves every other element of every array as it was: scatter, and gather again. -/
theorem C140_scatter {K : Type*} (h : Heap K) (x : Indexer K) (a : Nat) (hx : x.target = some a) (n : Nat) (f : Nat → K)
    (hinj : ∀ i j, i < n → j < n → x.position h i = x.position h j → i = j) :
    let s := fillVia n f (h, x)
    (∀ i, i < n → s.2.get s.1 i = f i ∧ s.1.arr a (x.position h i) = f i) ∧
    (∀ b k, (b ≠ a ∨ ∀ i, i < n → k ≠ x.position h i) → s.1.arr b k = h.arr b k) ∧ s.1.map = h.map := by
  have main : ∀ l, l ≤ n → (fillVia l f (h, x)).2.target = some a ∧ (fillVia l f (h, x)).1.map = h.map ∧
      (∀ j, (fillVia l f (h, x)).2.position (fillVia l f (h, x)).1 j = x.position h j) ∧
      (∀ i, i < l → (fillVia l f (h, x)).1.arr a (x.position h i) = f i) ∧
      (∀ b k, (b ≠ a ∨ ∀ i, i < l → k ≠ x.position h i) → (fillVia l f (h, x)).1.arr b k = h.arr b k) := by
    intro l
    induction l with
    | zero =>
      intro _
      refine ⟨hx, rfl, fun _ => rfl, ?_, ?_⟩
      · intro i hi; omega
      · intro b k _; rfl
    | succ l ih =>
      intro hl
      obtain ⟨i1, i2, i3, i4, i5⟩ := ih (by omega)
      have hstep : fillVia (l + 1) f (h, x) = (fillVia l f (h, x)).2.set (fillVia l f (h, x)).1 (f l) l := rfl
      have w := fun b k => (C140_write (fillVia l f (h, x)).1 (fillVia l f (h, x)).2 a i1 l (f l) b k).1
      rw [hstep]
      refine ⟨(set_target _ _ _ _).trans i1, (set_map _ _ _ _).trans i2, fun j => (set_position _ _ _ _ _).trans (i3 j), ?_, ?_⟩
      · intro i hi
        rw [w]
        by_cases he : x.position h i = x.position h l
        · have : i = l := hinj i l (by omega) (by omega) he
          subst this
          rw [if_pos ⟨rfl, (i3 i).symm⟩]
        · rw [if_neg (fun hc => he (hc.2.trans (i3 l)))]
          have hil : i ≠ l := fun e => he (by rw [e])
          exact i4 i (by omega)
      · intro b k hk
        rw [w, if_neg]
        · refine i5 b k ?_
          rcases hk with hk | hk
          · exact Or.inl hk
          · exact Or.inr fun i hi => hk i (by omega)
        · rintro ⟨rfl, e⟩
          rcases hk with hk | hk
          · exact hk rfl
          · exact hk l (by omega) (e.trans (i3 l))
  obtain ⟨m1, m2, m3, m4, m5⟩ := main n le_rfl
  refine ⟨?_, m5, m2⟩
  intro i hi
  refine ⟨?_, m4 i hi⟩
  rw [C140_read _ _ a m1, m3]
  exact m4 i hi

/-- C140: two indexers that lead to different elements (for example two materials of one flat array) do not disturb each other. -/
theorem C140_independent {K : Type*} (h : Heap K) (x y : Indexer K) (a b : Nat) (hx : x.target = some a) (hy : y.target = some b)
    (i j : Nat) (v : K) (hd : a ≠ b ∨ x.position h i ≠ y.position h j) : y.get (x.set h v i).1 j = y.get h j := by
  rw [C140_read _ y b hy, C140_read _ y b hy]
  have e : y.position (x.set h v i).1 j = y.position h j := position_congr (set_map h v x i) y j
  rw [e, (C140_write h x a hx i v b _).1, if_neg]
  rintro ⟨e1, e2⟩
  rcases hd with hd | hd
  · exact hd e1.symm
  · exact hd e2.symm

/-- The test's use: row `m` of a flat array through a constant offset; and a map that repeats an element (not one to one), where the
last assignment wins. -/
example : ∃ h : Heap ℚ, ∃ x y : Indexer ℚ, x.target = some 0 ∧ x.position h 1 = 4 ∧ x.get h 1 = 40 ∧
    y.position h 0 = y.position h 1 ∧ (fillVia 2 (fun i => (i : ℚ)) (h, y)).1.arr 0 5 = 1 ∧
    (fillVia 2 (fun i => (i : ℚ)) (h, x)).1.arr 0 3 = 0 ∧ (fillVia 2 (fun i => (i : ℚ)) (h, x)).1.arr 0 5 = 50 := by
  refine ⟨⟨fun _ k => 10 * k, fun _ k => k⟩, .viaOwn (.ptr 0 0) (fun i => i + 3), .viaOwn (.ref 0) (fun _ => 5), rfl, rfl, ?_, rfl,
    ?_, ?_, ?_⟩ <;> norm_num [Indexer.get, fillVia, forN, Indexer.set]

end Verif
