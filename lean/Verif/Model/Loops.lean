import Mathlib.Algebra.BigOperators.Group.Finset.Basic
import Mathlib.Algebra.BigOperators.Ring.Finset
import Mathlib.Algebra.Order.BigOperators.Group.Finset

/-!
# C `for` loops over arrays

`for (std::size_t m = 0; m < n; ++m) body` with a body that neither breaks nor changes `m`.
C arrays are total functions from indices, a store is `Function.update`.
-/

namespace Verif

/-- `for (m = 0; m < n; ++m) s = body(s, m)`.
(the C loop shape used throughout, e.g. mixed_cell_models.hpp:430-436) -/
def forN {S : Type*} (n : Nat) (body : S → Nat → S) (s : S) : S :=
  match n with
  | 0 => s
  | n + 1 => body (forN n body s) n

@[simp] theorem forN_zero {S : Type*} (body : S → Nat → S) (s : S) : forN 0 body s = s := rfl

theorem forN_succ {S : Type*} (n : Nat) (body : S → Nat → S) (s : S) :
    forN (n + 1) body s = body (forN n body s) n := rfl

/-- Loop invariant rule. -/
theorem forN_inv {S : Type*} {n : Nat} {body : S → Nat → S} {s : S} (P : Nat → S → Prop)
    (h0 : P 0 s) (hs : ∀ m t, m < n → P m t → P (m + 1) (body t m)) : P n (forN n body s) := by
  have : ∀ k, k ≤ n → P k (forN k body s) := by
    intro k
    induction k with
    | zero => exact fun _ => h0
    | succ k ih => exact fun hk => hs k _ (by omega) (ih (by omega))
  exact this n le_rfl

/-- `for (m < n) a[m] = f(m)` (the stored value does not depend on the array). (the same) -/
def fill {K : Type*} (n : Nat) (f : Nat → K) (a : Nat → K) : Nat → K :=
  forN n (fun a m => Function.update a m (f m)) a

theorem fill_apply {K : Type*} (n : Nat) (f : Nat → K) (a : Nat → K) (i : Nat) :
    fill n f a i = if i < n then f i else a i := by
  unfold fill
  induction n with
  | zero => simp
  | succ n ih =>
    rw [forN_succ, Function.update_apply, ih]
    split_ifs with h1 h2 h3 h4 <;> first | rfl | omega | (subst h1; rfl)

/-- `for (m < n) a[m] = f(m, a[m])`. (the same) -/
def mapN {K : Type*} (n : Nat) (f : Nat → K → K) (a : Nat → K) : Nat → K :=
  forN n (fun a m => Function.update a m (f m (a m))) a

theorem mapN_apply {K : Type*} (n : Nat) (f : Nat → K → K) (a : Nat → K) (i : Nat) :
    mapN n f a i = if i < n then f i (a i) else a i := by
  unfold mapN
  induction n generalizing i with
  | zero => simp
  | succ n ih =>
    rw [forN_succ, Function.update_apply]
    split_ifs with h1 h2 h3
    · subst h1; rw [ih]; simp
    · omega
    · rw [ih]; simp [show i < n by omega]
    · rw [ih]; simp [show ¬ i < n by omega]

/-- An accumulating loop is a finite sum. -/
theorem forN_add {K : Type*} [AddCommMonoid K] (n : Nat) (f : Nat → K) (s : K) :
    forN n (fun s m => s + f m) s = s + ∑ m ∈ Finset.range n, f m := by
  induction n with
  | zero => simp
  | succ n ih => rw [forN_succ, ih, Finset.sum_range_succ, add_assoc]

end Verif
