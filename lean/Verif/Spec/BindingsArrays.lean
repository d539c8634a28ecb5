import Verif.Spec.Bindings
import Verif.Model.BindingsArrays

/-! # What Python array calls with scratch memory and `FillEos` on arrays are specified against -/

namespace Verif.Spec.Bindings

open Verif.Bind

variable {K : Type*}

/-- Every element in its place: neighbours are next to each other in memory. -/
def Packed (v : View) : Prop := ∀ i, np1 v i = v.base + i

/-- Right at `n` points like `Elementwise`, except that `k` numbers of scratch memory may hold anything afterwards. -/
def ElementwiseScratch (q : Query K) (nl n : Nat) (a b out : View) (L : View2) (scr : Int) (k : Nat) (m m' : Mem K) : Prop :=
  (∀ i < n, m' (np1 out i) = (q (m (np1 a i)) (m (np1 b i)) fun j => m (np2 L i j)).1) ∧
  (∀ i < n, ∀ j < nl, m' (np2 L i j) = (q (m (np1 a i)) (m (np1 b i)) fun j => m (np2 L i j)).2 j) ∧
  ∀ x, (∀ i < n, ¬ Writes nl out L i x) → (∀ j < k, x ≠ scr + j) → m' x = m x

/-- The addresses point `i` of a `FillEos` uses: its element of each of the six arrays and its lambda values. -/
def FillCells (nl : Nat) (arr : Fin 6 → View) (L : View2) (i : Nat) (x : Int) : Prop :=
  (∃ k, x = np1 (arr k) i) ∨ ∃ j < nl, x = np2 L i j

/-- The values of one point do not overlap each other. -/
def OwnCells (nl : Nat) (arr : Fin 6 → View) (L : View2) (i : Nat) : Prop :=
  (∀ k k', np1 (arr k) i = np1 (arr k') i → k = k') ∧ (∀ k, ∀ j < nl, np2 L i j ≠ np1 (arr k) i) ∧
  ∀ j < nl, ∀ j' < nl, np2 L i j = np2 L i j' → j = j'

/-- The fill looks only at the first `nl` lambda values. -/
def FillUsesOnly (nl : Nat) (f : FillQuery K) : Prop :=
  ∀ v l l', (∀ j < nl, l j = l' j) → (f v l).1 = (f v l').1 ∧ ∀ j < nl, (f v l).2 j = (f v l').2 j

/-- `m'` is right at `n` points: all six numbers are those the scalar `FillEos` leaves when given the old six numbers and lambda
values of that point, so are the lambda values, all else is as before. -/
def FillElementwise (f : FillQuery K) (nl n : Nat) (arr : Fin 6 → View) (L : View2) (m m' : Mem K) : Prop :=
  (∀ i < n, ∀ k, m' (np1 (arr k) i) = (f (fun k => m (np1 (arr k) i)) fun j => m (np2 L i j)).1 k) ∧
  (∀ i < n, ∀ j < nl, m' (np2 L i j) = (f (fun k => m (np1 (arr k) i)) fun j => m (np2 L i j)).2 j) ∧
  ∀ x, (∀ i < n, ¬ FillCells nl arr L i x) → m' x = m x

end Verif.Spec.Bindings
