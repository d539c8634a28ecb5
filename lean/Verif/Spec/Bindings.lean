import Verif.Model.Bindings

/-!
# What the Python and Fortran bindings are specified against

NumPy's and Fortran's own meaning of array elements, and which memory an iteration may touch.
-/

namespace Verif.Spec.Bindings

open Verif.Bind

/-- Element `i` of a NumPy array. -/
def np1 (v : View) (i : Nat) : Int := v.base + v.stride * i

/-- Element `(i, j)` of a two-dimensional NumPy array. -/
def np2 (v : View2) (i j : Nat) : Int := v.base + v.s0 * i + v.s1 * j

/-- The addresses point `i` writes: its output element and its lambda values. -/
def Writes (nl : Nat) (out : View) (L : View2) (i : Nat) (x : Int) : Prop :=
  x = np1 out i ∨ ∃ j < nl, x = np2 L i j

/-- The addresses point `i` reads: its two inputs and its lambda values. -/
def Reads (nl : Nat) (a b : View) (L : View2) (i : Nat) (x : Int) : Prop :=
  x = np1 a i ∨ x = np1 b i ∨ ∃ j < nl, x = np2 L i j

/-- Nothing point `i` writes is read or written by point `k`. -/
def Apart (nl : Nat) (a b out : View) (L : View2) (i k : Nat) : Prop :=
  ∀ x, Writes nl out L i x → ¬ Reads nl a b L k x ∧ ¬ Writes nl out L k x

/-- The lambda values of a point do not overlap each other or its output element. -/
def OwnRow (nl : Nat) (out : View) (L : View2) (i : Nat) : Prop :=
  (∀ j < nl, np2 L i j ≠ np1 out i) ∧ ∀ j < nl, ∀ j' < nl, np2 L i j = np2 L i j' → j = j'

/-- The query looks only at the first `nl` lambda values. -/
def UsesOnly {K : Type*} (nl : Nat) (q : Query K) : Prop :=
  ∀ x y l l', (∀ j < nl, l j = l' j) → (q x y l).1 = (q x y l').1 ∧ ∀ j < nl, (q x y l).2 j = (q x y l').2 j

/-- The memory after the call is right at `n` points: every output element is the scalar answer for the old inputs and
the old lambda values of that point, the lambda values are those the scalar query leaves, all else is as before. -/
def Elementwise {K : Type*} (q : Query K) (nl n : Nat) (a b out : View) (L : View2) (m m' : Mem K) : Prop :=
  (∀ i < n, m' (np1 out i) = (q (m (np1 a i)) (m (np1 b i)) fun j => m (np2 L i j)).1) ∧
  (∀ i < n, ∀ j < nl, m' (np2 L i j) = (q (m (np1 a i)) (m (np1 b i)) fun j => m (np2 L i j)).2 j) ∧
  ∀ x, (∀ i < n, ¬ Writes nl out L i x) → m' x = m x

/-- Address of element `(i, j, k)`, counted from 1 as in Fortran. -/
def f3 (a : Arr3) (i j k : Nat) : Int := a.base + a.s1 * (i - 1) + a.s2 * (j - 1) + a.s3 * (k - 1)

/-- Is `(i, j, k)` an element of the array? -/
def In3 (a : Arr3) (i j k : Nat) : Prop := 1 ≤ i ∧ i ≤ a.n1 ∧ 1 ≤ j ∧ j ≤ a.n2 ∧ 1 ≤ k ∧ k ≤ a.n3

/-- A whole (contiguous) Fortran array: column-major without gaps. -/
def Contig3 (a : Arr3) : Prop := a.s1 = 1 ∧ a.s2 = a.n1 ∧ a.s3 = a.n1 * a.n2

/-- Same shape. -/
def SameShape (a b : Arr3) : Prop := a.n1 = b.n1 ∧ a.n2 = b.n2 ∧ a.n3 = b.n3

/-- Address of element `(i, j)` of a rank-2 array, counted from 1. -/
def f2 (a : Arr2) (i j : Nat) : Int := a.base + a.s1 * (i - 1) + a.s2 * (j - 1)

/-- A whole rank-2 array. -/
def Contig2 (a : Arr2) : Prop := a.s1 = 1 ∧ a.s2 = a.n1

end Verif.Spec.Bindings
