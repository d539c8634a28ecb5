import Verif.Model.Loops
import Mathlib.Logic.Function.Basic

/-! # `GenericIndexer`: an array seen through an index map -/

namespace Verif.GenIdx

/-- The objects of the program that can be indexed: arrays of numbers and index maps, by identity.
(generic_indexer.hpp:22-25: `Arr` and `Map` are any types with `operator[]`) -/
structure Heap (K : Type*) where
  arr : Nat → Nat → K
  map : Nat → Nat → Nat

variable {K : Type*}

/-- What `arr_` is: a reference to an array object (constructed from an lvalue), a pointer into one (`ptr`, also when the pointer itself
is a temporary), an array of its own (constructed from a temporary), or another indexer held by value. A map is held by reference or
as an own copy. (generic_indexer.hpp:22-30, 56-58 deduction guide: references for lvalues, values for temporaries) -/
inductive Indexer (K : Type*) where
  | ref (a : Nat)
  | ptr (a off : Nat)
  | own (f : Nat → K)
  | viaRef (arr : Indexer K) (m : Nat)
  | viaOwn (arr : Indexer K) (m : Nat → Nat)

/-- Reading `x[i]`. (generic_indexer.hpp:33-42 `arr_[map_[i]]`) -/
def Indexer.get (h : Heap K) : Indexer K → Nat → K
  | .ref a, i => h.arr a i
  | .ptr a off, i => h.arr a (off + i)
  | .own f, i => f i
  | .viaRef x m, i => x.get h (h.map m i)
  | .viaOwn x m, i => x.get h (m i)

/-- The assignment `x[i] = v`: new heap and new indexer (the own array is part of the indexer). (generic_indexer.hpp:33-36) -/
def Indexer.set (h : Heap K) (v : K) : Indexer K → Nat → Heap K × Indexer K
  | .ref a, i => ({ h with arr := Function.update h.arr a (Function.update (h.arr a) i v) }, .ref a)
  | .ptr a off, i => ({ h with arr := Function.update h.arr a (Function.update (h.arr a) (off + i) v) }, .ptr a off)
  | .own f, i => (h, .own (Function.update f i v))
  | .viaRef x m, i =>
    let r := x.set h v (h.map m i)
    (r.1, .viaRef r.2 m)
  | .viaOwn x m, i =>
    let r := x.set h v (m i)
    (r.1, .viaOwn r.2 m)

/-- A loop that fills an array through an indexer, `for (i = 0; i < n; ++i) x[i] = f(i)`, as the vector calls do with their output.
(eos_base.hpp:178-181 with an indexer from generic_indexer.hpp:33-36) -/
def fillVia (n : Nat) (f : Nat → K) (s : Heap K × Indexer K) : Heap K × Indexer K :=
  forN n (fun s i => s.2.set s.1 (f i) i) s

end Verif.GenIdx
