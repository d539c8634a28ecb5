import Mathlib.Order.Defs.LinearOrder
import Mathlib.Data.List.Basic

/-! Independent specification of "an ordering of `n` items from highest to lowest". -/

namespace Verif.Spec

/-- The first `n` entries of `ord` list each of `0, …, n-1` exactly once. -/
def IsOrdering (n : Nat) (ord : Nat → Nat) : Prop :=
  List.Perm ((List.range n).map ord) (List.range n)

/-- Reading `val` in the order `ord` gives a non-increasing sequence. -/
def HighToLow {K : Type*} [LinearOrder K] (n : Nat) (val : Nat → K) (ord : Nat → Nat) : Prop :=
  List.Pairwise (fun x y => y ≤ x) ((List.range n).map fun i => val (ord i))

end Verif.Spec
