import Mathlib.Algebra.Order.Ring.Defs

/-! # What a table in a file should hold -/

namespace Verif.Spec.Sp5

/-- The values `v` on a grid with the points `x 0, …, x (n-1)` are those of the function `f`. -/
def Tabulates1 {K : Type*} (n : Nat) (x : Nat → K) (f : K → K) (v : Nat → K) : Prop := ∀ j < n, v j = f (x j)

/-- The values `v` on the product of two grids are those of the function `f` of two variables. -/
def Tabulates2 {K : Type*} (n : Nat) (x : Nat → K) (n' : Nat) (y : Nat → K) (f : K → K → K) (v : Nat → Nat → K) : Prop :=
  ∀ j < n, ∀ i < n', v j i = f (x j) (y i)

/-- A name a user can give to a material: not empty, no dot alone, no slash. -/
def GoodName (s : List Char) : Prop := s ≠ [] ∧ s ≠ ['.'] ∧ '/' ∉ s

/-- A number as text. -/
def numeral (i : Int) : List Char := (toString i).toList

/-- Materials, as pairs of number and name, that can be kept apart: numbers and names differ, and no material is named after the
number of another. -/
def Distinct (l : List (Int × List Char)) : Prop :=
  l.Pairwise fun a b => a.1 ≠ b.1 ∧ a.2 ≠ b.2 ∧ a.2 ≠ numeral b.1 ∧ b.2 ≠ numeral a.1

end Verif.Spec.Sp5
