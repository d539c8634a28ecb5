import Mathlib.Algebra.Order.Field.Basic

/-! # Specification: functions that rise through a value

`RisesThrough f a b y r m M`: on `[a,b]`, `f` takes the value `y` at `r`, and the slope of every chord from `(r,y)` to
another point of the graph is between `m` and `M`.  Any `f` with `m ≤ f' ≤ M` has this property, and so does any piecewise
linear `f` with such slopes. -/

namespace Verif.Spec

/-- See above. -/
structure RisesThrough {K : Type*} [Field K] [LinearOrder K] (f : K → K) (a b y r m M : K) : Prop where
  mem : a ≤ r ∧ r ≤ b
  hit : f r = y
  pos : 0 < m
  left : ∀ x, a ≤ x → x ≤ r → m * (r - x) ≤ y - f x ∧ y - f x ≤ M * (r - x)
  right : ∀ x, r ≤ x → x ≤ b → m * (x - r) ≤ f x - y ∧ f x - y ≤ M * (x - r)

end Verif.Spec
