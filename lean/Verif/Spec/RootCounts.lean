import Mathlib.Algebra.Order.Field.Basic

/-! # What the root finders' statistics mean (specification for C142)

Written without reference to the model of the loops: the iterates as sequences, and the least index at which an
iteration ends.
-/

namespace Verif.RootCountSpec

variable {K : Type*} [Field K] [LinearOrder K]

/-- Newton's iterates for `f(x) = ytarget`, clamped to `[a,b]`; `dv` is the division. -/
def newtonSeq (dv : K → K → K) (f : K → K × K) (ytarget a b guess : K) : Nat → K
  | 0 => guess
  | k + 1 =>
    let x := newtonSeq dv f ytarget a b guess k
    max (min (x - dv ((f x).1 - ytarget) (f x).2) b) a

/-- The iteration ends at `x`: converged there, or `x` and the next point are both at or beyond the same bound. -/
def NewtonEnds (dv : K → K → K) (f : K → K × K) (ytarget a b ytol x : K) : Prop :=
  |(f x).1 - ytarget| < |ytol * ytarget| ∨
    (x - dv ((f x).1 - ytarget) (f x).2 ≤ a ∧ x ≤ a) ∨ (x - dv ((f x).1 - ytarget) (f x).2 ≥ b ∧ x ≥ b)

/-- `k` is the first index satisfying `P`, or `n` when there is none before it. -/
def FirstOr (P : Nat → Prop) (n k : Nat) : Prop := k ≤ n ∧ (∀ j, j < k → ¬ P j) ∧ (k < n → P k)

/-- There is only one such index. -/
theorem FirstOr.unique {P : Nat → Prop} {n k k' : Nat} (h : FirstOr P n k) (h' : FirstOr P n k') : k = k' := by
  rcases lt_trichotomy k k' with e | e | e
  · exact absurd (h.2.2 (lt_of_lt_of_le e h'.1)) (h'.2.1 k e)
  · exact e
  · exact absurd (h'.2.2 (lt_of_lt_of_le e h.1)) (h.2.1 k' e)

end Verif.RootCountSpec
