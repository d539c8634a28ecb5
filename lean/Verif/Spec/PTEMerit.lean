import Mathlib.Algebra.BigOperators.Group.Finset.Basic
import Mathlib.Algebra.BigOperators.Intervals
import Mathlib.Data.Nat.Cast.Basic
import Mathlib.Algebra.Field.Basic

/-!
# How far a mixed cell is from pressure-temperature equilibrium

Half the sum of the squares of what the equilibrium equations leave over, one function per set of equations.  `v`, `u`, `p`, `t`
are the materials' volume fractions, energy densities, pressures and temperatures.
-/

namespace Verif.PTE

variable {K : Type*} [Field K]

/-- Volumes fill the cell, energies add up. -/
def meritVU (n : Nat) (vt ut : K) (v u : Nat → K) : K :=
  1 / 2 * ((vt - ∑ m ∈ Finset.range n, v m) ^ 2 + (ut - ∑ m ∈ Finset.range n, u m) ^ 2)

/-- Energies add up, every pressure is that of material `k`. -/
def meritUP (n k : Nat) (ut : K) (u p : Nat → K) : K :=
  1 / 2 * ((ut - ∑ m ∈ Finset.range n, u m) ^ 2 + ∑ m ∈ Finset.range n, (p k - p m) ^ 2)

/-- Volumes fill the cell, neighbouring pressures agree. -/
def meritVP (n : Nat) (vt : K) (v p : Nat → K) : K :=
  1 / 2 * ((vt - ∑ m ∈ Finset.range n, v m) ^ 2 + ∑ m ∈ Finset.range (n - 1), (p m - p (m + 1)) ^ 2)

/-- Volumes fill the cell, every pressure is `P`. -/
def meritVPfix (n : Nat) (vt P : K) (v p : Nat → K) : K :=
  1 / 2 * ((vt - ∑ m ∈ Finset.range n, v m) ^ 2 + ∑ m ∈ Finset.range n, (P - p m) ^ 2)

/-- Volumes fill the cell, energies add up, neighbouring pressures and temperatures agree. -/
def meritAll (n : Nat) (vt ut : K) (v u p t : Nat → K) : K :=
  1 / 2 * ((vt - ∑ m ∈ Finset.range n, v m) ^ 2 + (ut - ∑ m ∈ Finset.range n, u m) ^ 2 +
    ∑ m ∈ Finset.range (n - 1), (p (m + 1) - p m) ^ 2 + ∑ m ∈ Finset.range (n - 1), (t (m + 1) - t m) ^ 2)

end Verif.PTE
