import Verif.Model.PTEAccess

/-!
# The sizes of a PTE solver's arrays
-/

namespace Verif.PTE.Acc.Spec

/-- Number of equations: unknowns are temperature and all volume fractions but one (RhoT), pressure and temperature
(PT), the volume fractions (FixedT), those and the temperature (FixedP), volume fractions and energies (RhoU). -/
def equations : Solver → Nat → Nat
  | .rhoT, n => n
  | .pT, _ => 2
  | .fixedT, n => n
  | .fixedP, n => n + 1
  | .rhoU, n => n + n

/-- How many numbers each array holds; 0 for arrays the solver does not have. The caller's arrays have one entry
per material. -/
def size (s : Solver) (n : Nat) : Arr → Nat
  | .jacobian => equations s n ^ 2
  | .dx => equations s n
  | .solScratch => 2 * equations s n
  | .residual => equations s n
  | .u => n
  | .rhobar => n
  | .dpdv => if s = .pT then 0 else n
  | .dedv => if s = .rhoT then n else 0
  | .dpdT => if s = .rhoT ∨ s = .fixedP then n else 0
  | .vtemp => if s = .pT then 0 else n
  | .dtdv => if s = .rhoU then n else 0
  | .dpde => if s = .rhoU then n else 0
  | .dtde => if s = .rhoU then n else 0
  | .utemp => if s = .rhoU then n else 0
  | .rho => n
  | .vfrac => n
  | .sie => n
  | .temp => n
  | .press => n
  | .lambda => n
  | .eos => n

/-- Every access stays inside its array. -/
def InBounds (s : Solver) (n : Nat) (t : List Cell) : Prop := ∀ a ∈ t, a.idx < size s n a.arr

/-- The entries of `a` a list of accesses writes, in order. -/
def written (a : Arr) (t : List Cell) : List Nat := (t.filter fun c => c.arr == a && c.write).map (·.idx)

/-- The cells of `a` that a list of accesses writes are all of them. -/
def WritesAll (s : Solver) (n : Nat) (a : Arr) (t : List Cell) : Prop :=
  ∀ i < size s n a, ∃ c ∈ t, c.arr = a ∧ c.idx = i ∧ c.write = true

end Verif.PTE.Acc.Spec
