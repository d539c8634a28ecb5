import Verif.Model.PTEFull

/-!
# Two solver objects that differ only in what their scratch memory and unset members hold
-/

namespace Verif.PTE

variable {K : Type*}

/-- The same call made twice: the caller's five arrays hold the same values and the two objects were constructed with the same
normalisation temperature, but the scratch memory (`n` materials, `N` equations) holds whatever it held, and so do the members
`Init` is to set.  Memory outside the scratch blocks is the same. -/
structure SameCall (N n : Nat) (s s' : PS K) : Prop where
  rho : s.a.rho = s'.a.rho
  vfrac : s.a.vfrac = s'.a.vfrac
  sie : s.a.sie = s'.a.sie
  temp : s.a.temp = s'.a.temp
  press : s.a.press = s'.a.press
  Tnorm : s.Tnorm = s'.Tnorm
  u : ∀ i, n ≤ i → s.a.u i = s'.a.u i
  rhobar : ∀ i, n ≤ i → s.rhobar i = s'.rhobar i
  vtemp : ∀ i, n ≤ i → s.vtemp i = s'.vtemp i
  utemp : ∀ i, n ≤ i → s.utemp i = s'.utemp i
  residual : ∀ i, N ≤ i → s.residual i = s'.residual i
  dx : ∀ i, N ≤ i → s.dx i = s'.dx i
  jac : ∀ i, N * N ≤ i → s.jac i = s'.jac i

/-- The same outcome: the status the driver returns and the arrays handed back. -/
def SameOutcome (d d' : DState (PS K) K) : Prop :=
  d.converged = d'.converged ∧ d.niter = d'.niter ∧ d.maxNiter = d'.maxNiter ∧ d.maxLine = d'.maxLine ∧
  d.small = d'.small ∧ d.slow = d'.slow ∧ d.err = d'.err ∧ d.s.a = d'.s.a

end Verif.PTE
