import Verif.Model.PTESolvers

/-! # What a caller of a PTE solver expects of the arrays it gets back -/

namespace Verif.PTE

variable {K : Type*} [Field K] [LinearOrder K]

/-- `x` is `y` up to the factor between `c/(c+σ)` and 1 that a `robust::ratio` with denominator `c` brings in (in double
precision, with `σ = 2.2e-308`, a factor that rounds to 1). -/
def Guarded (σ c x y : K) : Prop := ∃ θ, c / (c + σ) ≤ θ ∧ θ ≤ 1 ∧ x = θ * y

/-- Material `m` of the arrays `a` has kept its mass `rb`, has a positive volume fraction, and its specific internal energy
is that of its own equation of state at its density and the temperature `T`. -/
structure Mixed (σ : K) (E : MatEOS K) (rb T : K) (a : Mats K) (m : Nat) : Prop where
  vfrac : 0 < a.vfrac m
  mass : Guarded σ (a.vfrac m) (a.rho m * a.vfrac m) rb
  energy : Guarded σ rb (a.sie m) (E.eOf m (a.rho m) T)

end Verif.PTE
