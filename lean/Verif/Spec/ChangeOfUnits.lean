import Verif.Spec.ThermoLaws

/-!
# One EOS being another one in different units

A change of units for density, temperature, energy and pressure plus a shift of the energy zero.
`wrapped = factor * host`, and for the energy `wrapped = factor * (host - shift)`.
-/

namespace Verif.Spec

open Verif.Mods

variable {K : Type*} [Field K]

/-- Conversion factors from host to wrapped units. -/
structure Coord (K : Type*) where
  rho : K
  temp : K
  sie : K
  press : K
  shift : K

/-- Pressure has the dimension of density times specific energy, and no factor is zero. -/
def Coord.Ok (c : Coord K) : Prop :=
  c.rho ≠ 0 ∧ c.temp ≠ 0 ∧ c.sie ≠ 0 ∧ c.press = c.rho * c.sie

/-- The second argument of a query in wrapped units. -/
def Coord.arg (c : Coord K) (k : Q) (y : K) : K :=
  if k.byEnergy then c.sie * (y - c.shift) else c.temp * y

/-- The answer of a query converted back to host units, by its physical dimension. -/
def Coord.out (c : Coord K) (k : Q) (v : K) : K :=
  match k with
  | .tRE => v / c.temp
  | .eRT => v / c.sie + c.shift
  | .pRT | .pRE | .bRT | .bRE => v / c.press
  | .sRT | .sRE | .cvRT | .cvRE => v * c.temp / c.sie
  | .gRT | .gRE => v

/-- Query `k` of `g` is query `k` of `f` in the units `c`. -/
def ImageAt (c : Coord K) (f g : Answers K) (k : Q) : Prop :=
  ∀ r y, g k r y = c.out k (f k (c.rho * r) (c.arg k y))

/-- `g` is `f` in the units `c`, for every query. -/
def Image (c : Coord K) (f g : Answers K) : Prop := ∀ k, ImageAt c f g k

end Verif.Spec
