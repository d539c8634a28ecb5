import Verif.Model.Robust
import Verif.Model.Loops

/-!
# The public interface of an equation of state

The C++ library has no abstract base type: every EOS is a class with the same member functions
(`eos_base.hpp` and the per-EOS headers).  A *modifier* (`eos/modifiers/*.hpp`) is a class template
around an arbitrary such class `T t_`.  Here the interface is the record `Eos K Λ`, a modifier is a
function on such records.

`Real` is an arbitrary field `K`; `Λ` is the type of the `lambda` argument.  Simplification: queries
do not write into `lambda` (the tabulated EOS use it as a cache).
-/

namespace Verif.Mods

/-- The two-input, one-output queries (`eos_base.hpp:418-511`), named by output and input. -/
inductive Q where
  /-- `TemperatureFromDensityInternalEnergy` -/
  | tRE
  /-- `InternalEnergyFromDensityTemperature` -/
  | eRT
  /-- `PressureFromDensityTemperature` -/
  | pRT
  /-- `PressureFromDensityInternalEnergy` -/
  | pRE
  /-- `EntropyFromDensityTemperature` -/
  | sRT
  /-- `EntropyFromDensityInternalEnergy` -/
  | sRE
  /-- `SpecificHeatFromDensityTemperature` -/
  | cvRT
  /-- `SpecificHeatFromDensityInternalEnergy` -/
  | cvRE
  /-- `BulkModulusFromDensityTemperature` -/
  | bRT
  /-- `BulkModulusFromDensityInternalEnergy` -/
  | bRE
  /-- `GruneisenParamFromDensityTemperature` -/
  | gRT
  /-- `GruneisenParamFromDensityInternalEnergy` -/
  | gRE
deriving DecidableEq, Repr

/-- Does the query take the specific internal energy as second argument (otherwise temperature)?
(the query names of eos_base.hpp:94-300) -/
def Q.byEnergy : Q → Bool
  | .tRE | .pRE | .sRE | .cvRE | .bRE | .gRE => true
  | .eRT | .pRT | .sRT | .cvRT | .bRT | .gRT => false

/-- The six quantities of `FillEos` (`eos_base.hpp:514-524`). -/
structure Thermo (K : Type*) where
  rho : K
  temp : K
  sie : K
  press : K
  cv : K
  bmod : K

/-- The bit set `output` of `FillEos` (`constants.hpp:26-44`), one Boolean per `thermalqs` bit. -/
structure Flags where
  rho : Bool
  temp : Bool
  sie : Bool
  press : Bool
  cv : Bool
  bmod : Bool

/-- `ValuesAtReferenceState`: density, temperature, energy, pressure, heat capacity, bulk modulus,
`dp/de`, `dv/dT`. (e.g. eos_carnahan_starling.hpp:243-254; eos_base.hpp) -/
structure RefState (K : Type*) where
  rho : K
  temp : K
  sie : K
  press : K
  cv : K
  bmod : K
  dpde : K
  dvdt : K

/-- `PTDerivativesFromPreferred`: `de/dP|T`, `drho/dP|T`, `de/dT|P`, `drho/dT|P`. (eos_base.hpp:412-440) -/
structure PTDer (K : Type*) where
  dedP_T : K
  drdP_T : K
  dedT_P : K
  drdT_P : K

/-- `PreferredInput()`: `density|temperature`, `density|specific_internal_energy`, anything else.
(constants.hpp:22-35, e.g. eos_ideal.hpp `PreferredInput`) -/
inductive Pref where
  | DT
  | DE
  | other
deriving DecidableEq

/-- The scalar interface of an EOS. `Real &` parameters used as initial guesses are extra arguments.
(eos_base.hpp; eos_variant.hpp) -/
structure Eos (K Λ : Type*) where
  /-- the two-input queries -/
  q : Q → Λ → K → K → K
  /-- `MinInternalEnergyFromDensity(rho, lambda)` -/
  minE : Λ → K → K
  /-- `InternalEnergyFromDensityPressure(rho, P, sie, lambda)`; the last argument is the incoming `sie` -/
  eRP : Λ → K → K → K → K
  /-- `DensityEnergyFromPressureTemperature(P, T, lambda, rho, sie)` with the incoming `(rho, sie)` -/
  rePT : Λ → K → K → K × K → K × K
  /-- `PTDerivativesFromPreferred(rho, sie, P, T, lambda, ...)` -/
  ptd : Λ → K → K → K → K → PTDer K
  /-- `FillEos(rho, temp, energy, press, cv, bmod, output, lambda)` -/
  fill : Λ → Flags → Thermo K → Thermo K
  /-- `ValuesAtReferenceState` -/
  ref : Λ → RefState K
  /-- `MinimumDensity`, `MaximumDensity`, `MinimumTemperature`, `MinimumPressure` -/
  rhoMin : K
  rhoMax : K
  tMin : K
  pMin : K
  /-- `MaximumPressureAtTemperature(T)`, `RhoPmin(T)` -/
  pMaxT : K → K
  rhoPmin : K → K
  /-- `MeanAtomicMassFromDensityTemperature`, `MeanAtomicNumberFromDensityTemperature` -/
  abar : Λ → K → K → K
  zbar : Λ → K → K → K
  /-- `PreferredInput()` -/
  pref : Pref

section vec
variable {K Λ : Type*}

/-- `eos_base.hpp:238-261` `class Factor` (`value_`, `is_set_`). -/
structure Factor (K : Type*) where
  value : K
  isSet : Bool

/-- `eos_base.hpp:239-240` a default-constructed factor. -/
def Factor.default [One K] : Factor K := ⟨1, false⟩

/-- `eos_base.hpp:252-255` `Factor::apply`. -/
def Factor.apply [Mul K] (f : Factor K) (v : K) : Factor K := ⟨f.value * v, true⟩

/-- `eos_base.hpp:263-265` `struct Transform`. -/
structure Transform (K : Type*) where
  x : Factor K
  y : Factor K
  f : Factor K

/-- `eos_base.hpp:263-265` a default-constructed transform: no scaling. -/
def Transform.none [One K] : Transform K := ⟨.default, .default, .default⟩

/-- An EOS together with its array entry points taking `Real *` arrays *and a scratch pointer*
(overload 3 of `SG_EOS_VEC_2IN_1OUT`, `eos_base.hpp:196-204`).  Arguments: query, transform, `num`,
the two input arrays, the per-element lambdas, and the previous content of the output array.
The scratch area is modelled in `Verif.Model.Scratch`. -/
structure VEos (K Λ : Type*) where
  s : Eos K Λ
  v2 : Q → Transform K → Nat → (Nat → K) → (Nat → K) → (Nat → Λ) → (Nat → K) → (Nat → K)
  v1 : Transform K → Nat → (Nat → K) → (Nat → Λ) → (Nat → K) → (Nat → K)

/-- `eos_base.hpp:171-183` overload 1: the loop over the scalar call, used for every call without a
scratch pointer and (`:184-195`, `:206-235`) for every non-raw-pointer call. -/
def loop2 (e : Eos K Λ) (q : Q) (n : Nat) (in1 in2 : Nat → K) (ls : Nat → Λ) (out : Nat → K) :
    Nat → K :=
  Verif.fill n (fun i => e.q q (ls i) (in1 i) (in2 i)) out

/-- `eos_base.hpp:427-442` the same for `MinInternalEnergyFromDensity`. -/
def loop1 (e : Eos K Λ) (n : Nat) (in1 : Nat → K) (ls : Nat → Λ) (out : Nat → K) : Nat → K :=
  Verif.fill n (fun i => e.minE (ls i) (in1 i)) out

/-- An EOS that inherits its array calls from the base class: overload 3 (`eos_base.hpp:196-204`,
`:457-466`) drops both the scratch pointer and the `Transform` argument and runs overload 1.
Every EOS in the library except EOSPAC and the modifiers is of this kind. -/
def VEos.ofBase (e : Eos K Λ) : VEos K Λ where
  s := e
  v2 := fun q _ n a b ls out => loop2 e q n a b ls out
  v1 := fun _ n a ls out => loop1 e n a ls out

end vec

end Verif.Mods
