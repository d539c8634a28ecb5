import Verif.Model.TypeLists
import Mathlib.Data.List.Sublists

/-!
# Model of the modifier interface of `eos_variant.hpp`, `eos_base.hpp` and `eos_builder.hpp`

An object is a base EOS (an element of an arbitrary type `B`) inside any number of modifiers, each with its
constructor arguments (an element of `A`). `ty` gives the C++ type of a base EOS.
-/

namespace Verif.Var

/-- All modifier templates (`eos/modifiers/*.hpp`); the two components of `ZSplit` are two templates. -/
inductive Mod where
  | shifted
  | scaled
  | ramp
  | unitSystem
  | relativistic
  | floored
  | zElectrons
  | zIons
deriving DecidableEq, Repr

/-- C++ types of EOS. (eos_type_lists.hpp:49-97) -/
inductive Ty (β : Type*) where
  | base (b : β)
  | app (m : Mod) (t : Ty β)
deriving DecidableEq

/-- EOS objects: the modifiers hold the EOS they modify by value, member `t_`
(for example ramps_eos.hpp:538-549). -/
inductive Obj (B A : Type*) where
  | base (b : B)
  | mod (m : Mod) (a : A) (o : Obj B A)

variable {β B A : Type*}

/-- The C++ type of an object. (not code: what the compiler knows) -/
def Obj.type (ty : B → β) : Obj B A → Ty β
  | .base b => .base (ty b)
  | .mod m _ o => .app m (o.type ty)

/-- `eos_base.hpp:351-354` `ModifiedInList<Mod, Ts...>`: `Mod<CRTP>` is one of `Ts`. -/
def modifiedInList [DecidableEq β] (L : List (Ty β)) (ty : B → β) (m : Mod) (o : Obj B A) : Bool :=
  decide (Ty.app m (o.type ty) ∈ L)

/-- `eos_base.hpp:355-361` `Modify<Mod>(args...)` of an EOS that is not a variant: a copy moved into the modifier, whose
constructor may stop the program (`ok` false), for example ramps_eos.hpp:86-92. -/
def modifyObj (ok : Mod → A → Obj B A → Bool) (m : Mod) (a : A) (o : Obj B A) : Option (Obj B A) :=
  if ok m a o then some (.mod m a o) else none

/-- `eos_base.hpp:362-380` `ConditionallyModify<Mod>(type_list, args...)`: modified if the list has the result, a copy
otherwise. -/
def conditionallyModify [DecidableEq β] (L : List (Ty β)) (ty : B → β) (ok : Mod → A → Obj B A → Bool) (m : Mod) (a : A)
    (o : Obj B A) : Option (Obj B A) :=
  if modifiedInList L ty m o then modifyObj ok m a o else some o

/-- `eos_variant.hpp:206-223` `Variant<Ts...>::Modify<Mod>(args...)`; `none` is an abort. -/
def modify [DecidableEq β] (L : List (Ty β)) (ty : B → β) (ok : Mod → A → Obj B A → Bool) (m : Mod) (a : A)
    (v : Obj B A) : Option (Obj B A) :=
  if modifiedInList L ty m v then conditionallyModify L ty ok m a v else none

/-- `eos_base.hpp:811`, `:113`: `IsModified`. -/
def isModified : Obj B A → Bool
  | .base _ => false
  | .mod .. => true

/-- `eos_base.hpp:813`, `:114`: `UnmodifyOnce`. -/
def unmodifyOnce : Obj B A → Obj B A
  | .base b => .base b
  | .mod _ _ o => o

/-- `eos_base.hpp:815-823` `GetUnmodifiedObject`: `UnmodifyOnce` and again, while `IsModified`. -/
def getUnmodified : Obj B A → Obj B A
  | .base b => .base b
  | .mod _ _ o => getUnmodified o

/-- A program applying modifiers one after the other to a variant, `x = x.Modify<M>(args)`, or
`EOSBuilder::Modify<M>(x, args)` (`eos_builder.hpp:48-51`). -/
def modifyAll [DecidableEq β] (L : List (Ty β)) (ty : B → β) (ok : Mod → A → Obj B A → Bool) :
    List (Mod × A) → Obj B A → Option (Obj B A)
  | [], v => some v
  | (m, a) :: ms, v => (modify L ty ok m a v).bind (modifyAll L ty ok ms)

/-- `eos_builder.hpp:32-46` `is_modifiable<Mod, U>(variant)`. -/
def isModifiable [DecidableEq β] (L : List (Ty β)) (m : Mod) (u : Ty β) : Bool :=
  decide (u ∈ L) && decide (Ty.app m u ∈ L)

/-- The type lists of `Verif.Types` (three modifiers) as lists of these types. (eos_type_lists.hpp:76-97) -/
def ofTy : Types.Ty β → Ty β
  | .base b => .base b
  | .app .shifted t => .app .shifted (ofTy t)
  | .app .scaled t => .app .scaled (ofTy t)
  | .app .ramp t => .app .ramp (ofTy t)

/-- The alternatives of the default variant `EOS`. (default_variant.hpp:42) -/
def defaultList (full : List β) : List (Ty β) := (Types.combined full).map ofTy

/-! ## Names -/

/-- What `EosType` puts before the name of the modified EOS: shifted_eos.hpp:47, scaled_eos.hpp:47, ramps_eos.hpp:108,
eos_unitsystem.hpp:55, relativistic_eos.hpp:44, floored_energy.hpp:42, zsplit_eos.hpp:45-46. -/
def Mod.open : Mod → List Char
  | .shifted => "ShiftedEOS<".toList
  | .scaled => "ScaledEOS<".toList
  | .ramp => "BilinearRampEOS<".toList
  | .unitSystem => "UnitSystem<".toList
  | .relativistic => "RelativisticEOS<".toList
  | .floored => "FlooredEnergy<".toList
  | .zElectrons => "ZSplit<Electrons, ".toList
  | .zIons => "ZSplit<Ions, ".toList

/-- `EosType()` of a type, given the names of the base types. (shifted_eos.hpp:46-48 and alike) -/
def eosType (name : β → List Char) : Ty β → List Char
  | .base b => name b
  | .app m t => m.open ++ eosType name t ++ [ '>' ]

/-- What `EosPyType` puts before: shifted_eos.hpp:50, scaled_eos.hpp:50, ramps_eos.hpp:111, eos_unitsystem.hpp:58,
relativistic_eos.hpp:47, floored_energy.hpp:45, zsplit_eos.hpp:49-50. -/
def Mod.py : Mod → List Char
  | .shifted => "Shifted".toList
  | .scaled => "Scaled".toList
  | .ramp => "BilinearRamp".toList
  | .unitSystem => "UnitSystem".toList
  | .relativistic => "Relativistic".toList
  | .floored => "FlooredEnergy".toList
  | .zElectrons => "ZSplitElectrons".toList
  | .zIons => "ZSplitIons".toList

/-- `EosPyType()`: the name of the Python class. (shifted_eos.hpp:50 and alike) -/
def eosPyType (name : β → List Char) : Ty β → List Char
  | .base b => name b
  | .app m t => m.py ++ eosPyType name t

/-- The base EOS of the library and their names: `EosType` in eos_ideal.hpp:217, eos_gruneisen.hpp:184, eos_vinet.hpp:160,
eos_mgusup.hpp:165, eos_powermg.hpp:174, eos_jwl.hpp:134, eos_davis.hpp:192, :341, eos_sap_polynomial.hpp:207,
eos_noble_abel.hpp:200, eos_carnahan_starling.hpp:276, eos_stiff.hpp:187, eos_helmholtz.hpp:718,
eos_stellar_collapse.hpp:249, eos_spiner_rho_temp.hpp:262, eos_spiner_rho_sie.hpp:299-301, eos_eospac.hpp:1206,
eos_electrons.hpp:206. -/
def baseNames : List (List Char) :=
  ["IdealGas".toList, "Gruneisen".toList, "Vinet".toList, "MGUsup".toList, "PowerMG".toList, "JWL".toList,
   "DavisReactants".toList, "DavisProducts".toList, "SAP_Polynomial".toList, "NobleAbel".toList,
   "CarnahanStarling".toList, "StiffGas".toList, "Helmholtz".toList, "StellarCollapse".toList,
   "SpinerEOSDependsRhoT".toList, "SpinerEOSDependsRhoSieTransformable".toList, "EOSPAC".toList,
   "IdealElectrons".toList]

/-- The unmodified EOS registered as Python classes. (python/module.cpp:28-125) -/
def pythonClasses : List (List Char) :=
  ["IdealGas".toList, "StiffGas".toList, "Gruneisen".toList, "JWL".toList, "DavisReactants".toList,
   "DavisProducts".toList, "SpinerEOSDependsRhoT".toList, "SpinerEOSDependsRhoSie".toList, "StellarCollapse".toList,
   "Helmholtz".toList, "EOSPAC".toList]

/-- The part of `full_eos_list` that does not depend on build options. (eos_type_lists.hpp:51-52) -/
def alwaysPresent : List (List Char) :=
  ["IdealGas".toList, "Gruneisen".toList, "Vinet".toList, "MGUsup".toList, "PowerMG".toList, "JWL".toList,
   "DavisReactants".toList, "DavisProducts".toList]

/-- `eos_variant.hpp:857-860` `AvailableEOSs`: the set of names (here the list, a set drops repetitions). -/
def availableEOSs (name : β → List Char) (L : List (Ty β)) : List (List Char) := L.map (eosType name)

end Verif.Var
