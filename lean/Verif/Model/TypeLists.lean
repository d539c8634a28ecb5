import Verif.Model.CInterface

/-!
# Model of `base/variadic_utils.hpp`, `eos/eos_type_lists.hpp` and `base/indexable_types.hpp`

C++ types are values: an EOS type is a base EOS type (an element of an arbitrary type `β`) or a
modifier applied to an EOS type.  `if constexpr` is `if`.
-/

namespace Verif.Types

/-- The modifier templates used in the type lists (`eos_type_lists.hpp:76-97`). -/
inductive Mod where
  | shifted
  | scaled
  | ramp
deriving DecidableEq, Repr

/-- EOS types. (eos_type_lists.hpp:25-72) -/
inductive Ty (β : Type*) where
  | base (b : β)
  | app (m : Mod) (t : Ty β)
deriving DecidableEq

/-- An entry of a C++ `type_list`: an EOS type or again a `type_list`. (variadic_utils.hpp) -/
inductive Entry (β : Type*) where
  | ty (t : Ty β)
  | list (l : List (Entry β))

variable {β : Type*}

mutual
/-- Number of nodes, for termination of `flattenHelper`. (not code: termination measure) -/
def Entry.size : Entry β → Nat
  | .ty _ => 1
  | .list l => 1 + sizes l
/-- Number of nodes of a list of entries. (not code: termination measure) -/
def sizes : List (Entry β) → Nat
  | [] => 0
  | e :: es => e.size + sizes es
end

theorem sizes_append (a b : List (Entry β)) : sizes (a ++ b) = sizes a + sizes b := by
  induction a with
  | nil => simp [sizes]
  | cons x xs ih => simp [sizes, ih, Nat.add_assoc]

/-- `variadic_utils.hpp:138-164` `flatten_helper<Accumulator, Input>`. -/
def flattenHelper (acc : List (Ty β)) : List (Entry β) → List (Ty β)
  | [] => acc
  | .list hs :: tail => flattenHelper acc (hs ++ tail)
  | .ty h :: tail => flattenHelper (acc ++ [h]) tail
termination_by l => sizes l
decreasing_by
  · rw [sizes_append]; simp [sizes, Entry.size]
  · simp [sizes, Entry.size]

/-- `variadic_utils.hpp:166-174` `flatten`. -/
def flatten (l : List (Entry β)) : List (Ty β) := flattenHelper [] l

/-- `variadic_utils.hpp:178-183` `is_not_duplicate_nested<Template, T>`: false exactly for
`Template<Template<U>>`. -/
def notDuplicateNested (m : Mod) : Ty β → Bool
  | .app m1 (.app m2 _) => !(m1 == m && m2 == m)
  | _ => true

/-- `variadic_utils.hpp:186-209` `filter`. -/
def filterTys (pred : Ty β → Bool) : List (Ty β) → List (Ty β)
  | [] => []
  | t :: ts => if pred t then t :: filterTys pred ts else filterTys pred ts

/-- `variadic_utils.hpp:211-224` `filter_nested_variadic`. -/
def filterNested : List Mod → List (Ty β) → List (Ty β)
  | [], l => l
  | m :: ms, l => filterNested ms (flatten [.list ((filterTys (notDuplicateNested m) l).map .ty)])

/-- `variadic_utils.hpp:226-239` `transform_variadic_list`. -/
def transformList (l : List (Ty β)) (mods : List Mod) : List (Ty β) :=
  filterNested mods (flatten (mods.map fun m => .list (l.map fun t => .ty (.app m t))))

section lists
variable (full : List β)

/-- `eos_type_lists.hpp:49-75` `full_eos_list`: an arbitrary list of base EOS types (its content
depends on the build options). -/
def fullList : List (Ty β) := full.map .base

/-- `eos_type_lists.hpp:79-80`. -/
def shiftedList : List (Ty β) := transformList (fullList full) [.shifted]

/-- `eos_type_lists.hpp:81-82`. -/
def scaled1 : List (Ty β) := transformList (fullList full) [.scaled]

/-- `eos_type_lists.hpp:84-85`. -/
def scaledOfShifted : List (Ty β) := transformList (shiftedList full) [.scaled]

/-- `eos_type_lists.hpp:87-88` `concat(scaled_1, scaled_of_shifted)`. -/
def scaledList : List (Ty β) := scaled1 full ++ scaledOfShifted full

/-- `eos_type_lists.hpp:90-91`, `variadic_utils.hpp:241-250`. -/
def combined1 : List (Ty β) := fullList full ++ (shiftedList full ++ scaledList full)

/-- `eos_type_lists.hpp:93-94`. -/
def rampedAll : List (Ty β) := transformList (combined1 full) [.ramp]

/-- `eos_type_lists.hpp:96-97` the list the variant `EOS` is made of. -/
def combined : List (Ty β) := combined1 full ++ rampedAll full

end lists

/-- The C++ type of an EOS built by the host interface (`CApi.Desc`) from base type `b`.
(eos_type_lists.hpp:73-95) -/
def typeOf {K : Type*} (b : β) : CApi.Desc K → Ty β
  | .base => .base b
  | .shifted e _ => .app .shifted (typeOf b e)
  | .scaled e _ => .app .scaled (typeOf b e)
  | .ramp e _ _ _ _ => .app .ramp (typeOf b e)

/-! ## Type-based indexing -/

/-- `variadic_utils.hpp:97-110` `GetIndexInTL`: recursion with a running index; `none` is the
`static_assert` failure. -/
def getIndexFrom [DecidableEq β] (t : β) : Nat → List β → Option Nat
  | _, [] => none
  | i, h :: ts => if t = h then some i else getIndexFrom t (i + 1) ts

/-- `variadic_utils.hpp:107-110` the entry point with index 0. -/
def getIndex [DecidableEq β] (t : β) (l : List β) : Option Nat := getIndexFrom t 0 l

/-- What can be passed as `lambda`: a null pointer, a raw `Real *` (indexable by integers only), a
type-indexed container `VariadicIndexer<Ts...>` (`indexable_types.hpp:290-337`), or some other
container indexable by integers, or not at all. -/
inductive Lam (β K : Type*) where
  | null
  | raw (d : Nat → K)
  | typed (ts : List β) (d : Nat → K)
  | other

variable {K : Type*} [DecidableEq β]

/-- `indexable_types.hpp:60-88` `impl::SafeGet<AI, T>`; `numeric` is `AI == Numeric`. Returns the
Boolean and the final content of `out`. -/
def safeGet (numeric : Bool) (lam : Lam β K) (t : β) (idx : Nat) (out : K) : Bool × K :=
  match lam with
  | .null => (false, out)
  | .typed ts d =>
    match getIndex t ts with
    | some i => (true, d i)
    | none => (false, out)
  | .raw d => if numeric then (true, d idx) else (false, out)
  | .other => (false, out)

/-- `indexable_types.hpp:99-127` `impl::SafeSet<AI, T>`: the Boolean and the container afterwards. -/
def safeSet (numeric : Bool) (lam : Lam β K) (t : β) (idx : Nat) (v : K) : Bool × Lam β K :=
  match lam with
  | .null => (false, .null)
  | .typed ts d =>
    match getIndex t ts with
    | some i => (true, .typed ts (Function.update d i v))
    | none => (false, .typed ts d)
  | .raw d => if numeric then (true, .raw (Function.update d idx v)) else (false, .raw d)
  | .other => (false, .other)

/-- `indexable_types.hpp:146-176` `impl::SafeMustGetSet` read access; `none` is an abort or a failed
`static_assert`. -/
def mustGet (numeric : Bool) (lam : Lam β K) (t : β) (idx : Nat) : Option K :=
  match lam with
  | .null => none
  | .typed ts d => (getIndex t ts).map d
  | .raw d => if numeric then some (d idx) else none
  | .other => none

/-- `indexable_types.hpp:146-176` `impl::SafeMustGetSet` write access. -/
def mustSet (numeric : Bool) (lam : Lam β K) (t : β) (idx : Nat) (v : K) : Option (Lam β K) :=
  match lam with
  | .null => none
  | .typed ts d => (getIndex t ts).map fun i => .typed ts (Function.update d i v)
  | .raw d => if numeric then some (.raw (Function.update d idx v)) else none
  | .other => none

/-- `indexable_types.hpp:309-325` `VariadicIndexerBase::operator[](const T &t)` for an index *object*
`(t, n)` (such as `MassFractions(n)`, `:351-355`): the object's number `n` is not used. -/
def slotOfObject (ts : List β) (t : β × Nat) : Option Nat := getIndex t.1 ts

end Verif.Types
