import Mathlib.Data.List.Basic
import Mathlib.Logic.Encodable.Basic

/-!
# Serialisation, shared memory and the bulk serialiser

Memory is a total map from addresses to bytes; address `0` is `nullptr`.  The byte type `β` is left
abstract.  `memcpy(&obj, …, sizeof(obj))` in either direction is modelled by a `Layout`: a fixed-size
byte representation from which the object can be read back (C++: the class is trivially copyable).
`PORTABLE_ALWAYS_REQUIRE(false)` is `none`.

A value of `Obj S` stands for one EOS object (or one `Variant`, whose tag is `kind`; or a stack of
modifiers around an EOS, whose own parameters are part of `scal`: the modifier methods of
`singularity-eos/eos/eos_base.hpp:112-126` only forward).  `EOSPAC`, whose tables an external
library holds, is in `Verif/Model/EospacSerialize.lean`.
-/

set_option linter.unusedSectionVars false

namespace Verif
namespace Ser

/-- Bytes in memory. (char buffers of eos_base.hpp, serialization_utils.hpp:62-110) -/
abbrev Mem (β : Type) := Nat → β

variable {β S : Type}

/-- `memcpy(dst, src, n)` between two regions of memory. (C library; called at serialization_utils.hpp:64, 82) -/
def memcpy (m : Mem β) (dst src n : Nat) : Mem β := fun a =>
  if dst ≤ a ∧ a < dst + n then m (src + (a - dst)) else m a

/-- Copy a byte string to memory (the `memcpy` of an object's own bytes). (the same) -/
def store (m : Mem β) (dst : Nat) (l : List β) : Mem β := fun a =>
  if dst ≤ a then (l[a - dst]?).getD (m a) else m a

/-- The `n` bytes at `p`. (the same) -/
def load (m : Mem β) (p n : Nat) : List β := (List.range n).map fun i => m (p + i)

/-- A trivially copyable type: `sizeof`, and the bytes of an object, from which it can be rebuilt.
(`sizeof` and `memcpy` of objects, eos_base.hpp) -/
structure Layout (O β : Type) where
  size : Nat
  enc : O → List β
  dec : List β → O
  enc_len : ∀ o, (enc o).length = size
  dec_enc : ∀ o, dec (enc o) = o

/-- A block of dynamic memory: a DataBox's `data()` and `sizeBytes()`, or
`phase_names`/`len_phase_names`. (eos_spiner_rho_temp.hpp:341-342) -/
structure Region where
  ptr : Nat
  size : Nat
deriving DecidableEq

/-- `base/constants.hpp` `DataStatus`, `singularity-eos/base/constants.hpp:38`. -/
inductive DataStatus
  | Deallocated | OnDevice | OnHost | UnManaged
deriving DecidableEq

/-- Which implementation of the dynamic-memory methods an EOS has:
* `plain`: the defaults of `eos_base.hpp:742-747` (no dynamic memory);
* `table`: `eos_spiner_rho_temp.hpp:512-543`, `eos_spiner_rho_sie.hpp:617-652`,
  `eos_stellar_collapse.hpp:527-539`;
* `helm`: `eos_helmholtz.hpp:498-505`. -/
inductive Kind
  | plain | table | helm
deriving DecidableEq

/-- An EOS object: scalar members, the DataBoxes in the order of `GetDataBoxPointers_`, the phase
names and the memory statuses.
(eos_spiner_rho_temp.hpp:341, eos_spiner_rho_sie.hpp:344, eos_stellar_collapse.hpp:415, eos_helmholtz.hpp:297) -/
structure Obj (S : Type) where
  kind : Kind
  scal : S
  boxes : List Region
  names : Region
  status : DataStatus
  namesStatus : DataStatus
  /-- DataBox copies held by the energy transformer of `SpinerEOSDependsRhoSieTransformable`
  (`eos_spiner_rho_sie.hpp:293-296`: `sieCold`, `T`, `dTdE`); empty for every other EOS. They are not
  among the DataBoxes of `GetDataBoxPointers_` (`:337-347`) and are not set by `SetDynamicMemory`
  (`:637-652`). -/
  aliases : List Region := []

/-- `SharedMemSettings`, `singularity-eos/base/constants.hpp:44-51`. -/
structure Settings where
  data : Nat
  root : Bool

/-- `DEFAULT_SHMEM_STNGS`, `singularity-eos/base/constants.hpp:52`. -/
def dflt : Settings := ⟨0, false⟩

/-- `CopyNeeded`, `singularity-eos/base/constants.hpp:48`. -/
def Settings.copyNeeded (t : Settings) : Bool := t.data ≠ 0 && t.root

/-- `SpinerTricks::DynamicMemorySizeInBytes`, `base/spiner_table_utils.hpp:322-328`. -/
def boxBytes : List Region → Nat
  | [] => 0
  | r :: rs => r.size + boxBytes rs

/-- `DynamicMemorySizeInBytes`: `eos_base.hpp:742`, `eos_spiner_rho_temp.hpp:512-514`,
`eos_spiner_rho_sie.hpp:617-621`, `eos_stellar_collapse.hpp:527-529`, `eos_helmholtz.hpp:498-500`. -/
def dynSize (o : Obj S) : Nat :=
  match o.kind with
  | .plain => 0
  | _ => boxBytes o.boxes + o.names.size

/-- `SharedMemorySizeInBytes`, `eos_base.hpp:749-752` (the default, used by every modelled kind). -/
def sharedSize (o : Obj S) : Nat := dynSize o

/-- The loop of `SpinerTricks::DumpDynamicMemory`, `base/spiner_table_utils.hpp:329-337`. -/
def dumpBoxes (m : Mem β) (dst off : Nat) : List Region → Mem β × Nat
  | [] => (m, off)
  | r :: rs => dumpBoxes (memcpy m (dst + off) r.ptr r.size) dst (off + r.size) rs

/-- `DumpDynamicMemory`: `eos_base.hpp:743`, `eos_spiner_rho_temp.hpp:516-526`,
`eos_spiner_rho_sie.hpp:623-635`, `eos_stellar_collapse.hpp:531-533`, `eos_helmholtz.hpp:501`. -/
def dumpDynamic (m : Mem β) (o : Obj S) (dst : Nat) : Option (Mem β × Nat) :=
  match o.kind with
  | .plain => some (m, 0)
  | _ =>
    let d := dumpBoxes m dst 0 o.boxes
    if 0 < o.names.size then
      if o.names.ptr ≠ 0 then
        some (memcpy d.1 (dst + d.2) o.names.ptr o.names.size, d.2 + o.names.size)
      else none
    else some d

/-- The loop of `SpinerTricks::SetDynamicMemory`, `base/spiner_table_utils.hpp:338-344`: every DataBox
is pointed at the next bytes. -/
def setBoxes (base off : Nat) : List Region → List Region × Nat
  | [] => ([], off)
  | r :: rs =>
    let t := setBoxes base (off + r.size) rs
    (⟨base + off, r.size⟩ :: t.1, t.2)

/-- `SetDynamicMemory`: `eos_base.hpp:744-747`, `eos_spiner_rho_temp.hpp:528-543`,
`eos_spiner_rho_sie.hpp:637-652`, `eos_stellar_collapse.hpp:535-539`; for `helm`
`eos_helmholtz.hpp:502-505`, which does not pass the settings on (inner call `:236-240`). -/
def setDynamic (o : Obj S) (src : Nat) (t : Settings) : Obj S × Nat :=
  match o.kind with
  | .plain => (o, 0)
  | k =>
    let base := if k = .helm then src else if t.data = 0 then src else t.data
    let b := setBoxes base 0 o.boxes
    if 0 < o.names.size then
      ({ o with boxes := b.1, status := .UnManaged, names := ⟨base + b.2, o.names.size⟩,
                namesStatus := .UnManaged }, b.2 + o.names.size)
    else
      ({ o with boxes := b.1, status := .UnManaged, names := ⟨0, 0⟩,
                namesStatus := .Deallocated }, b.2)

/-- `SerializedSizeInBytes`, `eos_base.hpp:757-762`, `eos_variant.hpp:755-757`. -/
def serializedSize (L : Layout (Obj S) β) (o : Obj S) : Nat := L.size + dynSize o

/-- `Serialize(char *dst)`, `eos_base.hpp:763-774`, `eos_variant.hpp:758-767`. -/
def serialize (L : Layout (Obj S) β) (m : Mem β) (o : Obj S) (dst : Nat) : Option (Mem β × Nat) :=
  let m1 := store m dst (L.enc o)
  let r := if 0 < dynSize o then
      (dumpDynamic m1 o (dst + L.size)).map fun d => (d.1, L.size + d.2)
    else some (m1, L.size)
  r.bind fun d => if d.2 = serializedSize L o then some d else none

/-- `DeSerialize(char *src, stngs)`, `eos_base.hpp:783-798`, `eos_variant.hpp:775-788`.  Returns the
memory, the object and the number of bytes consumed.  The final size check is the base class's; the
variant's version has none.  `AllDynamicMemoryIsShareable` is `true` for every modelled kind. -/
def deserialize (L : Layout (Obj S) β) (m : Mem β) (src : Nat) (t : Settings) :
    Option (Mem β × Obj S × Nat) :=
  let o := L.dec (load m src L.size)
  let r : Mem β × Obj S × Nat :=
    if 0 < dynSize o then
      let m1 := if t.copyNeeded then memcpy m t.data (src + L.size) (dynSize o) else m
      let d := setDynamic o (src + L.size) t
      (m1, d.1, L.size + d.2)
    else (m, o, L.size)
  if r.2.2 = serializedSize L r.2.1 then some r else none

/-- `BulkSerializer::SerializedSizeInBytes`, `base/serialization_utils.hpp:50-54`; `W` is
`sizeof(std::size_t)` with its layout. -/
def bulkSize (W : Layout Nat β) (L : Layout (Obj S) β) (os : List (Obj S)) : Nat :=
  W.size + (os.map (serializedSize L)).sum

/-- `BulkSerializer::SharedMemorySizeInBytes`, `base/serialization_utils.hpp:55-59`. -/
def bulkShared (os : List (Obj S)) : Nat := (os.map sharedSize).sum

/-- The loop of `BulkSerializer::Serialize`, `base/serialization_utils.hpp:64-66`. -/
def serializeAll (L : Layout (Obj S) β) (dst off : Nat) :
    List (Obj S) → Mem β → Option (Mem β × Nat)
  | [], m => some (m, off)
  | o :: os, m => (serialize L m o (dst + off)).bind fun d =>
      serializeAll L dst (off + d.2) os d.1

/-- `BulkSerializer::Serialize(char *)`, `base/serialization_utils.hpp:60-69`. -/
def bulkSerialize (W : Layout Nat β) (L : Layout (Obj S) β) (m : Mem β) (os : List (Obj S))
    (dst : Nat) : Option (Mem β × Nat) :=
  (serializeAll L dst W.size os (store m dst (W.enc os.length))).bind fun d =>
    if d.2 = bulkSize W L os then some d else none

/-- The loop of `BulkSerializer::DeSerialize`, `base/serialization_utils.hpp:86-92`, for `k` objects:
`stngs_loc.data` is advanced by every object's shared bytes, also when it was null. -/
def deserializeAll (L : Layout (Obj S) β) (src : Nat) :
    (k : Nat) → (off sh : Nat) → Settings → Mem β → Option (Mem β × List (Obj S) × Nat × Nat)
  | 0, off, sh, _, m => some (m, [], off, sh)
  | k + 1, off, sh, t, m => (deserialize L m (src + off) t).bind fun d =>
      (deserializeAll L src k (off + d.2.2) (sh + sharedSize d.2.1)
        { t with data := t.data + sharedSize d.2.1 } d.1).map fun e =>
          (e.1, d.2.1 :: e.2.1, e.2.2.1, e.2.2.2)

/-- `BulkSerializer::DeSerialize`, `base/serialization_utils.hpp:77-98`. -/
def bulkDeserialize (W : Layout Nat β) (L : Layout (Obj S) β) (m : Mem β) (src : Nat)
    (t : Settings) : Option (Mem β × List (Obj S) × Nat) :=
  let k := W.dec (load m src W.size)
  (deserializeAll L src k W.size 0 t m).bind fun e =>
    if e.2.2.1 = bulkSize W L e.2.1 ∧ e.2.2.2 = bulkShared e.2.1 then
      some (e.1, e.2.1, e.2.2.1) else none

end Ser
end Verif
