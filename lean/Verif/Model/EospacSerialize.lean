import Verif.Model.Serialize

/-!
# Serialisation and release of `EOSPAC` objects (`eos_eospac.hpp:243-251, 1202-1205, 1306-1349, 1388-1423`)

The tables are inside the EOSPAC library.  The library is a state `L` and the functions the code calls, `Lib`; nothing is
assumed about them here (the theorems assume the library's documented contract, `Verif/Spec/EospacSerialize.lean`).
Error codes of the packing functions are only printed by the code (`Verbosity::Debug`) and are left out.
-/

set_option linter.unusedSectionVars false

namespace Verif.Espz

open Ser

variable {β L A S : Type}

/-- The array `EOS_INTEGER tablehandle[NT]`, `eos_eospac.hpp:1223,1228`. -/
abbrev Handles := Fin 8 → Nat

/-- The library functions used. `table l m k` is the table behind handle `k`, if one is loaded; tables of a shared build live
in the shared block and so may depend on memory. (eos_eospac.hpp:1343-1346,1393,1407-1410) -/
structure Lib (β L A : Type) where
  table : L → Mem β → Nat → Option A
  packedSize : L → Mem β → Handles → Nat
  sharedBytes : L → Mem β → Handles → Nat
  getPacked : L → Mem β → Handles → List β
  setPacked : L → List β → L × Handles
  setShared : L → Mem β → List β → Nat → Bool → L × Mem β × Handles

/-- An `EOSPAC` object: scalar members, handles, sizes. `eos_eospac.hpp:1219-1262`. -/
structure Obj (S : Type) where
  scal : S
  tablehandle : Handles
  PofRT : Nat
  TofRE : Nat
  EofRT : Nat
  RofPT : Nat
  TofRP : Nat
  PofRE : Nat
  EcofD : Nat
  SofRT : Nat
  shared : Nat
  packed : Nat

/-- `eos_eospac.hpp:1306-1313` and `:1413-1420`. -/
def setNamed (o : Obj S) (h : Handles) : Obj S :=
  { o with
    tablehandle := h
    PofRT := h 0
    TofRE := h 1
    EofRT := h 2
    RofPT := h 3
    TofRP := h 4
    PofRE := h 5
    EcofD := h 6
    SofRT := h 7 }

/-- The end of the constructor, `eos_eospac.hpp:1303-1349`, for loaded handles `h`; `sb` says whether
`SINGULARITY_EOSPAC_ENABLE_SHARED_MEMORY` is defined. -/
def construct (lib : Lib β L A) (sb : Bool) (l : L) (m : Mem β) (s : S) (h : Handles) : Obj S :=
  setNamed ⟨s, h, 0, 0, 0, 0, 0, 0, 0, 0, if sb then lib.sharedBytes l m h else 0, lib.packedSize l m h⟩ h

/-- `DynamicMemorySizeInBytes`, `eos_eospac.hpp:1388`. -/
def dynSize (o : Obj S) : Nat := o.packed

/-- `SharedMemorySizeInBytes`, `eos_eospac.hpp:1423`. -/
def sharedSize (o : Obj S) : Nat := o.shared

/-- `DumpDynamicMemory`, `eos_eospac.hpp:1389-1396`. -/
def dumpDynamic (lib : Lib β L A) (l : L) (m : Mem β) (o : Obj S) (dst : Nat) : Mem β × Nat :=
  (store m dst (lib.getPacked l m o.tablehandle), o.packed)

/-- `SetDynamicMemory`, `eos_eospac.hpp:1397-1422`. -/
def setDynamic (lib : Lib β L A) (sb : Bool) (l : L) (m : Mem β) (o : Obj S) (src : Nat) (t : Settings) :
    Option (L × Mem β × Obj S × Nat) :=
  if sb then
    if t.data = 0 then none
    else
      let r := lib.setShared l m (load m src o.packed) t.data t.root
      some (r.1, r.2.1, setNamed o r.2.2, o.packed)
  else
    let r := lib.setPacked l (load m src o.packed)
    some (r.1, m, setNamed o r.2, o.packed)

/-- `SerializedSizeInBytes`, `eos_base.hpp:756-761`. -/
def serializedSize (Y : Layout (Obj S) β) (o : Obj S) : Nat := dynSize o + Y.size

/-- `Serialize(char *dst)`, `eos_base.hpp:762-772`. -/
def serialize (lib : Lib β L A) (Y : Layout (Obj S) β) (l : L) (m : Mem β) (o : Obj S) (dst : Nat) :
    Option (Mem β × Nat) :=
  let m1 := store m dst (Y.enc o)
  let r := if 0 < dynSize o then
      let d := dumpDynamic lib l m1 o (dst + Y.size)
      (d.1, Y.size + d.2)
    else (m1, Y.size)
  if r.2 = serializedSize Y o then some r else none

/-- `DeSerialize(char *src, stngs)`, `eos_base.hpp:781-797`; `AllDynamicMemoryIsShareable` is false (`eos_eospac.hpp:250`), so
the caller's copy to the shared block (`:790-792`) is not made. -/
def deserialize (lib : Lib β L A) (sb : Bool) (Y : Layout (Obj S) β) (l : L) (m : Mem β) (src : Nat) (t : Settings) :
    Option (L × Mem β × Obj S × Nat) :=
  let o := Y.dec (load m src Y.size)
  let r := if 0 < dynSize o then
      (setDynamic lib sb l m o (src + Y.size) t).map fun d => (d.1, d.2.1, d.2.2.1, Y.size + d.2.2.2)
    else some (l, m, o, Y.size)
  r.bind fun d => if d.2.2.2 = serializedSize Y d.2.2.1 then some d else none

/-- `BulkSerializer::SerializedSizeInBytes`, `base/serialization_utils.hpp:49-53`. -/
def bulkSize (W : Layout Nat β) (Y : Layout (Obj S) β) (os : List (Obj S)) : Nat :=
  W.size + (os.map (serializedSize Y)).sum

/-- `BulkSerializer::SharedMemorySizeInBytes`, `base/serialization_utils.hpp:54-58`. -/
def bulkShared (os : List (Obj S)) : Nat := (os.map sharedSize).sum

/-- The loop of `BulkSerializer::Serialize`, `base/serialization_utils.hpp:63-65`. -/
def serializeAll (lib : Lib β L A) (Y : Layout (Obj S) β) (l : L) (dst off : Nat) :
    List (Obj S) → Mem β → Option (Mem β × Nat)
  | [], m => some (m, off)
  | o :: os, m => (serialize lib Y l m o (dst + off)).bind fun d => serializeAll lib Y l dst (off + d.2) os d.1

/-- `BulkSerializer::Serialize(char *)`, `base/serialization_utils.hpp:59-68`. -/
def bulkSerialize (lib : Lib β L A) (W : Layout Nat β) (Y : Layout (Obj S) β) (l : L) (m : Mem β) (os : List (Obj S))
    (dst : Nat) : Option (Mem β × Nat) :=
  (serializeAll lib Y l dst W.size os (store m dst (W.enc os.length))).bind fun d =>
    if d.2 = bulkSize W Y os then some d else none

/-- The loop of `BulkSerializer::DeSerialize`, `base/serialization_utils.hpp:85-91`, for `k` objects. -/
def deserializeAll (lib : Lib β L A) (sb : Bool) (Y : Layout (Obj S) β) (src : Nat) :
    (k : Nat) → (off sh : Nat) → Settings → L → Mem β → Option (L × Mem β × List (Obj S) × Nat × Nat)
  | 0, off, sh, _, l, m => some (l, m, [], off, sh)
  | k + 1, off, sh, t, l, m => (deserialize lib sb Y l m (src + off) t).bind fun d =>
      (deserializeAll lib sb Y src k (off + d.2.2.2) (sh + sharedSize d.2.2.1)
        { t with data := t.data + sharedSize d.2.2.1 } d.1 d.2.1).map fun e =>
          (e.1, e.2.1, d.2.2.1 :: e.2.2.1, e.2.2.2.1, e.2.2.2.2)

/-- `BulkSerializer::DeSerialize`, `base/serialization_utils.hpp:76-97`. -/
def bulkDeserialize (lib : Lib β L A) (sb : Bool) (W : Layout Nat β) (Y : Layout (Obj S) β) (l : L) (m : Mem β) (src : Nat)
    (t : Settings) : Option (L × Mem β × List (Obj S) × Nat) :=
  let k := W.dec (load m src W.size)
  (deserializeAll lib sb Y src k W.size 0 t l m).bind fun e =>
    if e.2.2.2.1 = bulkSize W Y e.2.2.1 ∧ e.2.2.2.2 = bulkShared e.2.2.1 then
      some (e.1, e.2.1, e.2.2.1, e.2.2.2.1) else none

/-! ## Release -/

/-- What a program can do with its `EOSPAC` objects: construct one, deserialise an image of one, take the device copy of one
(`GetOnDevice`, `eos_eospac.hpp:243`), finalise one. (not code: a host program) -/
inductive Op
  | make | deser | device (i : Nat) | fin (i : Nat)

/-- Handles the library has issued (numbers below `next`), handles passed to `eos_DestroyTables` in order, the objects'
handle arrays in order of creation. (not code) -/
structure Own where
  next : Nat
  destroyed : List Nat
  objs : List Handles

/-- Eight handles not issued before. (`eos_CreateTables`, `eos_SetPackedTables`: eospac_wrapper.cpp:150, eos_eospac.hpp:1410) -/
def newHandles (n : Nat) : Handles := fun i => n + i

/-- One operation; on an object that does not exist it does nothing.
`eos_eospac.hpp:243` (`GetOnDevice` returns `*this`), `:1202-1205` (`Finalize` destroys all `NT` handles). -/
def Own.step (s : Own) : Op → Own
  | .make | .deser => ⟨s.next + 8, s.destroyed, s.objs ++ [newHandles s.next]⟩
  | .device i => match s.objs[i]? with
    | some h => ⟨s.next, s.destroyed, s.objs ++ [h]⟩
    | none => s
  | .fin i => match s.objs[i]? with
    | some h => ⟨s.next, s.destroyed ++ List.ofFn h, s.objs⟩
    | none => s

/-- A program. (not code) -/
def Own.run (ops : List Op) : Own := ops.foldl Own.step ⟨0, [], []⟩

end Verif.Espz
