import Verif.Model.Serialize

/-!
# Who frees the tables

Table EOS own DataBoxes and a phase-name string.  A program creates EOS objects by loading them from
a file, by `GetOnDevice` and by `DeSerialize`, and calls `Finalize` on them.

The DataBox operations belong to the external library Spiner, which is not in this repository; the
model takes from its interface: `ownsAllocatedMemory()` holds for a box whose memory it allocated,
`finalize()` frees that memory and leaves the box empty, `getOnDevice()` returns a box with newly
allocated memory (an empty box for an empty box), `setPointer(p)` makes the box refer to `p` without
owning it, `slice` returns a non-owning box.
-/

namespace Verif
namespace Own

open Ser (DataStatus)

/-- A pointer: null, a block this library allocated, or memory of the caller (a serialisation buffer
or a shared block). (spiner_table_utils.hpp, eos_spiner_rho_temp.hpp:341-342) -/
inductive Ptr
  | null | heap (id : Nat) | ext (addr : Nat)
deriving DecidableEq

/-- Spiner's DataBox allocation status. (external: spiner databox.hpp; constants.hpp:38) -/
inductive BoxStatus
  | Empty | Unmanaged | Allocated
deriving DecidableEq

/-- A DataBox. (external: spiner databox.hpp) -/
structure Box where
  ptr : Ptr
  status : BoxStatus
deriving DecidableEq

/-- A table EOS: DataBoxes, `phase_names`, `phase_names_status`, `memoryStatus_`
(`eos_spiner_rho_temp.hpp:336-365`, `eos_spiner_rho_sie.hpp:337-370`). `len_phase_names > 0` is
`names ≠ null`. -/
structure Tab where
  boxes : List Box
  names : Ptr
  namesStatus : DataStatus
  mem : DataStatus
deriving DecidableEq

/-- The program state: next allocation, everything passed to a deallocation function so far, and the
EOS objects. (not code: the machine that runs the operations) -/
structure State where
  next : Nat
  freed : List Ptr
  objs : List Tab

/-- Allocation of the DataBoxes when a file is loaded (`eos_spiner_rho_temp.hpp:545-615`,
`eos_spiner_rho_sie.hpp:435-530`): `none` is a DataBox with its own memory, `some k` a slice of
block `k` (`eos_spiner_rho_sie.hpp:519-521`). -/
def allocBoxes (next : Nat) : List (Option Nat) → List Box × Nat
  | [] => ([], next)
  | none :: l =>
    let t := allocBoxes (next + 1) l
    (⟨.heap next, .Allocated⟩ :: t.1, t.2)
  | some k :: l =>
    let t := allocBoxes next l
    (⟨.heap k, .Unmanaged⟩ :: t.1, t.2)

/-- `GetOnDevice` loop over DataBoxes, `base/spiner_table_utils.hpp:300-306`. -/
def deviceBoxes (next : Nat) : List Box → List Box × Nat
  | [] => ([], next)
  | b :: l =>
    if b.status = .Empty then
      let t := deviceBoxes next l
      (⟨.null, .Empty⟩ :: t.1, t.2)
    else
      let t := deviceBoxes (next + 1) l
      (⟨.heap next, .Allocated⟩ :: t.1, t.2)

/-- `Finalize` loop over DataBoxes, `base/spiner_table_utils.hpp:312-319`: frees the boxes that own
memory. Returns the boxes and the pointers freed. -/
def finalizeBoxes : List Box → List Box × List Ptr
  | [] => ([], [])
  | b :: l =>
    let t := finalizeBoxes l
    if b.status = .Allocated then (⟨.null, .Empty⟩ :: t.1, b.ptr :: t.2) else (b :: t.1, t.2)

/-- Load an EOS from a file; `names` says whether it has phase names
(`eos_spiner_rho_temp.hpp:586-600`). -/
def load (s : State) (bs : List (Option Nat)) (names : Bool) : State :=
  let t := allocBoxes s.next bs
  if names then
    { s with next := t.2 + 1, objs := s.objs ++ [⟨t.1, .heap t.2, .OnHost, .OnHost⟩] }
  else
    { s with next := t.2, objs := s.objs ++ [⟨t.1, .null, .Deallocated, .OnHost⟩] }

/-- `GetOnDevice`, `base/spiner_table_utils.hpp:297-310`, `eos_spiner_rho_temp.hpp:478-495`,
`eos_spiner_rho_sie.hpp:578-600`. -/
def getOnDevice (s : State) (o : Tab) : State :=
  let t := deviceBoxes s.next o.boxes
  if o.names ≠ .null then
    { s with next := t.2 + 1, objs := s.objs ++ [⟨t.1, .heap t.2, .OnDevice, .OnDevice⟩] }
  else
    { s with next := t.2, objs := s.objs ++ [⟨t.1, .null, .Deallocated, .OnDevice⟩] }

/-- `Finalize`, `base/spiner_table_utils.hpp:311-321`, `eos_spiner_rho_temp.hpp:497-510`,
`eos_spiner_rho_sie.hpp:603-615`. Returns the object and the pointers freed. -/
def finalize (o : Tab) : Tab × List Ptr :=
  let b := if o.mem ≠ .UnManaged then finalizeBoxes o.boxes else (o.boxes, [])
  let n := if o.namesStatus ≠ .UnManaged ∧ o.names ≠ .null ∧
      (o.namesStatus = .OnHost ∨ o.namesStatus = .OnDevice) then [o.names] else []
  (⟨b.1, .null, .Deallocated, .Deallocated⟩, b.2 ++ n)

/-- `DeSerialize` of an image of EOS `o` into a new object: every DataBox is pointed at the caller's
memory from address `a` on (`base/spiner_table_utils.hpp:338-345`,
`eos_spiner_rho_temp.hpp:528-543`). The exact offsets do not matter here, see
`Verif.Model.Serialize`. -/
def deserialize (o : Tab) (a : Nat) : Tab :=
  ⟨o.boxes.map fun _ => ⟨.ext a, .Unmanaged⟩,
   if o.names ≠ .null then .ext a else .null,
   if o.names ≠ .null then .UnManaged else .Deallocated, .UnManaged⟩

/-- What a program can do.
(the calls a host program makes: constructors, GetOnDevice, DeSerialize, Finalize (eos_variant.hpp)) -/
inductive Op
  | load (boxes : List (Option Nat)) (names : Bool)
  | device (i : Nat)
  | fromBytes (i a : Nat)
  | fin (i : Nat)

/-- One operation (an operation on an object that does not exist does nothing).
(dispatches to the definitions above) -/
def step (s : State) : Op → State
  | .load bs n => load s bs n
  | .device i => match s.objs[i]? with
    | some o => getOnDevice s o
    | none => s
  | .fromBytes i a => match s.objs[i]? with
    | some o => { s with objs := s.objs ++ [deserialize o a] }
    | none => s
  | .fin i => match s.objs[i]? with
    | some o => { s with freed := s.freed ++ (finalize o).2, objs := s.objs.set i (finalize o).1 }
    | none => s

/-- A program, from the empty state. (not code: a host program) -/
def run : List Op → State := List.foldl step ⟨0, [], []⟩

end Own
end Verif
