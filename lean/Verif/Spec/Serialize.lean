import Verif.Model.Serialize

/-!
# What a user sees of a serialised EOS

The blocks of dynamic memory an EOS object refers to, what can be observed through them, and the two
geometric relations between blocks and buffers used in the statements.
-/

namespace Verif
namespace Ser

variable {β S : Type}

/-- The blocks of dynamic memory an EOS reads, in storage order. -/
def blocks (o : Obj S) : List Region :=
  match o.kind with
  | .plain => []
  | _ => o.boxes ++ [o.names]

/-- Everything queries can depend on: which EOS it is, its scalar members and the bytes of each of
its tables (and phase names), read through its pointers. -/
def observe (m : Mem β) (o : Obj S) : Kind × S × List (List β) :=
  (o.kind, o.scal, (blocks o).map fun r => load m r.ptr r.size)

/-- The block shares no byte with `[lo, lo + n)`. -/
def Apart (r : Region) (lo n : Nat) : Prop :=
  ∀ a, r.ptr ≤ a → a < r.ptr + r.size → ¬ (lo ≤ a ∧ a < lo + n)

/-- Every byte of the block is in `[lo, lo + n)`. -/
def Inside (r : Region) (lo n : Nat) : Prop :=
  ∀ a, r.ptr ≤ a → a < r.ptr + r.size → lo ≤ a ∧ a < lo + n

/-- The class invariant of the table EOS: phase names have a pointer if they have a length. -/
def NamesOk (o : Obj S) : Prop := 0 < o.names.size → o.names.ptr ≠ 0

/-- Two memories hold the same `n` bytes at `p` and `q` (a buffer sent to another process, or
mapped at another address). -/
def SameBytes (m : Mem β) (p : Nat) (m' : Mem β) (q n : Nat) : Prop :=
  ∀ i, i < n → m (p + i) = m' (q + i)

end Ser
end Verif
