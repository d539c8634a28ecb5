import Verif.Model.EospacSerialize
import Verif.Spec.Serialize

/-!
# What is expected of the EOSPAC library and of EOSPAC serialisation
-/

namespace Verif.Espz

open Ser

variable {β L A S : Type}

/-- The eight tables a query can use. -/
inductive Role
  | PofRT | TofRE | EofRT | RofPT | TofRP | PofRE | EcofD | SofRT

/-- The handle the queries use for a table. -/
def Obj.handle (o : Obj S) : Role → Nat
  | .PofRT => o.PofRT
  | .TofRE => o.TofRE
  | .EofRT => o.EofRT
  | .RofPT => o.RofPT
  | .TofRP => o.TofRP
  | .PofRE => o.PofRE
  | .EcofD => o.EcofD
  | .SofRT => o.SofRT

/-- Position of the tables in the constructor's list (`eos_eospac.hpp:1284-1291`). -/
def Role.pos : Role → Fin 8
  | .PofRT => 0
  | .TofRE => 1
  | .EofRT => 2
  | .RofPT => 3
  | .TofRP => 4
  | .PofRE => 5
  | .EcofD => 6
  | .SofRT => 7

/-- Everything a query on `o` can see when the library is in state `l` and memory is `m`. -/
def observe (lib : Lib β L A) (l : L) (m : Mem β) (o : Obj S) : S × (Role → Option A) :=
  (o.scal, fun r => lib.table l m (o.handle r))

/-- The library's contract. `issued l k`: handle `k` has been given out. -/
structure Contract (lib : Lib β L A) (issued : L → Nat → Prop) : Prop where
  /-- The packed image has the announced size. -/
  packed_len : ∀ l m h, (lib.getPacked l m h).length = lib.packedSize l m h
  packed_pos : ∀ l m h, 0 < lib.packedSize l m h
  /-- `eos_SetPackedTables` gives out new, different handles … -/
  set_new : ∀ l b i, ¬ issued l ((lib.setPacked l b).2 i)
  set_inj : ∀ l b, Function.Injective (lib.setPacked l b).2
  set_issued : ∀ l b k, issued (lib.setPacked l b).1 k ↔ issued l k ∨ ∃ i, k = (lib.setPacked l b).2 i
  /-- … leaves the tables behind the others alone … -/
  set_keeps : ∀ l b k m, issued l k → lib.table (lib.setPacked l b).1 m k = lib.table l m k
  /-- … and loads, in any process, the tables that were packed, outside the program's memory. -/
  set_loads : ∀ l m h, (∀ i, issued l (h i)) → ∀ l2 m2 i,
    lib.table (lib.setPacked l2 (lib.getPacked l m h)).1 m2 ((lib.setPacked l2 (lib.getPacked l m h)).2 i) =
      lib.table l m (h i)
  /-- The same for `eos_SetSharedPackedTables`. -/
  shared_new : ∀ l m b d r i, ¬ issued l ((lib.setShared l m b d r).2.2 i)
  shared_inj : ∀ l m b d r, Function.Injective (lib.setShared l m b d r).2.2
  shared_issued : ∀ l m b d r k,
    issued (lib.setShared l m b d r).1 k ↔ issued l k ∨ ∃ i, k = (lib.setShared l m b d r).2.2 i
  shared_keeps : ∀ l m b d r k m', issued l k → lib.table (lib.setShared l m b d r).1 m' k = lib.table l m' k
  /-- The root writes inside a block of the announced size at `d`, and the tables are read from that block only. -/
  root_writes : ∀ l m h, (∀ i, issued l (h i)) → ∀ l2 m2 d a, ¬ (d ≤ a ∧ a < d + lib.sharedBytes l m h) →
    (lib.setShared l2 m2 (lib.getPacked l m h) d true).2.1 a = m2 a
  root_loads : ∀ l m h, (∀ i, issued l (h i)) → ∀ l2 m2 d m4 i,
    SameBytes m4 d (lib.setShared l2 m2 (lib.getPacked l m h) d true).2.1 d (lib.sharedBytes l m h) →
    lib.table (lib.setShared l2 m2 (lib.getPacked l m h) d true).1 m4
      ((lib.setShared l2 m2 (lib.getPacked l m h) d true).2.2 i) = lib.table l m (h i)
  /-- A peer writes nothing and finds the tables in a block that holds what a root wrote. -/
  peer_writes : ∀ l m b d, (lib.setShared l m b d false).2.1 = m
  peer_loads : ∀ l m h, (∀ i, issued l (h i)) → ∀ l2 m2 d lr mr dr,
    SameBytes m2 d (lib.setShared lr mr (lib.getPacked l m h) dr true).2.1 dr (lib.sharedBytes l m h) →
    ∀ m4 i, SameBytes m4 d m2 d (lib.sharedBytes l m h) →
    lib.table (lib.setShared l2 m2 (lib.getPacked l m h) d false).1 m4
      ((lib.setShared l2 m2 (lib.getPacked l m h) d false).2.2 i) = lib.table l m (h i)

/-- An object with issued handles, its query handles being those of its handle array, and its sizes those announced by the
library. -/
structure Valid (lib : Lib β L A) (issued : L → Nat → Prop) (sb : Bool) (l : L) (m : Mem β) (o : Obj S) : Prop where
  issued : ∀ i, issued l (o.tablehandle i)
  names : ∀ r, o.handle r = o.tablehandle r.pos
  packed : o.packed = lib.packedSize l m o.tablehandle
  shared : o.shared = if sb then lib.sharedBytes l m o.tablehandle else 0

/-- The tables of `o` are not in the `n` bytes at `dst`. -/
def TablesApart (lib : Lib β L A) (l : L) (m : Mem β) (o : Obj S) (dst n : Nat) : Prop :=
  ∀ m' : Mem β, (∀ a, ¬ (dst ≤ a ∧ a < dst + n) → m' a = m a) →
    (∀ i, lib.table l m' (o.tablehandle i) = lib.table l m (o.tablehandle i)) ∧
    lib.getPacked l m' o.tablehandle = lib.getPacked l m o.tablehandle

end Verif.Espz
