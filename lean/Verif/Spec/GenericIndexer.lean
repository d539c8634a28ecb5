import Verif.Model.GenericIndexer

/-! # Where an indexer points -/

namespace Verif.GenIdx

variable {K : Type*}

/-- The element of the underlying array that element `i` of the indexer is: all maps one after the other, the outermost first. -/
def Indexer.position (h : Heap K) : Indexer K → Nat → Nat
  | .ref _, i => i
  | .ptr _ off, i => off + i
  | .own _, i => i
  | .viaRef x m, i => x.position h (h.map m i)
  | .viaOwn x m, i => x.position h (m i)

/-- The array object that is reached, if it is not the indexer's own. -/
def Indexer.target : Indexer K → Option Nat
  | .ref a => some a
  | .ptr a _ => some a
  | .own _ => none
  | .viaRef x _ => x.target
  | .viaOwn x _ => x.target

end Verif.GenIdx
