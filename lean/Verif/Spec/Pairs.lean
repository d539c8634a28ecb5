import Mathlib.Algebra.BigOperators.Intervals
import Mathlib.Data.Int.Basic

/-! Independent specification of the packed table of ordered pairs `j < k < n`. -/

namespace Verif.Spec

/-- Position of the pair `(j,k)` when pairs are listed row by row (`j = 0, 1, …`), each row from
`k = n-1` down to `k = j+1`: the lengths of the earlier rows plus the place in the row. -/
def pairIndex (n j k : Nat) : Int := ((∑ i ∈ Finset.range j, (n - 1 - i) : Nat) : Int) + ((n - 1 - k : Nat) : Int)

end Verif.Spec
