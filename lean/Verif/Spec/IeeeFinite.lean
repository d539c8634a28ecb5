import Verif.Spec.Ieee

/-! # Finite machine numbers -/

namespace Verif.Ieee

/-- `x` is neither NaN nor an infinity. -/
def IsFin (x : Ext) : Prop := ∃ r, x = .fin r

end Verif.Ieee
