import Verif.Spec.Ieee

/-! # `robust_utils.hpp` on machine numbers -/

namespace Verif

namespace Ieee

open Classical

/-- `robust_utils.hpp:26-29` `SMALL<double>() = 10 * DBL_MIN`, `DBL_MIN = 2^-1022` (the product is exact). -/
noncomputable def small : ℝ := 10 * (2 : ℝ) ^ (-1022 : ℤ)

/-- `robust_utils.hpp:31-34` `EPS<double>() = 10 * DBL_EPSILON`, `DBL_EPSILON = 2^-52`. -/
noncomputable def eps : ℝ := 10 * (2 : ℝ) ^ (-52 : ℤ)

/-- `robust_utils.hpp:56-63` `sgn`: `(0 <= val) - (val < 0)`, converted to `double`. -/
noncomputable def sgn (v : Ext) : Ext :=
  .fin ((if le (.fin 0) v then 1 else 0) - (if lt v (.fin 0) then 1 else 0))

/-- `robust_utils.hpp:65-68` `ratio`: `a / (b + sgn(b) * SMALL)`. -/
noncomputable def ratio (rnd : ℝ → ℝ) (Ω : ℝ) (a b : Ext) : Ext :=
  div rnd Ω a (add rnd Ω b (mul rnd Ω (sgn b) (.fin small)))

/-- `std::max(x, y)`: `(x < y) ? y : x` (used in robust_utils.hpp:46-54). -/
noncomputable def stdMax (x y : Ext) : Ext := if lt x y then y else x

/-- `std::min(x, y)`: `(y < x) ? y : x` (used in robust_utils.hpp:46-54). -/
noncomputable def stdMin (x y : Ext) : Ext := if lt y x then y else x

/-- `robust_utils.hpp:46-49` `make_positive`. -/
noncomputable def makePositive (v : Ext) : Ext := stdMax v (.fin eps)

/-- `robust_utils.hpp:51-54` `make_bounded`: `min(max(val, vmin + EPS), vmax * (1.0 - EPS))`; `1.0 - EPS` is exact. -/
noncomputable def makeBounded (rnd : ℝ → ℝ) (Ω : ℝ) (v vmin vmax : Ext) : Ext :=
  stdMin (stdMax v (add rnd Ω vmin (.fin eps))) (mul rnd Ω vmax (.fin (1 - eps)))

end Ieee

end Verif
