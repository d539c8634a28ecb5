import Mathlib.Analysis.SpecialFunctions.Sqrt
import Mathlib.Data.Int.Log
import Mathlib.Algebra.Order.Floor.Ring
import Mathlib.Data.Real.Archimedean

/-!
# The not-quite-transcendental logarithm and exponential

`singularity-eos/base/fast-math/logs.hpp`.  The portable versions are modelled over the reals.  The integer-aliased
versions (the default build) are modelled bit for bit on the integer side: a positive normal double is its 64-bit
pattern, an integer.
-/

namespace Verif.FastLog

noncomputable section

/-- `frexp`: mantissa in `[1/2, 1)` and exponent (`logs.hpp:135`, `:172`). -/
def frexp (x : ℝ) : ℝ × ℤ := (x / 2 ^ (Int.log 2 x + 1), Int.log 2 x + 1)

/-- `ldexp` (`logs.hpp:145`, `:185`). -/
def ldexp (m : ℝ) (e : ℤ) : ℝ := m * 2 ^ e

/-- `lg_o1_portable`, `logs.hpp:132-137`. -/
def lgO1 (x : ℝ) : ℝ :=
  let r := frexp x
  2 * (r.1 - 1) + r.2

/-- `pow2_o1_portable`, `logs.hpp:140-146`. -/
def pow2O1 (x : ℝ) : ℝ :=
  let flr := ⌊x⌋
  let remainder := x - flr
  let mantissa := 1 / 2 * (remainder + 1)
  ldexp mantissa (flr + 1)

/-- `lg_o2_portable`, `logs.hpp:168-174`. -/
def lgO2 (x : ℝ) : ℝ :=
  let r := frexp x
  r.2 - 4 / 3 * (r.1 - 2) * (r.1 - 1)

/-- `pow2_o2_portable`, `logs.hpp:178-186`. -/
def pow2O2 (x : ℝ) : ℝ :=
  let flr := ⌊x⌋
  let lm := x - flr - 1
  let mantissa := 1 / 2 * (3 - Real.sqrt (1 - 3 * lm))
  ldexp mantissa (flr + 1)

/-- `log10`, `logs.hpp:283-286`, for a base-2 logarithm `lg` and the constant `LOG2OLOG10`. -/
def log10Of (c : ℝ) (lg : ℝ → ℝ) (x : ℝ) : ℝ := c * lg x

/-- `pow10`, `logs.hpp:289-292`, with the constant `LOG10OLOG2`. -/
def pow10Of (c' : ℝ) (pow2 : ℝ → ℝ) (x : ℝ) : ℝ := pow2 (c' * x)

/-! ## Integer-aliased versions -/

/-- `2^52` (logs.hpp:117-120) -/
def P : ℤ := 2 ^ 52

/-- `one_as_int`, `logs.hpp:116` -/
def oneAsInt : ℤ := 2 ^ 62 - 2 ^ 52

/-- The literal `scale_down`, `logs.hpp:118`. -/
def scaleDown : ℝ := 2.22044604925031e-16

/-- The value of the positive normal double with bit pattern `n`: biased exponent `n / 2^52`, mantissa bits
`n % 2^52` (`as_double`, `logs.hpp:109`, on IEEE-754 binary64). -/
def value (n : ℤ) : ℝ := (1 + (n % P : ℤ) / (P : ℝ)) * 2 ^ (n / P - 1023)


/-- `static_cast<std::int64_t>(x)`: truncation towards zero. (logs.hpp:159, 208) -/
def trunc (x : ℝ) : ℤ := if 0 ≤ x then ⌊x⌋ else ⌈x⌉

/-- `lg_o1_aliased`, `logs.hpp:150-154`, of the double with bit pattern `n`.  `rnd` is the rounding of the conversion
to `double` and of the product; `s` is `scale_down`. -/
def lgO1Aliased (rnd : ℝ → ℝ) (s : ℝ) (n : ℤ) : ℝ := rnd (rnd ((n - oneAsInt : ℤ) : ℝ) * s)

/-- `pow2_o1_aliased`, `logs.hpp:157-160`: the bit pattern of the result (the product with `2^52` is exact). -/
def pow2O1Aliased (x : ℝ) : ℤ := trunc (x * 2 ^ 52) + oneAsInt

/-- Bitwise and with the mask `2^k - 1` (`mantissa_mask`, `low_mask`, `logs.hpp:122`, `:124`), two's complement. -/
def andMask (x : ℤ) (k : Nat) : ℤ := x % 2 ^ k

/-- Arithmetic shift right, for a non-negative argument. (logs.hpp:194, 197) -/
def shr (x : ℤ) (k : Nat) : ℤ := x / 2 ^ k

/-- `frac_squared`, `logs.hpp:194-197`. -/
def fracSquared (frac : ℤ) : ℤ :=
  let hi := shr frac 26
  let lo := andMask frac 26
  hi * hi + shr (hi * lo) 25

/-- The integer of `lg_o2_aliased`, `logs.hpp:192-199`, before the scaling.  (`/ 3` is on a non-negative number:
`fracSquared_le`.) -/
def lgO2Int (n : ℤ) : ℤ :=
  let xi := n - oneAsInt
  let frac := andMask xi 52
  xi + (frac - fracSquared frac) / 3

/-- `lg_o2_aliased`, `logs.hpp:189-200`. -/
def lgO2Aliased (rnd : ℝ → ℝ) (s : ℝ) (n : ℤ) : ℝ := rnd (rnd (lgO2Int n : ℝ) * s)

/-- `pow2_o2_aliased`, `logs.hpp:203-214`: the bit pattern of the result.  `rnd`
rounds the conversion to `double` and the square root (the product with `2^26` is exact). -/
def pow2O2Aliased (rnd : ℝ → ℝ) (x : ℝ) : ℤ :=
  let xi := trunc (x * 2 ^ 52)
  let frac := andMask xi 52
  let fracSqrt := trunc (2 ^ 26 * rnd (Real.sqrt (rnd ((4 * 2 ^ 52 - 3 * frac : ℤ) : ℝ))))
  xi + 2 * 2 ^ 52 - fracSqrt - frac + oneAsInt

end

end Verif.FastLog
