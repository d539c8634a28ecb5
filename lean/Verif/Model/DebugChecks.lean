import Mathlib.Algebra.Order.Field.Rat
import Mathlib.Data.Rat.Defs
import Mathlib.Algebra.Order.AbsoluteValue.Basic
import Verif.Model.Loops

/-!
# Model of `base/error_utils.hpp` and of the debug checks of the C interface (`get_sg_eos_functors.hpp`)

Doubles are NaN, the two infinities, and finite values (rational numbers). The only arithmetic is the product by
`_NORMAL_FACTOR`, rounded by an arbitrary function `rnd`; it overflows where IEEE 754 round-to-nearest does.
Printing is left out.
-/

namespace Verif.Debug

/-- A double. (not code) -/
inductive Dbl where
  | nan
  | inf (neg : Bool)
  | fin (x : ℚ)
deriving DecidableEq

/-- Smallest positive normal double, `std::numeric_limits<double>::min()`. (not code) -/
def minNormal : ℚ := 1 / 2 ^ 1022

/-- Products at least this large in magnitude round to infinity: `2^1024` less half a unit in the last place. (not code) -/
def overflow : ℚ := 2 ^ 1024 - 2 ^ 970

/-- `std::isnormal`: neither NaN nor infinite nor subnormal nor zero. (used at error_utils.hpp:37) -/
def isNormal : Dbl → Bool
  | .fin x => decide (minNormal ≤ |x|)
  | _ => false

/-- `_NORMAL_FACTOR * value`, `error_utils.hpp:29`, `:37`. -/
def timesFactor (rnd : ℚ → ℚ) : Dbl → Dbl
  | .nan => .nan
  | .inf n => .inf n
  | .fin x => if overflow ≤ |10 ^ 10 * x| then .inf (decide (x < 0)) else .fin (rnd (10 ^ 10 * x))

/-- `error_utils.hpp:31-39` `is_normal_or_zero`. -/
def isNormalOrZero (rnd : ℚ → ℚ) (v : Dbl) : Bool :=
  decide (v = .fin 0) || (isNormal (timesFactor rnd v) && isNormal v)

/-- `error_utils.hpp:41-47` `is_strictly_positive`: `value > 0`. -/
def isStrictlyPositive : Dbl → Bool
  | .nan => false
  | .inf n => !n
  | .fin x => decide (0 < x)

/-- `error_utils.hpp:57-66` `violates_condition`. -/
def violates (cond : Dbl → Bool) (v : Dbl) : Bool := !(cond v)

/-- `error_utils.hpp:68-72`. -/
def badValue (rnd : ℚ → ℚ) (v : Dbl) : Bool := violates (isNormalOrZero rnd) v

/-- `error_utils.hpp:73-77`. -/
def nonPositiveValue (v : Dbl) : Bool := violates isStrictlyPositive v

/-- `error_utils.hpp:78-82`: the condition passed is `is_strictly_positive`, not `is_non_negative`. -/
def negativeValue (v : Dbl) : Bool := violates isStrictlyPositive v

/-- Values of one cell that `init_functor::check_all_vals` sees. (get_sg_eos_functors.hpp:124-134) -/
structure CellIn where
  fracMass : Nat → Dbl
  press : Dbl
  sie : Dbl
  spvol : Dbl

/-- `get_sg_eos_functors.hpp:124-156`, debug builds: true when the program stops. -/
def checkInput (rnd : ℚ → ℚ) (nmat : Nat) (c : CellIn) : Bool :=
  forN nmat (fun any m => any || badValue rnd (c.fracMass m)) false
  || badValue rnd c.press || badValue rnd c.sie || badValue rnd c.spvol

/-- Values of one cell that `final_functor::check_all_vals` sees; per-material ones by position in the PTE list.
(get_sg_eos_functors.hpp:288-330) -/
structure CellOut where
  fracMass : Nat → Dbl
  fracIe : Nat → Dbl
  fracVol : Nat → Dbl
  fracBmod : Nat → Dbl
  fracCv : Nat → Dbl
  fracDpde : Nat → Dbl
  press : Dbl
  temp : Dbl
  sie : Dbl
  bmod : Dbl
  cv : Dbl
  dpde : Dbl

/-- The material part of `get_sg_eos_functors.hpp:293-320`. -/
def checkMaterial (rnd : ℚ → ℚ) (doBmod doCv doDpde : Bool) (c : CellOut) (any : Bool) (mp : Nat) : Bool :=
  let any := any || badValue rnd (c.fracMass mp)
  let any := any || badValue rnd (c.fracIe mp)
  let any := any || badValue rnd (c.fracVol mp)
  let any := any || negativeValue (c.fracMass mp)
  let any := any || nonPositiveValue (c.fracVol mp)
  let any := if doBmod then any || badValue rnd (c.fracBmod mp) || negativeValue (c.fracBmod mp) else any
  let any := if doCv then any || badValue rnd (c.fracCv mp) || negativeValue (c.fracCv mp) else any
  if doDpde then any || badValue rnd (c.fracDpde mp) || negativeValue (c.fracDpde mp) else any

/-- `get_sg_eos_functors.hpp:288-388`, debug builds: true when the program stops. -/
def checkOutput (rnd : ℚ → ℚ) (npte : Nat) (doBmod doCv doDpde : Bool) (c : CellOut) : Bool :=
  forN npte (checkMaterial rnd doBmod doCv doDpde c) false
  || badValue rnd c.press || badValue rnd c.temp || negativeValue c.temp || badValue rnd c.sie
  || badValue rnd c.bmod || nonPositiveValue c.bmod || badValue rnd c.cv || nonPositiveValue c.cv
  || badValue rnd c.dpde || nonPositiveValue c.dpde

end Verif.Debug
