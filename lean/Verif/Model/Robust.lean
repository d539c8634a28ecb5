import Mathlib.Algebra.Order.Field.Basic
import Mathlib.Analysis.SpecialFunctions.Exp
import Mathlib.Analysis.SpecialFunctions.Log.Basic

/-!
# Model of `singularity-eos/base/robust_utils.hpp` and `base/math_utils.hpp`

`Real` is an arbitrary linearly ordered field `K`; `SMALL<T>()` and `EPS<T>()` are explicit
parameters `σ` and `ε` (their double values are given at the end).  Rounding, NaN and infinities are
not modelled here.
-/

namespace Verif.Robust

variable {K : Type*} [Field K] [LinearOrder K]

/-- `robust_utils.hpp:56-63` `sgn` for a signed type: `(0 <= val) - (val < 0)`. -/
def sgn (v : K) : K := (if 0 ≤ v then 1 else 0) - (if v < 0 then 1 else 0)

/-- `robust_utils.hpp:65-68` `ratio(a,b) = a / (b + sgn(b) * SMALL)`. -/
def ratio (σ a b : K) : K := a / (b + sgn b * σ)

/-- `robust_utils.hpp:46-49` `make_positive(val) = max(val, EPS)`. -/
def makePositive (ε v : K) : K := max v ε

/-- `robust_utils.hpp:51-54` `make_bounded(val,vmin,vmax) = min(max(val,vmin+EPS), vmax*(1-EPS))`. -/
def makeBounded (ε v vmin vmax : K) : K := min (max v (vmin + ε)) (vmax * (1 - ε))

/-- Result of `safe_arg_exp`: a finite real or `+infinity`. (robust_utils.hpp:69-78) -/
inductive ExpOut where
  | fin (x : ℝ)
  | inf

/-- `robust_utils.hpp:70-75` `safe_arg_exp`; `lo = min_exp_arg`, `hi = max_exp_arg`
(`robust_utils.hpp:36-44`), `std::exp` is the mathematical exponential (no rounding). -/
noncomputable def safeArgExp (lo hi x : ℝ) : ExpOut :=
  if x < lo then .fin 0 else if x > hi then .inf else .fin (Real.exp x)

/-- `robust_utils.hpp:36-39` `min_exp_arg<double>`: `(min_exponent - 1) * ln 2`, `min_exponent = -1021`. -/
noncomputable def minExpArg : ℝ := (-1021 - 1) * Real.log 2

/-- `robust_utils.hpp:41-44` `max_exp_arg<double>`: `max_exponent * ln 2`, `max_exponent = 1024`. -/
noncomputable def maxExpArg : ℝ := 1024 * Real.log 2

/-- `robust_utils.hpp:26-29` `SMALL<double>() = 10 * 2^-1022`. -/
def SMALL : ℚ := 10 / 2 ^ 1022

/-- `robust_utils.hpp:31-34` `EPS<double>() = 10 * 2^-52`. -/
def EPS : ℚ := 10 / 2 ^ 52

/-- `math_utils.hpp:31-39` the branch `P >= 0` of `pow<P>`, together with the specialisations
`pow<0> = 1` (`:41-44`) and `pow<1> = x` (`:46-49`). Odd `P`: `x * pow<P-1>(x)`;
even `P`: `pow<P/2>(x) * pow<P/2>(x)`. -/
def powNat (x : K) : Nat → K
  | 0 => 1
  | 1 => x
  | n + 2 =>
    if (n + 2) % 2 = 1 then x * powNat x (n + 1)
    else powNat x ((n + 2) / 2) * powNat x ((n + 2) / 2)
termination_by n => n
decreasing_by all_goals omega

/-- `math_utils.hpp:31-39` `pow<P>` for any `int` template argument: negative `P` gives `1/pow<-P>(x)`. -/
def powInt (P : Int) (x : K) : K :=
  if P ≥ 0 then powNat x P.natAbs else 1 / powNat x P.natAbs

end Verif.Robust
