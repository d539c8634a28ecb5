import Verif.Model.Math.FastLog

/-! # Which logarithm a build uses

The build options of the logarithm, the number recorded in table files for it, and the function `lg` they select
(`singularity-eos/base/fast-math/logs.hpp`). A double is its bit pattern, as in `FastLog.lean`. -/

namespace Verif.FastLog

/-- The four options, `logs.hpp:69-92`: `TRUE_LOGS`, `FP32`, `NQT_PORTABLE`, `NQT_O1`. -/
structure Build where
  trueLogs : Bool
  fp32 : Bool
  portable : Bool
  o1 : Bool
deriving DecidableEq

/-- `Settings::log_type`, `logs.hpp:66`, `logs.hpp:93-96`. -/
def Build.logType (b : Build) : Int :=
  if b.trueLogs && b.fp32 then -1 else if b.trueLogs && !b.fp32 then 0 else if b.o1 then 1 else 2

noncomputable section

/-- What the logarithm takes from the machine: rounding to `double` and to `float`, the literals `scale_down`
(`logs.hpp:118`) and `four_thirds` (`logs.hpp:170`) as doubles, and the `log2` and `log2f` of the mathematical library
(`logs.hpp:257`, `logs.hpp:259`). -/
structure Machine where
  rnd : ℝ → ℝ
  rnd32 : ℝ → ℝ
  s : ℝ
  ft : ℝ
  log2 : ℝ → ℝ
  log2f : ℝ → ℝ

/-- `lg_o1_portable` in machine arithmetic, `logs.hpp:132-137`. (`m - 1` and the doubling are exact for a mantissa in
`[1/2, 1)`.) -/
def lgO1Portable (M : Machine) (n : ℤ) : ℝ :=
  let r := frexp (value n)
  M.rnd (2 * (r.1 - 1) + r.2)

/-- `lg_o2_portable` in machine arithmetic, `logs.hpp:168-174`. -/
def lgO2Portable (M : Machine) (n : ℤ) : ℝ :=
  let r := frexp (value n)
  M.rnd (r.2 - M.rnd (M.rnd (M.ft * M.rnd (r.1 - 2)) * M.rnd (r.1 - 1)))

/-- `fastlg`, `logs.hpp:217-231`. -/
def Build.fastlg (b : Build) (M : Machine) (n : ℤ) : ℝ :=
  if b.o1 then (if b.portable then lgO1Portable M n else lgO1Aliased M.rnd M.s n)
  else (if b.portable then lgO2Portable M n else lgO2Aliased M.rnd M.s n)

/-- `lg`, `logs.hpp:249-263`, of a positive double. -/
def Build.lg (b : Build) (M : Machine) (n : ℤ) : ℝ :=
  if !b.trueLogs then b.fastlg M n
  else if !b.fp32 then M.log2 (value n) else M.log2f (M.rnd32 (value n))

end

end Verif.FastLog
