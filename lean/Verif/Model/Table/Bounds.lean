import Mathlib.Algebra.Order.Floor.Ring
import Mathlib.Algebra.Order.Field.Basic

/-!
# Table bounds: `singularity::table_utils::Bounds`

`singularity-eos/base/spiner_table_utils.hpp:35-283`.  Exact arithmetic; the fast logarithm and exponential are
parameters.  `int` is unbounded.
-/

namespace Verif.Bounds

variable {K : Type*} [Field K] [LinearOrder K] [IsStrictOrderedRing K] [FloorRing K]

/-- `Spiner::RegularGrid1D(min, max, N)`: the points are `min + i dx`, `dx = (max - min)/(N - 1)` (external library,
`spiner/regular_grid_1d.hpp`). (external: spiner regular_grid_1d.hpp; used by spiner_table_utils.hpp:60-250) -/
structure Grid (K : Type*) where
  (min max : K) (N : ℤ)

/-- `RegularGrid1D::x(i)` (external: spiner regular_grid_1d.hpp) -/
def Grid.x (g : Grid K) (i : ℤ) : K := g.min + i * ((g.max - g.min) / (g.N - 1))

/-- `static_cast<int>` of a floating point number. (used in spiner_table_utils.hpp) -/
def toInt (x : K) : ℤ := if 0 ≤ x then ⌊x⌋ else ⌈x⌉

/-- `getNumPointsFromDensity`, `spiner_table_utils.hpp:177-182`. -/
def numPoints (mn mx density : K) : ℤ := max 2 ⌈density * (mx - mn)⌉

/-- `toLog_`, `spiner_table_utils.hpp:185-188`. -/
def toLog (lg : K → K) (v offset : K) : K := lg |v + offset|

/-- The offset of `convertBoundsToLog_`, `spiner_table_utils.hpp:190-198`; `eps = numeric_limits::epsilon`. -/
def offsetOf (eps mn : K) : K := if mn ≤ 0 then 11 / 10 * |mn| + 10 * |eps| else 0

/-- `convertBoundsToLog_`, `spiner_table_utils.hpp:190-206`: `(min, max)` in log space. -/
def toLogBounds (lg : K → K) (eps mn mx shrink : K) : K × K :=
  let off := offsetOf eps mn
  let a := toLog lg mn off
  let b := toLog lg mx off
  let delta := b - a
  (a + 1 / 2 * shrink * delta, b - 1 / 2 * shrink * delta)

/-- `adjustForAnchor_`, `spiner_table_utils.hpp:208-227`: the new `(max, N)`. -/
def adjust (mn mx : K) (N : ℤ) (a : K) : K × ℤ :=
  if mn < a ∧ a < mx then
    let Nfrac := (a - mn) / (mx - mn)
    let Nanchor := ⌈N * Nfrac⌉
    if Nanchor < 2 ∨ N ≤ Nanchor then (mx, N)
    else
      let dx := (a - mn) / (Nanchor - 1 : ℤ)
      let Nmax := toInt ((mx - mn) / dx)
      (dx * (Nmax - 1 : ℤ) + mn, Nmax)
  else (mx, N)

/-- `checkInterval_`, `spiner_table_utils.hpp:229-241`. -/
def checkInterval (p mn mx : K) : K :=
  let p := if p ≤ mn then mn + 1 / 10 * |mn| else p
  if mx ≤ p then mx - 1 / 10 * |mx| else p

/-- The one-grid constructor, `spiner_table_utils.hpp:56-70`; `anchor = none` is the default `NaN`. -/
def oneGrid (lg : K → K) (eps mn mx : K) (N : ℤ) (log : Bool) (shrink : K) (anchor : Option K) : Grid K :=
  let b := if log then toLogBounds lg eps mn mx shrink else (mn, mx)
  match anchor with
  | none => ⟨b.1, b.2, N⟩
  | some a =>
    let a := if log then lg |a| else a
    let r := adjust b.1 b.2 N a
    ⟨b.1, r.1, r.2⟩

/-- The two-grid constructor, `spiner_table_utils.hpp:76-100`. -/
def twoGrids (lg : K → K) (eps mn mx anchor split fine factor : K) (log : Bool) (shrink : K) : Grid K × Grid K :=
  let coarse := if 0 < factor then fine / factor else fine
  let b := if log then toLogBounds lg eps mn mx shrink else (mn, mx)
  let off := offsetOf eps mn
  let anchor := if log then toLog lg anchor off else anchor
  let split := if log then toLog lg split off else split
  let split := checkInterval split b.1 b.2
  let anchor := checkInterval anchor b.1 split
  let N := numPoints b.1 split fine + 1
  let r := adjust b.1 split N anchor
  (⟨b.1, r.1, r.2⟩, ⟨r.1, b.2, numPoints r.1 b.2 coarse⟩)

/-- `gridFromIntervals_`, `spiner_table_utils.hpp:243-277`. -/
def threeFromIntervals (mn mx anchor midMin midMax fine factorLo factorHi : K) : Grid K × Grid K × Grid K :=
  let lo := if 0 < factorLo then fine / factorLo else fine
  let hi := if 0 < factorHi then fine / factorHi else fine
  let midMin := if midMin ≤ mn then anchor - 9 / 10 * |anchor - mn| else midMin
  let midMax := if mx ≤ midMax then anchor + 9 / 10 * |mx - anchor| else midMax
  let N := numPoints midMin midMax fine + 1
  let r := adjust midMin midMax N anchor
  (⟨mn, midMin, numPoints mn midMin lo⟩, ⟨midMin, r.1, r.2⟩, ⟨r.1, mx, numPoints r.1 mx hi⟩)

/-- The three-grid constructor with a fine diameter, `spiner_table_utils.hpp:119-135`. -/
def threeGrids (lg : K → K) (eps mn mx anchor diam fine factorLo factorHi : K) (log : Bool) (shrink : K) :
    Grid K × Grid K × Grid K :=
  let b := if log then toLogBounds lg eps mn mx shrink else (mn, mx)
  let anchor := if log then toLog lg anchor (offsetOf eps mn) else anchor
  let anchor := checkInterval anchor b.1 b.2
  threeFromIntervals b.1 b.2 anchor (anchor - 1 / 2 * diam) (anchor + 1 / 2 * diam) fine factorLo factorHi

/-- The three-grid constructor with the ends of the fine region, `spiner_table_utils.hpp:102-117`. -/
def threeGridsFine (lg : K → K) (eps mn mx anchor fineMin fineMax fine factorLo factorHi : K) (log : Bool) (shrink : K) :
    Grid K × Grid K × Grid K :=
  let b := if log then toLogBounds lg eps mn mx shrink else (mn, mx)
  let off := offsetOf eps mn
  let anchor := if log then toLog lg anchor off else anchor
  let lo := if log then toLog lg fineMin off else fineMin
  let hi := if log then toLog lg fineMax off else fineMax
  let anchor := checkInterval anchor b.1 b.2
  threeFromIntervals b.1 b.2 anchor lo hi fine factorLo factorHi

/-- `log2lin`, `spiner_table_utils.hpp:137-145`. -/
def log2lin (pw : K → K) (linmin linmax offset xl : K) : K := min linmax (max linmin (pw xl - offset))

end Verif.Bounds
