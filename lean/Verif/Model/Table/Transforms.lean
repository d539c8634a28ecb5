import Mathlib.Algebra.Order.Field.Basic
import Verif.Model.Loops

/-!
# Log-space conversion and energy transforms of the Spiner EOS

`singularity-eos/eos/eos_spiner_common.hpp:52-57` and `eos_spiner_sie_transforms.hpp`.  Tables are arbitrary
interpolation functions; the fast logarithm and exponential are parameters (`Model/Math/FastLog.lean` models them).
-/

namespace Verif.Spiner

variable {K : Type*} [Field K] [LinearOrder K] [IsStrictOrderedRing K]

/-- `to_log`, `eos_spiner_common.hpp:52-54`; `lg = FastMath::log10`, `ε = robust::EPS()`. -/
def toLog (lg : K → K) (ε x offset : K) : K := lg (|max x (-offset) + offset| + ε)

/-- `from_log`, `eos_spiner_common.hpp:55-57`. -/
def fromLog (pw : K → K) (lx offset : K) : K := pw lx - offset

/-- The data the transforms read: `TransformDataContainer`, `eos_spiner_rho_sie.hpp:1032`: offsets and the
interpolation functions of `sieCold(lRho)`, `T(lRho)`, `dTdE(lRho, lE)`. -/
structure TData (K : Type*) where
  (lg : K → K) (ε lRhoOffset lEOffset : K)
  (sieCold : K → K)
  (T1 : K → K)
  (dTdE : K → K → K)

/-- `min_Cv_`, `min_iCv_`, `min_T_`, `eos_spiner_sie_transforms.hpp:91-92`, `:123-124`, `:161`, `:192-194`. -/
def minC : K := 1 / 10 ^ 8

/-- `x > min ? x : min` (eos_spiner_sie_transforms.hpp:100, 134, 209) -/
def floorAt (x : K) : K := if minC < x then x else minC

/-- `data_.sieCold.interpToReal(to_log(rho, lRhoOffset))` (eos_spiner_sie_transforms.hpp:69, 76) -/
def eCold (d : TData K) (rho : K) : K := d.sieCold (toLog d.lg d.ε rho d.lRhoOffset)

/-- `data_.dTdE.interpToReal(to_log(rho), to_log(e))` (eos_spiner_sie_transforms.hpp:99, 133, 208) -/
def iCvAt (d : TData K) (rho e : K) : K :=
  d.dTdE (toLog d.lg d.ε rho d.lRhoOffset) (toLog d.lg d.ε e d.lEOffset)

/-- The clamped temperature of `ScaleTransform`, `eos_spiner_sie_transforms.hpp:166-168`. -/
def TAt (d : TData K) (rho : K) : K := floorAt (d.T1 (toLog d.lg d.ε rho d.lRhoOffset))

/-- A transform: `transform(e, rho)` and `inverse(e', rho, e_orig)`. (eos_spiner_sie_transforms.hpp:40-233) -/
structure Transform (K : Type*) where
  fwd : K → K → K
  inv : K → K → K → K

/-- `NullTransform`, `eos_spiner_sie_transforms.hpp:39-54`. -/
def nullT : Transform K := ⟨fun e _ => e, fun e _ _ => e⟩

/-- `ShiftTransform`, `eos_spiner_sie_transforms.hpp:56-79`. -/
def shiftT (d : TData K) : Transform K := ⟨fun e rho => e - eCold d rho, fun e rho _ => e + eCold d rho⟩

/-- `DivideByCvTransform`, `eos_spiner_sie_transforms.hpp:83-112`. -/
def divT (d : TData K) : Transform K :=
  ⟨fun e rho => e * floorAt (iCvAt d rho e), fun e rho eo => e * floorAt (1 / iCvAt d rho eo)⟩

/-- `ShiftandDivideByCvTransform`, `eos_spiner_sie_transforms.hpp:115-148`. -/
def shiftDivT (d : TData K) : Transform K :=
  ⟨fun e rho => (e - eCold d rho) * floorAt (iCvAt d rho e),
   fun e rho eo => e * floorAt (1 / iCvAt d rho eo) + eCold d rho⟩

/-- `ScaleTransform`, `eos_spiner_sie_transforms.hpp:153-179`. -/
def scaleT (d : TData K) : Transform K :=
  ⟨fun e rho => e / TAt d rho ^ 3, fun e rho _ => e * TAt d rho ^ 3⟩

/-- `AllTransform`, `eos_spiner_sie_transforms.hpp:184-234`. -/
def allT (d : TData K) : Transform K :=
  ⟨fun e rho => (e - eCold d rho) * floorAt (iCvAt d rho (e - eCold d rho)) / TAt d rho ^ 3,
   fun e rho eo => e * TAt d rho ^ 3 * floorAt (1 / iCvAt d rho (eo - eCold d rho)) + eCold d rho⟩

/-! ## `SetRhoPMin` -/

/-- State of the inner loop over densities: `PMin_at_T` and `jmax`. (eos_spiner_common.hpp:69-94) -/
structure PMinSt (K : Type*) where
  (p : K) (j : Nat)

/-- One density step of `SetRhoPMin`, `eos_spiner_common.hpp:72-86`.  `rho j = from_log(lRs.x(j))`;
`dv` is `robust::ratio`. -/
def pminStep (dv : K → K → K) (dome : Bool) (thresh : K) (P rho : Nat → K) (j : Nat) (s : PMinSt K) : PMinSt K :=
  let s := if P j < s.p then ⟨P j, j⟩ else s
  if 1 < j ∧ dome = true ∧ dv (P j - P (j - 2)) (rho j - rho (j - 2)) < thresh then { s with j := j } else s

/-- The inner loop, `eos_spiner_common.hpp:69-87`; `big = numeric_limits<Real>::max()`. -/
def pminLoop (dv : K → K → K) (dome : Bool) (thresh big : K) (P rho : Nat → K) (NR : Nat) : PMinSt K :=
  forN NR (fun s j => pminStep dv dome thresh P rho j s) ⟨big, 0⟩

/-- One temperature of `SetRhoPMin`, `eos_spiner_common.hpp:68-93`: `(PMin_at_T, rho_at_pmin(i))`. -/
def pminAtT (dv : K → K → K) (dome : Bool) (thresh big : K) (P rho : Nat → K) (NR : Nat) : K × K :=
  let s := pminLoop dv dome thresh big P rho NR
  if 0 < s.p ∧ dome = false then (0, 0) else (s.p, rho s.j)

/-- The backwards sweep enforcing monotonicity, `eos_spiner_common.hpp:100-106`: `i = NT-2, …, 0`. -/
def domeSweep (NT : Nat) (r : Nat → K) : Nat → K :=
  forN (NT - 1) (fun r k => let i := NT - 2 - k
    if r i < r (i + 1) then Function.update r i (r (i + 1)) else r) r

/-- `SetRhoPMin`, `eos_spiner_common.hpp:59-109`: `(PMin, rho_at_pmin)`; `P j i` is density `j`, temperature `i`. -/
def setRhoPMin (dv : K → K → K) (dome : Bool) (thresh big : K) (P : Nat → Nat → K) (rho : Nat → K) (NT NR : Nat) :
    K × (Nat → K) :=
  let at_ := fun i => pminAtT dv dome thresh big (fun j => P j i) rho NR
  let pmin := forN NT (fun m i => min (at_ i).1 m) big
  let r := fun i => (at_ i).2
  (pmin, if dome then domeSweep NT r else r)

end Verif.Spiner
