import Mathlib.Algebra.Order.Field.Basic
import Mathlib.Analysis.SpecialFunctions.Exp
import Mathlib.Analysis.SpecialFunctions.Log.Basic
import Mathlib.Algebra.Order.Monoid.WithTop

/-!
# Model of the kinetic phase transition helpers

`closure/kinetic_phasetransition_utils.hpp`, `..._models.hpp`, `..._methods.hpp`.
C arrays are total functions from indices; a loop is a fold over the list of its index values in
execution order.  `int` is unbounded.  Logarithms live in `WithBot ℝ`, `⊥` being IEEE `-inf`
(`log 0 = -inf`, `-inf + x = -inf`, `exp(-inf) = 0`); NaN (log of a negative number) is not modelled:
the theorems assume the arguments are non-negative.
-/

namespace Verif.Kinetic

/-- The values taken by `for (int k = num_phases - 1; k > j; k--)`, in order.
(kinetic_phasetransition_methods.hpp:61, models.hpp:48, utils.hpp:49) -/
def down (n j : Nat) : List Nat := (List.range' (j + 1) (n - 1 - j)).reverse

/-- Exchange of two array entries through a temporary
(`kinetic_phasetransition_utils.hpp:52-54`). -/
def swap (o : Nat → Nat) (j k : Nat) : Nat → Nat :=
  Function.update (Function.update o j (o k)) k (o j)

/-- `kinetic_phasetransition_utils.hpp:42-46`: `for j: gibbsorder[j] = j`. -/
def initOrder (n : Nat) (o : Nat → Nat) : Nat → Nat :=
  (List.range n).foldl (fun o j => Function.update o j j) o

/-- `kinetic_phasetransition_utils.hpp:49-57`: the inner `k` loop for a fixed `j`. -/
def sortRow {K : Type*} [LinearOrder K] (gibbs : Nat → K) (j : Nat) (ks : List Nat)
    (o : Nat → Nat) : Nat → Nat :=
  ks.foldl (fun o k => if gibbs (o k) > gibbs (o j) then swap o j k else o) o

/-- `kinetic_phasetransition_utils.hpp:40-59` `SortGibbs`; `o` is the caller's array before the call. -/
def sortGibbs {K : Type*} [LinearOrder K] (n : Nat) (gibbs : Nat → K) (o : Nat → Nat) : Nat → Nat :=
  (List.range (n - 1)).foldl (fun o j => sortRow gibbs j (down n j) o) (initOrder n o)

/-- `kinetic_phasetransition_utils.hpp:38` `KPT_MIN_MASS_FRACTION`. -/
noncomputable def tiny : ℝ := 1 / 10 ^ 10

/-- IEEE `log` on non-negative arguments. (kinetic_phasetransition_methods.hpp:70) -/
noncomputable def logE (x : ℝ) : WithBot ℝ := if x = 0 then ⊥ else (Real.log x : ℝ)

/-- IEEE `exp` on `[-inf, inf)`. (kinetic_phasetransition_methods.hpp:70) -/
noncomputable def expE : WithBot ℝ → ℝ
  | none => 0
  | some x => Real.exp x

/-- The documented slot of the pair `(j,k)`: `jk = (j+1)(num_phases-1) - (j-1)j/2 - k`
(`kinetic_phasetransition_methods.hpp:44-47` comment; `:58-59` computes `offset - j`). -/
def slot (n j k : Nat) : Int :=
  ((j : Int) + 1) * ((n : Int) - 1) - ((j : Int) - 1) * j / 2 - k

/-- Local state of one row of `SmallStepMFUpdate`: `new_massfrac`, `jk`, `dmfs`.
(kinetic_phasetransition_methods.hpp:51-80) -/
structure Row where
  nm : ℝ
  jk : Int
  dmfs : Int → ℝ

/-- `kinetic_phasetransition_methods.hpp:61-80`: one pass of the inner loop body (phase `j` to `k`);
`m` is `massfractions[gibbsorder[j]]`. -/
noncomputable def xfer (logdt : ℝ) (logR : Int → WithBot ℝ) (m : ℝ) (r : Row) : Row :=
  if r.nm < tiny then
    { r with jk := r.jk + 1, dmfs := Function.update r.dmfs r.jk 0 }
  else
    let dx := expE ((logdt : WithBot ℝ) + logR r.jk + logE m)
    let trial := r.nm - dx
    { nm := trial, jk := r.jk + 1,
      dmfs := Function.update r.dmfs r.jk (if trial < tiny then r.nm else dx) }

/-- State of `SmallStepMFUpdate`: the packed index and the two output arrays.
(kinetic_phasetransition_methods.hpp:38-102) -/
structure St where
  jk : Int
  dmfs : Int → ℝ
  newmfs : Nat → ℝ

/-- `kinetic_phasetransition_methods.hpp:53-60`: own mass plus what phases with higher Gibbs energy
have already recorded for `j`. -/
noncomputable def avail (n : Nat) (m : Nat → ℝ) (ord : Nat → Nat) (dmfs : Int → ℝ) (j : Nat) : ℝ :=
  (List.range j).foldl (fun a k => a + dmfs (slot n k j)) (m (ord j))

/-- `kinetic_phasetransition_methods.hpp:52-86`: one pass of the outer loop. -/
noncomputable def phaseStep (logdt : ℝ) (n : Nat) (m : Nat → ℝ) (ord : Nat → Nat)
    (logR : Int → WithBot ℝ) (s : St) (j : Nat) : St :=
  let r0 : Row := ⟨avail n m ord s.dmfs j, s.jk, s.dmfs⟩
  let r := (down n j).foldl (fun r _ => xfer logdt logR (m (ord j)) r) r0
  { jk := r.jk, dmfs := r.dmfs,
    newmfs := Function.update s.newmfs (ord j) (if r.nm < tiny then 0 else r.nm) }

/-- `kinetic_phasetransition_methods.hpp:38-97` `SmallStepMFUpdate`; `dmfs`, `newmfs` are the
contents of the output arrays before the call. -/
noncomputable def smallStep (logdt : ℝ) (n : Nat) (m : Nat → ℝ) (ord : Nat → Nat)
    (logR : Int → WithBot ℝ) (dmfs : Int → ℝ) (newmfs : Nat → ℝ) : St :=
  let s := (List.range (n - 1)).foldl (phaseStep logdt n m ord logR) ⟨0, dmfs, newmfs⟩
  { s with newmfs := Function.update s.newmfs (ord (n - 1)) (avail n m ord s.dmfs (n - 1)) }

/-- State of `LogRatesCGModel`: packed index and the two output arrays.
(kinetic_phasetransition_models.hpp:40-74) -/
structure Rates where
  jk : Int
  logR : Int → WithBot ℝ
  fromto : Int → Nat

/-- The rate written for the pair `(j,k)` (`kinetic_phasetransition_models.hpp:51-58`). -/
noncomputable def rateOf (n : Nat) (w b : Nat → ℝ) (gibbs : Nat → ℝ) (ord : Nat → Nat)
    (j k : Nat) : WithBot ℝ :=
  let dgdb := (gibbs (ord j) - gibbs (ord k)) / b (ord j * n + ord k)
  logE (w (ord j * n + ord k) * dgdb) + ((dgdb * dgdb : ℝ) : WithBot ℝ)

/-- `kinetic_phasetransition_models.hpp:39-74` `LogRatesCGModel`. -/
noncomputable def logRates (n : Nat) (w b : Nat → ℝ) (gibbs : Nat → ℝ) (ord : Nat → Nat)
    (logR : Int → WithBot ℝ) (fromto : Int → Nat) : Rates :=
  (List.range (n - 1)).foldl (fun s j =>
    (down n j).foldl (fun (s : Rates) k =>
      { jk := s.jk + 1
        logR := Function.update s.logR s.jk (rateOf n w b gibbs ord j k)
        fromto := Function.update s.fromto s.jk (ord j * 10 + ord k) }) s) ⟨0, logR, fromto⟩

/-- `std::min(ts, -r)` with `r = -inf` giving `ts` (`-(-inf) = +inf`). (kinetic_phasetransition_models.hpp:88) -/
noncomputable def minNeg (ts : ℝ) : WithBot ℝ → ℝ
  | none => ts
  | some r => min ts (-r)

/-- `kinetic_phasetransition_models.hpp:76-95` `LogMaxTimeStep`. -/
noncomputable def logMaxTimeStep (n : Nat) (mfs : Nat → ℝ) (ord : Nat → Nat)
    (logR : Int → WithBot ℝ) : ℝ :=
  ((List.range (n - 1)).foldl (fun s j =>
    (down n j).foldl (fun (s : ℝ × Int) _ =>
      if mfs (ord j) > tiny then (minNeg s.1 (logR s.2), s.2 + 1) else (s.1, s.2 + 1)) s)
    ((1 : ℝ), (0 : Int))).1

end Verif.Kinetic
