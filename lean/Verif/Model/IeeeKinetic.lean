import Verif.Model.Kinetic
import Verif.Model.IeeeModifiers

/-! # The kinetic phase transition helpers on machine numbers

`closure/kinetic_phasetransition_utils.hpp`, `..._models.hpp`, `..._methods.hpp` with IEEE arithmetic, infinities and NaN; `log` and `exp`
are the functions of the C library, whatever they are. `int` is unbounded and arrays are total functions, as in `Model/Kinetic`. -/

namespace Verif.Kinetic

open Ieee Classical

/-- `kinetic_phasetransition_utils.hpp:49-57`: the inner `k` loop of `SortGibbs` for a fixed `j`, with the machine's `>`. -/
noncomputable def sortRowM (gibbs : Nat → Ext) (j : Nat) (ks : List Nat) (o : Nat → Nat) : Nat → Nat :=
  ks.foldl (fun o k => if lt (gibbs (o j)) (gibbs (o k)) then swap o j k else o) o

/-- `kinetic_phasetransition_utils.hpp:40-59` `SortGibbs`; `o` is the caller's array before the call. -/
noncomputable def sortGibbsM (n : Nat) (gibbs : Nat → Ext) (o : Nat → Nat) : Nat → Nat :=
  (List.range (n - 1)).foldl (fun o j => sortRowM gibbs j (down n j) o) (initOrder n o)

/-- The rate written for the pair `(j,k)`, every operation rounded (`kinetic_phasetransition_models.hpp:51-58`). -/
noncomputable def rateOfM (rnd : ℝ → ℝ) (Ω : ℝ) (log : Ext → Ext) (n : Nat) (w b gibbs : Nat → Ext) (ord : Nat → Nat) (j k : Nat) : Ext :=
  let dgdb := div rnd Ω (sub rnd Ω (gibbs (ord j)) (gibbs (ord k))) (b (ord j * n + ord k))
  add rnd Ω (log (mul rnd Ω (w (ord j * n + ord k)) dgdb)) (mul rnd Ω dgdb dgdb)

/-- `kinetic_phasetransition_models.hpp:39-74` `LogRatesCGModel`: the packed index and `logRjk` (`fromto` is integer work, see
`Model/Kinetic`). -/
noncomputable def logRatesM (rnd : ℝ → ℝ) (Ω : ℝ) (log : Ext → Ext) (n : Nat) (w b gibbs : Nat → Ext) (ord : Nat → Nat)
    (logR : Int → Ext) : Int × (Int → Ext) :=
  (List.range (n - 1)).foldl (fun s j =>
    (down n j).foldl (fun (s : Int × (Int → Ext)) k =>
      (s.1 + 1, Function.update s.2 s.1 (rateOfM rnd Ω log n w b gibbs ord j k))) s) (0, logR)

/-- `kinetic_phasetransition_utils.hpp:38` `KPT_MIN_MASS_FRACTION`, the double nearest to `1.0e-10`. -/
noncomputable def tinyM (rnd : ℝ → ℝ) : ℝ := rnd tiny

/-- `std::min(x, y)`: `(y < x) ? y : x` (kinetic_phasetransition_models.hpp:88). -/
noncomputable def minM (x y : Ext) : Ext := if lt y x then y else x

/-- `kinetic_phasetransition_models.hpp:76-95` `LogMaxTimeStep`. -/
noncomputable def logMaxTimeStepM (rnd : ℝ → ℝ) (n : Nat) (mfs : Nat → Ext) (ord : Nat → Nat) (logR : Int → Ext) : Ext :=
  ((List.range (n - 1)).foldl (fun s j =>
    (down n j).foldl (fun (s : Ext × Int) _ =>
      if lt (.fin (tinyM rnd)) (mfs (ord j)) then (minM s.1 (neg (logR s.2)), s.2 + 1) else (s.1, s.2 + 1)) s)
    (Ext.fin 1, (0 : Int))).1

/-- Local state of one row of `SmallStepMFUpdate`: `new_massfrac`, `jk`, `dmfs`. (kinetic_phasetransition_methods.hpp:51-80) -/
structure RowM where
  nm : Ext
  jk : Int
  dmfs : Int → Ext

/-- `kinetic_phasetransition_methods.hpp:61-80`: one pass of the inner loop body; `m` is `massfractions[gibbsorder[j]]`. The sum in the
exponent is evaluated from left to right. -/
noncomputable def xferM (rnd : ℝ → ℝ) (Ω : ℝ) (log exp : Ext → Ext) (logdt : Ext) (logR : Int → Ext) (m : Ext) (r : RowM) : RowM :=
  if lt r.nm (.fin (tinyM rnd)) then
    { r with
      jk := r.jk + 1
      dmfs := Function.update r.dmfs r.jk (.fin 0) }
  else
    let dx := exp (add rnd Ω (add rnd Ω logdt (logR r.jk)) (log m))
    let trial := sub rnd Ω r.nm dx
    { nm := trial
      jk := r.jk + 1
      dmfs := Function.update r.dmfs r.jk (if lt trial (.fin (tinyM rnd)) then r.nm else dx) }

/-- State of `SmallStepMFUpdate`: the packed index and the two output arrays. (kinetic_phasetransition_methods.hpp:38-102) -/
structure StM where
  jk : Int
  dmfs : Int → Ext
  newmfs : Nat → Ext

/-- `kinetic_phasetransition_methods.hpp:53-60`: own mass plus what phases with higher Gibbs energy have already recorded for `j`. -/
noncomputable def availM (rnd : ℝ → ℝ) (Ω : ℝ) (n : Nat) (m : Nat → Ext) (ord : Nat → Nat) (dmfs : Int → Ext) (j : Nat) : Ext :=
  (List.range j).foldl (fun a k => add rnd Ω a (dmfs (slot n k j))) (m (ord j))

/-- `kinetic_phasetransition_methods.hpp:52-86`: one pass of the outer loop. -/
noncomputable def phaseStepM (rnd : ℝ → ℝ) (Ω : ℝ) (log exp : Ext → Ext) (logdt : Ext) (n : Nat) (m : Nat → Ext) (ord : Nat → Nat)
    (logR : Int → Ext) (s : StM) (j : Nat) : StM :=
  let r0 : RowM := ⟨availM rnd Ω n m ord s.dmfs j, s.jk, s.dmfs⟩
  let r := (down n j).foldl (fun r _ => xferM rnd Ω log exp logdt logR (m (ord j)) r) r0
  { jk := r.jk
    dmfs := r.dmfs
    newmfs := Function.update s.newmfs (ord j) (if lt r.nm (.fin (tinyM rnd)) then .fin 0 else r.nm) }

/-- `kinetic_phasetransition_methods.hpp:38-97` `SmallStepMFUpdate`; `dmfs`, `newmfs` are the contents of the output arrays before the
call. -/
noncomputable def smallStepM (rnd : ℝ → ℝ) (Ω : ℝ) (log exp : Ext → Ext) (logdt : Ext) (n : Nat) (m : Nat → Ext) (ord : Nat → Nat)
    (logR : Int → Ext) (dmfs : Int → Ext) (newmfs : Nat → Ext) : StM :=
  let s := (List.range (n - 1)).foldl (phaseStepM rnd Ω log exp logdt n m ord logR) ⟨0, dmfs, newmfs⟩
  { s with newmfs := Function.update s.newmfs (ord (n - 1)) (availM rnd Ω n m ord s.dmfs (n - 1)) }

end Verif.Kinetic
