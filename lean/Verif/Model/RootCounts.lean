import Verif.Model.RootFind

/-!
# Model of the statistics kept by the root finders (`root_finding.hpp:71-112` `RootCounts`)

The counters are kept in a function `Nat → Nat` (the code keeps them as `Real`, exact up to 2^53); an increment outside
the array is `none` (`PORTABLE_REQUIRE`).  Modelled for `PORTABILITY_STRATEGY_NONE`, where increments are compiled in.
-/

namespace Verif.RootFind

/-- `root_finding.hpp:73` `nbins_`. -/
def nbins : Nat := 15

/-- `root_finding.hpp:77-85`: the constructor and `reset`, over the array's previous contents. -/
def countsReset (c : Nat → Nat) : Nat → Nat := fun i => if i < nbins then 0 else c i

/-- `root_finding.hpp:86-91` `increment`. -/
def increment (c : Nat → Nat) (i : Nat) : Option (Nat → Nat) :=
  if i < nbins then some (fun j => if j = i then c j + 1 else c j) else none

/-- `root_finding.hpp:111` `more()`. -/
def more : Nat := nbins - 1

/-- `root_finding.hpp:231-237, 301-307, 431-437`: the block recording an iteration count. -/
def record (c : Nat → Nat) (iter : Nat) : Option (Nat → Nat) :=
  if iter < nbins then increment c iter else increment c more

variable {K : Type*} [Field K] [LinearOrder K]

/-- `root_finding.hpp:92-97` `total()`: starts from `1.e-20`. -/
def countsTotal (c : Nat → Nat) : K := (List.range nbins).foldl (fun t i => t + (c i : K)) (1 / 10 ^ 20)

/-- `root_finding.hpp:264-299` `newton_raphson`, the loop variable `iter` at exit: `i` is its value now, `n` the passes
left. -/
def nrIter (dv : K → K → K) (f : K → K × K) (ytarget a b ytol : K) : Nat → Nat → K → Nat
  | 0, i, _ => i
  | n + 1, i, x =>
    let y := f x
    if |y.1 - ytarget| < |ytol * ytarget| then i
    else
      let x' := x - dv (y.1 - ytarget) y.2
      if (x' ≤ a ∧ x ≤ a) ∨ (x' ≥ b ∧ x ≥ b) then i
      else nrIter dv f ytarget a b ytol n (i + 1) (max (min x' b) a)

/-- `root_finding.hpp:387-430` `secant`, `iter` after the final `++iter`. -/
def secantIter (dv : K → K → K) (f : K → K) (ytarget xmin xmax xtol : K) : Nat → Nat → K → Nat
  | 0, i, _ => i + 1
  | n + 1, i, xl =>
    let x := secantStep dv f ytarget xmin xmax xtol xl
    if |x - xl| / (|x| + xtol) < xtol then i + 1
    else secantIter dv f ytarget xmin xmax xtol n (i + 1) x

/-- One call of a root finder with a `RootCounts` pointer: its arguments.
(root_finding.hpp:155-160, 247-252, 313-316, 378-381) -/
inductive Call (K : Type*) where
  | regulaFalsi (f : K → K) (ytarget guess a b xtol ytol : K)
  | newton (f : K → K × K) (ytarget guess a b ytol : K)
  | secant (f : K → K) (ytarget guess xmin xmax xtol ytol : K)
  | findRoot (f : K → K) (ytarget guess xmin xmax xtol ytol : K)
  | bisect (f : K → K) (ytarget guess xmin xmax xtol : K)

/-- The iteration number the call records, `none` when it records nothing: `regula_falsi` (`:181,231-237`: nothing when
no bracket is found), `newton_raphson` (`:301-307`), `secant` (`:429-437`), `findRoot` (`:320-343`: zero at an end point,
otherwise the secant call's), `bisect` never.  `regula_falsi` is run with fuel 1000; a call that does not stop by then
(none does, for a nonnegative tolerance) is recorded as nothing. -/
def Call.iters (dv : K → K → K) : Call K → Option Nat
  | .regulaFalsi f yt g a b xt yl =>
    match Verif.RootFind.regulaFalsi 1000 f yt g a b xt yl with
    | some (_, some s) => some s.iter
    | _ => none
  | .newton f yt g a b yl => some (nrIter dv f yt a b yl 100 0 g)
  | .secant f yt g x0 x1 xt _ => some (secantIter dv f yt x0 x1 xt 1000 0 g)
  | .findRoot f yt g x0 x1 xt yl =>
    if |f x1 - yt| / (|f x1| + yl) < yl then some 0
    else if |f x0 - yt| / (|f x0| + yl) < yl then some 0
    else
      let g := if g ≥ x1 then x1 - xt else g
      let g := if g ≤ x0 then x0 + xt else g
      some (secantIter dv f yt x0 x1 xt 1000 0 g)
  | .bisect .. => none

/-- The counters after one call. (root_finding.hpp:231-237, 301-307, 324-335, 431-437) -/
def runCall (dv : K → K → K) (c : Nat → Nat) (x : Call K) : Option (Nat → Nat) :=
  match x.iters dv with
  | none => some c
  | some i => record c i

/-- The counters after a sequence of calls sharing them. (root_finding.hpp:71-112) -/
def runCalls (dv : K → K → K) : (Nat → Nat) → List (Call K) → Option (Nat → Nat)
  | c, [] => some c
  | c, x :: xs => (runCall dv c x).bind fun c' => runCalls dv c' xs

end Verif.RootFind
