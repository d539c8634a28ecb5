import Mathlib.Algebra.Order.Field.Basic

/-!
# Model of `singularity-eos/base/root-finding-1d/root_finding.hpp`

`Real` is a linearly ordered field `K`.  The callable `f` is an arbitrary function.  NaN and infinities
are not modelled, so the `isnan`/`isinf` tests are always false.  Where the code divides by a quantity
that the model cannot show to be non-zero, the quotient is taken by a parameter `dv` (any function that
agrees with `/` for a non-zero divisor): the theorems then hold whatever the hardware returns for a
division by zero, infinities being represented by arbitrary (large) values.
`RootCounts` bookkeeping is modelled in `Model/RootCounts.lean`; `verbose` printing is omitted.
-/

namespace Verif.RootFind

variable {K : Type*} [Field K] [LinearOrder K]

/-- `root_finding.hpp:43` -/
inductive Status where
  | success
  | fail
  deriving DecidableEq

/-- `root_finding.hpp:114-116` `check_bracket`. -/
def checkBracket (ya yb : K) : Bool := decide (ya * yb ≤ 0)

/-- A bracket: end points and function values. (root_finding.hpp:80-135) -/
structure Br (K : Type*) where
  a : K
  b : K
  ya : K
  yb : K

/-- `root_finding.hpp:126-143`: the samples `i, i+1, …` of one level of `set_bracket`, stopping at the
first one that brackets with the guess. `x = a + (i + 0.5) * dx`. -/
def levelSearch (f : K → K) (a dx guess yg : K) : Nat → Nat → Option (Br K)
  | _, 0 => none
  | i, n + 1 =>
    let x := a + ((i : K) + 1 / 2) * dx
    let yx := f x
    if checkBracket yx yg then
      if x < guess then some ⟨x, guess, yx, yg⟩ else some ⟨guess, x, yg, yx⟩
    else levelSearch f a dx guess yg (i + 1) n

/-- `root_finding.hpp:124-144`: levels `level, level+1, …`; each has `1 << level` samples and, as in the
code, the same `dx = b - a` at every level. -/
def levels (f : K → K) (a dx guess yg : K) : Nat → Nat → Option (Br K)
  | _, 0 => none
  | level, n + 1 =>
    match levelSearch f a dx guess yg 0 (2 ^ level) with
    | some r => some r
    | none => levels f a dx guess yg (level + 1) n

/-- `root_finding.hpp:118-151` `set_bracket`, `max_search_depth = 6`. -/
def setBracket (f : K → K) (a guess b yg : K) : Option (Br K) :=
  levels f a (b - a) guess yg 0 6

/-- `root_finding.hpp:163-184`: choosing the initial bracket; `func x = f x - ytarget`. -/
def initBracket (func : K → K) (guess a b : K) : Option (Br K) :=
  let ya := func a
  let yg := func guess
  if checkBracket ya yg then some ⟨a, guess, ya, yg⟩
  else
    let yb := func b
    if checkBracket yg yb then some ⟨guess, b, yg, yb⟩
    else setBracket func a guess b yg

/-- Loop state of `regula_falsi`. (root_finding.hpp:183-222) -/
structure RF (K : Type*) where
  a : K
  b : K
  ya : K
  yb : K
  b1 : Nat
  b2 : Nat
  iter : Nat

/-- `root_finding.hpp:193-194`: the loop condition, `max_iter = SECANT_NITER_MAX = 1000` (`:39,161`). -/
def rfCond (xtol ytol : K) (s : RF K) : Prop :=
  s.b - s.a > 2 * xtol ∧ (|s.ya| > ytol ∨ |s.yb| > ytol) ∧ s.iter < 1000

instance (xtol ytol : K) (s : RF K) : Decidable (rfCond xtol ytol s) := by
  unfold rfCond; infer_instance

/-- `root_finding.hpp:195-221`: one pass of the loop body. -/
def rfBody (func : K → K) (sign : K) (s : RF K) : RF K :=
  let c := (s.a * s.yb - s.b * s.ya) / (s.yb - s.ya)
  if c = s.a then { s with b := s.a }
  else if c = s.b then { s with a := s.b }
  else
    let yc := sign * func c
    if yc > 0 then
      { a := s.a, b := c, yb := yc, b1 := s.b1 + 1,
        ya := s.ya * (if s.b1 + 1 > 1 then 1 / 2 else 1), b2 := 0, iter := s.iter + 1 }
    else if yc < 0 then
      { a := c, b := s.b, ya := yc, b2 := s.b2 + 1,
        yb := s.yb * (if s.b2 + 1 > 1 then 1 / 2 else 1), b1 := 0, iter := s.iter + 1 }
    else { s with a := c, b := c, iter := s.iter + 1 }

/-- The `while` loop run for at most `fuel` passes; `none` means it had not stopped by then.
(root_finding.hpp:193-222) -/
def rfLoop (func : K → K) (sign xtol ytol : K) : Nat → RF K → Option (RF K)
  | 0, s => if rfCond xtol ytol s then none else some s
  | n + 1, s => if rfCond xtol ytol s then rfLoop func sign xtol ytol n (rfBody func sign s) else some s

/-- `root_finding.hpp:186-192`: state on entering the loop. -/
def rfStart (br : Br K) : K × RF K :=
  let sign : K := if br.ya < 0 then 1 else -1
  (sign, ⟨br.a, br.b, br.ya * sign, br.yb * sign, 0, 0, 0⟩)

/-- Result of a root finder: status and the value written to `xroot` (`none`: left unwritten).
(root_finding.hpp:43, 223-240) -/
structure Res (K : Type*) where
  status : Status
  xroot : Option K

/-- `root_finding.hpp:154-240` `regula_falsi`. `fuel` bounds the passes of the `while` loop; `none` is
non-termination within that many passes. The third component is the final loop state. -/
def regulaFalsi (fuel : Nat) (f : K → K) (ytarget guess a b xtol ytol : K) :
    Option (Res K × Option (RF K)) :=
  let func := fun x => f x - ytarget
  match initBracket func guess a b with
  | none => some (⟨.fail, none⟩, none)
  | some br =>
    let st := rfStart br
    match rfLoop func st.1 xtol ytol fuel st.2 with
    | none => none
    | some s => some (⟨if s.iter = 1000 then .fail else .success, some ((s.a + s.b) / 2)⟩, some s)

/-- `root_finding.hpp:264-299` the `for` loop of `newton_raphson` with `n` passes left;
returns the last `_x`, and how it ended: converged (`some true`), out of bounds (`some false`) or
iterations used up (`none`). -/
def nrLoop (dv : K → K → K) (f : K → K × K) (ytarget a b ytol : K) : Nat → K → K × Option Bool
  | 0, x => (x, none)
  | n + 1, x =>
    let y := f x
    if |y.1 - ytarget| < |ytol * ytarget| then (x, some true)
    else
      let x' := x - dv (y.1 - ytarget) y.2
      if (x' ≤ a ∧ x ≤ a) ∨ (x' ≥ b ∧ x ≥ b) then (x', some false)
      else nrLoop dv f ytarget a b ytol n (max (min x' b) a)

/-- `root_finding.hpp:246-310` `newton_raphson`, `max_iter = NEWTON_RAPHSON_NITER_MAX = 100`. -/
def newtonRaphson (dv : K → K → K) (f : K → K × K) (ytarget guess a b ytol : K)
    (failOnBound : Bool) : Status × K :=
  let r := nrLoop dv f ytarget a b ytol 100 guess
  match r.2 with
  | some true => (.success, r.1)
  | some false => (if failOnBound then .fail else .success, r.1)
  | none => (.fail, r.1)

/-- `root_finding.hpp:388-398`: one secant update, clamped to `[xmin, xmax]`. -/
def secantStep (dv : K → K → K) (f : K → K) (ytarget xmin xmax xtol x : K) : K :=
  let dx := |1 / 10 ^ 7 * x| + xtol
  let y := f x - ytarget
  let dy := (f (x + dx) - f (x - dx)) / (2 * dx)
  let x1 := x - dv y dy
  let x2 := if x1 < xmin then xmin else x1
  if x2 > xmax then xmax else x2

/-- `root_finding.hpp:387-428`: the loop, with `n` passes left; returns `(x, x_last)`. -/
def secantLoop (dv : K → K → K) (f : K → K) (ytarget xmin xmax xtol : K) : Nat → K × K → K × K
  | 0, p => p
  | n + 1, p =>
    let x := secantStep dv f ytarget xmin xmax xtol p.1
    if |x - p.1| / (|x| + xtol) < xtol then (x, p.1)
    else secantLoop dv f ytarget xmin xmax xtol n (x, p.1)

/-- `root_finding.hpp:377-478` `secant` (`SECANT_NITER_MAX = 1000` passes). -/
def secant (dv : K → K → K) (f : K → K) (ytarget xguess xmin xmax xtol ytol : K) : Status × K :=
  let p := secantLoop dv f ytarget xmin xmax xtol 1000 (xguess, xguess)
  let y := f p.1
  let fracErr := |y - ytarget| / (|y| + ytol)
  (if |p.1 - p.2| > xtol ∨ |fracErr| > ytol then .fail else .success, p.1)

/-- `root_finding.hpp:493-515`: expanding the region, pass `i`, with `n` passes left after it;
`none` is the early `return Status::FAIL` at `i = 999`. -/
def region (f : K → K) (ytarget xmin xmax x : K) : Nat → K → Option (Br K)
  | 0, _ => none
  | n + 1, grow =>
    let dx := |grow * x|
    let br : Br K := ⟨x - dx, x + dx, f (x - dx) - ytarget, f (x + dx) - ytarget⟩
    if br.ya * br.yb < 0 ∨ br.a < xmin ∨ br.b > xmax then some br
    else region f ytarget xmin xmax x n (grow * (11 / 10))

/-- `root_finding.hpp:517-560`: forcing the region back and repairing equal signs. -/
def repair (f : K → K) (ytarget xmin xmax : K) (br : Br K) : Option (Br K) :=
  let br := if br.b > xmax then { br with b := xmax, yb := f xmax - ytarget } else br
  let br := if br.a < xmin then { br with a := xmin, ya := f xmin - ytarget } else br
  if br.ya * br.yb > 0 then
    let br := { br with a := xmin, ya := f xmin - ytarget }
    if br.ya * br.yb > 0 then
      let br := { br with b := xmax, yb := f xmax - ytarget }
      if br.ya * br.yb > 0 then none else some br
    else some br
  else some br

/-- `root_finding.hpp:563-571`: one halving. -/
def bisectStep (f : K → K) (ytarget : K) (br : Br K) : Br K :=
  let xm := 1 / 2 * (br.a + br.b)
  let fm := f xm - ytarget
  if br.ya * fm ≤ 0 then { br with b := xm, yb := fm } else { br with a := xm, ya := fm }

/-- `root_finding.hpp:562-578`: at most `n` halvings; the flag tells whether the width fell below
`xtol`. -/
def bisectLoop (f : K → K) (ytarget xtol : K) : Nat → Br K → Bool × Br K
  | 0, br => (false, br)
  | n + 1, br =>
    let br' := bisectStep f ytarget br
    if br'.b - br'.a < xtol then (true, br') else bisectLoop f ytarget xtol n br'

/-- `root_finding.hpp:480-603` `bisect`; `BISECT_NITER_MAX = BISECT_REG_MAX = 1000` (`:40-41`). The final bracket is returned as well. -/
def bisect (f : K → K) (ytarget xguess xmin xmax xtol : K) : Res K × Option (Br K) :=
  let x := if |xguess| < xtol then xguess + 2 * xtol else xguess
  match region f ytarget xmin xmax x 1000 (1 / 100) with
  | none => (⟨.fail, none⟩, none)
  | some br =>
    match repair f ytarget xmin xmax br with
    | none => (⟨.fail, none⟩, none)
    | some br =>
      let r := bisectLoop f ytarget xtol 1000 br
      (⟨if r.1 then .success else .fail, some (1 / 2 * (r.2.a + r.2.b))⟩, some r.2)

/-- `root_finding.hpp:312-375` `findRoot`. -/
def findRoot (dv : K → K → K) (f : K → K) (ytarget xguess xmin xmax xtol ytol : K) : Res K :=
  if |f xmax - ytarget| / (|f xmax| + ytol) < ytol then ⟨.success, some xmax⟩
  else if |f xmin - ytarget| / (|f xmin| + ytol) < ytol then ⟨.success, some xmin⟩
  else
    let g := if xguess ≥ xmax then xmax - xtol else xguess
    let g := if g ≤ xmin then xmin + xtol else g
    let s := secant dv f ytarget g xmin xmax xtol ytol
    if s.1 = .success then ⟨.success, some s.2⟩
    else
      let r := (bisect f ytarget g xmin xmax xtol).1
      let xroot := r.xroot.getD s.2
      if xroot < xmin then ⟨.fail, some xroot⟩
      else if xroot > xmax then ⟨.fail, some xroot⟩
      else ⟨r.status, some xroot⟩

end Verif.RootFind
