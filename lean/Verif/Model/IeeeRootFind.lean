import Verif.Model.IeeeModifiers
import Verif.Model.IeeeRobust
import Verif.Model.RootFind

/-! # `root_finding.hpp` on machine numbers

The four root finders of `Model/RootFind` with IEEE arithmetic: every operation rounded, overflow to infinities, NaN. The callable is
any function from machine numbers to machine numbers. `rnd` and `Ω` are the rounding and the largest finite number; signed zeros are
not distinguished. `RootCounts` and printing are left out (`Model/RootCounts`). -/

namespace Verif.Ieee

open Classical RootFind

/-- `std::abs`, `fabs` (root_finding.hpp:193, 317, 389). -/
noncomputable def absE : Ext → Ext
  | .nan => .nan
  | .inf _ => .inf false
  | .fin x => .fin |x|

/-- `x == y`: false if either is NaN (root_finding.hpp:197, 200). -/
def eqE (x y : Ext) : Prop := x ≠ .nan ∧ x = y

/-- `std::isnan(x) || std::isinf(x)` (root_finding.hpp:364, 401, 477). -/
def notFinite : Ext → Prop
  | .fin _ => False
  | _ => True

/-- A decimal literal of the source, rounded by the compiler (`1.e-7`, `0.01`, `1.1`: root_finding.hpp:389, 487, 500). -/
noncomputable def lit (rnd : ℝ → ℝ) (x : ℝ) : Ext := .fin (rnd x)

variable (rnd : ℝ → ℝ) (Ω : ℝ)

/-- `root_finding.hpp:114-116` `check_bracket`: `ya * yb <= 0.0`. -/
def checkBracketE (ya yb : Ext) : Prop := le (mul rnd Ω ya yb) (.fin 0)

/-- `root_finding.hpp:126-143`: one level of `set_bracket`, `x = a + (i + 0.5) * dx`; `i + 0.5` is exact for `i < 32`. -/
noncomputable def levelSearchE (f : Ext → Ext) (a dx guess yg : Ext) : Nat → Nat → Option (Br Ext)
  | _, 0 => none
  | i, n + 1 =>
    let x := add rnd Ω a (mul rnd Ω (.fin ((i : ℝ) + 1 / 2)) dx)
    let yx := f x
    if checkBracketE rnd Ω yx yg then
      if lt x guess then some ⟨x, guess, yx, yg⟩ else some ⟨guess, x, yg, yx⟩
    else levelSearchE f a dx guess yg (i + 1) n

/-- `root_finding.hpp:124-144`: the levels of `set_bracket`. -/
noncomputable def levelsE (f : Ext → Ext) (a dx guess yg : Ext) : Nat → Nat → Option (Br Ext)
  | _, 0 => none
  | level, n + 1 =>
    match levelSearchE rnd Ω f a dx guess yg 0 (2 ^ level) with
    | some r => some r
    | none => levelsE f a dx guess yg (level + 1) n

/-- `root_finding.hpp:118-151` `set_bracket`. -/
noncomputable def setBracketE (f : Ext → Ext) (a guess b yg : Ext) : Option (Br Ext) :=
  levelsE rnd Ω f a (sub rnd Ω b a) guess yg 0 6

/-- `root_finding.hpp:163-184`: choosing the initial bracket. -/
noncomputable def initBracketE (func : Ext → Ext) (guess a b : Ext) : Option (Br Ext) :=
  let ya := func a
  let yg := func guess
  if checkBracketE rnd Ω ya yg then some ⟨a, guess, ya, yg⟩
  else
    let yb := func b
    if checkBracketE rnd Ω yg yb then some ⟨guess, b, yg, yb⟩
    else setBracketE rnd Ω func a guess b yg

/-- `root_finding.hpp:193-194`: the loop condition. -/
def rfCondE (xtol ytol : Ext) (s : RF Ext) : Prop :=
  lt (mul rnd Ω (.fin 2) xtol) (sub rnd Ω s.b s.a) ∧ (lt ytol (absE s.ya) ∨ lt ytol (absE s.yb)) ∧ s.iter < 1000

/-- `root_finding.hpp:195`: the secant through the two ends. -/
noncomputable def rfSecantE (s : RF Ext) : Ext :=
  div rnd Ω (sub rnd Ω (mul rnd Ω s.a s.yb) (mul rnd Ω s.b s.ya)) (sub rnd Ω s.yb s.ya)

/-- `root_finding.hpp:195-221`: one pass of the loop body. -/
noncomputable def rfBodyE (func : Ext → Ext) (sign : Ext) (s : RF Ext) : RF Ext :=
  let c := rfSecantE rnd Ω s
  if eqE c s.a then { s with b := s.a }
  else if eqE c s.b then { s with a := s.b }
  else
    let yc := mul rnd Ω sign (func c)
    if lt (.fin 0) yc then
      { a := s.a, b := c, yb := yc, b1 := s.b1 + 1,
        ya := mul rnd Ω s.ya (.fin (if s.b1 + 1 > 1 then 1 / 2 else 1)), b2 := 0, iter := s.iter + 1 }
    else if lt yc (.fin 0) then
      { a := c, b := s.b, ya := yc, b2 := s.b2 + 1,
        yb := mul rnd Ω s.yb (.fin (if s.b2 + 1 > 1 then 1 / 2 else 1)), b1 := 0, iter := s.iter + 1 }
    else { s with a := c, b := c, iter := s.iter + 1 }

/-- `root_finding.hpp:193-222`: the `while` loop run for at most `fuel` passes; `none`: not finished by then. -/
noncomputable def rfLoopE (func : Ext → Ext) (sign xtol ytol : Ext) : Nat → RF Ext → Option (RF Ext)
  | 0, s => if rfCondE rnd Ω xtol ytol s then none else some s
  | n + 1, s => if rfCondE rnd Ω xtol ytol s then rfLoopE func sign xtol ytol n (rfBodyE rnd Ω func sign s) else some s

/-- `root_finding.hpp:186-192`: state on entering the loop. -/
noncomputable def rfStartE (br : Br Ext) : Ext × RF Ext :=
  let sign : Ext := if lt br.ya (.fin 0) then .fin 1 else .fin (-1)
  (sign, ⟨br.a, br.b, mul rnd Ω br.ya sign, mul rnd Ω br.yb sign, 0, 0, 0⟩)

/-- `root_finding.hpp:154-240` `regula_falsi`. -/
noncomputable def regulaFalsiE (fuel : Nat) (f : Ext → Ext) (ytarget guess a b xtol ytol : Ext) : Option (Res Ext) :=
  let func := fun x => sub rnd Ω (f x) ytarget
  match initBracketE rnd Ω func guess a b with
  | none => some ⟨.fail, none⟩
  | some br =>
    let st := rfStartE rnd Ω br
    match rfLoopE rnd Ω func st.1 xtol ytol fuel st.2 with
    | none => none
    | some s => some ⟨if s.iter = 1000 then .fail else .success, some (mul rnd Ω (.fin (1 / 2)) (add rnd Ω s.a s.b))⟩

/-- `root_finding.hpp:264-299` the `for` loop of `newton_raphson` with `n` passes left (see `RootFind.nrLoop`). -/
noncomputable def nrLoopE (f : Ext → Ext × Ext) (ytarget a b ytol : Ext) : Nat → Ext → Ext × Option Bool
  | 0, x => (x, none)
  | n + 1, x =>
    let y := f x
    if lt (absE (sub rnd Ω y.1 ytarget)) (absE (mul rnd Ω ytol ytarget)) then (x, some true)
    else
      let x' := sub rnd Ω x (div rnd Ω (sub rnd Ω y.1 ytarget) y.2)
      if (le x' a ∧ le x a) ∨ (le b x' ∧ le b x) then (x', some false)
      else nrLoopE f ytarget a b ytol n (stdMax (stdMin x' b) a)

/-- `root_finding.hpp:246-310` `newton_raphson`, `max_iter = NEWTON_RAPHSON_NITER_MAX = 100`. -/
noncomputable def newtonRaphsonE (f : Ext → Ext × Ext) (ytarget guess a b ytol : Ext) (failOnBound : Bool) : Status × Ext :=
  let r := nrLoopE rnd Ω f ytarget a b ytol 100 guess
  match r.2 with
  | some true => (.success, r.1)
  | some false => (if failOnBound then .fail else .success, r.1)
  | none => (.fail, r.1)

/-- `root_finding.hpp:388-398`: one secant update, clamped to `[xmin, xmax]`. -/
noncomputable def secantStepE (f : Ext → Ext) (ytarget xmin xmax xtol x : Ext) : Ext :=
  let dx := add rnd Ω (absE (mul rnd Ω (lit rnd (1 / 10 ^ 7)) x)) xtol
  let y := sub rnd Ω (f x) ytarget
  let dy := div rnd Ω (sub rnd Ω (f (add rnd Ω x dx)) (f (sub rnd Ω x dx))) (mul rnd Ω (.fin 2) dx)
  let x1 := sub rnd Ω x (div rnd Ω y dy)
  let x2 := if lt x1 xmin then xmin else x1
  if lt xmax x2 then xmax else x2

/-- `root_finding.hpp:387-428`: the loop, with `n` passes left; `none`: the early `return Status::FAIL` at an `x` that is NaN or
infinite; otherwise `(x, x_last)`. -/
noncomputable def secantLoopE (f : Ext → Ext) (ytarget xmin xmax xtol : Ext) : Nat → Ext × Ext → Option (Ext × Ext)
  | 0, p => some p
  | n + 1, p =>
    let x := secantStepE rnd Ω f ytarget xmin xmax xtol p.1
    if notFinite x then none
    else if lt (div rnd Ω (absE (sub rnd Ω x p.1)) (add rnd Ω (absE x) xtol)) xtol then some (x, p.1)
    else secantLoopE f ytarget xmin xmax xtol n (x, p.1)

/-- `root_finding.hpp:377-478` `secant`; `xroot0` is the value of the output argument at the call, left in place by an early
return. -/
noncomputable def secantE (f : Ext → Ext) (ytarget xguess xmin xmax xtol ytol xroot0 : Ext) : Status × Ext :=
  match secantLoopE rnd Ω f ytarget xmin xmax xtol 1000 (xguess, xguess) with
  | none => (.fail, xroot0)
  | some p =>
    let y := f p.1
    let fracErr := div rnd Ω (absE (sub rnd Ω y ytarget)) (add rnd Ω (absE y) ytol)
    (if lt xtol (absE (sub rnd Ω p.1 p.2)) ∨ lt ytol (absE fracErr) ∨ notFinite p.1 then .fail else .success, p.1)

/-- `root_finding.hpp:493-515`: expanding the region (see `RootFind.region`). -/
noncomputable def regionE (f : Ext → Ext) (ytarget xmin xmax x : Ext) : Nat → Ext → Option (Br Ext)
  | 0, _ => none
  | n + 1, grow =>
    let dx := absE (mul rnd Ω grow x)
    let xl := sub rnd Ω x dx
    let xr := add rnd Ω x dx
    let br : Br Ext := ⟨xl, xr, sub rnd Ω (f xl) ytarget, sub rnd Ω (f xr) ytarget⟩
    if lt (mul rnd Ω br.ya br.yb) (.fin 0) ∨ lt br.a xmin ∨ lt xmax br.b then some br
    else regionE f ytarget xmin xmax x n (mul rnd Ω grow (lit rnd (11 / 10)))

/-- `root_finding.hpp:517-560`: forcing the region back and repairing equal signs. -/
noncomputable def repairE (f : Ext → Ext) (ytarget xmin xmax : Ext) (br : Br Ext) : Option (Br Ext) :=
  let br := if lt xmax br.b then { br with b := xmax, yb := sub rnd Ω (f xmax) ytarget } else br
  let br := if lt br.a xmin then { br with a := xmin, ya := sub rnd Ω (f xmin) ytarget } else br
  if lt (.fin 0) (mul rnd Ω br.ya br.yb) then
    let br := { br with a := xmin, ya := sub rnd Ω (f xmin) ytarget }
    if lt (.fin 0) (mul rnd Ω br.ya br.yb) then
      let br := { br with b := xmax, yb := sub rnd Ω (f xmax) ytarget }
      if lt (.fin 0) (mul rnd Ω br.ya br.yb) then none else some br
    else some br
  else some br

/-- `root_finding.hpp:563-571`: one halving. -/
noncomputable def bisectStepE (f : Ext → Ext) (ytarget : Ext) (br : Br Ext) : Br Ext :=
  let xm := mul rnd Ω (.fin (1 / 2)) (add rnd Ω br.a br.b)
  let fm := sub rnd Ω (f xm) ytarget
  if le (mul rnd Ω br.ya fm) (.fin 0) then { br with b := xm, yb := fm } else { br with a := xm, ya := fm }

/-- `root_finding.hpp:562-578`: at most `n` halvings; the flag tells whether the width fell below `xtol`. -/
noncomputable def bisectLoopE (f : Ext → Ext) (ytarget xtol : Ext) : Nat → Br Ext → Bool × Br Ext
  | 0, br => (false, br)
  | n + 1, br =>
    let br' := bisectStepE rnd Ω f ytarget br
    if lt (sub rnd Ω br'.b br'.a) xtol then (true, br') else bisectLoopE f ytarget xtol n br'

/-- `root_finding.hpp:480-603` `bisect`; `xroot0` as in `secantE`. -/
noncomputable def bisectE (f : Ext → Ext) (ytarget xguess xmin xmax xtol xroot0 : Ext) : Status × Ext :=
  let x := if lt (absE xguess) xtol then add rnd Ω xguess (mul rnd Ω (.fin 2) xtol) else xguess
  match regionE rnd Ω f ytarget xmin xmax x 1000 (lit rnd (1 / 100)) with
  | none => (.fail, xroot0)
  | some br =>
    match repairE rnd Ω f ytarget xmin xmax br with
    | none => (.fail, xroot0)
    | some br =>
      let r := bisectLoopE rnd Ω f ytarget xtol 1000 br
      (if r.1 then .success else .fail, mul rnd Ω (.fin (1 / 2)) (add rnd Ω r.2.a r.2.b))

/-- `root_finding.hpp:312-375` `findRoot`. -/
noncomputable def findRootE (f : Ext → Ext) (ytarget xguess xmin xmax xtol ytol xroot0 : Ext) : Status × Ext :=
  if lt (div rnd Ω (absE (sub rnd Ω (f xmax) ytarget)) (add rnd Ω (absE (f xmax)) ytol)) ytol then (.success, xmax)
  else if lt (div rnd Ω (absE (sub rnd Ω (f xmin) ytarget)) (add rnd Ω (absE (f xmin)) ytol)) ytol then (.success, xmin)
  else
    let g := if le xmax xguess then sub rnd Ω xmax xtol else xguess
    let g := if le g xmin then add rnd Ω xmin xtol else g
    let s := secantE rnd Ω f ytarget g xmin xmax xtol ytol xroot0
    if s.1 = .success then (.success, s.2)
    else
      let r := bisectE rnd Ω f ytarget g xmin xmax xtol s.2
      if notFinite r.2 then (.fail, r.2)
      else if lt r.2 xmin then (.fail, r.2)
      else if lt xmax r.2 then (.fail, r.2)
      else r

end Verif.Ieee
