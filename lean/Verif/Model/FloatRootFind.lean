import Verif.Model.RootFind
import Mathlib.Data.Real.Basic

/-!
# `regula_falsi` with every arithmetic operation rounded

The same functions as in `Model/RootFind`, with `rnd` the rounding of the machine's `+`, `-`, `*` and `/`. Comparisons are exact.
Simplification: no overflow, NaN or signed zeros; the caller's `f` is any function and is expected to return rounded values.
-/

namespace Verif.RootFind

open Real

/-- `root_finding.hpp:114-116` `check_bracket`: the product is rounded. -/
noncomputable def checkBracketFl (rnd : ℝ → ℝ) (ya yb : ℝ) : Bool := decide (rnd (ya * yb) ≤ 0)

/-- `root_finding.hpp:126-143`: one level of `set_bracket`, `x = a + (i + 0.5) * dx`. -/
noncomputable def levelSearchFl (rnd : ℝ → ℝ) (f : ℝ → ℝ) (a dx guess yg : ℝ) : Nat → Nat → Option (Br ℝ)
  | _, 0 => none
  | i, n + 1 =>
    let x := rnd (a + rnd (rnd ((i : ℝ) + 1 / 2) * dx))
    let yx := f x
    if checkBracketFl rnd yx yg then
      if x < guess then some ⟨x, guess, yx, yg⟩ else some ⟨guess, x, yg, yx⟩
    else levelSearchFl rnd f a dx guess yg (i + 1) n

/-- `root_finding.hpp:124-144`: the levels of `set_bracket`. -/
noncomputable def levelsFl (rnd : ℝ → ℝ) (f : ℝ → ℝ) (a dx guess yg : ℝ) : Nat → Nat → Option (Br ℝ)
  | _, 0 => none
  | level, n + 1 =>
    match levelSearchFl rnd f a dx guess yg 0 (2 ^ level) with
    | some r => some r
    | none => levelsFl rnd f a dx guess yg (level + 1) n

/-- `root_finding.hpp:118-151` `set_bracket`. -/
noncomputable def setBracketFl (rnd : ℝ → ℝ) (f : ℝ → ℝ) (a guess b yg : ℝ) : Option (Br ℝ) :=
  levelsFl rnd f a (rnd (b - a)) guess yg 0 6

/-- `root_finding.hpp:163-184`: choosing the initial bracket. -/
noncomputable def initBracketFl (rnd : ℝ → ℝ) (func : ℝ → ℝ) (guess a b : ℝ) : Option (Br ℝ) :=
  let ya := func a
  let yg := func guess
  if checkBracketFl rnd ya yg then some ⟨a, guess, ya, yg⟩
  else
    let yb := func b
    if checkBracketFl rnd yg yb then some ⟨guess, b, yg, yb⟩
    else setBracketFl rnd func a guess b yg

/-- `root_finding.hpp:193-194`: the loop condition. -/
def rfCondFl (rnd : ℝ → ℝ) (xtol ytol : ℝ) (s : RF ℝ) : Prop :=
  rnd (s.b - s.a) > rnd (2 * xtol) ∧ (|s.ya| > ytol ∨ |s.yb| > ytol) ∧ s.iter < 1000

/-- `root_finding.hpp:195`: the secant through the two ends. -/
noncomputable def rfSecantFl (rnd : ℝ → ℝ) (s : RF ℝ) : ℝ :=
  rnd (rnd (rnd (s.a * s.yb) - rnd (s.b * s.ya)) / rnd (s.yb - s.ya))

/-- `root_finding.hpp:195-221`: one pass of the loop body. -/
noncomputable def rfBodyFl (rnd : ℝ → ℝ) (func : ℝ → ℝ) (sign : ℝ) (s : RF ℝ) : RF ℝ :=
  let c := rfSecantFl rnd s
  if c = s.a then { s with b := s.a }
  else if c = s.b then { s with a := s.b }
  else
    let yc := rnd (sign * func c)
    if yc > 0 then
      { a := s.a, b := c, yb := yc, b1 := s.b1 + 1,
        ya := rnd (s.ya * (if s.b1 + 1 > 1 then 1 / 2 else 1)), b2 := 0, iter := s.iter + 1 }
    else if yc < 0 then
      { a := c, b := s.b, ya := yc, b2 := s.b2 + 1,
        yb := rnd (s.yb * (if s.b2 + 1 > 1 then 1 / 2 else 1)), b1 := 0, iter := s.iter + 1 }
    else { s with a := c, b := c, iter := s.iter + 1 }

open Classical in
/-- `root_finding.hpp:193-222`: the `while` loop run for at most `fuel` passes; `none`: not finished by then. -/
noncomputable def rfLoopFl (rnd : ℝ → ℝ) (func : ℝ → ℝ) (sign xtol ytol : ℝ) : Nat → RF ℝ → Option (RF ℝ)
  | 0, s => if rfCondFl rnd xtol ytol s then none else some s
  | n + 1, s =>
    if rfCondFl rnd xtol ytol s then rfLoopFl rnd func sign xtol ytol n (rfBodyFl rnd func sign s) else some s

/-- `root_finding.hpp:186-192`: state on entering the loop. -/
noncomputable def rfStartFl (rnd : ℝ → ℝ) (br : Br ℝ) : ℝ × RF ℝ :=
  let sign : ℝ := if br.ya < 0 then 1 else -1
  (sign, ⟨br.a, br.b, rnd (br.ya * sign), rnd (br.yb * sign), 0, 0, 0⟩)

/-- `root_finding.hpp:154-240` `regula_falsi`. -/
noncomputable def regulaFalsiFl (rnd : ℝ → ℝ) (fuel : Nat) (f : ℝ → ℝ) (ytarget guess a b xtol ytol : ℝ) : Option (Res ℝ) :=
  let func := fun x => rnd (f x - ytarget)
  match initBracketFl rnd func guess a b with
  | none => some ⟨.fail, none⟩
  | some br =>
    let st := rfStartFl rnd br
    match rfLoopFl rnd func st.1 xtol ytol fuel st.2 with
    | none => none
    | some s => some ⟨if s.iter = 1000 then .fail else .success, some (rnd (1 / 2 * rnd (s.a + s.b)))⟩

end Verif.RootFind
