import Verif.Props.EosBase
import Verif.Props.RootFindRate

set_option linter.unusedSectionVars false

/-! # C52: accuracy of the base class's energy from density and pressure for pressures that are not affine -/

namespace Verif.Base

open Verif.Mods Verif.RootFind

variable {K Λ : Type*} [Field K] [LinearOrder K] [IsStrictOrderedRing K]

/-- C52: base-class energy from density and pressure. Let the requested pressure be taken at an energy `root` strictly
between the energies at the lowest and at the highest (`1e20`) temperature, and let the chords of the pressure through `root`
have slopes between `m > 0` and `M` over that range. If enough iterations are available (`M ≤ m 2^p`,
`(1 - m/(2M))^q (hi - lo) ≤ EPS`, `(p + 2) q < 1000`), the energy returned is within `max EPS (2 EPS / m)` of `root`, whatever
energy strictly inside the range the caller passed in. -/
theorem C52_accuracy (ε : K) (hε : 0 ≤ ε) (Q' : Q → Λ → K → K → K) (l0 l : Λ) (tMin r P e root m M : K) (p q : Nat)
    (hm : 0 < m) (hmM : m ≤ M) (hp : M ≤ m * 2 ^ p) (hroot : Q' .pRE l r root = P)
    (he : Q' .eRT l0 r tMin < e ∧ e < Q' .eRT l0 r (10 ^ 20))
    (hlo : Q' .eRT l0 r tMin ≤ root) (hhi : root ≤ Q' .eRT l0 r (10 ^ 20))
    (hl : ∀ x, Q' .eRT l0 r tMin ≤ x → x ≤ root →
      m * (root - x) ≤ P - Q' .pRE l r x ∧ P - Q' .pRE l r x ≤ M * (root - x))
    (hu : ∀ x, root ≤ x → x ≤ Q' .eRT l0 r (10 ^ 20) →
      m * (x - root) ≤ Q' .pRE l r x - P ∧ Q' .pRE l r x - P ≤ M * (x - root))
    (hq : (1 - m / (2 * M)) ^ q * (Q' .eRT l0 r (10 ^ 20) - Q' .eRT l0 r tMin) ≤ ε) (hpq : (p + 2) * q < 1000) :
    |eRP ε Q' l0 tMin l r P e - root| ≤ max ε (2 * ε / m) := by
  obtain ⟨xr, s, e1, e2, -⟩ := C61_chord_no_failure (fun x => Q' .pRE l r x) P
    (1 / 2 * (Q' .eRT l0 r tMin + Q' .eRT l0 r (10 ^ 20))) (Q' .eRT l0 r tMin) (Q' .eRT l0 r (10 ^ 20)) ε ε 1 m M root p q
    (Or.inl rfl) hm hmM hp hlo hhi hroot (fun x a b => by rw [one_mul]; exact hl x a b)
    (fun x a b => by rw [one_mul]; exact hu x a b) (mid_lt he.1 he.2).1.le (mid_lt he.1 he.2).2.le hε hε hq hpq
  have : eRP ε Q' l0 tMin l r P e = xr := by
    simp only [eRP, if_pos he, e1]
  rw [this]
  exact e2

/-- C52: the overload without a guess likewise. -/
theorem C52_accuracy_no_guess (ε : K) (hε : 0 ≤ ε) (Q' : Q → Λ → K → K → K) (l0 l : Λ) (tMin r P root m M : K) (p q : Nat)
    (hm : 0 < m) (hmM : m ≤ M) (hp : M ≤ m * 2 ^ p) (hroot : Q' .pRE l r root = P)
    (hlo : Q' .eRT l0 r tMin < root) (hhi : root < Q' .eRT l0 r (10 ^ 20))
    (hl : ∀ x, Q' .eRT l0 r tMin ≤ x → x ≤ root →
      m * (root - x) ≤ P - Q' .pRE l r x ∧ P - Q' .pRE l r x ≤ M * (root - x))
    (hu : ∀ x, root ≤ x → x ≤ Q' .eRT l0 r (10 ^ 20) →
      m * (x - root) ≤ Q' .pRE l r x - P ∧ Q' .pRE l r x - P ≤ M * (x - root))
    (hq : (1 - m / (2 * M)) ^ q * (Q' .eRT l0 r (10 ^ 20) - Q' .eRT l0 r tMin) ≤ ε) (hpq : (p + 2) * q < 1000) :
    |eRPNoGuess ε Q' l0 tMin l r P - root| ≤ max ε (2 * ε / m) :=
  C52_accuracy ε hε Q' l0 l tMin r P _ root m M p q hm hmM hp hroot
    (mid_lt hlo hhi) hlo.le hhi.le hl hu hq hpq

/-- The hypotheses are met by a pressure with a kink: `P = e` below `1` and `P = 1 + 3/2 (e - 1)` above (chords through `1` have slopes
between `1` and `3/2`), with the energy equal to the temperature and `EPS = 1e-9` (`p = 1`, `q = 170`). -/
example : let Q' : Q → Unit → ℚ → ℚ → ℚ := fun k _ _ y => match k with
      | .pRE => if y ≤ 1 then y else 1 + 3 / 2 * (y - 1)
      | _ => y
    |eRPNoGuess (1 / 10 ^ 9) Q' () 0 () 1 1 - 1| ≤ max (1 / 10 ^ 9) (2 * (1 / 10 ^ 9) / 1) := by
  intro Q'
  refine C52_accuracy_no_guess _ (by norm_num) Q' () () 0 1 1 1 1 (3 / 2) 1 170 one_pos (by norm_num) (by norm_num) (by norm_num [Q'])
    (by norm_num [Q']) (by norm_num [Q']) (fun x h1 h2 => ?_) (fun x h1 h2 => ?_) (by norm_num [Q']) (by norm_num)
  · simp only [Q', h2, if_true]; constructor <;> linarith
  · rcases h1.eq_or_lt with rfl | h
    · norm_num [Q']
    · simp only [Q', not_le.2 h, if_false]; constructor <;> linarith

end Verif.Base
