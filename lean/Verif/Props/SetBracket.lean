import Verif.Props.FloatRootFind
import Verif.Props.RootFind
import Mathlib.Tactic.IntervalCases

set_option linter.unusedSectionVars false

/-! # C08, C134: where `regula_falsi` looks when the caller's interval does not bracket the target -/

namespace Verif.RootFind

variable {K : Type*} [Field K] [LinearOrder K] [IsStrictOrderedRing K]

/-- The bracket made of the guess and a point `x`, in increasing order. -/
def pairBr (f : K → K) (guess x : K) : Br K :=
  if x < guess then ⟨x, guess, f x, f guess⟩ else ⟨guess, x, f guess, f x⟩

/-- What a search over the samples `x 0, …, x (n-1)` in this order finds. -/
def FirstSample (P : K → Prop) (f : K → K) (guess : K) (x : Nat → K) (n : Nat) (r : Option (Br K)) : Prop :=
  (r = none ∧ ∀ j, j < n → ¬ P (x j)) ∨
    ∃ i, i < n ∧ P (x i) ∧ (∀ j, j < i → ¬ P (x j)) ∧ r = some (pairBr f guess (x i))

theorem levelSearch_first (f : K → K) (a dx guess : K) : ∀ n i : Nat,
    (levelSearch f a dx guess (f guess) i n = none ∧ ∀ j, i ≤ j → j < i + n →
      ¬ f (a + ((j : K) + 1 / 2) * dx) * f guess ≤ 0) ∨
    ∃ k, i ≤ k ∧ k < i + n ∧ f (a + ((k : K) + 1 / 2) * dx) * f guess ≤ 0 ∧
      (∀ j, i ≤ j → j < k → ¬ f (a + ((j : K) + 1 / 2) * dx) * f guess ≤ 0) ∧
      levelSearch f a dx guess (f guess) i n = some (pairBr f guess (a + ((k : K) + 1 / 2) * dx)) := by
  intro n
  induction n with
  | zero => intro i; left; exact ⟨rfl, fun j h1 h2 => by omega⟩
  | succ n ih =>
    intro i
    by_cases hc : f (a + ((i : K) + 1 / 2) * dx) * f guess ≤ 0
    · right
      refine ⟨i, le_rfl, by omega, hc, fun j h1 h2 => by omega, ?_⟩
      unfold levelSearch
      simp only [checkBracket, hc, decide_true, if_true, pairBr]
      split_ifs <;> rfl
    · have e : levelSearch f a dx guess (f guess) i (n + 1) = levelSearch f a dx guess (f guess) (i + 1) n := by
        conv_lhs => unfold levelSearch
        simp only [checkBracket, hc, decide_false, Bool.false_eq_true, if_false]
      rw [e]
      rcases ih (i + 1) with ⟨h1, h2⟩ | ⟨k, h1, h2, h3, h4, h5⟩
      · left
        refine ⟨h1, fun j hj hj' => ?_⟩
        rcases Nat.eq_or_lt_of_le hj with rfl | hj
        · exact hc
        · exact h2 j hj (by omega)
      · right
        refine ⟨k, by omega, by omega, h3, fun j hj hj' => ?_, h5⟩
        rcases Nat.eq_or_lt_of_le hj with rfl | hj
        · exact hc
        · exact h4 j hj hj'

theorem levels_first (f : K → K) (a dx guess : K) : ∀ n l : Nat, 0 < n →
    FirstSample (fun x => f x * f guess ≤ 0) f guess (fun i => a + ((i : K) + 1 / 2) * dx) (2 ^ (l + n - 1))
      (levels f a dx guess (f guess) l n) := by
  intro n
  induction n with
  | zero => intro l h; omega
  | succ n ih =>
    intro l _
    unfold levels
    rcases levelSearch_first f a dx guess (2 ^ l) 0 with ⟨h1, h2⟩ | ⟨k, h1, h2, h3, h4, h5⟩
    · simp only [h1]
      rcases Nat.eq_zero_or_pos n with rfl | hn
      · left
        exact ⟨rfl, fun j hj => h2 j (Nat.zero_le _) (by simpa using hj)⟩
      · rw [show l + (n + 1) - 1 = l + 1 + n - 1 by omega]
        exact ih (l + 1) hn
    · simp only [h5]
      right
      refine ⟨k, ?_, h3, fun j hj => h4 j (Nat.zero_le _) hj, rfl⟩
      have : 2 ^ l ≤ 2 ^ (l + (n + 1) - 1) := Nat.pow_le_pow_right (by norm_num) (by omega)
      omega

/-- C08: the bracket `regula_falsi` starts from. If the residual changes sign between the lower end and the guess, that is the
bracket; otherwise, if it does between the guess and the upper end, that; otherwise it is the guess and the first of the 32
points `a + (i + 1/2)(b - a)`, `i = 0, …, 31`, where the residual differs in sign from that at the guess (only the first of them
lies in the interval), and the call fails when there is none. -/
theorem C08_initial_bracket (func : K → K) (guess a b : K) :
    let r := initBracket func guess a b
    (func a * func guess ≤ 0 → r = some ⟨a, guess, func a, func guess⟩) ∧
    (¬ func a * func guess ≤ 0 → func guess * func b ≤ 0 → r = some ⟨guess, b, func guess, func b⟩) ∧
    (¬ func a * func guess ≤ 0 → ¬ func guess * func b ≤ 0 →
      FirstSample (fun x => func x * func guess ≤ 0) func guess (fun i => a + ((i : K) + 1 / 2) * (b - a)) 32 r) := by
  refine ⟨fun h => ?_, fun h1 h2 => ?_, fun h1 h2 => ?_⟩
  · simp only [initBracket, checkBracket, h, decide_true, if_true]
  · simp only [initBracket, checkBracket, h1, h2, decide_true, decide_false, if_true, Bool.false_eq_true, if_false]
  · simp only [initBracket, checkBracket, h1, h2, decide_false, Bool.false_eq_true, if_false]
    exact levels_first func a (b - a) guess 6 0 (by norm_num)

/-- C08: the second and later of those points are beyond the upper end. -/
theorem C08_samples_outside (a b : K) (hab : a < b) (i : Nat) :
    a + ((i : K) + 1 / 2) * (b - a) ≤ b ↔ i = 0 := by
  constructor
  · intro h
    by_contra hi
    have : (1 : K) ≤ i := by exact_mod_cast Nat.one_le_iff_ne_zero.2 hi
    nlinarith
  · rintro rfl; push_cast; linarith

/-- Non-vacuity: `x^2 - 4` on `[0,1]` from the guess `1/2` is bracketed by the guess and the third sample, `5/2`. -/
example : initBracket (fun x : ℚ => x ^ 2 - 4) (1 / 2) 0 1 = some ⟨1 / 2, 5 / 2, -15 / 4, 9 / 4⟩ := by
  rcases (C08_initial_bracket (fun x : ℚ => x ^ 2 - 4) (1 / 2) 0 1).2.2 (by norm_num) (by norm_num) with ⟨-, h⟩ | ⟨i, -, h2, h3, h4⟩
  · exact absurd (h 2 (by norm_num)) (by norm_num)
  · have hi : i = 2 := by
      rcases lt_trichotomy i 2 with h | h | h
      · interval_cases i <;> norm_num at h2
      · exact h
      · exact absurd (h3 2 h) (by norm_num)
    subst hi
    rw [h4]; norm_num [pairBr]

/-! ## The same in floating-point arithmetic -/

section fl

variable (rnd : ℝ → ℝ)

/-- The sample `i` as computed. -/
noncomputable def sampleFl (rnd : ℝ → ℝ) (a b : ℝ) (i : Nat) : ℝ := rnd (a + rnd (rnd ((i : ℝ) + 1 / 2) * rnd (b - a)))

theorem levelSearchFl_first (f : ℝ → ℝ) (a b guess : ℝ) : ∀ n i : Nat,
    (levelSearchFl rnd f a (rnd (b - a)) guess (f guess) i n = none ∧ ∀ j, i ≤ j → j < i + n →
      ¬ rnd (f (sampleFl rnd a b j) * f guess) ≤ 0) ∨
    ∃ k, i ≤ k ∧ k < i + n ∧ rnd (f (sampleFl rnd a b k) * f guess) ≤ 0 ∧
      (∀ j, i ≤ j → j < k → ¬ rnd (f (sampleFl rnd a b j) * f guess) ≤ 0) ∧
      levelSearchFl rnd f a (rnd (b - a)) guess (f guess) i n = some (pairBr f guess (sampleFl rnd a b k)) := by
  intro n
  induction n with
  | zero => intro i; left; exact ⟨rfl, fun j h1 h2 => by omega⟩
  | succ n ih =>
    intro i
    by_cases hc : rnd (f (sampleFl rnd a b i) * f guess) ≤ 0
    · right
      refine ⟨i, le_rfl, by omega, hc, fun j h1 h2 => by omega, ?_⟩
      unfold levelSearchFl
      rw [sampleFl] at hc
      simp only [checkBracketFl, hc, decide_true, if_true]
      change _ = some (pairBr f guess (rnd (a + rnd (rnd ((i : ℝ) + 1 / 2) * rnd (b - a)))))
      simp only [pairBr]
      split_ifs <;> rfl
    · have e : levelSearchFl rnd f a (rnd (b - a)) guess (f guess) i (n + 1) =
          levelSearchFl rnd f a (rnd (b - a)) guess (f guess) (i + 1) n := by
        conv_lhs => unfold levelSearchFl
        rw [sampleFl] at hc
        simp only [checkBracketFl, hc, decide_false, Bool.false_eq_true, if_false]
      rw [e]
      rcases ih (i + 1) with ⟨h1, h2⟩ | ⟨k, h1, h2, h3, h4, h5⟩
      · left
        refine ⟨h1, fun j hj hj' => ?_⟩
        rcases Nat.eq_or_lt_of_le hj with rfl | hj
        · exact hc
        · exact h2 j hj (by omega)
      · right
        refine ⟨k, by omega, by omega, h3, fun j hj hj' => ?_, h5⟩
        rcases Nat.eq_or_lt_of_le hj with rfl | hj
        · exact hc
        · exact h4 j hj hj'

theorem levelsFl_first (f : ℝ → ℝ) (a b guess : ℝ) : ∀ n l : Nat, 0 < n →
    FirstSample (fun x => rnd (f x * f guess) ≤ 0) f guess (sampleFl rnd a b) (2 ^ (l + n - 1))
      (levelsFl rnd f a (rnd (b - a)) guess (f guess) l n) := by
  intro n
  induction n with
  | zero => intro l h; omega
  | succ n ih =>
    intro l _
    unfold levelsFl
    rcases levelSearchFl_first rnd f a b guess (2 ^ l) 0 with ⟨h1, h2⟩ | ⟨k, h1, h2, h3, h4, h5⟩
    · simp only [h1]
      rcases Nat.eq_zero_or_pos n with rfl | hn
      · left
        exact ⟨rfl, fun j hj => h2 j (Nat.zero_le _) (by simpa using hj)⟩
      · rw [show l + (n + 1) - 1 = l + 1 + n - 1 by omega]
        exact ih (l + 1) hn
    · simp only [h5]
      right
      refine ⟨k, ?_, h3, fun j hj => h4 j (Nat.zero_le _) hj, rfl⟩
      have : 2 ^ l ≤ 2 ^ (l + (n + 1) - 1) := Nat.pow_le_pow_right (by norm_num) (by omega)
      omega

/-- C134: the bracket the rounded `regula_falsi` starts from, as in `C08_initial_bracket`: the samples are those points up to
the rounding of the four operations (relative to the distance from `a` for three of them), and the signs are those of the
rounded products. -/
theorem C134_initial_bracket {u : ℝ} (hr : ∀ x, |rnd x - x| ≤ u * |x|) (hu : 0 ≤ u) (func : ℝ → ℝ) (guess a b : ℝ) :
    let r := initBracketFl rnd func guess a b
    (rnd (func a * func guess) ≤ 0 → r = some ⟨a, guess, func a, func guess⟩) ∧
    (¬ rnd (func a * func guess) ≤ 0 → rnd (func guess * func b) ≤ 0 → r = some ⟨guess, b, func guess, func b⟩) ∧
    (¬ rnd (func a * func guess) ≤ 0 → ¬ rnd (func guess * func b) ≤ 0 →
      ∃ x : Nat → ℝ, FirstSample (fun x => rnd (func x * func guess) ≤ 0) func guess x 32 r ∧
        ∀ i, ∃ e, |e| ≤ (1 + u) ^ 3 - 1 ∧ x i = rnd (a + ((i : ℝ) + 1 / 2) * (b - a) * (1 + e))) := by
  refine ⟨fun h => ?_, fun h1 h2 => ?_, fun h1 h2 => ⟨sampleFl rnd a b, ?_, fun i => ?_⟩⟩
  · simp only [initBracketFl, checkBracketFl, h, decide_true, if_true]
  · simp only [initBracketFl, checkBracketFl, h1, h2, decide_true, decide_false, if_true, Bool.false_eq_true, if_false]
  · simp only [initBracketFl, checkBracketFl, h1, h2, decide_false, Bool.false_eq_true, if_false]
    exact levelsFl_first rnd func a b guess 6 0 (by norm_num)
  · have hrel : ∀ x, ∃ d, |d| ≤ u ∧ rnd x = x * (1 + d) := fun x => by
      rcases eq_or_ne x 0 with rfl | hx
      · have := hr 0
        rw [abs_zero, mul_zero] at this
        have h0 : rnd 0 = 0 := by
          have := abs_nonpos_iff.1 this; linarith
        exact ⟨0, by rw [abs_zero]; exact hu, by rw [h0]; ring⟩
      · refine ⟨(rnd x - x) / x, ?_, by field_simp; ring⟩
        rw [abs_div, div_le_iff₀ (abs_pos.2 hx)]
        exact hr x
    obtain ⟨d1, k1, e1⟩ := hrel ((i : ℝ) + 1 / 2)
    obtain ⟨d2, k2, e2⟩ := hrel (b - a)
    obtain ⟨d3, k3, e3⟩ := hrel (((i : ℝ) + 1 / 2) * (1 + d1) * ((b - a) * (1 + d2)))
    refine ⟨(1 + d1) * (1 + d2) * (1 + d3) - 1, ?_, ?_⟩
    · have e : (1 + d1) * (1 + d2) * (1 + d3) - 1 = d1 + d2 + d3 + d1 * d2 + d1 * d3 + d2 * d3 + d1 * d2 * d3 := by ring
      have m12 : |d1 * d2| ≤ u * u := by rw [abs_mul]; exact mul_le_mul k1 k2 (abs_nonneg _) hu
      have m13 : |d1 * d3| ≤ u * u := by rw [abs_mul]; exact mul_le_mul k1 k3 (abs_nonneg _) hu
      have m23 : |d2 * d3| ≤ u * u := by rw [abs_mul]; exact mul_le_mul k2 k3 (abs_nonneg _) hu
      have m123 : |d1 * d2 * d3| ≤ u * u * u := by
        rw [abs_mul]; exact mul_le_mul m12 k3 (abs_nonneg _) (mul_nonneg hu hu)
      rw [e]
      have t1 := abs_add_le (d1 + d2 + d3 + d1 * d2 + d1 * d3 + d2 * d3) (d1 * d2 * d3)
      have t2 := abs_add_le (d1 + d2 + d3 + d1 * d2 + d1 * d3) (d2 * d3)
      have t3 := abs_add_le (d1 + d2 + d3 + d1 * d2) (d1 * d3)
      have t4 := abs_add_le (d1 + d2 + d3) (d1 * d2)
      have t5 := abs_add_le (d1 + d2) d3
      have t6 := abs_add_le d1 d2
      have : (1 + u) ^ 3 - 1 = u + u + u + u * u + u * u + u * u + u * u * u := by ring
      rw [this]; linarith
    · rw [sampleFl, e1, e2, e3]
      congr 1; ring

end fl

end Verif.RootFind
