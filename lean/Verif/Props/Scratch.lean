import Verif.Model.Scratch
import Verif.Tactics
import Mathlib.Order.Lattice
import Mathlib.Order.Basic

/-! # C65: scratch memory is never overrun -/

namespace Verif.Mods

/-- The suffix test recognises exactly the by-energy queries, the prefix test exactly the bulk
moduli. -/
theorem name_tests (m : Meth) :
    hasSuffix m.name = (match m with | .q k => k.byEnergy | .minE => false) ∧
    hasPrefix m.name = (match m with | .q .bRT => true | .q .bRE => true | _ => false) := by
  cases m with
  | minE => constructor <;> decide +kernel
  | q k => cases k <;> constructor <;> decide +kernel

theorem behind_le (n i : Nat) : behind n i ≤ n + i := by
  unfold behind; split_ifs <;> omega

/-- The pressure buffers of a stack never exceed its bulk-modulus buffers. -/
theorem size_p_le_b (t : Stack) (n : Nat) :
    t.scratchSize (.q .pRT) n ≤ t.scratchSize (.q .bRT) n ∧
    t.scratchSize (.q .pRE) n ≤ t.scratchSize (.q .bRE) n := by
  induction t with
  | base => simp [Stack.scratchSize]
  | eospac => simp only [Stack.scratchSize, eospacBuffers]; omega
  | shifted t ih =>
    simp only [Stack.scratchSize, (name_tests _).1, Q.byEnergy]; simp; omega
  | floored t ih =>
    simp only [Stack.scratchSize, (name_tests _).1, Q.byEnergy]; simp; omega
  | ramped t ih =>
    simp only [Stack.scratchSize, (name_tests _).2]; simp; omega
  | scaled t ih => exact ih
  | unitSystem t ih => exact ih
  | relativistic t ih => exact ih
  | zsplit t ih => exact ih

/-- C65: for every stack of modifiers, every two-input query and every length, the array call touches
no scratch memory beyond what `scratch_size` declares for that query. -/
theorem C65_declared_suffices_partial (t : Stack) (k : Q) (n : Nat) :
    8 * t.touched (.q k) n ≤ t.scratchSize (.q k) n := by
  induction t generalizing k with
  | base => simp [Stack.touched]
  | eospac => cases k <;> simp only [Stack.touched, Stack.scratchSize, eospacBuffers] <;> omega
  | shifted t ih =>
    have h := ih k
    have hb := behind_le n (t.touched (.q k) n)
    simp only [Stack.touched, Stack.scratchSize, (name_tests _).1]
    split_ifs <;> omega
  | floored t ih =>
    have h := ih k
    have hb := behind_le n (t.touched (.q k) n)
    simp only [Stack.touched, Stack.scratchSize, (name_tests _).1]
    split_ifs <;> omega
  | ramped t ih =>
    have h := ih k
    have hp := size_p_le_b t n
    have h1 := ih .pRT
    have h2 := ih .pRE
    have b1 := behind_le n (t.touched (.q .pRT) n)
    have b2 := behind_le n (t.touched (.q .pRE) n)
    have b3 := behind_le n (t.touched (.q .bRT) n)
    have b4 := behind_le n (t.touched (.q .bRE) n)
    cases k <;> simp only [Stack.touched, Stack.scratchSize, (name_tests _).2] <;> simp <;> omega
  | scaled t ih => exact ih k
  | unitSystem t ih => exact ih k
  | relativistic t ih => simp [Stack.touched]
  | zsplit t ih => simp [Stack.touched]

theorem foldl_max_ge (f : Q → Nat) (l : List Q) (m : Nat) :
    m ≤ l.foldl (fun m k => max m (f k)) m ∧ ∀ k ∈ l, f k ≤ l.foldl (fun m k => max m (f k)) m := by
  induction l generalizing m with
  | nil => simp
  | cons x xs ih =>
    obtain ⟨h1, h2⟩ := ih (max m (f x))
    simp only [List.foldl_cons]
    refine ⟨(le_max_left _ _).trans h1, fun k hk => ?_⟩
    rcases List.mem_cons.1 hk with rfl | hk
    · exact (le_max_right _ _).trans h1
    · exact h2 k hk

/-- C65: `max_scratch_size` is at least the declared size of every query. -/
theorem size_le_max (t : Stack) (n : Nat) :
    (∀ k, t.scratchSize (.q k) n ≤ t.maxScratchSize n) ∧
    t.scratchSize (.q .sRE) n ≤ t.scratchSize (.q .tRE) n := by
  have key : ∀ (t u : Stack) (ih : ∀ k, t.scratchSize (.q k) n ≤ t.maxScratchSize n)
      (l : List Q) (_ : ∀ k, k ∈ l ∨ u.scratchSize (.q k) n = t.scratchSize (.q k) n ∨
        ∃ k' ∈ l, u.scratchSize (.q k) n ≤ u.scratchSize (.q k') n) (k : Q),
      u.scratchSize (.q k) n
        ≤ l.foldl (fun m k => max m (u.scratchSize (.q k) n)) (t.maxScratchSize n) := by
    intro t u ih l hl k
    obtain ⟨h1, h2⟩ := foldl_max_ge (fun k => u.scratchSize (.q k) n) l (t.maxScratchSize n)
    rcases hl k with hk | hk | ⟨k', hk', hle⟩
    · exact h2 k hk
    · rw [hk]; exact (ih k).trans h1
    · exact hle.trans (h2 k' hk')
  induction t with
  | base => simp [Stack.scratchSize]
  | eospac =>
    constructor
    · intro k; cases k <;> simp only [Stack.scratchSize, Stack.maxScratchSize, eospacBuffers] <;> omega
    · simp [Stack.scratchSize, eospacBuffers]
  | shifted t ih =>
    obtain ⟨ih1, ih2⟩ := ih
    have h2 : (Stack.shifted t).scratchSize (.q .sRE) n ≤ (Stack.shifted t).scratchSize (.q .tRE) n := by
      simp only [Stack.scratchSize, (name_tests _).1, Q.byEnergy]; simpa using ih2
    refine ⟨key t _ ih1 _ fun k => ?_, h2⟩
    by_cases hk : k = .sRE
    · subst hk; exact Or.inr (Or.inr ⟨.tRE, by decide, h2⟩)
    · by_cases hb : k.byEnergy = true
      · left; revert hk hb; cases k <;> decide
      · right; left
        simp only [Stack.scratchSize, (name_tests _).1, if_neg hb]
  | floored t ih =>
    obtain ⟨ih1, ih2⟩ := ih
    have h2 : (Stack.floored t).scratchSize (.q .sRE) n ≤ (Stack.floored t).scratchSize (.q .tRE) n := by
      simp only [Stack.scratchSize, (name_tests _).1, Q.byEnergy]; simpa using ih2
    refine ⟨key t _ ih1 _ fun k => ?_, h2⟩
    by_cases hk : k = .sRE
    · subst hk; exact Or.inr (Or.inr ⟨.tRE, by decide, h2⟩)
    · by_cases hb : k.byEnergy = true
      · left; revert hk hb; cases k <;> decide
      · right; left
        simp only [Stack.scratchSize, (name_tests _).1, if_neg hb]
  | ramped t ih =>
    obtain ⟨ih1, ih2⟩ := ih
    have h2 : (Stack.ramped t).scratchSize (.q .sRE) n ≤ (Stack.ramped t).scratchSize (.q .tRE) n := by
      simp only [Stack.scratchSize, (name_tests _).2]; simpa using ih2
    refine ⟨key t _ ih1 _ fun k => ?_, h2⟩
    by_cases hk : k = .bRE ∨ k = .bRT
    · left; rcases hk with rfl | rfl <;> decide
    · right; left
      simp only [Stack.scratchSize, (name_tests _).2]
      cases k <;> simp at hk ⊢
  | scaled t ih => exact ih
  | unitSystem t ih => exact ih
  | relativistic t ih => exact ih
  | zsplit t ih => exact ih

theorem touched_minE_le (t : Stack) (n : Nat) : 8 * t.touched .minE n ≤ t.scratchSize (.q .tRE) n := by
  induction t with
  | base => simp [Stack.touched]
  | eospac => simp only [Stack.touched, Stack.scratchSize, eospacBuffers]; omega
  | shifted t ih =>
    have hb := behind_le n (t.touched .minE n)
    simp only [Stack.touched, Stack.scratchSize, (name_tests _).1, Q.byEnergy]; simp; omega
  | floored t ih =>
    have hb := behind_le n (t.touched .minE n)
    simp only [Stack.touched, Stack.scratchSize, (name_tests _).1, Q.byEnergy]; simp; omega
  | ramped t ih => simp only [Stack.touched, Stack.scratchSize, (name_tests _).2]; simp; exact ih
  | scaled t ih => exact ih
  | unitSystem t ih => exact ih
  | relativistic t ih => simp [Stack.touched]
  | zsplit t ih => simp [Stack.touched]

/-- C65: a scratch area of `max_scratch_size` bytes suffices for every array call, including the
minimum energy, for every stack of modifiers and every length. -/
theorem C65_max_suffices (t : Stack) (m : Meth) (n : Nat) : 8 * t.touched m n ≤ t.maxScratchSize n := by
  cases m with
  | q k => exact (C65_declared_suffices_partial t k n).trans ((size_le_max t n).1 k)
  | minE => exact (touched_minE_le t n).trans ((size_le_max t n).1 .tRE)

/-- C65 is violated for the minimum energy: a shifted or floored EOSPAC table touches twice the declared
scratch for `MinInternalEnergyFromDensity`, at every positive length. -/
theorem C65_minE_overrun_violated (n : Nat) (hn : 0 < n) :
    (Stack.shifted .eospac).scratchSize .minE n < 8 * (Stack.shifted .eospac).touched .minE n ∧
    (Stack.floored .eospac).scratchSize .minE n < 8 * (Stack.floored .eospac).touched .minE n := by
  have hb : behind n (1 * n) = 2 * n := by unfold behind; rw [if_neg (by omega)]; omega
  simp only [Stack.scratchSize, Stack.touched, (name_tests _).1, eospacBuffers, hb]
  simp only [Bool.false_eq_true, if_false]
  omega

/-- No shift and no floor in the stack. -/
def Stack.NoShift : Stack → Prop
  | .shifted _ | .floored _ => False
  | .base | .eospac => True
  | .ramped t | .scaled t | .unitSystem t | .relativistic t | .zsplit t => t.NoShift

/-- C65: without a shift or floor in the stack, the minimum energy stays within its declared scratch. -/
theorem C65_minE_partial (t : Stack) (n : Nat) (h : t.NoShift) :
    8 * t.touched .minE n ≤ t.scratchSize .minE n := by
  induction t with
  | base => simp [Stack.touched]
  | eospac => simp only [Stack.touched, Stack.scratchSize, eospacBuffers]; omega
  | shifted t ih => exact h.elim
  | floored t ih => exact h.elim
  | ramped t ih =>
    simp only [Stack.touched, Stack.scratchSize, (name_tests _).2]; simpa using ih h
  | scaled t ih => exact ih h
  | unitSystem t ih => exact ih h
  | relativistic t ih => simp [Stack.touched]
  | zsplit t ih => simp [Stack.touched]

/-- C65 non-vacuity: a ramp over a shift over EOSPAC needs 8 buffers for the bulk modulus. -/
example : (Stack.ramped (.shifted .eospac)).touched (.q .bRE) 10 = 80 ∧
    (Stack.ramped (.shifted .eospac)).scratchSize (.q .bRE) 10 = 640 := by decide +kernel

end Verif.Mods
