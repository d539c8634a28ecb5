import Verif.Props.ZSplit
import Verif.Spec.Elementwise

set_option linter.unusedSectionVars false

/-! # C50: array calls -/

namespace Verif.Mods

open Verif.Robust Verif.Spec

section general
variable {K Λ : Type*} [Field K] [LinearOrder K] [IsStrictOrderedRing K]

/-- C50: the array call of the base class (every overload of every EOS without its own array code):
element-wise, and nothing else is touched. -/
theorem C50_base_class (e : Eos K Λ) (k : Q) (n : Nat) (a b : Nat → K) (ls : Nat → Λ) (out : Nat → K)
    (i : Nat) :
    loop2 e k n a b ls out i = (if i < n then e.q k (ls i) (a i) (b i) else out i) ∧
    loop1 e n a ls out i = (if i < n then e.minE (ls i) (a i) else out i) ∧
    Elementwise (VEos.ofBase e) :=
  ⟨fill_apply _ _ _ _, fill_apply _ _ _ _, fun _ _ _ _ _ _ _ => fill_apply _ _ _ _,
    fun _ _ _ _ _ => fill_apply _ _ _ _⟩

/-- A parallel loop: the iterations `0..n-1` executed one after the other in the order `is`. -/
def loopInOrder (is : List Nat) (f : Nat → K) (out : Nat → K) : Nat → K :=
  is.foldl (fun o i => Function.update o i (f i)) out

/-- C50: the result does not depend on the order in which the iterations run. -/
theorem C50_any_order (e : Eos K Λ) (k : Q) (n : Nat) (a b : Nat → K) (ls : Nat → Λ) (out : Nat → K)
    (is : List Nat) (h : is.Perm (List.range n)) :
    loopInOrder is (fun i => e.q k (ls i) (a i) (b i)) out = loop2 e k n a b ls out := by
  have gen : ∀ (is : List Nat) (f : Nat → K) (out : Nat → K) (i : Nat),
      loopInOrder is f out i = if i ∈ is then f i else out i := by
    intro is f out i
    induction is using List.reverseRecOn with
    | nil => simp [loopInOrder]
    | append_singleton xs x ih =>
      have : loopInOrder (xs ++ [x]) f out = Function.update (loopInOrder xs f out) x (f x) := by
        simp [loopInOrder, List.foldl_append]
      rw [this, Function.update_apply, ih]
      by_cases hx : i = x
      · subst hx; simp
      · simp [hx]
  funext i
  rw [gen, (C50_base_class e k n a b ls out i).1]
  simp only [h.mem_iff, List.mem_range]

/-- The same loop when the output array *is* the second input array (in-place call): each iteration
reads the current content. -/
def loopInPlace (is : List Nat) (f : Nat → K → K) (arr : Nat → K) : Nat → K :=
  is.foldl (fun o i => Function.update o i (f i (o i))) arr

/-- C50: an in-place call gives the same result, in any order of iterations. -/
theorem C50_in_place (e : Eos K Λ) (k : Q) (n : Nat) (a b : Nat → K) (ls : Nat → Λ)
    (is : List Nat) (h : is.Perm (List.range n)) :
    loopInPlace is (fun i v => e.q k (ls i) (a i) v) b = loop2 e k n a b ls b := by
  have gen : ∀ (is : List Nat) (_ : is.Nodup) (f : Nat → K → K) (arr : Nat → K) (i : Nat),
      loopInPlace is f arr i = if i ∈ is then f i (arr i) else arr i := by
    intro is hnd f arr i
    induction is using List.reverseRecOn generalizing i with
    | nil => simp [loopInPlace]
    | append_singleton xs x ih =>
      have hnd' := List.nodup_append.1 hnd
      have hx : x ∉ xs := fun hx => hnd'.2.2 x hx x (by simp) rfl
      have : loopInPlace (xs ++ [x]) f arr
          = Function.update (loopInPlace xs f arr) x (f x (loopInPlace xs f arr x)) := by
        simp [loopInPlace, List.foldl_append]
      rw [this, Function.update_apply, ih hnd'.1, ih hnd'.1]
      by_cases hix : i = x
      · subst hix; simp [hx]
      · simp [hix]
  funext i
  rw [gen is (h.nodup_iff.2 List.nodup_range), (C50_base_class e k n a b ls b i).1]
  simp only [h.mem_iff, List.mem_range]

/-- Honouring the `Transform` argument implies being element-wise. -/
theorem elementwise_of_scales (v : VEos K Λ) (h2 : ScalesQueries v) (h1 : ScalesMinE v) :
    Elementwise v := by
  constructor
  · intro k n a b ls out i
    rw [h2]; simp [Transform.none, Factor.default]
  · intro n a ls out i
    rw [h1]; simp [Transform.none, Factor.default]

/-- C50: shifting keeps array calls with scratch element-wise. -/
theorem C50_shifted (sh : K) (t : VEos K Λ) (h : Elementwise t) : Elementwise (shiftedV sh t) := by
  obtain ⟨h2, h1⟩ := h
  constructor
  · intro k n a b ls out i
    by_cases hi : i < n
    · cases k <;> simp [shiftedV, shifted, h2, mapN_apply, fill_apply, hi, Q.byEnergy]
    · cases k <;> simp [shiftedV, h2, mapN_apply, hi, Q.byEnergy]
  · intro n a ls out i
    by_cases hi : i < n <;> simp [shiftedV, shifted, h1, mapN_apply, hi]

/-- C50: flooring keeps array calls element-wise, provided the wrapped minimum energy does not depend on
the lambda (the scalar calls use the default lambda for the floor, the array calls the caller's). -/
theorem C50_floored (l0 : Λ) (t : VEos K Λ) (h : Elementwise t)
    (hl : ∀ l r, t.s.minE l r = t.s.minE l0 r) : Elementwise (flooredV l0 t) := by
  obtain ⟨h2, h1⟩ := h
  constructor
  · intro k n a b ls out i
    simp only [flooredV]
    split_ifs with hk hi hi
    · rw [h2, if_pos hi, mapN_apply, if_pos hi, loop1, fill_apply, if_pos hi, hl]
      revert hk; cases k <;> simp [floored, Q.byEnergy]
    · rw [h2, if_neg hi]
    · rw [h2, if_pos hi]
      revert hk; cases k <;> simp [floored, Q.byEnergy]
    · rw [h2, if_neg hi]
  · intro n a ls out i
    simp only [flooredV]
    rw [h1]; rfl

/-- C50: ramping keeps array calls element-wise. -/
theorem C50_ramped (σ : K) (p : Ramp K) (f : Λ → K → K → K → K) (g : Λ → K → K → K → K → PTDer K)
    (t : VEos K Λ) (h : Elementwise t) : Elementwise (rampedV σ p f g t) := by
  obtain ⟨h2, h1⟩ := h
  have hmax : ∀ x y : K, max x y = if x < y then y else x := fun x y => by
    split_ifs with hh
    · exact max_eq_right hh.le
    · exact max_eq_left (not_lt.1 hh)
  constructor
  · intro k n a b ls out i
    by_cases hi : i < n
    · cases k <;> simp only [rampedV, ramped, mapN_apply, h2, hmax, hi, if_true]
    · cases k <;> simp only [rampedV, mapN_apply, h2, hi, if_false]
  · intro n a ls out i
    simp only [rampedV]
    rw [h1]; rfl

/-- C50: scaling over an EOS that honours the `Transform` argument honours it again (so stacks of
scalings and unit changes over such an EOS are right), in particular it is element-wise. -/
theorem C50_scaled (sc : K) (t : VEos K Λ) (h2 : ScalesQueries t) (h1 : ScalesMinE t) :
    ScalesQueries (scaledV sc t) ∧ ScalesMinE (scaledV sc t) ∧ Elementwise (scaledV sc t) := by
  have c : ∀ x y z : K, x * y * z = y * (x * z) := fun x y z => by ring
  have a2 : ScalesQueries (scaledV sc t) := by
    intro k tr n a b ls out i
    by_cases hi : i < n
    · cases k <;> simp only [scaledV, h2 _ _ _ _ _ _ _ _, scaled, Factor.apply, hi, if_true,
        c tr.x.value sc, c tr.y.value (1 / sc), mul_assoc]
    · cases k <;> simp only [scaledV, h2 _ _ _ _ _ _ _ _, hi, if_false]
  have a1 : ScalesMinE (scaledV sc t) := by
    intro tr n a ls out i
    by_cases hi : i < n
    · simp only [scaledV, h1 _ _ _ _ _ _, scaled, Factor.apply, hi, if_true, c tr.x.value sc]
    · simp only [scaledV, h1 _ _ _ _ _ _, hi, if_false]
  exact ⟨a2, a1, elementwise_of_scales _ a2 a1⟩

/-- C50: a unit change over an EOS that honours the `Transform` argument honours it for the two-input
queries. -/
theorem C50_units_queries_partial (σ : K) (u : Units K) (t : VEos K Λ) (h2 : ScalesQueries t) :
    ScalesQueries (unitSystemV σ u t) := by
  intro k tr n a b ls out i
  have c : ∀ x y z : K, x * y * z = x * z * y := fun x y z => by ring
  by_cases hi : i < n
  · cases k <;> simp only [unitSystemV, h2 _ _ _ _ _ _ _ _, unitSystem, Factor.apply, hi, if_true,
      c tr.x.value u.rho, c tr.y.value u.sie, c tr.y.value u.temp, mul_assoc tr.f.value]
  · cases k <;> simp only [unitSystemV, h2 _ _ _ _ _ _ _ _, hi, if_false]

/-- C50 is violated: scaling over an EOS with the base-class array calls (every EOS but EOSPAC) ignores
the scale when a scratch pointer is passed: the result is the unscaled EOS's. -/
theorem C50_scaled_over_base_violated (sc : K) (e : Eos K Λ) (k : Q) (n : Nat) (a b : Nat → K)
    (ls : Nat → Λ) (out : Nat → K) :
    (scaledV sc (VEos.ofBase e)).v2 k .none n a b ls out = loop2 e k n a b ls out := by
  cases k <;> rfl

/-- C50 is violated, concretely. -/
theorem C50_scaled_over_base_not_elementwise_violated :
    ¬ Elementwise (scaledV 2 (VEos.ofBase demo)) := by
  intro h
  have h1 := h.1 .pRE 1 (fun _ => 4) (fun _ => 20) (fun _ => ()) (fun _ => 0) 0
  rw [C50_scaled_over_base_violated, (C50_base_class demo _ _ _ _ _ _ _).1] at h1
  norm_num [scaledV, VEos.ofBase, scaled, demo] at h1

/-- An array EOS that honours the `Transform` argument, built from any scalar EOS (what EOSPAC does). -/
def VEos.ofScaling (e : Eos K Λ) : VEos K Λ where
  s := e
  v2 := fun q tr n a b ls out =>
    Verif.fill n (fun i => tr.f.value * e.q q (ls i) (tr.x.value * a i) (tr.y.value * b i)) out
  v1 := fun tr n a ls out => Verif.fill n (fun i => tr.f.value * e.minE (ls i) (tr.x.value * a i)) out

theorem ofScaling_scales (e : Eos K Λ) :
    ScalesQueries (VEos.ofScaling e) ∧ ScalesMinE (VEos.ofScaling e) :=
  ⟨fun _ _ _ _ _ _ _ _ => fill_apply _ _ _ _, fun _ _ _ _ _ _ => fill_apply _ _ _ _⟩

/-- C50 is violated: even over an EOS that honours the `Transform` argument, a scale outside a shift is
wrong with scratch: the shift is subtracted from the caller's energy before the scale is applied. -/
theorem C50_scaled_shifted_violated :
    Elementwise (VEos.ofScaling demo) ∧
    ¬ Elementwise (scaledV 2 (shiftedV 10 (VEos.ofScaling demo))) := by
  refine ⟨elementwise_of_scales _ (ofScaling_scales demo).1 (ofScaling_scales demo).2, fun h => ?_⟩
  have h1 := h.1 .pRE 1 (fun _ => 4) (fun _ => 40) (fun _ => ()) (fun _ => 0) 0
  norm_num [scaledV, shiftedV, VEos.ofScaling, fill_apply, Q.byEnergy, scaled, shifted, demo,
    Transform.none, Factor.default, Factor.apply] at h1

/-- C50 is violated: the array version of the minimum energy of `UnitSystem` multiplies by the energy unit
instead of dividing by it. -/
theorem C50_units_minE_violated :
    ¬ Elementwise (unitSystemV 0 ⟨1, 2, 1⟩ (VEos.ofScaling demo)) := by
  intro h
  have h1 := h.2 1 (fun _ => 4) (fun _ => ()) (fun _ => 0) 0
  norm_num [unitSystemV, VEos.ofScaling, fill_apply, unitSystem, demo,
    Transform.none, Factor.default, Factor.apply] at h1

/-- C50: what the array minimum energy of `UnitSystem` returns over an EOS that honours the `Transform`
argument: the right value times the square of the energy unit. -/
theorem C50_units_minE_partial (σ : K) (u : Units K) (hu : u.Ok) (t : VEos K Λ) (h1 : ScalesMinE t)
    (n : Nat) (a : Nat → K) (ls : Nat → Λ) (out : Nat → K) (i : Nat) (hi : i < n) :
    (unitSystemV σ u t).v1 .none n a ls out i
      = u.sie ^ 2 * (unitSystem σ u t.s).minE (ls i) (a i) := by
  have hs := hu.2.1.ne'
  simp only [unitSystemV, h1 _ _ _ _ _ _, unitSystem, Factor.apply, Transform.none, Factor.default, if_pos hi]
  rw [one_mul, one_mul, mul_comm u.rho]
  field_simp

/-- C50 non-vacuity: hypotheses of the positive theorems hold for the test EOS. -/
example : Elementwise (rampedV 0 (Ramp.mk' 1 2 (1/2) (-1)) (fun _ _ _ e => e)
    (fun _ _ _ _ _ => ⟨0, 0, 0, 0⟩) (flooredV () (shiftedV 3 (VEos.ofBase demo)))) :=
  C50_ramped _ _ _ _ _ (C50_floored () _ (C50_shifted 3 _ (C50_base_class demo .pRE 0 (fun _ => 0)
    (fun _ => 0) (fun _ => ()) (fun _ => 0) 0).2.2) (fun _ _ => rfl))

end general
end Verif.Mods
