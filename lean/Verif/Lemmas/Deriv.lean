import Verif.Spec.ThermoLaws
import Mathlib.Analysis.Calculus.Deriv.Inv
import Mathlib.Analysis.Calculus.Deriv.Pow
import Mathlib.Analysis.SpecialFunctions.Log.Deriv
import Mathlib.Analysis.SpecialFunctions.ExpDeriv
import Mathlib.Topology.Order.Lattice

/-! # Derivative helpers for the analytic EOS -/

namespace Verif

open Filter Topology

/-- A floor that is not active does not change the derivative. -/
theorem hasDerivAt_max {f : ℝ → ℝ} {f' x c : ℝ} (hf : HasDerivAt f f' x) (hc : c < f x) :
    HasDerivAt (fun y => max c (f y)) f' x := by
  refine hf.congr_of_eventuallyEq ?_
  filter_upwards [hf.continuousAt.eventually (lt_mem_nhds hc)] with y hy
  exact max_eq_right (le_of_lt hy)

/-- A cap that is not active does not change the derivative. -/
theorem hasDerivAt_min {f : ℝ → ℝ} {f' x c : ℝ} (hf : HasDerivAt f f' x) (hc : f x < c) :
    HasDerivAt (fun y => min c (f y)) f' x := by
  refine hf.congr_of_eventuallyEq ?_
  filter_upwards [hf.continuousAt.eventually (gt_mem_nhds hc)] with y hy
  exact min_eq_right (le_of_lt hy)

/-- Affine functions. -/
theorem hasDerivAt_affine (a b x : ℝ) : HasDerivAt (fun y => a * y + b) a x := by
  simpa using ((hasDerivAt_id x).const_mul a).add_const b

/-- Transfer along a local equality and fix up the derivative. -/
theorem HasDerivAt.change {f g : ℝ → ℝ} {f' g' x : ℝ} (hf : HasDerivAt f f' x) (h : ∀ y, g y = f y)
    (h' : f' = g') : HasDerivAt g g' x := by
  subst h'
  exact hf.congr_of_eventuallyEq (Eventually.of_forall h)

/-- Transfer along an equality that holds on a neighbourhood given by a strict inequality on each side. -/
theorem HasDerivAt.changeOn {f g : ℝ → ℝ} {f' g' x : ℝ} {s : Set ℝ} (hs : s ∈ 𝓝 x) (hf : HasDerivAt f f' x)
    (h : ∀ y ∈ s, g y = f y) (h' : f' = g') : HasDerivAt g g' x := by
  subst h'
  exact hf.congr_of_eventuallyEq (Filter.eventually_of_mem hs h)

end Verif
