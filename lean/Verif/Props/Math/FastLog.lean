import Verif.Model.Math.FastLog
import Verif.Lemmas.Deriv
import Mathlib.Topology.Order.MonotoneContinuity
import Mathlib.Analysis.SpecialFunctions.Log.Base
import Mathlib.Analysis.Convex.SpecificFunctions.Basic
import Mathlib.Topology.Instances.Real.Lemmas

set_option linter.unusedSectionVars false

/-! # C57: the fast logarithm and exponential -/

namespace Verif.FastLog

open Filter Topology

/-! ## The portable versions -/

/-- Every positive number is `(1 + t) 2^e` with `0 ≤ t < 1`. -/
theorem decompose {x : ℝ} (hx : 0 < x) : ∃ (e : ℤ) (t : ℝ), 0 ≤ t ∧ t < 1 ∧ x = (1 + t) * 2 ^ e := by
  have h1 := Int.zpow_log_le_self (b := 2) (r := x) (by norm_num) hx
  have h2 := Int.lt_zpow_succ_log_self (b := 2) (by norm_num) x
  push_cast at h1 h2
  have hp : (0:ℝ) < 2 ^ Int.log 2 x := by positivity
  rw [zpow_add_one₀ (by norm_num)] at h2
  refine ⟨Int.log 2 x, x / 2 ^ Int.log 2 x - 1, ?_, ?_, ?_⟩
  · rw [sub_nonneg, le_div_iff₀ hp]; linarith
  · rw [sub_lt_iff_lt_add, div_lt_iff₀ hp]; linarith
  · field_simp; ring

theorem log_of {e : ℤ} {t : ℝ} (h0 : 0 ≤ t) (h1 : t < 1) : Int.log 2 ((1 + t) * 2 ^ e) = e := by
  have hp : (0:ℝ) < 2 ^ e := by positivity
  have hx : (0:ℝ) < (1 + t) * 2 ^ e := by positivity
  apply le_antisymm
  · have : (1 + t) * 2 ^ e < (2:ℝ) ^ (e + 1) := by
      rw [zpow_add_one₀ (by norm_num)]; nlinarith
    have := (Int.lt_zpow_iff_log_lt (b := 2) (by norm_num) hx).1 (by exact_mod_cast this)
    omega
  · apply (Int.zpow_le_iff_le_log (b := 2) (by norm_num) hx).1
    push_cast
    nlinarith

theorem frexp_of {e : ℤ} {t : ℝ} (h0 : 0 ≤ t) (h1 : t < 1) :
    frexp ((1 + t) * 2 ^ e) = ((1 + t) / 2, e + 1) := by
  have hp : (0:ℝ) < 2 ^ e := by positivity
  unfold frexp
  rw [log_of h0 h1, zpow_add_one₀ (by norm_num)]
  congr 1
  field_simp

theorem lgO1_of {e : ℤ} {t : ℝ} (h0 : 0 ≤ t) (h1 : t < 1) : lgO1 ((1 + t) * 2 ^ e) = e + t := by
  simp only [lgO1, frexp_of h0 h1]; push_cast; ring

theorem lgO2_of {e : ℤ} {t : ℝ} (h0 : 0 ≤ t) (h1 : t < 1) :
    lgO2 ((1 + t) * 2 ^ e) = e + (t + (t - t ^ 2) / 3) := by
  simp only [lgO2, frexp_of h0 h1]; push_cast; ring

theorem floor_of {e : ℤ} {u : ℝ} (h0 : 0 ≤ u) (h1 : u < 1) : ⌊(e : ℝ) + u⌋ = e := by
  rw [Int.floor_eq_iff]; constructor <;> linarith

theorem pow2O1_of {e : ℤ} {u : ℝ} (h0 : 0 ≤ u) (h1 : u < 1) : pow2O1 (e + u) = (1 + u) * 2 ^ e := by
  simp only [pow2O1, ldexp, floor_of h0 h1]
  rw [zpow_add_one₀ (by norm_num)]; ring

theorem pow2O2_of {e : ℤ} {u : ℝ} (h0 : 0 ≤ u) (h1 : u < 1) :
    pow2O2 (e + u) = (1 + (2 - Real.sqrt (4 - 3 * u))) * 2 ^ e := by
  simp only [pow2O2, ldexp, floor_of h0 h1]
  rw [zpow_add_one₀ (by norm_num), show 1 - 3 * ((e:ℝ) + u - e - 1) = 4 - 3 * u from by ring]; ring

/-- The quadratic mantissa map sends `[0,1)` to `[0,1)`. -/
theorem quad_range {t : ℝ} (h0 : 0 ≤ t) (h1 : t < 1) :
    0 ≤ t + (t - t ^ 2) / 3 ∧ t + (t - t ^ 2) / 3 < 1 := by
  constructor <;> nlinarith

theorem quad_inv {t : ℝ} (h1 : t < 1) : 2 - Real.sqrt (4 - 3 * (t + (t - t ^ 2) / 3)) = t := by
  rw [show 4 - 3 * (t + (t - t ^ 2) / 3) = (2 - t) ^ 2 from by ring, Real.sqrt_sq (by linarith)]; ring

theorem quad_inv_range {u : ℝ} (h0 : 0 ≤ u) (h1 : u < 1) :
    0 ≤ 2 - Real.sqrt (4 - 3 * u) ∧ 2 - Real.sqrt (4 - 3 * u) < 1 := by
  constructor
  · have : Real.sqrt (4 - 3 * u) ≤ 2 := by
      rw [show (2:ℝ) = Real.sqrt (2 ^ 2) from (Real.sqrt_sq (by norm_num)).symm]
      exact Real.sqrt_le_sqrt (by linarith)
    linarith
  · have : 1 < Real.sqrt (4 - 3 * u) := by
      rw [Real.lt_sqrt (by norm_num)]; linarith
    linarith

theorem quad_inv' {u : ℝ} (h1 : u < 1) :
    (2 - Real.sqrt (4 - 3 * u)) + ((2 - Real.sqrt (4 - 3 * u)) - (2 - Real.sqrt (4 - 3 * u)) ^ 2) / 3 = u := by
  have := Real.sq_sqrt (show 0 ≤ 4 - 3 * u by linarith)
  linear_combination (-1 / 3) * this

/-- C57: both portable pairs are exact mutual inverses between the positive numbers and the reals. -/
theorem C57_inverse :
    (∀ x : ℝ, 0 < x → pow2O1 (lgO1 x) = x) ∧ (∀ y : ℝ, 0 < pow2O1 y ∧ lgO1 (pow2O1 y) = y) ∧
    (∀ x : ℝ, 0 < x → pow2O2 (lgO2 x) = x) ∧ (∀ y : ℝ, 0 < pow2O2 y ∧ lgO2 (pow2O2 y) = y) := by
  have frac : ∀ y : ℝ, ∃ (e : ℤ) (u : ℝ), 0 ≤ u ∧ u < 1 ∧ y = e + u := fun y =>
    ⟨⌊y⌋, Int.fract y, Int.fract_nonneg y, Int.fract_lt_one y, (Int.floor_add_fract y).symm⟩
  refine ⟨fun x hx => ?_, fun y => ?_, fun x hx => ?_, fun y => ?_⟩
  · obtain ⟨e, t, h0, h1, rfl⟩ := decompose hx
    rw [lgO1_of h0 h1, pow2O1_of h0 h1]
  · obtain ⟨e, u, h0, h1, rfl⟩ := frac y
    rw [pow2O1_of h0 h1]
    exact ⟨by positivity, lgO1_of h0 h1⟩
  · obtain ⟨e, t, h0, h1, rfl⟩ := decompose hx
    obtain ⟨q0, q1⟩ := quad_range h0 h1
    rw [lgO2_of h0 h1, pow2O2_of q0 q1, quad_inv h1]
  · obtain ⟨e, u, h0, h1, rfl⟩ := frac y
    obtain ⟨q0, q1⟩ := quad_inv_range h0 h1
    rw [pow2O2_of h0 h1]
    exact ⟨by positivity, by rw [lgO2_of q0 q1, quad_inv' h1]⟩

theorem binade_lt {d e : ℤ} {s t : ℝ} (hs0 : 0 ≤ s) (ht1 : t < 1) (ht0 : 0 ≤ t)
    (h : (1 + s) * (2:ℝ) ^ d < (1 + t) * 2 ^ e) : d < e ∨ d = e ∧ s < t := by
  rcases lt_trichotomy d e with hd | hd | hd
  · exact Or.inl hd
  · subst hd
    have hp : (0:ℝ) < 2 ^ d := by positivity
    exact Or.inr ⟨rfl, by have := lt_of_mul_lt_mul_right h hp.le; linarith⟩
  · exfalso
    have h1 : (2:ℝ) ^ (e + 1) ≤ 2 ^ d := zpow_le_zpow_right₀ (by norm_num) (by omega)
    rw [zpow_add_one₀ (by norm_num)] at h1
    have hp : (0:ℝ) < 2 ^ e := by positivity
    have hp' : (0:ℝ) < 2 ^ d := by positivity
    nlinarith

/-- C57: both portable logarithms are strictly increasing on the positive numbers. -/
theorem C57_strictly_increasing : StrictMonoOn lgO1 (Set.Ioi 0) ∧ StrictMonoOn lgO2 (Set.Ioi 0) := by
  constructor
  · intro x hx y hy hxy
    obtain ⟨d, s, s0, s1, rfl⟩ := decompose hx
    obtain ⟨e, t, t0, t1, rfl⟩ := decompose hy
    rw [lgO1_of s0 s1, lgO1_of t0 t1]
    rcases binade_lt s0 t1 t0 hxy with h | ⟨rfl, h⟩
    · have : (d:ℝ) + 1 ≤ e := by exact_mod_cast h
      linarith
    · linarith
  · intro x hx y hy hxy
    obtain ⟨d, s, s0, s1, rfl⟩ := decompose hx
    obtain ⟨e, t, t0, t1, rfl⟩ := decompose hy
    rw [lgO2_of s0 s1, lgO2_of t0 t1]
    rcases binade_lt s0 t1 t0 hxy with h | ⟨rfl, h⟩
    · have : (d:ℝ) + 1 ≤ e := by exact_mod_cast h
      have := (quad_range s0 s1).2
      have := (quad_range t0 t1).1
      linarith
    · nlinarith

/-- The portable logarithm of either order as an order isomorphism. -/
noncomputable def iso (lg pow2 : ℝ → ℝ) (h1 : ∀ x, 0 < x → pow2 (lg x) = x)
    (h2 : ∀ y, 0 < pow2 y ∧ lg (pow2 y) = y) (hm : StrictMonoOn lg (Set.Ioi 0)) : Set.Ioi (0:ℝ) ≃o ℝ where
  toFun x := lg x
  invFun y := ⟨pow2 y, (h2 y).1⟩
  left_inv x := Subtype.ext (h1 x x.2)
  right_inv y := (h2 y).2
  map_rel_iff' {x y} := hm.le_iff_le x.2 y.2

/-- C57: the portable logarithms and exponentials are continuous. -/
theorem C57_continuous : ContinuousOn lgO1 (Set.Ioi 0) ∧ ContinuousOn lgO2 (Set.Ioi 0) ∧
    Continuous pow2O1 ∧ Continuous pow2O2 := by
  obtain ⟨a1, a2, b1, b2⟩ := C57_inverse
  obtain ⟨m1, m2⟩ := C57_strictly_increasing
  let i1 := iso lgO1 pow2O1 a1 a2 m1
  let i2 := iso lgO2 pow2O2 b1 b2 m2
  refine ⟨?_, ?_, ?_, ?_⟩
  · rw [continuousOn_iff_continuous_restrict]; exact i1.continuous
  · rw [continuousOn_iff_continuous_restrict]; exact i2.continuous
  · exact continuous_subtype_val.comp i1.symm.continuous
  · exact continuous_subtype_val.comp i2.symm.continuous

/-- C57: the portable exponentials are strictly increasing. -/
theorem C57_pow2_strictly_increasing : StrictMono pow2O1 ∧ StrictMono pow2O2 := by
  obtain ⟨a1, a2, b1, b2⟩ := C57_inverse
  obtain ⟨m1, m2⟩ := C57_strictly_increasing
  exact ⟨fun x y h => (iso lgO1 pow2O1 a1 a2 m1).symm.strictMono h,
    fun x y h => (iso lgO2 pow2O2 b1 b2 m2).symm.strictMono h⟩

/-- C57: the portable logarithms agree with the true base-2 logarithm at the powers of two, have the same integer
part everywhere, and the linear one never exceeds it. -/
theorem C57_agrees_with_log2 :
    (∀ e : ℤ, lgO1 (2 ^ e) = Real.logb 2 (2 ^ e) ∧ lgO2 (2 ^ e) = Real.logb 2 (2 ^ e)) ∧
    (∀ x : ℝ, 0 < x → ⌊lgO1 x⌋ = ⌊Real.logb 2 x⌋ ∧ ⌊lgO2 x⌋ = ⌊Real.logb 2 x⌋ ∧ lgO1 x ≤ lgO2 x ∧
      lgO1 x ≤ Real.logb 2 x) := by
  constructor
  · intro e
    have h1 := lgO1_of (e := e) (t := 0) le_rfl (by norm_num)
    have h2 := lgO2_of (e := e) (t := 0) le_rfl (by norm_num)
    have h3 : Real.logb 2 ((2:ℝ) ^ e) = e := by
      rw [← Real.rpow_intCast, Real.logb_rpow (by norm_num) (by norm_num)]
    simp only [add_zero, one_mul] at h1 h2
    rw [h1, h2, h3]
    norm_num
  · intro x hx
    obtain ⟨e, t, h0, h1, rfl⟩ := decompose hx
    have hb : Real.logb 2 ((1 + t) * 2 ^ e) = e + Real.logb 2 (1 + t) := by
      rw [Real.logb_mul (by linarith) (by positivity), ← Real.rpow_intCast,
        Real.logb_rpow (by norm_num) (by norm_num)]; ring
    have l0 : 0 ≤ Real.logb 2 (1 + t) := Real.logb_nonneg (by norm_num) (by linarith)
    have l1 : Real.logb 2 (1 + t) < 1 := by
      rw [Real.logb_lt_iff_lt_rpow (by norm_num) (by linarith)]; norm_num; linarith
    have l2 : t ≤ Real.logb 2 (1 + t) := by
      rw [Real.le_logb_iff_rpow_le (by norm_num) (by linarith)]
      have := rpow_one_add_le_one_add_mul_self (s := 1) (by norm_num) h0 h1.le
      norm_num at this
      linarith
    obtain ⟨q0, q1⟩ := quad_range h0 h1
    rw [lgO1_of h0 h1, lgO2_of h0 h1, hb, floor_of h0 h1, floor_of q0 q1, floor_of l0 l1]
    refine ⟨rfl, rfl, ?_, by linarith⟩
    nlinarith

/-- The slope of the quadratic logarithm at `x`, in the binade of `x`. -/
noncomputable def slope (x : ℝ) : ℝ := (4 - 2 * (x / 2 ^ Int.log 2 x - 1)) / 3 / 2 ^ Int.log 2 x

/-- The polynomial of one binade. -/
noncomputable def piece (e : ℤ) (x : ℝ) : ℝ := e + ((x / 2 ^ e - 1) + ((x / 2 ^ e - 1) - (x / 2 ^ e - 1) ^ 2) / 3)

/-- Its derivative. -/
noncomputable def piece' (e : ℤ) (x : ℝ) : ℝ := (4 - 2 * (x / 2 ^ e - 1)) / 3 / 2 ^ e

theorem piece_deriv (e : ℤ) (x : ℝ) : HasDerivAt (piece e) (piece' e x) x := by
  have h : HasDerivAt (fun x : ℝ => x / 2 ^ e - 1) (1 / 2 ^ e) x := ((hasDerivAt_id x).div_const _).sub_const 1
  have := (h.fun_add ((h.fun_sub (h.fun_pow 2)).div_const 3)).const_add (e : ℝ)
  refine HasDerivAt.change this (fun _ => rfl) ?_
  unfold piece'; push_cast; ring

theorem eq_piece {e : ℤ} {x : ℝ} (h : x ∈ Set.Icc ((2:ℝ) ^ e) (2 ^ (e + 1))) :
    lgO2 x = piece e x ∧ slope x = piece' e x := by
  have hp : (0:ℝ) < 2 ^ e := by positivity
  rcases eq_or_lt_of_le h.2 with h2 | h2
  · subst h2
    have hl := log_of (e := e + 1) (t := 0) le_rfl (by norm_num)
    have hg := lgO2_of (e := e + 1) (t := 0) le_rfl (by norm_num)
    simp only [add_zero, one_mul] at hl hg
    unfold slope piece piece'
    rw [hg, hl, zpow_add_one₀ (by norm_num)]
    constructor
    · push_cast; field_simp; ring
    · field_simp; ring
  · obtain ⟨t, ht⟩ : ∃ t, x = (1 + t) * 2 ^ e := ⟨x / 2 ^ e - 1, by field_simp; ring⟩
    rw [zpow_add_one₀ (by norm_num)] at h2
    have h0 : 0 ≤ t := by have := h.1; rw [ht] at this; nlinarith
    have h1 : t < 1 := by rw [ht] at h2; nlinarith
    subst ht
    unfold slope piece piece'
    rw [lgO2_of h0 h1, log_of h0 h1]
    have : (1 + t) * (2:ℝ) ^ e / 2 ^ e - 1 = t := by field_simp; ring
    rw [this]
    exact ⟨rfl, rfl⟩

/-- Every positive `x` has two adjacent closed binades covering a neighbourhood. -/
theorem nbhd {x : ℝ} (hx : 0 < x) : ∃ e : ℤ, x ∈ Set.Icc ((2:ℝ) ^ e) (2 ^ (e + 1)) ∧
    (Set.Icc ((2:ℝ) ^ e) (2 ^ (e + 1)) ∈ 𝓝 x ∨ (x = 2 ^ e ∧
      Set.Icc ((2:ℝ) ^ (e - 1)) (2 ^ e) ∪ Set.Icc ((2:ℝ) ^ e) (2 ^ (e + 1)) ∈ 𝓝 x)) := by
  obtain ⟨e, t, h0, h1, rfl⟩ := decompose hx
  have hp : (0:ℝ) < 2 ^ e := by positivity
  have hb : (1 + t) * (2:ℝ) ^ e < 2 ^ (e + 1) := by rw [zpow_add_one₀ (by norm_num)]; nlinarith
  refine ⟨e, ⟨by nlinarith, hb.le⟩, ?_⟩
  rcases eq_or_lt_of_le h0 with h | h
  · right
    subst h
    simp only [add_zero, one_mul] at hb ⊢
    refine ⟨trivial, ?_⟩
    have hlow : (2:ℝ) ^ (e - 1) < 2 ^ e := zpow_lt_zpow_right₀ (by norm_num) (by omega)
    rw [Set.Icc_union_Icc_eq_Icc hlow.le hb.le]
    exact Icc_mem_nhds hlow hb
  · left
    exact Icc_mem_nhds (by nlinarith) hb

/-- C57: the quadratic logarithm (the default order) is continuously differentiable on the positive numbers, also at
the powers of two where its pieces meet. -/
theorem C57_quadratic_is_C1 : (∀ x : ℝ, 0 < x → HasDerivAt lgO2 (slope x) x) ∧ ContinuousOn slope (Set.Ioi 0) := by
  have key : ∀ (e : ℤ) (x : ℝ), x ∈ Set.Icc ((2:ℝ) ^ e) (2 ^ (e + 1)) →
      HasDerivWithinAt lgO2 (slope x) (Set.Icc ((2:ℝ) ^ e) (2 ^ (e + 1))) x ∧
      ContinuousWithinAt slope (Set.Icc ((2:ℝ) ^ e) (2 ^ (e + 1))) x := by
    intro e x hx
    constructor
    · rw [(eq_piece hx).2]
      exact (piece_deriv e x).hasDerivWithinAt.congr (fun y hy => (eq_piece hy).1) (eq_piece hx).1
    · have hc : Continuous (piece' e) := by unfold piece'; fun_prop
      exact hc.continuousWithinAt.congr (fun y hy => (eq_piece hy).2) (eq_piece hx).2
  constructor
  · intro x hx
    obtain ⟨e, he, h | ⟨h, hn⟩⟩ := nbhd hx
    · exact (key e x he).1.hasDerivAt h
    · have hlow : x ∈ Set.Icc ((2:ℝ) ^ (e - 1)) (2 ^ (e - 1 + 1)) := by
        rw [sub_add_cancel, h]; exact ⟨zpow_le_zpow_right₀ (by norm_num) (by omega), le_rfl⟩
      have k := (key (e - 1) x hlow).1
      rw [sub_add_cancel] at k
      exact (k.union (key e x he).1).hasDerivAt hn
  · intro x hx
    apply ContinuousAt.continuousWithinAt
    obtain ⟨e, he, h | ⟨h, hn⟩⟩ := nbhd hx
    · exact (key e x he).2.continuousAt h
    · have hlow : x ∈ Set.Icc ((2:ℝ) ^ (e - 1)) (2 ^ (e - 1 + 1)) := by
        rw [sub_add_cancel, h]; exact ⟨zpow_le_zpow_right₀ (by norm_num) (by omega), le_rfl⟩
      have k := (key (e - 1) x hlow).2
      rw [sub_add_cancel] at k
      exact (k.union (key e x he).2).continuousAt hn

/-- C57: base 10: the wrappers are inverse when their two constants are reciprocal; the literals of the code are
reciprocal to 1e-16. -/
theorem C57_base10 (c c' : ℝ) (h : c' * c = 1) (x : ℝ) (hx : 0 < x) :
    pow10Of c' pow2O2 (log10Of c lgO2 x) = x ∧ pow10Of c' pow2O1 (log10Of c lgO1 x) = x ∧
    |(3.321928094887362626 : ℝ) * 0.301029995663981195 - 1| < 1 / 10 ^ 16 := by
  refine ⟨?_, ?_, ?_⟩
  · rw [pow10Of, log10Of, ← mul_assoc, h, one_mul]; exact C57_inverse.2.2.1 x hx
  · rw [pow10Of, log10Of, ← mul_assoc, h, one_mul]; exact C57_inverse.1 x hx
  · rw [abs_lt]; constructor <;> norm_num

/-- A concrete, non-trivial value: `lg 3` is `3/2` to first order and `19/12` to second order. -/
example : lgO1 3 = 3 / 2 ∧ lgO2 3 = 19 / 12 := by
  have h1 := lgO1_of (e := 1) (t := 1 / 2) (by norm_num) (by norm_num)
  have h2 := lgO2_of (e := 1) (t := 1 / 2) (by norm_num) (by norm_num)
  norm_num at h1 h2
  exact ⟨h1, h2⟩

end Verif.FastLog
