import Verif.Model.Table.Bounds
import Mathlib.Tactic.FieldSimp
import Mathlib.Tactic.Linarith
import Mathlib.Tactic.NormNum
import Mathlib.Data.Rat.Floor

set_option linter.unusedSectionVars false

/-! # C60: table bounds -/

namespace Verif.Bounds

variable {K : Type*} [Field K] [LinearOrder K] [IsStrictOrderedRing K] [FloorRing K]

/-! ## Log-space bounds -/

theorem offset_pos (eps mn : K) (he : eps ≠ 0) : 0 < mn + offsetOf eps mn := by
  unfold offsetOf
  have := abs_pos.2 he
  split_ifs with h
  · rw [abs_of_nonpos h]; linarith
  · push Not at h; linarith

/-- C60: for any requested range, also with a negative or zero minimum, both log-space bounds are logarithms of positive
numbers and stay ordered, for any shrinking factor below one. -/
theorem C60_log_bounds_ordered (lg : K → K) (hlg : StrictMonoOn lg (Set.Ioi 0)) (eps mn mx s : K) (he : eps ≠ 0)
    (h : mn < mx) (hs : s < 1) :
    0 < mn + offsetOf eps mn ∧ (toLogBounds lg eps mn mx s).1 < (toLogBounds lg eps mn mx s).2 ∧
    toLogBounds lg eps mn mx 0 = (lg (mn + offsetOf eps mn), lg (mx + offsetOf eps mn)) := by
  have h1 := offset_pos eps mn he
  have h2 : 0 < mx + offsetOf eps mn := by linarith
  have h3 := hlg (show mn + offsetOf eps mn ∈ Set.Ioi 0 from h1) (show mx + offsetOf eps mn ∈ Set.Ioi 0 from h2)
    (by linarith)
  refine ⟨h1, ?_, ?_⟩
  · simp only [toLogBounds, toLog, abs_of_pos h1, abs_of_pos h2]
    nlinarith
  · simp only [toLogBounds, toLog, abs_of_pos h1, abs_of_pos h2]
    simp

/-- C60: shrinking a log range by a fraction `s` keeps it inside the unshrunk one, takes the same amount off both ends and
leaves the fraction `1 - s` of its length. -/
theorem C60_shrink (lg : K → K) (hlg : StrictMonoOn lg (Set.Ioi 0)) (eps mn mx s : K) (he : eps ≠ 0)
    (h : mn < mx) (h0 : 0 ≤ s) :
    let w := toLogBounds lg eps mn mx 0
    let v := toLogBounds lg eps mn mx s
    w.1 ≤ v.1 ∧ v.2 ≤ w.2 ∧ v.1 - w.1 = w.2 - v.2 ∧ v.2 - v.1 = (1 - s) * (w.2 - w.1) := by
  intro w v
  have h1 := offset_pos eps mn he
  have h3 := hlg (show mn + offsetOf eps mn ∈ Set.Ioi 0 from h1)
    (show mx + offsetOf eps mn ∈ Set.Ioi 0 from by show (0:K) < _; linarith) (by linarith)
  have h2 : 0 < mx + offsetOf eps mn := by linarith
  simp only [w, v, toLogBounds, toLog, abs_of_pos h1, abs_of_pos h2]
  have h4 : 0 ≤ s * (lg (mx + offsetOf eps mn) - lg (mn + offsetOf eps mn)) := mul_nonneg h0 (by linarith)
  refine ⟨by linarith, by linarith, by ring, by ring⟩

/-- A case: `[1, 3]` (identity in place of the logarithm) shrunk by a half is `[3/2, 5/2]`. -/
example : toLogBounds (id : ℚ → ℚ) (1 / 100) 1 3 (1 / 2) = (3 / 2, 5 / 2) := by decide +kernel

/-- C60: converting a grid coordinate back never leaves the requested linear range, and recovers any point of it. -/
theorem C60_log2lin (lg pw : K → K) (hinv : ∀ x, 0 < x → pw (lg x) = x) (mn mx off xl x : K) (h : mn ≤ mx)
    (h1 : mn ≤ x) (h2 : x ≤ mx) (h3 : 0 < x + off) :
    mn ≤ log2lin pw mn mx off xl ∧ log2lin pw mn mx off xl ≤ mx ∧ log2lin pw mn mx off (toLog lg x off) = x := by
  refine ⟨?_, min_le_left _ _, ?_⟩
  · exact le_min h (le_max_left _ _)
  · unfold log2lin toLog
    rw [abs_of_pos h3, hinv _ h3, add_sub_cancel_right, max_eq_right h1, min_eq_right h2]

/-- C60: the number of points from a density is at least two and at least the density times the length. -/
theorem C60_num_points (mn mx d : K) :
    2 ≤ numPoints mn mx d ∧ d * (mx - mn) ≤ numPoints mn mx d ∧
    (2 < numPoints mn mx d → (numPoints mn mx d : K) < d * (mx - mn) + 1) := by
  unfold numPoints
  refine ⟨le_max_left _ _, le_trans (Int.le_ceil _) (by exact_mod_cast le_max_right _ _), fun h => ?_⟩
  rcases max_choice 2 ⌈d * (mx - mn)⌉ with h' | h'
  · rw [h'] at h; exact absurd h (lt_irrefl _)
  · rw [h']; exact Int.ceil_lt_add_one _

/-! ## The anchor -/

/-- The index the code assigns to the anchor. -/
def anchorIndex (mn mx : K) (N : ℤ) (a : K) : ℤ := ⌈N * ((a - mn) / (mx - mn))⌉ - 1

/-- What `adjustForAnchor_` does when it acts. -/
theorem adjust_eq {mn mx : K} {N : ℤ} {a : K} (h1 : mn < a) (h2 : a < mx) (h3 : 1 ≤ anchorIndex mn mx N a)
    (h4 : anchorIndex mn mx N a + 1 < N) :
    ∃ (k n : ℤ) (dx : K), k = anchorIndex mn mx N a ∧ 0 < dx ∧ k * dx = a - mn ∧ n = ⌊(mx - mn) / dx⌋ ∧ 1 ≤ n ∧
      adjust mn mx N a = (dx * (n - 1) + mn, n) := by
  set k := anchorIndex mn mx N a with hk
  have hk' : ⌈(N:K) * ((a - mn) / (mx - mn))⌉ = k + 1 := by rw [hk]; unfold anchorIndex; ring
  have hk0 : (0:K) < k := by exact_mod_cast (by omega : 0 < k)
  have hk1 : (1:K) ≤ k := by exact_mod_cast h3
  have hdx : 0 < (a - mn) / k := div_pos (by linarith) hk0
  have hq : 1 ≤ (mx - mn) / ((a - mn) / k) := by
    rw [le_div_iff₀ hdx, one_mul]
    exact le_trans (div_le_self (by linarith) hk1) (by linarith)
  refine ⟨k, ⌊(mx - mn) / ((a - mn) / k)⌋, (a - mn) / k, rfl, hdx, by field_simp, rfl, ?_, ?_⟩
  · rw [Int.le_floor]; exact_mod_cast hq
  · unfold adjust
    rw [if_pos ⟨h1, h2⟩]
    simp only [hk']
    rw [if_neg (by omega), show k + 1 - 1 = k from by ring]
    have : toInt ((mx - mn) / ((a - mn) / k)) = ⌊(mx - mn) / ((a - mn) / k)⌋ := by
      unfold toInt; rw [if_pos (by linarith)]
    rw [this]
    push_cast
    rfl

/-- C60 (what holds): when the anchor is not too close to the upper end, measured by
`N (a - min)(max - a) ≥ (max - min)^2`, the adjusted grid has the anchor as one of its points. -/
theorem C60_anchor_on_grid_partial (mn mx : K) (N : ℤ) (a : K) (h1 : mn < a) (h2 : a < mx)
    (h3 : 1 ≤ anchorIndex mn mx N a) (h4 : anchorIndex mn mx N a + 1 < N)
    (h5 : (mx - mn) ^ 2 ≤ N * ((a - mn) * (mx - a))) :
    let g : Grid K := ⟨mn, (adjust mn mx N a).1, (adjust mn mx N a).2⟩
    ∃ i, 0 ≤ i ∧ i < g.N ∧ g.x i = a := by
  obtain ⟨k, n, dx, hk, hdx, hkd, hn, hn1, hadj⟩ := adjust_eq h1 h2 h3 h4
  have hL : 0 < mx - mn := by linarith
  have hle : k + 1 ≤ n := by
    rw [hn, Int.le_floor, le_div_iff₀ hdx]
    push_cast
    -- (k+1) dx = a - mn + dx ≤ mx - mn
    have hN : (N:K) * ((a - mn) / (mx - mn)) ≤ k + 1 := by
      have := Int.le_ceil ((N:K) * ((a - mn) / (mx - mn)))
      have e : ⌈(N:K) * ((a - mn) / (mx - mn))⌉ = k + 1 := by rw [hk]; unfold anchorIndex; ring
      rw [e] at this; exact_mod_cast this
    have h6 : (mx - mn) ≤ (k + 1) * (mx - a) := by
      have h7 : (N:K) * (a - mn) ≤ (k + 1) * (mx - mn) := by
        rw [mul_div_assoc', div_le_iff₀ hL] at hN; exact hN
      have h8 : (mx - mn) * (mx - mn) ≤ (k + 1) * (mx - a) * (mx - mn) := by
        have : (N:K) * (a - mn) * (mx - a) ≤ (k + 1) * (mx - mn) * (mx - a) :=
          mul_le_mul_of_nonneg_right h7 (by linarith)
        nlinarith
      exact le_of_mul_le_mul_right h8 hL
    have hk0 : (0:K) < k := by exact_mod_cast (by omega : 0 < k)
    -- dx ≤ mx - a
    have h9 : dx ≤ mx - a := by
      have : k * dx ≤ k * (mx - a) := by rw [hkd]; linarith
      exact le_of_mul_le_mul_left this hk0
    linarith
  intro g
  refine ⟨k, by omega, ?_, ?_⟩
  · show k < (adjust mn mx N a).2
    rw [hadj]; show k < n; omega
  · have hnm : ((n:K) - 1) ≠ 0 := by
      have : (0:K) < n - 1 := by
        have : (1:K) < n := by exact_mod_cast (by omega : 1 < n)
        linarith
      exact this.ne'
    show mn + k * (((adjust mn mx N a).1 - mn) / ((adjust mn mx N a).2 - 1)) = a
    rw [hadj]
    simp only
    rw [add_sub_cancel_right, mul_div_assoc, div_self hnm, mul_one, hkd]; ring

/-- C60 violated: whenever the anchor adjustment acts, the requested upper end is outside the adjusted grid, by between
one and two grid spacings. -/
theorem C60_range_not_contained_violated (mn mx : K) (N : ℤ) (a : K) (h1 : mn < a) (h2 : a < mx)
    (h3 : 1 ≤ anchorIndex mn mx N a) (h4 : anchorIndex mn mx N a + 1 < N) :
    ∃ dx, 0 < dx ∧ dx * anchorIndex mn mx N a = a - mn ∧
      (adjust mn mx N a).1 ≤ mx - dx ∧ mx - 2 * dx < (adjust mn mx N a).1 ∧ (adjust mn mx N a).2 < N := by
  obtain ⟨k, n, dx, hk, hdx, hkd, hn, hn1, hadj⟩ := adjust_eq h1 h2 h3 h4
  have f1 : (n:K) ≤ (mx - mn) / dx := by rw [hn]; exact Int.floor_le _
  have f2 : (mx - mn) / dx < n + 1 := by rw [hn]; exact Int.lt_floor_add_one _
  rw [le_div_iff₀ hdx] at f1
  rw [div_lt_iff₀ hdx] at f2
  refine ⟨dx, hdx, by rw [← hk]; linarith, ?_, ?_, ?_⟩
  · rw [hadj]; simp only; linarith
  · rw [hadj]; simp only; linarith
  · rw [hadj]
    have hL : 0 < mx - mn := by linarith
    have hc := Int.ceil_lt_add_one ((N:K) * ((a - mn) / (mx - mn)))
    have e : ⌈(N:K) * ((a - mn) / (mx - mn))⌉ = k + 1 := by rw [hk]; unfold anchorIndex; ring
    rw [e] at hc
    push_cast at hc
    have h6 : (k:K) < N * ((a - mn) / (mx - mn)) := by linarith
    rw [mul_div_assoc', lt_div_iff₀ hL] at h6
    have h7 : (n:K) < N := by
      have hk0 : (0:K) < a - mn := by linarith
      have : (n:K) * (a - mn) < N * (a - mn) := by
        have h8 : (k:K) * (n * dx) ≤ k * (mx - mn) := by
          have hk0 : (0:K) < k := by exact_mod_cast (by omega : 0 < k)
          exact mul_le_mul_of_nonneg_left f1 hk0.le
        have : (n:K) * (a - mn) = k * (n * dx) := by rw [← hkd]; ring
        linarith
      exact lt_of_mul_lt_mul_right this hk0.le
    show n < N
    exact_mod_cast h7

/-- C60 violated: with ten points on `[0, 1]` and the anchor at 0.89, the adjusted grid stops before the anchor: the
point the table was to resolve is outside it. -/
theorem C60_anchor_lost_violated :
    (adjust (0:ℚ) 1 10 (89 / 100)).1 < 89 / 100 ∧ (adjust (0:ℚ) 1 10 (89 / 100)).2 = 8 := by
  decide +kernel

/-- C60 violated: with three points on `[0, 1]` and the anchor at 0.6, the adjusted grid is a single point, `[0, 0]`. -/
theorem C60_degenerate_grid_violated : adjust (0:ℚ) 1 3 (6 / 10) = (0, 1) := by decide +kernel

/-- C60 violated: a split or anchor point below a lower bound of zero (log10 of 1) is "adjusted" onto the bound, not
into the interval. -/
theorem C60_check_interval_violated : checkInterval (-1 : ℚ) 0 1 = 0 ∧ checkInterval (-8 : ℚ) (-7) 1 = -63 / 10 ∧
    checkInterval (3 : ℚ) 2 (21 / 10) < 2 := by decide +kernel

/-- C60: points already strictly inside are left alone. -/
theorem C60_check_interval_inside (p mn mx : K) (h1 : mn < p) (h2 : p < mx) : checkInterval p mn mx = p := by
  unfold checkInterval; simp [not_le.2 h1, not_le.2 h2]

/-- C60 violated: in the one-grid constructor the anchor's logarithm is taken without the offset: with a non-positive
minimum, the grid point assigned to the anchor is the anchor minus the offset. -/
theorem C60_one_grid_anchor_offset_violated (lg pw : K → K) (hinv : ∀ x, 0 < x → pw (lg x) = x)
    (eps mn mx a : K) (N : ℤ) (shrink : K) (ha : 0 < a) (he : eps ≠ 0) (hmn : mn ≤ 0)
    (h1 : (toLogBounds lg eps mn mx shrink).1 < lg a) (h2 : lg a < (toLogBounds lg eps mn mx shrink).2)
    (h3 : 1 ≤ anchorIndex (toLogBounds lg eps mn mx shrink).1 (toLogBounds lg eps mn mx shrink).2 N (lg a))
    (h4 : anchorIndex (toLogBounds lg eps mn mx shrink).1 (toLogBounds lg eps mn mx shrink).2 N (lg a) + 1 < N)
    (h5 : ((toLogBounds lg eps mn mx shrink).2 - (toLogBounds lg eps mn mx shrink).1) ^ 2 ≤
      N * ((lg a - (toLogBounds lg eps mn mx shrink).1) * ((toLogBounds lg eps mn mx shrink).2 - lg a))) :
    let g := oneGrid lg eps mn mx N true shrink (some a)
    ∃ i, 0 ≤ i ∧ i < g.N ∧ pw (g.x i) - offsetOf eps mn = a - offsetOf eps mn ∧ a - offsetOf eps mn < a := by
  obtain ⟨i, i0, i1, i2⟩ := C60_anchor_on_grid_partial _ _ N (lg a) h1 h2 h3 h4 h5
  have hg : oneGrid lg eps mn mx N true shrink (some a) =
      ⟨(toLogBounds lg eps mn mx shrink).1,
        (adjust (toLogBounds lg eps mn mx shrink).1 (toLogBounds lg eps mn mx shrink).2 N (lg a)).1,
        (adjust (toLogBounds lg eps mn mx shrink).1 (toLogBounds lg eps mn mx shrink).2 N (lg a)).2⟩ := by
    simp only [oneGrid, if_true, abs_of_pos ha]
  intro g
  refine ⟨i, i0, ?_, ?_, ?_⟩
  · show i < (oneGrid lg eps mn mx N true shrink (some a)).N
    rw [hg]; exact i1
  · show pw ((oneGrid lg eps mn mx N true shrink (some a)).x i) - _ = _
    rw [hg, i2, hinv a ha]
  · have : 0 < offsetOf eps mn := by have := offset_pos eps mn he; linarith
    linarith

/-! ## Several grids -/

/-- The adjusted upper end stays inside the requested interval, and at least one point remains. -/
theorem adjust_range (mn mx : K) (N : ℤ) (a : K) (hN : 1 ≤ N) (h : mn < mx) :
    mn ≤ (adjust mn mx N a).1 ∧ (adjust mn mx N a).1 ≤ mx ∧ 1 ≤ (adjust mn mx N a).2 := by
  by_cases h12 : mn < a ∧ a < mx
  · by_cases h34 : 1 ≤ anchorIndex mn mx N a ∧ anchorIndex mn mx N a + 1 < N
    · obtain ⟨k, n, dx, hk, hdx, hkd, hn, hn1, hadj⟩ := adjust_eq h12.1 h12.2 h34.1 h34.2
      obtain ⟨dx', d1, _, d3, _, _⟩ := C60_range_not_contained_violated mn mx N a h12.1 h12.2 h34.1 h34.2
      refine ⟨?_, by linarith, by rw [hadj]; exact hn1⟩
      rw [hadj]
      have : (0:K) ≤ n - 1 := by have : (1:K) ≤ n := by exact_mod_cast hn1
                                 linarith
      have := mul_nonneg hdx.le this
      simp only; linarith
    · have : adjust mn mx N a = (mx, N) := by
        unfold adjust
        rw [if_pos h12]
        simp only
        rw [if_pos]
        unfold anchorIndex at h34
        omega
      rw [this]; exact ⟨h.le, le_rfl, hN⟩
  · have : adjust mn mx N a = (mx, N) := by unfold adjust; rw [if_neg h12]
    rw [this]; exact ⟨h.le, le_rfl, hN⟩

/-- C60: two-grid bounds are contiguous and span the whole (log) range, for every input. -/
theorem C60_two_grids_contiguous (lg : K → K) (eps mn mx a sp fine f : K) (s : K) (log : Bool) :
    let g := twoGrids lg eps mn mx a sp fine f log s
    let b := if log then toLogBounds lg eps mn mx s else (mn, mx)
    g.1.min = b.1 ∧ g.1.max = g.2.min ∧ g.2.max = b.2 ∧ 2 ≤ g.2.N := by
  intro g b
  exact ⟨rfl, rfl, rfl, (C60_num_points _ _ _).1⟩

/-- C60: three-grid bounds around an anchor strictly inside the range are contiguous, span the range, and their break
points are ordered, for any positive diameter, also when the requested fine region sticks out of the range. -/
theorem C60_three_grids (mn mx anchor diam fine fl fh : K) (h1 : mn < anchor) (h2 : anchor < mx) (hd : 0 < diam) :
    let g := threeFromIntervals mn mx anchor (anchor - 1 / 2 * diam) (anchor + 1 / 2 * diam) fine fl fh
    g.1.min = mn ∧ g.1.max = g.2.1.min ∧ g.2.1.max = g.2.2.min ∧ g.2.2.max = mx ∧
    mn < g.2.1.min ∧ g.2.1.min < anchor ∧ g.2.1.min ≤ g.2.1.max ∧ g.2.1.max < mx ∧
    2 ≤ g.1.N ∧ 1 ≤ g.2.1.N ∧ 2 ≤ g.2.2.N := by
  intro g
  set m1 := if anchor - 1 / 2 * diam ≤ mn then anchor - 9 / 10 * |anchor - mn| else anchor - 1 / 2 * diam with hm1
  set m2 := if mx ≤ anchor + 1 / 2 * diam then anchor + 9 / 10 * |mx - anchor| else anchor + 1 / 2 * diam with hm2
  have e1 : mn < m1 ∧ m1 < anchor := by
    rw [hm1]; split_ifs with h
    · rw [abs_of_pos (by linarith)]; constructor <;> linarith
    · constructor <;> linarith
  have e2 : anchor < m2 ∧ m2 < mx := by
    rw [hm2]; split_ifs with h
    · rw [abs_of_pos (by linarith)]; constructor <;> linarith
    · constructor <;> linarith
  have hN : 1 ≤ numPoints m1 m2 fine + 1 := by have := (C60_num_points m1 m2 fine).1; omega
  obtain ⟨r1, r2, r3⟩ := adjust_range m1 m2 (numPoints m1 m2 fine + 1) anchor hN (by linarith)
  exact ⟨rfl, rfl, rfl, rfl, e1.1, e1.2, r1, lt_of_le_of_lt r2 e2.2, (C60_num_points _ _ _).1, r3,
    (C60_num_points _ _ _).1⟩

/-- A case where everything works: eleven points on `[0, 10]`, anchor at 3.5: index 3, spacing 7/6. -/
example : anchorIndex (0:ℚ) 10 11 (7 / 2) = 3 ∧ (adjust (0:ℚ) 10 11 (7 / 2)) = (49 / 6, 8) := by decide +kernel

example : (10 - 0 : ℚ) ^ 2 ≤ 11 * ((7 / 2 - 0) * (10 - 7 / 2)) := by norm_num

end Verif.Bounds
