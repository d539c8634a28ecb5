import Verif.Model.Eos.Helmholtz
import Verif.Lemmas.Deriv
import Verif.Tactics

set_option linter.unusedSectionVars false

/-!
# C58: Hermite interpolation of the Helmholtz free energy

The nodes of one direction are `X j` and the table holds, at every pair of nodes, a value and its partial
derivatives.
-/

namespace Verif.Helm

open Verif.Hermite Verif.Robust

/-! ## The basis functions -/

/-- C58: `dpsi*` and `ddpsi*` are the derivatives of the basis functions, everywhere. -/
theorem C58_basis_derivatives (z : ℝ) :
    HasDerivAt psi0 (dpsi0 z) z ∧ HasDerivAt dpsi0 (ddpsi0 z) z ∧
    HasDerivAt psi1 (dpsi1 z) z ∧ HasDerivAt dpsi1 (ddpsi1 z) z ∧
    HasDerivAt psi2 (dpsi2 z) z ∧ HasDerivAt dpsi2 (ddpsi2 z) z ∧
    HasDerivAt xpsi0 (xdpsi0 z) z ∧ HasDerivAt xpsi1 (xdpsi1 z) z := by
  have hp : ∀ n : ℕ, HasDerivAt (fun y : ℝ => y ^ n) (n * z ^ (n - 1)) z := fun n => hasDerivAt_pow n z
  have key : ∀ a b c d e f : ℝ, HasDerivAt (fun y : ℝ => a * y ^ 5 + b * y ^ 4 + c * y ^ 3 + d * y ^ 2 +
      e * y ^ 1 + f) (a * (5 * z ^ 4) + b * (4 * z ^ 3) + c * (3 * z ^ 2) + d * (2 * z ^ 1) + e * (1 * z ^ 0)) z := by
    intro a b c d e f
    have := ((((((hp 5).const_mul a).fun_add ((hp 4).const_mul b)).fun_add ((hp 3).const_mul c)).fun_add
      ((hp 2).const_mul d)).fun_add ((hp 1).const_mul e)).add_const f
    refine HasDerivAt.change this (fun y => rfl) ?_
    push_cast; norm_num
  refine ⟨?_, ?_, ?_, ?_, ?_, ?_, ?_, ?_⟩
  · exact HasDerivAt.change (key (-6) 15 (-10) 0 0 1) (fun y => by unfold psi0; ring) (by unfold dpsi0; ring)
  · exact HasDerivAt.change (key 0 (-30) 60 (-30) 0 0) (fun y => by unfold dpsi0; ring) (by unfold ddpsi0; ring)
  · exact HasDerivAt.change (key (-3) 8 (-6) 0 1 0) (fun y => by unfold psi1; ring) (by unfold dpsi1; ring)
  · exact HasDerivAt.change (key 0 (-15) 32 (-18) 0 1) (fun y => by unfold dpsi1; ring) (by unfold ddpsi1; ring)
  · exact HasDerivAt.change (key (-1/2) (3/2) (-3/2) (1/2) 0 0) (fun y => by unfold psi2; ring)
      (by unfold dpsi2; ring)
  · exact HasDerivAt.change (key 0 (-5/2) 6 (-9/2) 1 0) (fun y => by unfold dpsi2; ring)
      (by unfold ddpsi2; ring)
  · exact HasDerivAt.change (key 0 0 2 (-3) 0 1) (fun y => by unfold xpsi0; ring) (by unfold xdpsi0; ring)
  · exact HasDerivAt.change (key 0 0 1 (-2) 1 0) (fun y => by unfold xpsi1; ring) (by unfold xdpsi1; ring)

/-- C58: partition of unity: the value weights of the two nodes sum to one at every point. -/
theorem C58_partition_of_unity (z : ℝ) : psi0 z + psi0 (1 - z) = 1 ∧ xpsi0 z + xpsi0 (1 - z) = 1 := by
  constructor
  · unfold psi0; ring
  · unfold xpsi0; ring

/-! ## One direction -/

/-- One-dimensional combination of six weights with the nodal data `(a₀, a₁, a₂)` left and `(b₀, b₁, b₂)` right. -/
def comb (w : W6) (a0 b0 a1 b1 a2 b2 : ℝ) : ℝ :=
  a0 * w.w0 + b0 * w.m0 + a1 * w.w1 + b1 * w.m1 + a2 * w.w2 + b2 * w.m2

/-- The same for the four cubic weights. -/
def comb4 (w : W4) (a0 b0 a1 b1 : ℝ) : ℝ := a0 * w.w0 + b0 * w.m0 + a1 * w.w1 + b1 * w.m1

theorem h5w_t (fi : Nat → ℝ) (t d : W6) :
    h5w fi t d = comb t (comb d (fi 0) (fi 1) (fi 12) (fi 13) (fi 16) (fi 17))
      (comb d (fi 2) (fi 3) (fi 14) (fi 15) (fi 18) (fi 19))
      (comb d (fi 4) (fi 5) (fi 20) (fi 21) (fi 24) (fi 25))
      (comb d (fi 6) (fi 7) (fi 22) (fi 23) (fi 26) (fi 27))
      (comb d (fi 8) (fi 9) (fi 28) (fi 29) (fi 32) (fi 33))
      (comb d (fi 10) (fi 11) (fi 30) (fi 31) (fi 34) (fi 35)) := by
  simp only [h5w, h5, comb]; ring

theorem h5w_d (fi : Nat → ℝ) (t d : W6) :
    h5w fi t d = comb d (comb t (fi 0) (fi 2) (fi 4) (fi 6) (fi 8) (fi 10))
      (comb t (fi 1) (fi 3) (fi 5) (fi 7) (fi 9) (fi 11))
      (comb t (fi 12) (fi 14) (fi 20) (fi 22) (fi 28) (fi 30))
      (comb t (fi 13) (fi 15) (fi 21) (fi 23) (fi 29) (fi 31))
      (comb t (fi 16) (fi 18) (fi 24) (fi 26) (fi 32) (fi 34))
      (comb t (fi 17) (fi 19) (fi 25) (fi 27) (fi 33) (fi 35)) := by
  simp only [h5w, h5, comb]; ring

theorem h3w_t (fi : Nat → ℝ) (t d : W4) :
    h3w fi t d = comb4 t (comb4 d (fi 0) (fi 1) (fi 8) (fi 9)) (comb4 d (fi 2) (fi 3) (fi 10) (fi 11))
      (comb4 d (fi 4) (fi 5) (fi 12) (fi 13)) (comb4 d (fi 6) (fi 7) (fi 14) (fi 15)) := by
  simp only [h3w, h3, comb4]; ring

theorem h3w_d (fi : Nat → ℝ) (t d : W4) :
    h3w fi t d = comb4 d (comb4 t (fi 0) (fi 2) (fi 4) (fi 6)) (comb4 t (fi 1) (fi 3) (fi 5) (fi 7))
      (comb4 t (fi 8) (fi 10) (fi 12) (fi 14)) (comb4 t (fi 9) (fi 11) (fi 13) (fi 15)) := by
  simp only [h3w, h3, comb4]; ring

theorem ratio0 (a b : ℝ) : ratio (0 : ℝ) a b = a / b := by simp [ratio]

theorem comb_congr_deriv {w : ℝ → W6} {w' : W6} {y : ℝ} (a0 b0 a1 b1 a2 b2 : ℝ)
    (h0 : HasDerivAt (fun y => (w y).w0) w'.w0 y) (h1 : HasDerivAt (fun y => (w y).w1) w'.w1 y)
    (h2 : HasDerivAt (fun y => (w y).w2) w'.w2 y) (g0 : HasDerivAt (fun y => (w y).m0) w'.m0 y)
    (g1 : HasDerivAt (fun y => (w y).m1) w'.m1 y) (g2 : HasDerivAt (fun y => (w y).m2) w'.m2 y) :
    HasDerivAt (fun y => comb (w y) a0 b0 a1 b1 a2 b2) (comb w' a0 b0 a1 b1 a2 b2) y :=
  (((((h0.const_mul a0).fun_add (g0.const_mul b0)).fun_add (h1.const_mul a1)).fun_add
    (g1.const_mul b1)).fun_add (h2.const_mul a2)).fun_add (g2.const_mul b2)

theorem comb4_congr_deriv {w : ℝ → W4} {w' : W4} {y : ℝ} (a0 b0 a1 b1 : ℝ)
    (h0 : HasDerivAt (fun y => (w y).w0) w'.w0 y) (h1 : HasDerivAt (fun y => (w y).w1) w'.w1 y)
    (g0 : HasDerivAt (fun y => (w y).m0) w'.m0 y) (g1 : HasDerivAt (fun y => (w y).m1) w'.m1 y) :
    HasDerivAt (fun y => comb4 (w y) a0 b0 a1 b1) (comb4 w' a0 b0 a1 b1) y :=
  (((h0.const_mul a0).fun_add (g0.const_mul b0)).fun_add (h1.const_mul a1)).fun_add (g1.const_mul b1)

/-- The scaled coordinate of a cell as a function of the evaluation point. -/
theorem cell_x_deriv {X : Nat → ℝ} {j : Nat} {y : ℝ} (h : X j < X (j + 1)) (hy : X j < y) :
    HasDerivAt (fun y => (cell 0 X j y).x) (cell 0 X j y).hi y := by
  have hd : 0 < X (j + 1) - X j := sub_pos.2 h
  have hpos : 0 < (y - X j) * ratio (0 : ℝ) 1 (X (j + 1) - X j) := by
    rw [ratio0]; exact mul_pos (sub_pos.2 hy) (by positivity)
  have := hasDerivAt_max (c := 0) (((hasDerivAt_id y).sub_const (X j)).mul_const
    (ratio (0 : ℝ) 1 (X (j + 1) - X j))) hpos
  exact HasDerivAt.change this (fun z => rfl) (by simp [cell])

section
variable {X : Nat → ℝ} {j : Nat} {y : ℝ}

theorem cell_x1_deriv (h : X j < X (j + 1)) (hy : X j < y) :
    HasDerivAt (fun y => 1 - (cell 0 X j y).x) (-(cell 0 X j y).hi) y :=
  (cell_x_deriv h hy).const_sub 1

theorem hi_mul_h (h : X j < X (j + 1)) : (cell 0 X j y).hi * (cell 0 X j y).h = 1 := by
  have hd : X (j + 1) - X j ≠ 0 := (sub_pos.2 h).ne'
  show ratio (0 : ℝ) 1 (X (j + 1) - X j) * (X (j + 1) - X j) = 1
  rw [ratio0]; field_simp

/-- The first derivative of the six weights. -/
theorem wts_deriv (h : X j < X (j + 1)) (hy : X j < y) (a0 b0 a1 b1 a2 b2 : ℝ) :
    HasDerivAt (fun y => comb (wts (cell 0 X j y).h (cell 0 X j y).x) a0 b0 a1 b1 a2 b2)
      (comb (dwts (cell 0 X j y).h (cell 0 X j y).hi (cell 0 X j y).x) a0 b0 a1 b1 a2 b2) y := by
  have hx := cell_x_deriv h hy
  have hm := cell_x1_deriv h hy
  have hh := hi_mul_h (y := y) h
  have B := fun z => C58_basis_derivatives z
  set x := (cell 0 X j y).x with hxdef
  refine comb_congr_deriv (w := fun y => wts (cell 0 X j y).h (cell 0 X j y).x) a0 b0 a1 b1 a2 b2 ?_ ?_ ?_ ?_ ?_ ?_
  · exact (B x).1.comp y hx
  · refine HasDerivAt.change (((B x).2.2.1.comp y hx).mul_const (cell 0 X j y).h) (fun z => rfl) ?_
    show dpsi1 x * _ * _ = dpsi1 x
    linear_combination (dpsi1 x) * hh
  · refine HasDerivAt.change (((B x).2.2.2.2.1.comp y hx).mul_const ((cell 0 X j y).h * (cell 0 X j y).h))
      (fun z => rfl) ?_
    show dpsi2 x * _ * (_ * _) = dpsi2 x * _
    linear_combination (dpsi2 x * (cell 0 X j y).h) * hh
  · refine HasDerivAt.change ((B (1 - x)).1.comp y hm) (fun z => rfl) ?_
    show dpsi0 (1 - x) * -_ = -dpsi0 (1 - x) * _
    ring
  · refine HasDerivAt.change ((((B (1 - x)).2.2.1.comp y hm).neg).mul_const (cell 0 X j y).h) (fun z => rfl) ?_
    show -(dpsi1 (1 - x) * -_) * _ = dpsi1 (1 - x)
    linear_combination (dpsi1 (1 - x)) * hh
  · refine HasDerivAt.change (((B (1 - x)).2.2.2.2.1.comp y hm).mul_const ((cell 0 X j y).h * (cell 0 X j y).h))
      (fun z => rfl) ?_
    show dpsi2 (1 - x) * -_ * (_ * _) = -dpsi2 (1 - x) * _
    linear_combination (-dpsi2 (1 - x) * (cell 0 X j y).h) * hh

/-- The second derivative. -/
theorem dwts_deriv (h : X j < X (j + 1)) (hy : X j < y) (a0 b0 a1 b1 a2 b2 : ℝ) :
    HasDerivAt (fun y => comb (dwts (cell 0 X j y).h (cell 0 X j y).hi (cell 0 X j y).x) a0 b0 a1 b1 a2 b2)
      (comb (ddwts (cell 0 X j y).hi (cell 0 X j y).x) a0 b0 a1 b1 a2 b2) y := by
  have hx := cell_x_deriv h hy
  have hm := cell_x1_deriv h hy
  have hh := hi_mul_h (y := y) h
  have B := fun z => C58_basis_derivatives z
  set x := (cell 0 X j y).x with hxdef
  refine comb_congr_deriv (w := fun y => dwts (cell 0 X j y).h (cell 0 X j y).hi (cell 0 X j y).x)
    a0 b0 a1 b1 a2 b2 ?_ ?_ ?_ ?_ ?_ ?_
  · refine HasDerivAt.change (((B x).2.1.comp y hx).mul_const (cell 0 X j y).hi) (fun z => rfl) ?_
    show ddpsi0 x * _ * _ = ddpsi0 x * (_ * _)
    ring
  · exact (B x).2.2.2.1.comp y hx
  · refine HasDerivAt.change (((B x).2.2.2.2.2.1.comp y hx).mul_const (cell 0 X j y).h) (fun z => rfl) ?_
    show ddpsi2 x * _ * _ = ddpsi2 x
    linear_combination (ddpsi2 x) * hh
  · refine HasDerivAt.change ((((B (1 - x)).2.1.comp y hm).neg).mul_const (cell 0 X j y).hi) (fun z => rfl) ?_
    show -(ddpsi0 (1 - x) * -_) * _ = ddpsi0 (1 - x) * (_ * _)
    ring
  · refine HasDerivAt.change ((B (1 - x)).2.2.2.1.comp y hm) (fun z => rfl) ?_
    show ddpsi1 (1 - x) * -_ = -ddpsi1 (1 - x) * _
    ring
  · refine HasDerivAt.change ((((B (1 - x)).2.2.2.2.2.1.comp y hm).neg).mul_const (cell 0 X j y).h)
      (fun z => rfl) ?_
    show -(ddpsi2 (1 - x) * -_) * _ = ddpsi2 (1 - x)
    linear_combination (ddpsi2 (1 - x)) * hh

/-- The derivative of the cubic weights. -/
theorem xwts_deriv (h : X j < X (j + 1)) (hy : X j < y) (a0 b0 a1 b1 : ℝ) :
    HasDerivAt (fun y => comb4 (xwts (cell 0 X j y).h (cell 0 X j y).x) a0 b0 a1 b1)
      (comb4 (xdwts (cell 0 X j y).h (cell 0 X j y).hi (cell 0 X j y).x) a0 b0 a1 b1) y := by
  have hx := cell_x_deriv h hy
  have hm := cell_x1_deriv h hy
  have hh := hi_mul_h (y := y) h
  have B := fun z => C58_basis_derivatives z
  set x := (cell 0 X j y).x with hxdef
  refine comb4_congr_deriv (w := fun y => xwts (cell 0 X j y).h (cell 0 X j y).x) a0 b0 a1 b1 ?_ ?_ ?_ ?_
  · exact (B x).2.2.2.2.2.2.1.comp y hx
  · refine HasDerivAt.change (((B x).2.2.2.2.2.2.2.comp y hx).mul_const (cell 0 X j y).h) (fun z => rfl) ?_
    show xdpsi1 x * _ * _ = xdpsi1 x
    linear_combination (xdpsi1 x) * hh
  · refine HasDerivAt.change ((B (1 - x)).2.2.2.2.2.2.1.comp y hm) (fun z => rfl) ?_
    show xdpsi0 (1 - x) * -_ = -xdpsi0 (1 - x) * _
    ring
  · refine HasDerivAt.change ((((B (1 - x)).2.2.2.2.2.2.2.comp y hm).neg).mul_const (cell 0 X j y).h)
      (fun z => rfl) ?_
    show -(xdpsi1 (1 - x) * -_) * _ = xdpsi1 (1 - x)
    linear_combination (xdpsi1 (1 - x)) * hh

end

/-! ## The table -/

/-- Increasing nodes, as every grid has. -/
structure Grid (tb : Tables) : Prop where
  T : ∀ j, tb.T j < tb.T (j + 1)
  rho : ∀ i, tb.rho i < tb.rho (i + 1)

variable (tb : Tables)

/-- C58: in every cell the reported `df_t, df_tt, df_d, df_dt` are the partial derivatives of the reported free
energy, for any table. -/
theorem C58_reported_derivatives (hg : Grid tb) (j i : Nat) (T D : ℝ) (hT : tb.T j < T) (hD : tb.rho i < D) :
    HasDerivAt (fun t => freeEn 0 tb j i t D) (dfT 0 tb j i T D) T ∧
    HasDerivAt (fun t => dfT 0 tb j i t D) (dfTT 0 tb j i T D) T ∧
    HasDerivAt (fun d => freeEn 0 tb j i T d) (dfD 0 tb j i T D) D ∧
    HasDerivAt (fun t => dfD 0 tb j i t D) (dfDT 0 tb j i T D) T ∧
    HasDerivAt (fun d => dfT 0 tb j i T d) (dfDT 0 tb j i T D) D := by
  refine ⟨?_, ?_, ?_, ?_, ?_⟩
  · exact HasDerivAt.change (wts_deriv (hg.T j) hT _ _ _ _ _ _) (fun z => h5w_t _ _ _) (h5w_t _ _ _).symm
  · exact HasDerivAt.change (dwts_deriv (hg.T j) hT _ _ _ _ _ _) (fun z => h5w_t _ _ _) (h5w_t _ _ _).symm
  · exact HasDerivAt.change (wts_deriv (hg.rho i) hD _ _ _ _ _ _) (fun z => h5w_d _ _ _) (h5w_d _ _ _).symm
  · exact HasDerivAt.change (wts_deriv (hg.T j) hT _ _ _ _ _ _) (fun z => h5w_t _ _ _) (h5w_t _ _ _).symm
  · exact HasDerivAt.change (wts_deriv (hg.rho i) hD _ _ _ _ _ _) (fun z => h5w_d _ _ _) (h5w_d _ _ _).symm

/-- C58: the same for the bicubic tables (pressure derivative, chemical potential, pair density). -/
theorem C58_reported_derivatives_cubic (hg : Grid tb) (g gt gd gdt : Nat → Nat → ℝ) (j i : Nat) (T D : ℝ)
    (hT : tb.T j < T) (hD : tb.rho i < D) :
    HasDerivAt (fun t => cub 0 tb g gt gd gdt j i t D) (cubT 0 tb g gt gd gdt j i T D) T ∧
    HasDerivAt (fun d => cub 0 tb g gt gd gdt j i T d) (cubD 0 tb g gt gd gdt j i T D) D := by
  constructor
  · exact HasDerivAt.change (xwts_deriv (hg.T j) hT _ _ _ _) (fun z => h3w_t _ _ _) (h3w_t _ _ _).symm
  · exact HasDerivAt.change (xwts_deriv (hg.rho i) hD _ _ _ _) (fun z => h3w_d _ _ _) (h3w_d _ _ _).symm

/-! ### Nodes -/

theorem cell_left {X : Nat → ℝ} {j : Nat} : (cell 0 X j (X j)).x = 0 := by simp [cell]

theorem cell_right {X : Nat → ℝ} {j : Nat} (h : X j < X (j + 1)) : (cell 0 X j (X (j + 1))).x = 1 := by
  have hd : X (j + 1) - X j ≠ 0 := (sub_pos.2 h).ne'
  show max 0 ((X (j + 1) - X j) * ratio (0 : ℝ) 1 (X (j + 1) - X j)) = 1
  rw [ratio0, mul_one_div_cancel hd]; norm_num

theorem comb_wts_left (h a0 b0 a1 b1 a2 b2 : ℝ) : comb (wts h 0) a0 b0 a1 b1 a2 b2 = a0 := by
  simp only [comb, wts, psi0, psi1, psi2]; ring

theorem comb_wts_right (h a0 b0 a1 b1 a2 b2 : ℝ) : comb (wts h 1) a0 b0 a1 b1 a2 b2 = b0 := by
  simp only [comb, wts, psi0, psi1, psi2]; ring

theorem comb_dwts_left (h hi a0 b0 a1 b1 a2 b2 : ℝ) : comb (dwts h hi 0) a0 b0 a1 b1 a2 b2 = a1 := by
  simp only [comb, dwts, dpsi0, dpsi1, dpsi2]; ring

theorem comb_dwts_right (h hi a0 b0 a1 b1 a2 b2 : ℝ) : comb (dwts h hi 1) a0 b0 a1 b1 a2 b2 = b1 := by
  simp only [comb, dwts, dpsi0, dpsi1, dpsi2]; ring

theorem comb_ddwts_left (hi a0 b0 a1 b1 a2 b2 : ℝ) : comb (ddwts hi 0) a0 b0 a1 b1 a2 b2 = a2 := by
  simp only [comb, ddwts, ddpsi0, ddpsi1, ddpsi2]; ring

theorem comb_ddwts_right (hi a0 b0 a1 b1 a2 b2 : ℝ) : comb (ddwts hi 1) a0 b0 a1 b1 a2 b2 = b2 := by
  simp only [comb, ddwts, ddpsi0, ddpsi1, ddpsi2]; ring

theorem comb4_xwts_left (h a0 b0 a1 b1 : ℝ) : comb4 (xwts h 0) a0 b0 a1 b1 = a0 := by
  simp only [comb4, xwts, xpsi0, xpsi1]; ring

theorem comb4_xwts_right (h a0 b0 a1 b1 : ℝ) : comb4 (xwts h 1) a0 b0 a1 b1 = b0 := by
  simp only [comb4, xwts, xpsi0, xpsi1]; ring

theorem comb4_xdwts_left (h hi a0 b0 a1 b1 : ℝ) : comb4 (xdwts h hi 0) a0 b0 a1 b1 = a1 := by
  simp only [comb4, xdwts, xdpsi0, xdpsi1]; ring

theorem comb4_xdwts_right (h hi a0 b0 a1 b1 : ℝ) : comb4 (xdwts h hi 1) a0 b0 a1 b1 = b1 := by
  simp only [comb4, xdwts, xdpsi0, xdpsi1]; ring

/-- C58: at each of the four corners of each cell the interpolant and its reported derivatives are the table
entries (`a, b ∈ {0, 1}` choose the corner). -/
theorem C58_nodes (hg : Grid tb) (j i a b : Nat) (ha : a ≤ 1) (hb : b ≤ 1) :
    freeEn 0 tb j i (tb.T (j + a)) (tb.rho (i + b)) = tb.f (j + a) (i + b) ∧
    dfT 0 tb j i (tb.T (j + a)) (tb.rho (i + b)) = tb.ft (j + a) (i + b) ∧
    dfTT 0 tb j i (tb.T (j + a)) (tb.rho (i + b)) = tb.ftt (j + a) (i + b) ∧
    dfD 0 tb j i (tb.T (j + a)) (tb.rho (i + b)) = tb.fd (j + a) (i + b) ∧
    dfDT 0 tb j i (tb.T (j + a)) (tb.rho (i + b)) = tb.fdt (j + a) (i + b) := by
  have hT := cell_right (hg.T j)
  have hD := cell_right (hg.rho i)
  interval_cases a <;> interval_cases b <;>
    simp only [freeEn, dfT, dfTT, dfD, dfDT, h5w_t, Nat.add_zero, cell_left, hT, hD, comb_wts_left,
      comb_wts_right, comb_dwts_left, comb_dwts_right, comb_ddwts_left, comb_ddwts_right, gather, and_self]

/-- C58: the same for the bicubic tables. -/
theorem C58_nodes_cubic (hg : Grid tb) (g gt gd gdt : Nat → Nat → ℝ) (j i a b : Nat) (ha : a ≤ 1) (hb : b ≤ 1) :
    cub 0 tb g gt gd gdt j i (tb.T (j + a)) (tb.rho (i + b)) = g (j + a) (i + b) ∧
    cubT 0 tb g gt gd gdt j i (tb.T (j + a)) (tb.rho (i + b)) = gt (j + a) (i + b) ∧
    cubD 0 tb g gt gd gdt j i (tb.T (j + a)) (tb.rho (i + b)) = gd (j + a) (i + b) := by
  have hT := cell_right (hg.T j)
  have hD := cell_right (hg.rho i)
  interval_cases a <;> interval_cases b <;>
    simp only [cub, cubT, cubD, h3w_t, Nat.add_zero, cell_left, hT, hD, comb4_xwts_left,
      comb4_xwts_right, comb4_xdwts_left, comb4_xdwts_right, gather3, and_self]

/-- C58: no jump from one cell to the next in temperature: at the shared node the two cells give the same free
energy and the same `df_t, df_tt, df_d, df_dt`, at every density. -/
theorem C58_continuous_across_T (hg : Grid tb) (j i : Nat) (D : ℝ) :
    freeEn 0 tb j i (tb.T (j + 1)) D = freeEn 0 tb (j + 1) i (tb.T (j + 1)) D ∧
    dfT 0 tb j i (tb.T (j + 1)) D = dfT 0 tb (j + 1) i (tb.T (j + 1)) D ∧
    dfTT 0 tb j i (tb.T (j + 1)) D = dfTT 0 tb (j + 1) i (tb.T (j + 1)) D ∧
    dfD 0 tb j i (tb.T (j + 1)) D = dfD 0 tb (j + 1) i (tb.T (j + 1)) D ∧
    dfDT 0 tb j i (tb.T (j + 1)) D = dfDT 0 tb (j + 1) i (tb.T (j + 1)) D := by
  have hT := cell_right (hg.T j)
  simp only [freeEn, dfT, dfTT, dfD, dfDT, h5w_t, cell_left, hT, comb_wts_left,
      comb_wts_right, comb_dwts_left, comb_dwts_right, comb_ddwts_left, comb_ddwts_right, gather, and_self]

/-- C58: no jump from one cell to the next in density. -/
theorem C58_continuous_across_rho (hg : Grid tb) (j i : Nat) (T : ℝ) :
    freeEn 0 tb j i T (tb.rho (i + 1)) = freeEn 0 tb j (i + 1) T (tb.rho (i + 1)) ∧
    dfT 0 tb j i T (tb.rho (i + 1)) = dfT 0 tb j (i + 1) T (tb.rho (i + 1)) ∧
    dfTT 0 tb j i T (tb.rho (i + 1)) = dfTT 0 tb j (i + 1) T (tb.rho (i + 1)) ∧
    dfD 0 tb j i T (tb.rho (i + 1)) = dfD 0 tb j (i + 1) T (tb.rho (i + 1)) ∧
    dfDT 0 tb j i T (tb.rho (i + 1)) = dfDT 0 tb j (i + 1) T (tb.rho (i + 1)) := by
  have hD := cell_right (hg.rho i)
  simp only [freeEn, dfT, dfTT, dfD, dfDT, h5w_d, cell_left, hD, comb_wts_left,
      comb_wts_right, comb_dwts_left, comb_dwts_right, comb_ddwts_left, comb_ddwts_right, gather, and_self]

/-- C58: no jump between cells for the bicubic tables either, in temperature and in density, for the value and the derivative along
the shared edge and across it. -/
theorem C58_continuous_cubic (hg : Grid tb) (g gt gd gdt : Nat → Nat → ℝ) (j i : Nat) (T D : ℝ) :
    (cub 0 tb g gt gd gdt j i (tb.T (j + 1)) D = cub 0 tb g gt gd gdt (j + 1) i (tb.T (j + 1)) D ∧
      cubT 0 tb g gt gd gdt j i (tb.T (j + 1)) D = cubT 0 tb g gt gd gdt (j + 1) i (tb.T (j + 1)) D ∧
      cubD 0 tb g gt gd gdt j i (tb.T (j + 1)) D = cubD 0 tb g gt gd gdt (j + 1) i (tb.T (j + 1)) D) ∧
    cub 0 tb g gt gd gdt j i T (tb.rho (i + 1)) = cub 0 tb g gt gd gdt j (i + 1) T (tb.rho (i + 1)) ∧
      cubT 0 tb g gt gd gdt j i T (tb.rho (i + 1)) = cubT 0 tb g gt gd gdt j (i + 1) T (tb.rho (i + 1)) ∧
      cubD 0 tb g gt gd gdt j i T (tb.rho (i + 1)) = cubD 0 tb g gt gd gdt j (i + 1) T (tb.rho (i + 1)) := by
  have hT := cell_right (hg.T j)
  have hD := cell_right (hg.rho i)
  constructor
  · simp only [cub, cubT, cubD, h3w_t, cell_left, hT, comb4_xwts_left, comb4_xwts_right, comb4_xdwts_left, comb4_xdwts_right,
      gather3, and_self]
  · simp only [cub, cubT, cubD, h3w_d, cell_left, hD, comb4_xwts_left, comb4_xwts_right, comb4_xdwts_left, comb4_xdwts_right,
      gather3, and_self]

/-! ### Polynomial reproduction -/

/-- The `k`-th derivative of `x ^ n`. -/
def pd (k n : Nat) (x : ℝ) : ℝ := (n.descFactorial k : ℝ) * x ^ (n - k)

/-- `∂_D^k ∂_T^l` of the polynomial `Σ c a b D^a T^b` of degree at most five in each variable. -/
def poly (c : Nat → Nat → ℝ) (k l : Nat) (D T : ℝ) : ℝ :=
  ∑ a ∈ Finset.range 6, ∑ b ∈ Finset.range 6, c a b * pd k a D * pd l b T

/-- The table holds the polynomial and its partial derivatives at the nodes. -/
structure Samples (c : Nat → Nat → ℝ) : Prop where
  f : ∀ j i, tb.f j i = poly c 0 0 (tb.rho i) (tb.T j)
  fd : ∀ j i, tb.fd j i = poly c 1 0 (tb.rho i) (tb.T j)
  fdd : ∀ j i, tb.fdd j i = poly c 2 0 (tb.rho i) (tb.T j)
  ft : ∀ j i, tb.ft j i = poly c 0 1 (tb.rho i) (tb.T j)
  ftt : ∀ j i, tb.ftt j i = poly c 0 2 (tb.rho i) (tb.T j)
  fdt : ∀ j i, tb.fdt j i = poly c 1 1 (tb.rho i) (tb.T j)
  fddt : ∀ j i, tb.fddt j i = poly c 2 1 (tb.rho i) (tb.T j)
  fdtt : ∀ j i, tb.fdtt j i = poly c 1 2 (tb.rho i) (tb.T j)
  fddtt : ∀ j i, tb.fddtt j i = poly c 2 2 (tb.rho i) (tb.T j)

theorem pd_deriv (k n : Nat) (x : ℝ) : HasDerivAt (pd k n) (pd (k + 1) n x) x := by
  have := (hasDerivAt_pow (n - k) x).const_mul (n.descFactorial k : ℝ)
  refine HasDerivAt.change this (fun y => rfl) ?_
  unfold pd
  rw [Nat.descFactorial_succ]
  push_cast
  rw [show n - (k + 1) = n - k - 1 from by omega]
  ring

theorem mono_rep (n : Nat) (hn : n < 6) (x0 h x : ℝ) :
    comb (wts h x) (pd 0 n x0) (pd 0 n (x0 + h)) (pd 1 n x0) (pd 1 n (x0 + h)) (pd 2 n x0) (pd 2 n (x0 + h)) =
      (x0 + h * x) ^ n := by
  interval_cases n <;>
    (simp only [comb, wts, psi0, psi1, psi2, pd, Nat.descFactorial]; push_cast; ring_nf)

theorem comb_sum {ι : Type*} (s : Finset ι) (w : W6) (a0 b0 a1 b1 a2 b2 : ι → ℝ) :
    comb w (∑ k ∈ s, a0 k) (∑ k ∈ s, b0 k) (∑ k ∈ s, a1 k) (∑ k ∈ s, b1 k) (∑ k ∈ s, a2 k) (∑ k ∈ s, b2 k) =
      ∑ k ∈ s, comb w (a0 k) (b0 k) (a1 k) (b1 k) (a2 k) (b2 k) := by
  simp only [comb, Finset.sum_mul, Finset.sum_add_distrib]

theorem comb_mul (w : W6) (q a0 b0 a1 b1 a2 b2 : ℝ) :
    comb w (q * a0) (q * b0) (q * a1) (q * b1) (q * a2) (q * b2) = q * comb w a0 b0 a1 b1 a2 b2 := by
  simp only [comb]; ring

theorem cell_pt {X : Nat → ℝ} {j : Nat} {y : ℝ} (h : X j < X (j + 1)) (hy : X j ≤ y) :
    X j + (cell 0 X j y).h * (cell 0 X j y).x = y := by
  have hd : 0 < X (j + 1) - X j := sub_pos.2 h
  show X j + (X (j + 1) - X j) * max 0 ((y - X j) * ratio (0 : ℝ) 1 (X (j + 1) - X j)) = y
  rw [ratio0, max_eq_right (mul_nonneg (sub_nonneg.2 hy) (by positivity))]
  field_simp; ring

theorem cell_h {X : Nat → ℝ} {j : Nat} {y : ℝ} : X (j + 1) = X j + (cell 0 X j y).h := by
  show X (j + 1) = X j + (X (j + 1) - X j); ring

theorem row_rep (hg : Grid tb) (i : Nat) (D : ℝ) (hD : tb.rho i ≤ D) (l : Nat) (c : Nat → Nat → ℝ) (T : ℝ) :
    comb (wts (cell 0 tb.rho i D).h (cell 0 tb.rho i D).x)
      (poly c 0 l (tb.rho i) T) (poly c 0 l (tb.rho (i + 1)) T) (poly c 1 l (tb.rho i) T)
      (poly c 1 l (tb.rho (i + 1)) T) (poly c 2 l (tb.rho i) T) (poly c 2 l (tb.rho (i + 1)) T) =
      poly c 0 l D T := by
  simp only [poly]
  rw [comb_sum]
  refine Finset.sum_congr rfl fun a ha => ?_
  rw [comb_sum]
  refine Finset.sum_congr rfl fun b _ => ?_
  have hm := mono_rep a (Finset.mem_range.1 ha) (tb.rho i) (cell 0 tb.rho i D).h (cell 0 tb.rho i D).x
  rw [cell_pt (hg.rho i) hD, ← cell_h] at hm
  have := comb_mul (wts (cell 0 tb.rho i D).h (cell 0 tb.rho i D).x) (c a b * pd l b T) (pd 0 a (tb.rho i))
    (pd 0 a (tb.rho (i + 1))) (pd 1 a (tb.rho i)) (pd 1 a (tb.rho (i + 1))) (pd 2 a (tb.rho i))
    (pd 2 a (tb.rho (i + 1)))
  rw [hm] at this
  rw [show c a b * pd 0 a D * pd l b T = c a b * pd l b T * D ^ a from by simp [pd]; ring, ← this]
  congr 1 <;> ring

/-- C58: a free energy that is a polynomial of degree at most five in each variable is reproduced exactly at every
state of every cell. -/
theorem C58_reproduces_biquintics (hg : Grid tb) (c : Nat → Nat → ℝ) (hs : Samples tb c) (j i : Nat) (T D : ℝ)
    (hT : tb.T j ≤ T) (hD : tb.rho i ≤ D) :
    freeEn 0 tb j i T D = ∑ a ∈ Finset.range 6, ∑ b ∈ Finset.range 6, c a b * D ^ a * T ^ b := by
  have hrow : ∀ l T', _ := fun l T' => row_rep tb hg i D hD l c T'
  have key : freeEn 0 tb j i T D = comb (wts (cell 0 tb.T j T).h (cell 0 tb.T j T).x)
      (poly c 0 0 D (tb.T j)) (poly c 0 0 D (tb.T (j + 1))) (poly c 0 1 D (tb.T j))
      (poly c 0 1 D (tb.T (j + 1))) (poly c 0 2 D (tb.T j)) (poly c 0 2 D (tb.T (j + 1))) := by
    simp only [freeEn, h5w_t, gather, hs.f, hs.fd, hs.fdd, hs.ft, hs.ftt, hs.fdt, hs.fddt, hs.fdtt, hs.fddtt, hrow]
  rw [key]
  simp only [poly]
  rw [comb_sum]
  refine Finset.sum_congr rfl fun a _ => ?_
  rw [comb_sum]
  refine Finset.sum_congr rfl fun b hb => ?_
  have hm := mono_rep b (Finset.mem_range.1 hb) (tb.T j) (cell 0 tb.T j T).h (cell 0 tb.T j T).x
  rw [cell_pt (hg.T j) hT, ← cell_h] at hm
  have := comb_mul (wts (cell 0 tb.T j T).h (cell 0 tb.T j T).x) (c a b * pd 0 a D) (pd 0 b (tb.T j))
    (pd 0 b (tb.T (j + 1))) (pd 1 b (tb.T j)) (pd 1 b (tb.T (j + 1))) (pd 2 b (tb.T j)) (pd 2 b (tb.T (j + 1)))
  rw [hm] at this
  rw [this]
  simp [pd]

/-- `∂_D^k ∂_T^l` of the polynomial `Σ c a b D^a T^b` of degree at most three in each variable. -/
def poly3 (c : Nat → Nat → ℝ) (k l : Nat) (D T : ℝ) : ℝ :=
  ∑ a ∈ Finset.range 4, ∑ b ∈ Finset.range 4, c a b * pd k a D * pd l b T

theorem comb4_sum {ι : Type*} (s : Finset ι) (w : W4) (a0 b0 a1 b1 : ι → ℝ) :
    comb4 w (∑ k ∈ s, a0 k) (∑ k ∈ s, b0 k) (∑ k ∈ s, a1 k) (∑ k ∈ s, b1 k) =
      ∑ k ∈ s, comb4 w (a0 k) (b0 k) (a1 k) (b1 k) := by
  simp only [comb4, Finset.sum_mul, Finset.sum_add_distrib]

theorem comb4_mul (w : W4) (q a0 b0 a1 b1 : ℝ) :
    comb4 w (q * a0) (q * b0) (q * a1) (q * b1) = q * comb4 w a0 b0 a1 b1 := by
  simp only [comb4]; ring

theorem mono_rep4 (n : Nat) (hn : n < 4) (x0 h x : ℝ) :
    comb4 (xwts h x) (pd 0 n x0) (pd 0 n (x0 + h)) (pd 1 n x0) (pd 1 n (x0 + h)) = (x0 + h * x) ^ n := by
  interval_cases n <;>
    (simp only [comb4, xwts, xpsi0, xpsi1, pd, Nat.descFactorial]; push_cast; ring_nf)

theorem row_rep4 (hg : Grid tb) (i : Nat) (D : ℝ) (hD : tb.rho i ≤ D) (l : Nat) (c : Nat → Nat → ℝ) (T : ℝ) :
    comb4 (xwts (cell 0 tb.rho i D).h (cell 0 tb.rho i D).x)
      (poly3 c 0 l (tb.rho i) T) (poly3 c 0 l (tb.rho (i + 1)) T) (poly3 c 1 l (tb.rho i) T)
      (poly3 c 1 l (tb.rho (i + 1)) T) = poly3 c 0 l D T := by
  simp only [poly3]
  rw [comb4_sum]
  refine Finset.sum_congr rfl fun a ha => ?_
  rw [comb4_sum]
  refine Finset.sum_congr rfl fun b _ => ?_
  have hm := mono_rep4 a (Finset.mem_range.1 ha) (tb.rho i) (cell 0 tb.rho i D).h (cell 0 tb.rho i D).x
  rw [cell_pt (hg.rho i) hD, ← cell_h] at hm
  have := comb4_mul (xwts (cell 0 tb.rho i D).h (cell 0 tb.rho i D).x) (c a b * pd l b T) (pd 0 a (tb.rho i))
    (pd 0 a (tb.rho (i + 1))) (pd 1 a (tb.rho i)) (pd 1 a (tb.rho (i + 1)))
  rw [hm] at this
  rw [show c a b * pd 0 a D * pd l b T = c a b * pd l b T * D ^ a from by simp [pd]; ring, ← this]
  congr 1 <;> ring

/-- C58: a bicubic table (pressure derivative, chemical potential, pair density) that holds a polynomial of degree at most three in
each variable, with its derivatives, reproduces it exactly at every state of every cell. -/
theorem C58_reproduces_bicubics (hg : Grid tb) (c : Nat → Nat → ℝ) (g gt gd gdt : Nat → Nat → ℝ)
    (h0 : ∀ j i, g j i = poly3 c 0 0 (tb.rho i) (tb.T j)) (h1 : ∀ j i, gt j i = poly3 c 0 1 (tb.rho i) (tb.T j))
    (h2 : ∀ j i, gd j i = poly3 c 1 0 (tb.rho i) (tb.T j)) (h3 : ∀ j i, gdt j i = poly3 c 1 1 (tb.rho i) (tb.T j))
    (j i : Nat) (T D : ℝ) (hT : tb.T j ≤ T) (hD : tb.rho i ≤ D) :
    cub 0 tb g gt gd gdt j i T D = ∑ a ∈ Finset.range 4, ∑ b ∈ Finset.range 4, c a b * D ^ a * T ^ b := by
  have hrow : ∀ l T', _ := fun l T' => row_rep4 tb hg i D hD l c T'
  have key : cub 0 tb g gt gd gdt j i T D = comb4 (xwts (cell 0 tb.T j T).h (cell 0 tb.T j T).x)
      (poly3 c 0 0 D (tb.T j)) (poly3 c 0 0 D (tb.T (j + 1))) (poly3 c 0 1 D (tb.T j)) (poly3 c 0 1 D (tb.T (j + 1))) := by
    simp only [cub, h3w_t, gather3, h0, h1, h2, h3, hrow]
  rw [key]
  simp only [poly3]
  rw [comb4_sum]
  refine Finset.sum_congr rfl fun a _ => ?_
  rw [comb4_sum]
  refine Finset.sum_congr rfl fun b hb => ?_
  have hm := mono_rep4 b (Finset.mem_range.1 hb) (tb.T j) (cell 0 tb.T j T).h (cell 0 tb.T j T).x
  rw [cell_pt (hg.T j) hT, ← cell_h] at hm
  have := comb4_mul (xwts (cell 0 tb.T j T).h (cell 0 tb.T j T).x) (c a b * pd 0 a D) (pd 0 b (tb.T j))
    (pd 0 b (tb.T (j + 1))) (pd 1 b (tb.T j)) (pd 1 b (tb.T (j + 1)))
  rw [hm] at this
  rw [this]
  simp [pd]

/-- A concrete table meeting the hypotheses: unit spacing, `f = D^2 T^3`. -/
example : ∃ (tb : Tables) (c : Nat → Nat → ℝ), Grid tb ∧ Samples tb c ∧ tb.f 2 3 = 3 ^ 2 * 2 ^ 3 := by
  let c : Nat → Nat → ℝ := fun a b => if a = 2 ∧ b = 3 then 1 else 0
  let r : Nat → ℝ := fun i => i
  refine ⟨{ rho := r, T := r, f := fun j i => poly c 0 0 (r i) (r j), fd := fun j i => poly c 1 0 (r i) (r j)
            ft := fun j i => poly c 0 1 (r i) (r j), fdd := fun j i => poly c 2 0 (r i) (r j)
            ftt := fun j i => poly c 0 2 (r i) (r j), fdt := fun j i => poly c 1 1 (r i) (r j)
            fddt := fun j i => poly c 2 1 (r i) (r j), fdtt := fun j i => poly c 1 2 (r i) (r j)
            fddtt := fun j i => poly c 2 2 (r i) (r j)
            dpdf := fun _ _ => 0, dpdfd := fun _ _ => 0, dpdft := fun _ _ => 0, dpdfdt := fun _ _ => 0
            ef := fun _ _ => 0, efd := fun _ _ => 0, eft := fun _ _ => 0, efdt := fun _ _ => 0
            xf := fun _ _ => 0, xfd := fun _ _ => 0, xft := fun _ _ => 0, xfdt := fun _ _ => 0
            rhoMin := 0, rhoMax := 10, lRhoMin := 0, lRhoMax := 1, lTMin := 0, lTMax := 1
            idxRho := fun _ => 0, idxT := fun _ => 0 }, c, ⟨?_, ?_⟩, ⟨?_, ?_, ?_, ?_, ?_, ?_, ?_, ?_, ?_⟩, ?_⟩
  · intro j; simp [r]
  · intro i; simp [r]
  all_goals try (intro _ _; rfl)
  simp [poly, Finset.sum_range_succ, c, pd, r]

end Verif.Helm
