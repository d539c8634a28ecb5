import Verif.Model.Table.Mesh
import Verif.Lemmas.DataBox
import Mathlib.Tactic.Linarith
import Mathlib.Tactic.LinearCombination
import Mathlib.Tactic.FieldSimp

set_option linter.unusedSectionVars false

/-! # Interpolation on piecewise grids -/

namespace Verif.Databox

variable {K : Type*} [Field K] [LinearOrder K] [IsStrictOrderedRing K]

/-- What is assumed of a `PiecewiseGrid1D` (external): at least two points, in order (a point may be stored twice), and
`index` selects a segment of positive length, the one that holds the argument; outside, the first or the last. -/
structure Mesh.Ok (g : Mesh K) : Prop where
  two : 2 ≤ g.N
  mono : ∀ i j, i ≤ j → j < g.N → g.x i ≤ g.x j
  lt : ∀ y, g.idx y + 1 < g.N
  seg : ∀ y, g.x (g.idx y) < g.x (g.idx y + 1)
  mem : ∀ y, g.min ≤ y → y ≤ g.max → g.x (g.idx y) ≤ y ∧ y ≤ g.x (g.idx y + 1)
  low : ∀ y, y < g.min → g.idx y = 0
  high : ∀ y, g.max < y → g.idx y = g.N - 2

/-- Points stored twice carry the same data. -/
def Mesh.Agrees (g : Mesh K) (f : Nat → K) : Prop := ∀ i j, i < g.N → j < g.N → g.x i = g.x j → f i = f j

variable {g : Mesh K}

theorem Mesh.min_le_max (h : g.Ok) : g.min ≤ g.max := h.mono _ _ (Nat.zero_le _) (by have := h.two; omega)

theorem Mesh.w_mem (h : g.Ok) {y : K} (h1 : g.min ≤ y) (h2 : y ≤ g.max) : 0 ≤ g.w y ∧ g.w y ≤ 1 := by
  have hs := h.seg y
  obtain ⟨a, b⟩ := h.mem y h1 h2
  unfold Mesh.w
  constructor
  · exact div_nonneg (by linarith) (by linarith)
  · rw [div_le_one (by linarith)]; linarith

theorem Mesh.w_mul (h : g.Ok) (y : K) : g.w y * (g.x (g.idx y + 1) - g.x (g.idx y)) = y - g.x (g.idx y) := by
  unfold Mesh.w
  rw [div_mul_cancel₀]
  have := h.seg y
  intro h0; linarith

theorem Mesh.lin_const (a y : K) : g.lin (fun _ => a) y = a := by unfold Mesh.lin; ring

theorem Mesh.lin_add (f f' : Nat → K) (c y : K) : g.lin (fun i => c * f i + f' i) y = c * g.lin f y + g.lin f' y := by
  unfold Mesh.lin; ring

theorem Mesh.lin_x (h : g.Ok) (y : K) : g.lin g.x y = y := by
  have := g.w_mul h y
  unfold Mesh.lin
  linear_combination this

theorem Mesh.lin_congr (h : g.Ok) {f f' : Nat → K} (hf : ∀ i < g.N, f i = f' i) (y : K) : g.lin f y = g.lin f' y := by
  have := h.lt y
  unfold Mesh.lin
  rw [hf _ (by omega), hf _ this]

theorem Mesh.lin_bounds (h : g.Ok) {f : Nat → K} {lo hi : K} (hlo : ∀ i < g.N, lo ≤ f i) (hhi : ∀ i < g.N, f i ≤ hi) {y : K}
    (h1 : g.min ≤ y) (h2 : y ≤ g.max) : lo ≤ g.lin f y ∧ g.lin f y ≤ hi := by
  obtain ⟨a, b⟩ := g.w_mem h h1 h2
  have hl := h.lt y
  have p1 := hlo _ (show g.idx y < g.N by omega)
  have p2 := hlo _ hl
  have q1 := hhi _ (show g.idx y < g.N by omega)
  have q2 := hhi _ hl
  unfold Mesh.lin
  constructor <;> nlinarith

theorem Mesh.lin_ge (h : g.Ok) {f : Nat → K} {lo : K} (hlo : ∀ i < g.N, lo ≤ f i) {y : K}
    (h1 : g.min ≤ y) (h2 : y ≤ g.max) : lo ≤ g.lin f y := by
  obtain ⟨a, b⟩ := g.w_mem h h1 h2
  have hl := h.lt y
  have p1 := hlo _ (show g.idx y < g.N by omega)
  have p2 := hlo _ hl
  unfold Mesh.lin
  nlinarith

/-- At a point of the grid the interpolant is the stored value. -/
theorem Mesh.lin_node (h : g.Ok) {f : Nat → K} (hf : g.Agrees f) {i : Nat} (hi : i < g.N) : g.lin f (g.x i) = f i := by
  have hl := h.lt (g.x i)
  have hs := h.seg (g.x i)
  obtain ⟨a, b⟩ := h.mem (g.x i) (h.mono _ _ (Nat.zero_le _) hi) (h.mono _ _ (by omega) (by have := h.two; omega))
  have hw := g.w_mul h (g.x i)
  rcases Nat.lt_or_ge (g.idx (g.x i)) i with hlt | hge
  · have hx : g.x i = g.x (g.idx (g.x i) + 1) := le_antisymm b (h.mono _ _ hlt hi)
    have hw1 : g.w (g.x i) = 1 := by
      have hne : g.x (g.idx (g.x i) + 1) - g.x (g.idx (g.x i)) ≠ 0 := by intro h0; linarith
      refine mul_right_cancel₀ hne ?_
      rw [hw, one_mul, ← hx]
    unfold Mesh.lin
    rw [hw1, hf i _ hi hl hx]; ring
  · have hx : g.x i = g.x (g.idx (g.x i)) := le_antisymm (h.mono _ _ hge (by omega)) a
    have hw0 : g.w (g.x i) = 0 := by
      have hne : g.x (g.idx (g.x i) + 1) - g.x (g.idx (g.x i)) ≠ 0 := by intro h0; linarith
      refine mul_right_cancel₀ hne ?_
      rw [hw, zero_mul, ← hx, sub_self]
    unfold Mesh.lin
    rw [hw0, hf i _ hi (by omega) hx]; ring

theorem Mesh.lin_monotone (h : g.Ok) {f : Nat → K} (hf : ∀ i, i + 1 < g.N → f i ≤ f (i + 1)) : Monotone (g.lin f) := by
  have hm : ∀ i j, i ≤ j → j < g.N → f i ≤ f j := by
    intro i j hij hj
    induction j with
    | zero => rw [Nat.le_zero.1 hij]
    | succ j ih =>
      rcases Nat.lt_or_ge i (j + 1) with hl | hl
      · exact (ih (by omega) (by omega)).trans (hf j hj)
      · rw [Nat.le_antisymm hij hl]
  -- the value on a segment
  have val : ∀ y, g.lin f y = f (g.idx y) + (f (g.idx y + 1) - f (g.idx y)) / (g.x (g.idx y + 1) - g.x (g.idx y)) *
      (y - g.x (g.idx y)) := fun y => by
    unfold Mesh.lin Mesh.w; ring
  have slope : ∀ y, 0 ≤ (f (g.idx y + 1) - f (g.idx y)) / (g.x (g.idx y + 1) - g.x (g.idx y)) := fun y =>
    div_nonneg (by linarith [hf _ (h.lt y)]) (by linarith [h.seg y])
  -- right end of a segment
  have up : ∀ y, y ≤ g.x (g.idx y + 1) → g.lin f y ≤ f (g.idx y + 1) := fun y hy => by
    have hs := h.seg y
    have e : f (g.idx y + 1) = f (g.idx y) + (f (g.idx y + 1) - f (g.idx y)) / (g.x (g.idx y + 1) - g.x (g.idx y)) *
      (g.x (g.idx y + 1) - g.x (g.idx y)) := by
        rw [div_mul_cancel₀ _ (by intro h0; linarith)]; ring
    rw [val]
    calc _ ≤ f (g.idx y) + (f (g.idx y + 1) - f (g.idx y)) / (g.x (g.idx y + 1) - g.x (g.idx y)) *
      (g.x (g.idx y + 1) - g.x (g.idx y)) := by
          have := mul_le_mul_of_nonneg_left (show y - g.x (g.idx y) ≤ g.x (g.idx y + 1) - g.x (g.idx y) by linarith) (slope y)
          linarith
      _ = _ := e.symm
  have dn : ∀ y, g.x (g.idx y) ≤ y → f (g.idx y) ≤ g.lin f y := fun y hy => by
    rw [val]
    have := mul_nonneg (slope y) (sub_nonneg.2 hy)
    linarith
  intro y z hyz
  have same : g.idx y = g.idx z → g.lin f y ≤ g.lin f z := fun e => by
    rw [val, val, e]
    have := mul_le_mul_of_nonneg_left (show y - g.x (g.idx z) ≤ z - g.x (g.idx z) by linarith) (slope z)
    linarith
  have hN := h.two
  have hy := h.lt y
  have hz := h.lt z
  rcases lt_trichotomy (g.idx y) (g.idx z) with hlt | heq | hgt
  · have hy1 : y ≤ g.x (g.idx y + 1) := by
      rcases lt_or_ge y g.min with a | a
      · exact a.le.trans (h.mono _ _ (Nat.zero_le _) hy)
      · rcases le_or_gt y g.max with b | b
        · exact (h.mem y a b).2
        · have := h.high y b; omega
    have hz1 : g.x (g.idx z) ≤ z := by
      rcases lt_or_ge z g.min with a | a
      · have := h.low z a; omega
      · rcases le_or_gt z g.max with b | b
        · exact (h.mem z a b).1
        · exact (h.mono _ _ (by omega) (by omega)).trans b.le
    exact (up y hy1).trans ((hm _ _ hlt (by omega)).trans (dn z hz1))
  · exact same heq
  · -- then `y = z`
    have hy1 : g.x (g.idx y) ≤ y := by
      rcases lt_or_ge y g.min with a | a
      · have := h.low y a; omega
      · rcases le_or_gt y g.max with b | b
        · exact (h.mem y a b).1
        · exact (h.mono _ _ (by omega) (by omega)).trans b.le
    have hz1 : z ≤ g.x (g.idx z + 1) := by
      rcases lt_or_ge z g.min with a | a
      · exact a.le.trans (h.mono _ _ (Nat.zero_le _) hz)
      · rcases le_or_gt z g.max with b | b
        · exact (h.mem z a b).2
        · have := h.high z b; omega
    have : g.x (g.idx z + 1) ≤ g.x (g.idx y) := h.mono _ _ hgt (by omega)
    have e : y = z := by linarith
    rw [e]

/-- The interpolant rises at least as fast as its slowest segment. -/
theorem Mesh.lin_rate (h : g.Ok) {f : Nat → K} {m : K}
    (hf : ∀ i, i + 1 < g.N → m * (g.x (i + 1) - g.x i) ≤ f (i + 1) - f i) {y z : K} (hyz : y ≤ z) :
    m * (z - y) ≤ g.lin f z - g.lin f y := by
  have := g.lin_monotone h (f := fun i => -m * g.x i + f i) (fun i hi => by have := hf i hi; linarith) hyz
  rw [g.lin_add, g.lin_add, g.lin_x h, g.lin_x h] at this
  linarith

/-- And at most as fast as its fastest. -/
theorem Mesh.lin_rate_le (h : g.Ok) {f : Nat → K} {m : K}
    (hf : ∀ i, i + 1 < g.N → f (i + 1) - f i ≤ m * (g.x (i + 1) - g.x i)) {y z : K} (hyz : y ≤ z) :
    g.lin f z - g.lin f y ≤ m * (z - y) := by
  have := g.lin_monotone h (f := fun i => -1 * f i + m * g.x i) (fun i hi => by have := hf i hi; linarith) hyz
  have e : ∀ y, g.lin (fun i => -1 * f i + m * g.x i) y = - g.lin f y + m * y := fun y => by
    have h2 : g.lin (fun i => m * g.x i + 0) y = m * g.lin g.x y + g.lin (fun _ => 0) y := g.lin_add _ _ _ _
    simp only [add_zero] at h2
    rw [g.lin_add, h2, g.lin_const, g.lin_x h]; ring
  rw [e, e] at this
  linarith

/-- Averages of differences, on the grid: a rate common to all rows is the rate of the interpolated row. -/
theorem Mesh.lin_rate_param (h : g.Ok) {f f' : Nat → K} {d : K} (hf : ∀ i < g.N, d ≤ f' i - f i) {y : K} (h1 : g.min ≤ y)
    (h2 : y ≤ g.max) : d ≤ g.lin f' y - g.lin f y := by
  have := g.lin_ge h (f := fun i => -1 * f i + f' i) (lo := d) (fun i hi => by linarith [hf i hi]) h1 h2
  rw [g.lin_add] at this
  linarith

/-- The order of interpolation in two dimensions does not matter. -/
theorem Mesh.lin2_swap (g1 g0 : Mesh K) (d : Nat → Nat → K) (y1 y0 : K) :
    g1.lin2 g0 d y1 y0 = g0.lin (fun i => g1.lin (fun j => d j i) y1) y0 := by
  unfold Mesh.lin2 Mesh.lin; ring

/-- Two dimensions: at a point of the grid the interpolant is the stored value. -/
theorem Mesh.lin2_node {g1 g0 : Mesh K} (h1 : g1.Ok) (h0 : g0.Ok) {d : Nat → Nat → K} (row : ∀ j < g1.N, g0.Agrees (d j))
    (col : ∀ i < g0.N, g1.Agrees fun j => d j i) {j i : Nat} (hj : j < g1.N) (hi : i < g0.N) :
    g1.lin2 g0 d (g1.x j) (g0.x i) = d j i := by
  unfold Mesh.lin2
  rw [g1.lin_congr h1 (f' := fun j => d j i) (fun j hj => g0.lin_node h0 (row j hj) hi)]
  exact g1.lin_node h1 (col i hi) hj

/-- Away from a point of the grid: within the largest rates in the two directions (`A`, `B`) times the distances. -/
theorem Mesh.lin2_near {g1 g0 : Mesh K} (hR : g1.Ok) (hT : g0.Ok) {d : Nat → Nat → K} (row : ∀ j < g1.N, g0.Agrees (d j))
    (col : ∀ i < g0.N, g1.Agrees fun j => d j i) {A B : K}
    (hA : ∀ i < g0.N, ∀ j, j + 1 < g1.N → |d (j + 1) i - d j i| ≤ A * (g1.x (j + 1) - g1.x j))
    (hB : ∀ j < g1.N, ∀ i, i + 1 < g0.N → |d j (i + 1) - d j i| ≤ B * (g0.x (i + 1) - g0.x i)) {j i : Nat}
    (hj : j < g1.N) (hi : i < g0.N) {x y : K} (hx : g1.x j ≤ x) (hy : g0.x i ≤ y) (hy' : y ≤ g0.max) :
    |g1.lin2 g0 d x y - d j i| ≤ A * (x - g1.x j) + B * (y - g0.x i) := by
  have y0 : g0.min ≤ y := (hT.mono _ _ (Nat.zero_le _) hi).trans hy
  have s1 : |g1.lin2 g0 d x y - g1.lin2 g0 d (g1.x j) y| ≤ A * (x - g1.x j) := by
    have sw : ∀ x, g1.lin2 g0 d x y = g0.lin (fun i => g1.lin (fun j => d j i) x) y := fun x => Mesh.lin2_swap g1 g0 d x y
    rw [sw, sw, abs_le]
    constructor
    · refine g0.lin_rate_param hT (fun i hi => ?_) y0 hy'
      have := g1.lin_rate hR (f := fun j => d j i) (m := -A) (fun j hj => by
        have := (abs_le.1 (hA i hi j hj)).1; linarith) hx
      linarith
    · have := g0.lin_rate_param hT (f' := fun i => g1.lin (fun j => d j i) (g1.x j))
        (f := fun i => g1.lin (fun j => d j i) x) (d := -(A * (x - g1.x j))) (fun i hi => by
          have := g1.lin_rate_le hR (f := fun j => d j i) (m := A) (fun j hj => (abs_le.1 (hA i hi j hj)).2) hx
          linarith) y0 hy'
      linarith
  have s2 : |g1.lin2 g0 d (g1.x j) y - d j i| ≤ B * (y - g0.x i) := by
    have e : g1.lin2 g0 d (g1.x j) y = g0.lin (d j) y := by
      have : g1.Agrees fun j => g0.lin (d j) y := fun j j' hj hj' h => g0.lin_congr hT (fun i hi => col i hi j j' hj hj' h) y
      exact g1.lin_node hR this hj
    rw [e, ← g0.lin_node hT (row j hj) hi, abs_le]
    constructor
    · have := g0.lin_rate hT (f := d j) (m := -B) (fun i hi => by have := (abs_le.1 (hB j hj i hi)).1; linarith) hy
      linarith
    · exact g0.lin_rate_le hT (fun i hi => (abs_le.1 (hB j hj i hi)).2) hy
  have := abs_sub_le (g1.lin2 g0 d x y) (g1.lin2 g0 d (g1.x j) y) (d j i)
  linarith

/-- A regular grid is a piecewise grid. -/
def ofGrid [FloorRing K] (g : Grid K) : Mesh K := ⟨g.x, g.N, g.index⟩

theorem ofGrid_ok [FloorRing K] {g : Grid K} (h : g.Ok) : (ofGrid g).Ok := by
  have hd := g.dx_pos h
  have h2 := h.two
  have hmin : (ofGrid g).min = g.min := g.x_zero
  have hmax : (ofGrid g).max = g.max := g.x_last h
  have hw : ∀ y, g.w y * g.dx = y - g.x (g.index y) := g.w_mul h
  refine ⟨h2, fun i j hij _ => g.x_mono h hij, fun y => g.index_lt h y, fun y => ?_, fun y a b => ?_, fun y a => ?_,
    fun y a => ?_⟩
  · simp only [ofGrid]; rw [g.x_succ]; linarith
  · rw [hmin] at a; rw [hmax] at b
    obtain ⟨p, q⟩ := g.w_mem h a b
    have := hw y
    simp only [ofGrid]
    rw [g.x_succ]
    constructor <;> nlinarith
  · rw [hmin] at a
    simp only [ofGrid, Grid.index]
    have : ⌊(y - g.min) / g.dx⌋.toNat = 0 := by
      rw [Int.toNat_eq_zero, ← Int.lt_add_one_iff, zero_add, Int.floor_lt]
      have : (y - g.min) / g.dx < 0 := div_neg_of_neg_of_pos (by linarith) hd
      push_cast; linarith
    rw [this]; exact Nat.min_eq_right (Nat.zero_le _)
  · rw [hmax] at a
    simp only [ofGrid, Grid.index]
    apply Nat.min_eq_left
    have : ((g.N - 2 : Nat) : Int) ≤ ⌊(y - g.min) / g.dx⌋ := by
      rw [Int.le_floor, le_div_iff₀ hd]
      have hl := g.x_last h
      unfold Grid.x at hl
      have hc : ((g.N - 2 : Nat) : K) ≤ ((g.N - 1 : Nat) : K) := by exact_mod_cast (show g.N - 2 ≤ g.N - 1 by omega)
      have := mul_le_mul_of_nonneg_right hc hd.le
      push_cast at *
      linarith
    omega

theorem ofGrid_agrees [FloorRing K] {g : Grid K} (h : g.Ok) (f : Nat → K) : (ofGrid g).Agrees f := by
  intro i j _ _ hx
  have hd := g.dx_pos h
  simp only [ofGrid, Grid.x] at hx
  have h2 : (i : K) = j := by
    have : ((i : K) - j) * g.dx = 0 := by linear_combination hx
    rcases mul_eq_zero.1 this with h3 | h3
    · linarith
    · exact absurd h3 hd.ne'
  rw [Nat.cast_inj.1 h2]

end Verif.Databox
