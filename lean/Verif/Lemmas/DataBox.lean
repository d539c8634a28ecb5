import Verif.Model.Table.DataBox
import Verif.Tactics
import Mathlib.Topology.Instances.Real.Lemmas
import Mathlib.Topology.Order.OrderClosed
import Mathlib.Topology.Algebra.Field

/-! # Lemmas on linear interpolation -/

namespace Verif.Databox

variable {K : Type*} [Field K] [LinearOrder K] [IsStrictOrderedRing K] [FloorRing K]

/-- A usable grid: at least two points, increasing. -/
structure Grid.Ok (g : Grid K) : Prop where
  two : 2 ≤ g.N
  lt : g.min < g.max

theorem Grid.dx_pos {g : Grid K} (h : g.Ok) : 0 < g.dx := by
  unfold Grid.dx
  have h2 : (2 : K) ≤ g.N := by exact_mod_cast h.two
  exact div_pos (by linarith [h.lt]) (by linarith)

theorem Grid.x_zero (g : Grid K) : g.x 0 = g.min := by simp [Grid.x]

theorem Grid.x_last {g : Grid K} (h : g.Ok) : g.x (g.N - 1) = g.max := by
  have h2 : (2 : K) ≤ g.N := by exact_mod_cast h.two
  have h1 : ((g.N - 1 : Nat) : K) = (g.N : K) - 1 := by
    rw [Nat.cast_sub (by have := h.two; omega)]; simp
  unfold Grid.x Grid.dx
  rw [h1, mul_div_cancel₀ _ (by linarith)]; ring

theorem Grid.x_succ (g : Grid K) (i : Nat) : g.x (i + 1) = g.x i + g.dx := by
  unfold Grid.x; push_cast; ring

theorem Grid.x_mono {g : Grid K} (h : g.Ok) {i j : Nat} (hij : i ≤ j) : g.x i ≤ g.x j := by
  have := g.dx_pos h
  have h' : (i : K) ≤ j := by exact_mod_cast hij
  unfold Grid.x; nlinarith

theorem Grid.index_le (g : Grid K) (x : K) : g.index x ≤ g.N - 2 := Nat.min_le_left _ _

theorem Grid.index_lt {g : Grid K} (h : g.Ok) (x : K) : g.index x + 1 < g.N := by
  have := g.index_le x; have := h.two; omega

/-- The weight puts the interpolation point on the segment. -/
theorem Grid.w_mul {g : Grid K} (h : g.Ok) (x : K) : g.w x * g.dx = x - g.x (g.index x) := by
  have := (g.dx_pos h).ne'
  unfold Grid.w; field_simp

/-- Inside the grid the weight is in `[0, 1]`. -/
theorem Grid.w_mem {g : Grid K} (h : g.Ok) {x : K} (h1 : g.min ≤ x) (h2 : x ≤ g.max) : 0 ≤ g.w x ∧ g.w x ≤ 1 := by
  have hd := g.dx_pos h
  have hq : 0 ≤ (x - g.min) / g.dx := div_nonneg (by linarith) hd.le
  have hfl : 0 ≤ ⌊(x - g.min) / g.dx⌋ := Int.floor_nonneg.2 hq
  have e : g.w x = (x - g.min) / g.dx - (g.index x : K) := by
    have := hd.ne'
    unfold Grid.w Grid.x; field_simp; ring
  have hcast : ((⌊(x - g.min) / g.dx⌋.toNat : Nat) : K) = (⌊(x - g.min) / g.dx⌋ : K) := by
    have : ((⌊(x - g.min) / g.dx⌋.toNat : Nat) : ℤ) = ⌊(x - g.min) / g.dx⌋ := Int.toNat_of_nonneg hfl
    exact_mod_cast this
  have hle : (⌊(x - g.min) / g.dx⌋ : K) ≤ (x - g.min) / g.dx := Int.floor_le _
  have hlt : (x - g.min) / g.dx < ⌊(x - g.min) / g.dx⌋ + 1 := Int.lt_floor_add_one _
  rw [e]
  unfold Grid.index
  rcases Nat.le_total (g.N - 2) ⌊(x - g.min) / g.dx⌋.toNat with hc | hc
  · have hm : Nat.min (g.N - 2) ⌊(x - g.min) / g.dx⌋.toNat = g.N - 2 := Nat.min_eq_left hc
    rw [hm]
    have hc' : ((g.N - 2 : Nat) : K) ≤ (⌊(x - g.min) / g.dx⌋ : K) := by rw [← hcast]; exact_mod_cast hc
    have hN : ((g.N - 2 : Nat) : K) = (g.N : K) - 2 := by rw [Nat.cast_sub h.two]; simp
    have h2' : (2 : K) ≤ g.N := by exact_mod_cast h.two
    have hmax : (x - g.min) / g.dx ≤ (g.N : K) - 1 := by
      rw [div_le_iff₀ hd]
      have : ((g.N : K) - 1) * g.dx = g.max - g.min := by
        unfold Grid.dx; rw [mul_div_cancel₀ _ (by linarith)]
      linarith
    constructor <;> linarith
  · have hm : Nat.min (g.N - 2) ⌊(x - g.min) / g.dx⌋.toNat = ⌊(x - g.min) / g.dx⌋.toNat := Nat.min_eq_right hc
    rw [hm, hcast]
    constructor <;> linarith

/-- Interpolation of a linear function is exact everywhere, also outside the grid. -/
theorem lin_affine {g : Grid K} (h : g.Ok) (a b x : K) : lin g (fun i => a + b * g.x i) x = a + b * x := by
  have := g.w_mul h x
  unfold lin
  simp only [g.x_succ]
  linear_combination b * this

theorem lin_const {g : Grid K} (h : g.Ok) (a x : K) : lin g (fun _ => a) x = a := by
  simpa using lin_affine h a 0 x

/-- At a point of the grid the interpolant is the stored value. -/
theorem lin_node {g : Grid K} (h : g.Ok) (f : Nat → K) {i : Nat} (hi : i < g.N) : lin g f (g.x i) = f i := by
  have hd := g.dx_pos h
  have hq : (g.x i - g.min) / g.dx = (i : K) := by
    have := hd.ne'
    unfold Grid.x; field_simp; ring
  have hfl : ⌊(g.x i - g.min) / g.dx⌋.toNat = i := by rw [hq]; simp
  have hidx : g.index (g.x i) = Nat.min (g.N - 2) i := by unfold Grid.index; rw [hfl]
  by_cases hc : i ≤ g.N - 2
  · have e : g.index (g.x i) = i := by rw [hidx]; exact Nat.min_eq_right hc
    have hw : g.w (g.x i) = 0 := by unfold Grid.w; rw [e]; simp
    unfold lin; rw [hw, e]; ring
  · have e : g.index (g.x i) = g.N - 2 := by rw [hidx]; exact Nat.min_eq_left (by omega)
    have e2 : i = g.N - 2 + 1 := by have := h.two; omega
    have hw : g.w (g.x i) = 1 := by
      unfold Grid.w; rw [e, e2, g.x_succ]; simp [hd.ne']
    unfold lin; rw [hw, e, ← e2]; ring

/-- The interpolant only reads the values at points of the grid. -/
theorem lin_congr {g : Grid K} (h : g.Ok) {f f' : Nat → K} (hf : ∀ i < g.N, f i = f' i) (x : K) :
    lin g f x = lin g f' x := by
  have := g.index_lt h x
  unfold lin; rw [hf _ (by omega), hf _ this]

/-- Inside the grid the interpolant is monotone in the data. -/
theorem lin_mono {g : Grid K} (h : g.Ok) {f f' : Nat → K} (hf : ∀ i < g.N, f i ≤ f' i) {x : K}
    (h1 : g.min ≤ x) (h2 : x ≤ g.max) : lin g f x ≤ lin g f' x := by
  obtain ⟨w0, w1⟩ := g.w_mem h h1 h2
  have := g.index_lt h x
  have a := hf (g.index x) (by omega)
  have b := hf _ this
  unfold lin; nlinarith [mul_nonneg w0 (sub_nonneg.2 b), mul_nonneg (sub_nonneg.2 w1) (sub_nonneg.2 a)]

/-- Inside the grid the interpolant stays between bounds on the data. -/
theorem lin_bounds {g : Grid K} (h : g.Ok) {f : Nat → K} {lo hi : K} (hlo : ∀ i < g.N, lo ≤ f i)
    (hhi : ∀ i < g.N, f i ≤ hi) {x : K} (h1 : g.min ≤ x) (h2 : x ≤ g.max) : lo ≤ lin g f x ∧ lin g f x ≤ hi := by
  constructor
  · rw [← lin_const h lo x]; exact lin_mono h hlo h1 h2
  · rw [← lin_const h hi x]; exact lin_mono h hhi h1 h2

/-- The interpolant is linear in the data. -/
theorem lin_smul_add (g : Grid K) (f f' : Nat → K) (c x : K) :
    lin g (fun i => c * f i + f' i) x = c * lin g f x + lin g f' x := by unfold lin; ring

/-- A three-dimensional box interpolates its nodes. -/
theorem Box3.interp_node {b : Box3 K} (h2 : b.g2.Ok) (h1 : b.g1.Ok) (h0 : b.g0.Ok) {k j i : Nat} (hk : k < b.g2.N)
    (hj : j < b.g1.N) (hi : i < b.g0.N) : b.interp (b.g2.x k) (b.g1.x j) (b.g0.x i) = b.data k j i := by
  unfold Box3.interp
  rw [lin_node h2 _ hk, lin_node h1 _ hj, lin_node h0 _ hi]

theorem Box2.interp_node {b : Box2 K} (h1 : b.g1.Ok) (h0 : b.g0.Ok) {j i : Nat}
    (hj : j < b.g1.N) (hi : i < b.g0.N) : b.interp (b.g1.x j) (b.g0.x i) = b.data j i := by
  unfold Box2.interp
  rw [lin_node h1 _ hj, lin_node h0 _ hi]

/-- `DataBox::min()` is the least entry. -/
theorem Box2.min_spec (b : Box2 K) (h1 : 0 < b.g1.N) (h0 : 0 < b.g0.N) :
    (∀ j < b.g1.N, ∀ i < b.g0.N, b.min ≤ b.data j i) ∧ ∃ j < b.g1.N, ∃ i < b.g0.N, b.min = b.data j i := by
  unfold Box2.min
  have key := forN_inv (s := b.data 0 0) (body := fun m j => forN b.g0.N (fun m i => if b.data j i < m then b.data j i else m) m)
    (P := fun n m => (∀ j < n, ∀ i < b.g0.N, m ≤ b.data j i) ∧ ∃ j < b.g1.N, ∃ i < b.g0.N, m = b.data j i)
    (n := b.g1.N) ⟨fun j hj => absurd hj (by omega), 0, h1, 0, h0, rfl⟩ ?_
  · exact key
  · intro n m hn hm
    have key2 := forN_inv (s := m) (body := fun m i => if b.data n i < m then b.data n i else m)
      (P := fun p q => q ≤ m ∧ (∀ i < p, q ≤ b.data n i) ∧ ∃ j < b.g1.N, ∃ i < b.g0.N, q = b.data j i)
      (n := b.g0.N) ⟨le_rfl, fun j hj => absurd hj (by omega), hm.2⟩ ?_
    · refine ⟨fun j hj i hi => ?_, key2.2.2⟩
      rcases Nat.lt_succ_iff_lt_or_eq.1 hj with h | h
      · exact key2.1.trans (hm.1 j h i hi)
      · subst h; exact key2.2.1 i hi
    · intro p q hp hq
      split_ifs with hc
      · refine ⟨hc.le.trans hq.1, fun i hi => ?_, n, hn, p, hp, rfl⟩
        rcases Nat.lt_succ_iff_lt_or_eq.1 hi with h | h
        · exact hc.le.trans (hq.2.1 i h)
        · subst h; exact le_rfl
      · refine ⟨hq.1, fun i hi => ?_, hq.2.2⟩
        rcases Nat.lt_succ_iff_lt_or_eq.1 hi with h | h
        · exact hq.2.1 i h
        · subst h; exact not_lt.1 hc

/-- `DataBox::max()` is the greatest entry. -/
theorem Box2.max_spec (b : Box2 K) (h1 : 0 < b.g1.N) (h0 : 0 < b.g0.N) :
    (∀ j < b.g1.N, ∀ i < b.g0.N, b.data j i ≤ b.max) ∧ ∃ j < b.g1.N, ∃ i < b.g0.N, b.max = b.data j i := by
  unfold Box2.max
  have key := forN_inv (s := b.data 0 0) (body := fun m j => forN b.g0.N (fun m i => if m < b.data j i then b.data j i else m) m)
    (P := fun n m => (∀ j < n, ∀ i < b.g0.N, b.data j i ≤ m) ∧ ∃ j < b.g1.N, ∃ i < b.g0.N, m = b.data j i)
    (n := b.g1.N) ⟨fun j hj => absurd hj (by omega), 0, h1, 0, h0, rfl⟩ ?_
  · exact key
  · intro n m hn hm
    have key2 := forN_inv (s := m) (body := fun m i => if m < b.data n i then b.data n i else m)
      (P := fun p q => m ≤ q ∧ (∀ i < p, b.data n i ≤ q) ∧ ∃ j < b.g1.N, ∃ i < b.g0.N, q = b.data j i)
      (n := b.g0.N) ⟨le_rfl, fun j hj => absurd hj (by omega), hm.2⟩ ?_
    · refine ⟨fun j hj i hi => ?_, key2.2.2⟩
      rcases Nat.lt_succ_iff_lt_or_eq.1 hj with h | h
      · exact (hm.1 j h i hi).trans key2.1
      · subst h; exact key2.2.1 i hi
    · intro p q hp hq
      split_ifs with hc
      · refine ⟨hq.1.trans hc.le, fun i hi => ?_, n, hn, p, hp, rfl⟩
        rcases Nat.lt_succ_iff_lt_or_eq.1 hi with h | h
        · exact (hq.2.1 i h).trans hc.le
        · subst h; exact le_rfl
      · refine ⟨hq.1, fun i hi => ?_, hq.2.2⟩
        rcases Nat.lt_succ_iff_lt_or_eq.1 hi with h | h
        · exact hq.2.1 i h
        · subst h; exact not_lt.1 hc

/-! ## As a function of the point: piecewise linear, continuous, monotone -/

/-- The interpolant with at most `n + 1` segments, by recursion on the last one. -/
def pl (g : Grid K) (f : Nat → K) : Nat → K → K
  | 0, x => f 0 + (f 1 - f 0) / g.dx * (x - g.x 0)
  | n + 1, x => if x ≤ g.x (n + 1) then pl g f n x else f (n + 1) + (f (n + 2) - f (n + 1)) / g.dx * (x - g.x (n + 1))

theorem pl_right {g : Grid K} (h : g.Ok) (f : Nat → K) (n : Nat) {x : K} (hx : g.x n ≤ x) :
    pl g f n x = f n + (f (n + 1) - f n) / g.dx * (x - g.x n) := by
  induction n generalizing x with
  | zero => rfl
  | succ n ih =>
    unfold pl
    split_ifs with hc
    · have e : x = g.x (n + 1) := le_antisymm hc hx
      have hd := (g.dx_pos h).ne'
      rw [e, ih (g.x_mono h (Nat.le_succ n)), g.x_succ]
      field_simp; ring
    · rfl

/-- The interpolant with the index clamped at `n`. -/
theorem pl_eq {g : Grid K} (h : g.Ok) (f : Nat → K) (n : Nat) (x : K) :
    pl g f n x = f (Nat.min n ⌊(x - g.min) / g.dx⌋.toNat) +
      (f (Nat.min n ⌊(x - g.min) / g.dx⌋.toNat + 1) - f (Nat.min n ⌊(x - g.min) / g.dx⌋.toNat)) / g.dx
        * (x - g.x (Nat.min n ⌊(x - g.min) / g.dx⌋.toNat)) := by
  have hd := g.dx_pos h
  induction n with
  | zero => simp [pl]
  | succ n ih =>
    rcases lt_or_ge x (g.x (n + 1)) with hc | hc
    · have hfl : ⌊(x - g.min) / g.dx⌋.toNat ≤ n := by
        have : ⌊(x - g.min) / g.dx⌋ < (n : ℤ) + 1 := by
          rw [Int.floor_lt, div_lt_iff₀ hd]
          unfold Grid.x at hc; push_cast at hc ⊢; linarith
        omega
      have e : pl g f (n + 1) x = pl g f n x := by simp only [pl, if_pos hc.le]
      have h1 : Nat.min (n + 1) ⌊(x - g.min) / g.dx⌋.toNat = ⌊(x - g.min) / g.dx⌋.toNat := Nat.min_eq_right (by omega)
      have h2 : Nat.min n ⌊(x - g.min) / g.dx⌋.toNat = ⌊(x - g.min) / g.dx⌋.toNat := Nat.min_eq_right hfl
      rw [e, ih, h1, h2]
    · have hfl : n + 1 ≤ ⌊(x - g.min) / g.dx⌋.toNat := by
        have : (n : ℤ) + 1 ≤ ⌊(x - g.min) / g.dx⌋ := by
          rw [Int.le_floor, le_div_iff₀ hd]
          unfold Grid.x at hc; push_cast at hc ⊢; linarith
        omega
      have h1 : Nat.min (n + 1) ⌊(x - g.min) / g.dx⌋.toNat = n + 1 := Nat.min_eq_left hfl
      rw [h1]
      exact pl_right h f (n + 1) hc

theorem lin_eq_pl {g : Grid K} (h : g.Ok) (f : Nat → K) (x : K) : lin g f x = pl g f (g.N - 2) x := by
  rw [pl_eq h]
  have hd := (g.dx_pos h).ne'
  unfold lin Grid.w Grid.index
  generalize Nat.min (g.N - 2) ⌊(x - g.min) / g.dx⌋.toNat = k
  field_simp; ring

theorem pl_strictMono {g : Grid K} (h : g.Ok) {f : Nat → K} {n : Nat} (hf : ∀ i ≤ n, f i < f (i + 1)) :
    StrictMono (pl g f n) := by
  have hd := g.dx_pos h
  have line : ∀ (a b c : K), 0 < b → StrictMono fun x => a + b / g.dx * (x - c) := fun a b c hb x y hxy => by
    have : 0 < b / g.dx * (y - x) := mul_pos (div_pos hb hd) (by linarith)
    dsimp only; nlinarith
  induction n with
  | zero => exact line _ _ _ (by linarith [hf 0 le_rfl])
  | succ n ih =>
    have ih := ih fun i hi => hf i (by omega)
    have l := line (f (n + 1)) (f (n + 2) - f (n + 1)) (g.x (n + 1)) (by linarith [hf (n + 1) le_rfl])
    have hm : pl g f n (g.x (n + 1)) = f (n + 1) := by
      rw [pl_right h f n (g.x_mono h (Nat.le_succ n)), g.x_succ]; have := hd.ne'; field_simp; ring
    intro x y hxy
    unfold pl
    split_ifs with h1 h2 h2
    · exact ih hxy
    · have a := ih.monotone h1
      have b := l (lt_of_not_ge h2)
      rw [hm] at a
      simp only [sub_self, mul_zero, add_zero] at b
      exact a.trans_lt b
    · exact absurd (hxy.le.trans h2) h1
    · exact l hxy

theorem lin_strictMono {g : Grid K} (h : g.Ok) {f : Nat → K} (hf : ∀ i, i + 1 < g.N → f i < f (i + 1)) :
    StrictMono (lin g f) := by
  have : lin g f = pl g f (g.N - 2) := funext (lin_eq_pl h f)
  rw [this]
  exact pl_strictMono h fun i hi => hf i (by have := h.two; omega)

theorem pl_continuous {g : Grid ℝ} (h : g.Ok) (f : Nat → ℝ) (n : Nat) : Continuous (pl g f n) := by
  induction n with
  | zero =>
    have e : pl g f 0 = fun x => f 0 + (f 1 - f 0) / g.dx * (x - g.x 0) := by funext x; rfl
    rw [e]; fun_prop
  | succ n ih =>
    have hm : pl g f n (g.x (n + 1)) = f (n + 1) := by
      rw [pl_right h f n (g.x_mono h (Nat.le_succ n)), g.x_succ]; have := (g.dx_pos h).ne'; field_simp; ring
    have e : pl g f (n + 1) = fun x => if x ≤ g.x (n + 1) then pl g f n x
        else f (n + 1) + (f (n + 2) - f (n + 1)) / g.dx * (x - g.x (n + 1)) := by funext x; rfl
    rw [e]
    refine Continuous.if_le ih (by fun_prop) continuous_id continuous_const fun x hx => ?_
    rw [hx, hm]; simp

/-- The interpolant is continuous. -/
theorem lin_continuous {g : Grid ℝ} (h : g.Ok) (f : Nat → ℝ) : Continuous (lin g f) := by
  have : lin g f = pl g f (g.N - 2) := funext (lin_eq_pl h f)
  rw [this]; exact pl_continuous h f _

/-- An interpolant of functions that are continuous in a parameter is continuous in it. -/
theorem lin_continuous_param {g : Grid ℝ} {f : Nat → ℝ → ℝ} (hf : ∀ i, Continuous (f i)) (x : ℝ) :
    Continuous fun y => lin g (fun i => f i y) x := by
  unfold lin
  exact (continuous_const.mul (hf _)).add (continuous_const.mul (hf _))

/-- Likewise for strict monotonicity, inside the grid. -/
theorem lin_strictMono_param {g : Grid K} (h : g.Ok) {f : Nat → K → K} (hf : ∀ i < g.N, StrictMono (f i)) {x : K}
    (h1 : g.min ≤ x) (h2 : x ≤ g.max) : StrictMono fun y => lin g (fun i => f i y) x := by
  obtain ⟨w0, w1⟩ := g.w_mem h h1 h2
  have hi := g.index_lt h x
  intro y z hyz
  have a := hf (g.index x) (by omega) hyz
  have b := hf _ hi hyz
  unfold lin
  rcases eq_or_lt_of_le w0 with e | e
  · rw [← e]; simp only [sub_zero, one_mul, zero_mul, add_zero]; exact a
  · nlinarith [mul_pos e (sub_pos.2 b), mul_nonneg (sub_nonneg.2 w1) (sub_nonneg.2 a.le)]

end Verif.Databox
