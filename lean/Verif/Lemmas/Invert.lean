import Verif.Lemmas.RootFindRate
import Verif.Lemmas.DataBox
import Verif.Model.Table.SpinerRhoT

set_option linter.unusedSectionVars false

/-! # Table inversions on functions with a slope bounded away from zero -/

namespace Verif.Databox

variable {K : Type*} [Field K] [LinearOrder K] [IsStrictOrderedRing K] [FloorRing K]

theorem pl_monotone {g : Grid K} (h : g.Ok) {f : Nat → K} {n : Nat} (hf : ∀ i ≤ n, f i ≤ f (i + 1)) :
    Monotone (pl g f n) := by
  have hd := g.dx_pos h
  have line : ∀ (a b c : K), 0 ≤ b → Monotone fun x => a + b / g.dx * (x - c) := fun a b c hb x y hxy => by
    have : 0 ≤ b / g.dx * (y - x) := mul_nonneg (div_nonneg hb hd.le) (by linarith)
    dsimp only; nlinarith
  induction n with
  | zero => exact line _ _ _ (by linarith [hf 0 le_rfl])
  | succ n ih =>
    have ih := ih fun i hi => hf i (by omega)
    have l := line (f (n + 1)) (f (n + 2) - f (n + 1)) (g.x (n + 1)) (by linarith [hf (n + 1) le_rfl])
    have hm : pl g f n (g.x (n + 1)) = f (n + 1) := by
      rw [pl_right h f n (g.x_mono h (Nat.le_succ n)), g.x_succ]; have := hd.ne'; field_simp; ring
    intro x y hxy
    unfold pl
    split_ifs with h1 h2 h2
    · exact ih hxy
    · have a := ih h1
      have b := l (lt_of_not_ge h2).le
      rw [hm] at a
      simp only [sub_self, mul_zero, add_zero] at b
      exact a.trans b
    · exact absurd (hxy.trans h2) h1
    · exact l hxy

theorem lin_monotone {g : Grid K} (h : g.Ok) {f : Nat → K} (hf : ∀ i, i + 1 < g.N → f i ≤ f (i + 1)) :
    Monotone (lin g f) := by
  have : lin g f = pl g f (g.N - 2) := funext (lin_eq_pl h f)
  rw [this]
  exact pl_monotone h fun i hi => hf i (by have := h.two; omega)

theorem lin_shift {g : Grid K} (h : g.Ok) (f : Nat → K) (m c x : K) :
    lin g (fun i => c * f i + (0 + m * g.x i)) x = c * lin g f x + m * x := by
  rw [lin_smul_add, lin_affine h]; ring

/-- The interpolant rises at least as fast as its slowest segment. -/
theorem lin_rate {g : Grid K} (h : g.Ok) {f : Nat → K} {m : K} (hf : ∀ i, i + 1 < g.N → m * g.dx ≤ f (i + 1) - f i)
    {x y : K} (hxy : x ≤ y) : m * (y - x) ≤ lin g f y - lin g f x := by
  have := lin_monotone (g := g) h (f := fun i => 1 * f i + (0 + -m * g.x i))
    (fun i hi => by have := hf i hi; rw [g.x_succ]; linarith) hxy
  rw [lin_shift h, lin_shift h] at this
  linarith

/-- And at most as fast as its fastest. -/
theorem lin_rate_le {g : Grid K} (h : g.Ok) {f : Nat → K} {m : K} (hf : ∀ i, i + 1 < g.N → f (i + 1) - f i ≤ m * g.dx)
    {x y : K} (hxy : x ≤ y) : lin g f y - lin g f x ≤ m * (y - x) := by
  have := lin_monotone (g := g) h (f := fun i => -1 * f i + (0 + m * g.x i))
    (fun i hi => by have := hf i hi; rw [g.x_succ]; linarith) hxy
  rw [lin_shift h, lin_shift h] at this
  linarith

/-- Rates of an interpolation of functions, inside the grid. -/
theorem lin_rate_param {g : Grid K} (h : g.Ok) {f : Nat → K → K} {m M y z : K}
    (hf : ∀ i < g.N, m ≤ f i z - f i y ∧ f i z - f i y ≤ M) {x : K}
    (h1 : g.min ≤ x) (h2 : x ≤ g.max) :
    m ≤ lin g (fun i => f i z) x - lin g (fun i => f i y) x ∧ lin g (fun i => f i z) x - lin g (fun i => f i y) x ≤ M := by
  have e : lin g (fun i => f i z) x - lin g (fun i => f i y) x = lin g (fun i => f i z - f i y) x := by unfold lin; ring
  rw [e]
  exact lin_bounds h (fun i hi => (hf i hi).1) (fun i hi => (hf i hi).2) h1 h2

end Verif.Databox

namespace Verif.RhoT

open Verif.RootFind

variable {K : Type*} [Field K] [LinearOrder K] [IsStrictOrderedRing K]

/-- A successful inversion of a function that rises (`τ = 1`) or falls (`τ = -1`) at least at rate `m`. -/
theorem invert_rate {thr : K} (hthr : 0 ≤ thr) {f : K → K} {y guess a b fb x τ m r : K} (hτ : τ = 1 ∨ τ = -1) (hm : 0 < m)
    (hf : ∀ u v, a ≤ u → u ≤ v → v ≤ b → m * (v - u) ≤ τ * (f v - f u)) (hra : a ≤ r) (hrb : r ≤ b) (hr : f r = y)
    (h1 : a ≤ guess) (h2 : guess ≤ b) (h : invert thr f y guess a b fb = (.success, x)) :
    |x - r| ≤ max thr (2 * thr / m) := by
  unfold invert at h
  split at h
  · rename_i x' o he
    simp only [Prod.mk.injEq, true_and] at h
    subst h
    exact le_max_iff.2 (regulaFalsi_rate hτ hm (fun u v p q s _ => by have := hf u v p q s; simp only; linarith) hra hrb hr h1 h2
      hthr hthr he)
  · simp at h

/-- How many iterations `regula_falsi` may need for rates between `m` and `M` on an interval of width `w`: enough are
available if `p` and `q` as here exist. -/
def Enough (m M w thr : K) : Prop :=
  ∃ p q : Nat, M ≤ m * 2 ^ p ∧ (1 - m / (2 * M)) ^ q * w ≤ thr ∧ (p + 2) * q < 1000

/-- The inversion cannot fail if the rates lie between `m` and `M` and enough iterations are available. -/
theorem invert_total {thr : K} (hthr : 0 ≤ thr) {f : K → K} {y guess a b fb τ m M r : K} (hτ : τ = 1 ∨ τ = -1) (hm : 0 < m)
    (hmM : m ≤ M) (hen : Enough m M (b - a) thr)
    (hf : ∀ u v, a ≤ u → u ≤ v → v ≤ b → m * (v - u) ≤ τ * (f v - f u) ∧ τ * (f v - f u) ≤ M * (v - u))
    (hra : a ≤ r) (hrb : r ≤ b) (hr : f r = y) (h1 : a ≤ guess) (h2 : guess ≤ b) :
    ∃ x, invert thr f y guess a b fb = (.success, x) := by
  obtain ⟨p, q, hp, hq, hpq⟩ := hen
  obtain ⟨x, s, e, -⟩ := regulaFalsi_total hτ hm hmM hp
    (fun u v p q s _ => by have := (hf u v p q s).1; simp only; linarith)
    (fun u v p q s _ => by have := (hf u v p q s).2; simp only; linarith) hra hrb hr h1 h2 hthr hthr hq hpq
  exact ⟨x, by unfold invert; rw [e]⟩

end Verif.RhoT
