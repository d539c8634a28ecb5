import Verif.Model.FloatRootFind
import Mathlib.Tactic.Linarith
import Mathlib.Tactic.Ring
import Mathlib.Tactic.FieldSimp
import Mathlib.Tactic.Positivity
import Mathlib.Tactic.GCongr

/-! # `regula_falsi` with rounded arithmetic: how far the bracket can drift -/

namespace Verif.RootFind

variable {u : ℝ} {rnd : ℝ → ℝ}

theorem rnd_zero (h : ∀ x, |rnd x - x| ≤ u * |x|) : rnd 0 = 0 := by
  have := h 0
  rw [abs_zero, mul_zero, sub_zero] at this
  exact abs_nonpos_iff.mp this

theorem rnd_nonneg (h : ∀ x, |rnd x - x| ≤ u * |x|) (hu : u ≤ 1) {x : ℝ} (hx : 0 ≤ x) : 0 ≤ rnd x := by
  have := (abs_le.mp (h x)).1
  rw [abs_of_nonneg hx] at this
  nlinarith

theorem rnd_nonpos (h : ∀ x, |rnd x - x| ≤ u * |x|) (hu : u ≤ 1) {x : ℝ} (hx : x ≤ 0) : rnd x ≤ 0 := by
  have := (abs_le.mp (h x)).2
  rw [abs_of_nonpos hx] at this
  nlinarith

theorem rnd_pos_iff (h : ∀ x, |rnd x - x| ≤ u * |x|) (hu : u < 1) {x : ℝ} : 0 < rnd x ↔ 0 < x := by
  constructor
  · intro hr
    by_contra hc
    exact absurd (rnd_nonpos h hu.le (not_lt.mp hc)) (not_le.mpr hr)
  · intro hx
    have := (abs_le.mp (h x)).1
    rw [abs_of_pos hx] at this
    nlinarith

theorem rnd_nonpos_iff (h : ∀ x, |rnd x - x| ≤ u * |x|) (hu : u < 1) {x : ℝ} : rnd x ≤ 0 ↔ x ≤ 0 := by
  rw [← not_lt, ← not_lt, rnd_pos_iff h hu]

theorem rnd_neg_iff (h : ∀ x, |rnd x - x| ≤ u * |x|) (hu : u < 1) {x : ℝ} : rnd x < 0 ↔ x < 0 := by
  constructor
  · intro hr
    by_contra hc
    exact absurd (rnd_nonneg h hu.le (not_lt.mp hc)) (not_le.mpr hr)
  · intro hx
    have := (abs_le.mp (h x)).2
    rw [abs_of_neg hx] at this
    nlinarith

/-- The rounded secant leaves the bracket by at most `5u` times the size of its ends. -/
theorem secant_bound (h : ∀ x, |rnd x - x| ≤ u * |x|) (hu0 : 0 ≤ u) (hu : u ≤ 1 / 16) {s : RF ℝ} {M : ℝ}
    (ha : |s.a| ≤ M) (hb : |s.b| ≤ M) (hab : s.a ≤ s.b) (hya : s.ya ≤ 0) (hyb : 0 ≤ s.yb) (hD : 0 < s.yb - s.ya) :
    s.a - 5 * u * M ≤ rfSecantFl rnd s ∧ rfSecantFl rnd s ≤ s.b + 5 * u * M := by
  obtain ⟨a, b, ya, yb, b1, b2, it⟩ := s
  dsimp only at *
  unfold rfSecantFl
  dsimp only
  set X := a * yb with hX
  set Y := b * ya with hY
  set D := yb - ya with hDd
  have hM : 0 ≤ M := (abs_nonneg a).trans ha
  have hXb : |X| ≤ M * yb := by
    rw [hX, abs_mul, abs_of_nonneg hyb]
    exact mul_le_mul_of_nonneg_right ha hyb
  have hYb : |Y| ≤ M * (-ya) := by
    rw [hY, abs_mul, abs_of_nonpos hya]
    exact mul_le_mul_of_nonneg_right hb (by linarith)
  have hXY : |X| + |Y| ≤ M * D := by
    have : M * D = M * yb + M * (-ya) := by rw [hDd]; ring
    linarith
  have hN12 : |(rnd X - rnd Y) - (X - Y)| ≤ u * (M * D) := by
    have e : (rnd X - rnd Y) - (X - Y) = (rnd X - X) - (rnd Y - Y) := by ring
    rw [e]
    have := abs_sub (rnd X - X) (rnd Y - Y)
    have h1 := h X
    have h2 := h Y
    have h3 := mul_le_mul_of_nonneg_left hXY hu0
    linarith
  have hXYd : |X - Y| ≤ M * D := (abs_sub X Y).trans hXY
  have hMD : 0 ≤ M * D := mul_nonneg hM hD.le
  have hn : |rnd X - rnd Y| ≤ (1 + u) * (M * D) := by
    have e : rnd X - rnd Y = (X - Y) + ((rnd X - rnd Y) - (X - Y)) := by ring
    rw [e]
    have := abs_add_le (X - Y) ((rnd X - rnd Y) - (X - Y))
    linarith
  set N := rnd (rnd X - rnd Y) with hN
  have hNe : |N - (rnd X - rnd Y)| ≤ u * ((1 + u) * (M * D)) :=
    (h _).trans (mul_le_mul_of_nonneg_left hn hu0)
  have hNd : |N - (X - Y)| ≤ (2 * u + u ^ 2) * (M * D) := by
    have e : N - (X - Y) = (N - (rnd X - rnd Y)) + ((rnd X - rnd Y) - (X - Y)) := by ring
    rw [e]
    have := abs_add_le (N - (rnd X - rnd Y)) ((rnd X - rnd Y) - (X - Y))
    linarith
  have hNb : |N| ≤ (1 + 2 * u + u ^ 2) * (M * D) := by
    have e : N = (X - Y) + (N - (X - Y)) := by ring
    have := abs_add_le (X - Y) (N - (X - Y))
    rw [← e] at this
    linarith
  set D' := rnd D with hD'
  have hDe : |D' - D| ≤ u * D := by
    have := h D
    rwa [abs_of_pos hD] at this
  have hDe' := abs_le.mp hDe
  have hD'lo : (1 - u) * D ≤ D' := by linarith [hDe'.1]
  have hD'pos : 0 < D' := lt_of_lt_of_le (mul_pos (by linarith) hD) hD'lo
  set q := N / D' with hq
  have hqN : q * D' = N := by rw [hq]; field_simp
  -- |q| D ≤ (16/15) |N|
  have hqD : |q| * D ≤ 16 / 15 * |N| := by
    have h1 : |q| * D' = |N| := by rw [← hqN, abs_mul, abs_of_pos hD'pos]
    have h2 : |q| * ((1 - u) * D) ≤ |N| := by
      rw [← h1]
      exact mul_le_mul_of_nonneg_left hD'lo (abs_nonneg q)
    have h3 : 0 ≤ |q| * D := mul_nonneg (abs_nonneg q) hD.le
    have h4 : 15 / 16 * (|q| * D) ≤ (1 - u) * (|q| * D) := mul_le_mul_of_nonneg_right (by linarith) h3
    have e : |q| * ((1 - u) * D) = (1 - u) * (|q| * D) := by ring
    rw [e] at h2
    linarith
  set c := rnd q with hc
  have hcq : |c - q| ≤ u * |q| := h q
  -- total error times D
  have htot : |c * D - (X - Y)| ≤ 5 * u * M * D := by
    have e : c * D - (X - Y) = (c - q) * D + q * (D - D') + (N - (X - Y)) := by
      have : q * (D - D') = q * D - N := by rw [← hqN]; ring
      rw [this]
      ring
    rw [e]
    have t1 := abs_add_le ((c - q) * D + q * (D - D')) (N - (X - Y))
    have t2 := abs_add_le ((c - q) * D) (q * (D - D'))
    have t3 : |(c - q) * D| ≤ u * (|q| * D) := by
      rw [abs_mul, abs_of_pos hD]
      calc |c - q| * D ≤ u * |q| * D := mul_le_mul_of_nonneg_right hcq hD.le
        _ = _ := by ring
    have t4 : |q * (D - D')| ≤ u * (|q| * D) := by
      rw [abs_mul, abs_sub_comm]
      calc |q| * |D' - D| ≤ |q| * (u * D) := mul_le_mul_of_nonneg_left hDe (abs_nonneg q)
        _ = _ := by ring
    have t5 : u * (|q| * D) ≤ u * (16 / 15 * ((1 + 2 * u + u ^ 2) * (M * D))) :=
      mul_le_mul_of_nonneg_left (hqD.trans (by linarith)) hu0
    have t6 : 2 * (u * (16 / 15 * ((1 + 2 * u + u ^ 2) * (M * D)))) + (2 * u + u ^ 2) * (M * D) ≤ 5 * u * M * D := by
      have e2 : 2 * (u * (16 / 15 * ((1 + 2 * u + u ^ 2) * (M * D)))) + (2 * u + u ^ 2) * (M * D) =
          (32 / 15 * (1 + 2 * u + u ^ 2) + 2 + u) * (u * (M * D)) := by ring
      have e3 : 5 * u * M * D = 5 * (u * (M * D)) := by ring
      rw [e2, e3]
      refine mul_le_mul_of_nonneg_right ?_ (mul_nonneg hu0 hMD)
      have hu2 : u ^ 2 ≤ 1 / 16 * u := by nlinarith
      linarith
    linarith
  have hb1 := abs_le.mp htot
  have hw1 : 0 ≤ (b - a) * (-ya) := mul_nonneg (by linarith) (by linarith)
  have hw2 : 0 ≤ (b - a) * yb := mul_nonneg (by linarith) hyb
  have hlo : a * D ≤ X - Y := by
    have : X - Y - a * D = (b - a) * (-ya) := by rw [hX, hY, hDd]; ring
    linarith
  have hhi : X - Y ≤ b * D := by
    have : b * D - (X - Y) = (b - a) * yb := by rw [hX, hY, hDd]; ring
    linarith
  constructor
  · have : (a - 5 * u * M) * D ≤ c * D := by
      have e : (a - 5 * u * M) * D = a * D - 5 * u * M * D := by ring
      rw [e]
      linarith [hb1.1]
    exact le_of_mul_le_mul_right this hD
  · have : c * D ≤ (b + 5 * u * M) * D := by
      have e : (b + 5 * u * M) * D = b * D + 5 * u * M * D := by ring
      rw [e]
      linarith [hb1.2]
    exact le_of_mul_le_mul_right this hD

/-- The state after `s.iter` passes: end values of opposite sign, ends near `[lo, hi]`. -/
def Drift (u lo hi M : ℝ) (s : RF ℝ) : Prop :=
  s.iter ≤ 1000 ∧ s.ya ≤ 0 ∧ 0 ≤ s.yb ∧
    lo - ((1 + 5 * u) ^ s.iter - 1) * M ≤ s.a ∧ s.a ≤ hi + ((1 + 5 * u) ^ s.iter - 1) * M ∧
    lo - ((1 + 5 * u) ^ s.iter - 1) * M ≤ s.b ∧ s.b ≤ hi + ((1 + 5 * u) ^ s.iter - 1) * M

theorem Drift.abs_le {lo hi M : ℝ} {s : RF ℝ} (hlo : |lo| ≤ M) (hhi : |hi| ≤ M) (hd : Drift u lo hi M s) :
    |s.a| ≤ (1 + 5 * u) ^ s.iter * M ∧ |s.b| ≤ (1 + 5 * u) ^ s.iter * M := by
  obtain ⟨-, -, -, h1, h2, h3, h4⟩ := hd
  have := _root_.abs_le.mp hlo
  have := _root_.abs_le.mp hhi
  constructor <;> rw [_root_.abs_le] <;> constructor <;> linarith

theorem Drift.step (h : ∀ x, |rnd x - x| ≤ u * |x|) (hu0 : 0 ≤ u) (hu : u ≤ 1 / 16) {lo hi M xtol ytol sign : ℝ}
    (hlo : |lo| ≤ M) (hhi : |hi| ≤ M) (hx : 0 ≤ xtol) (hy : 0 ≤ ytol) (func : ℝ → ℝ) {s : RF ℝ}
    (hd : Drift u lo hi M s) (hc : rfCondFl rnd xtol ytol s) :
    Drift u lo hi M (rfBodyFl rnd func sign s) ∧
      ((rfBodyFl rnd func sign s).iter = s.iter + 1 ∨ ¬rfCondFl rnd xtol ytol (rfBodyFl rnd func sign s)) := by
  obtain ⟨hA, hB⟩ := hd.abs_le hlo hhi
  have hM : 0 ≤ M := (abs_nonneg lo).trans hlo
  obtain ⟨hit, hya, hyb, h1, h2, h3, h4⟩ := hd
  obtain ⟨hc1, hc2, hc3⟩ := hc
  have hu1 : u < 1 := by linarith
  have hr2 : 0 ≤ rnd (2 * xtol) := rnd_nonneg h hu1.le (by linarith)
  have hab : s.a < s.b := by
    have := (rnd_pos_iff h hu1).mp (lt_of_le_of_lt hr2 hc1)
    linarith
  have hD : 0 < s.yb - s.ya := by
    rcases hc2 with h5 | h5
    · have : s.ya ≠ 0 := fun e => by rw [e, abs_zero] at h5; linarith
      have := lt_of_le_of_ne hya this
      linarith
    · have : s.yb ≠ 0 := fun e => by rw [e, abs_zero] at h5; linarith
      have := lt_of_le_of_ne hyb (Ne.symm this)
      linarith
  obtain ⟨hs1, hs2⟩ := secant_bound h hu0 hu hA hB hab.le hya hyb hD
  set P := (1 + 5 * u) ^ s.iter with hP
  have hP1 : (1 + 5 * u) ^ (s.iter + 1) = P * (1 + 5 * u) := pow_succ _ _
  have hPM : 0 ≤ 5 * u * (P * M) := by positivity
  have e1 : (P * (1 + 5 * u) - 1) * M = (P - 1) * M + 5 * u * (P * M) := by ring
  unfold rfBodyFl
  dsimp only
  have hk1 : (0 : ℝ) ≤ if s.b1 + 1 > 1 then 1 / 2 else 1 := by split_ifs <;> norm_num
  have hk2 : (0 : ℝ) ≤ if s.b2 + 1 > 1 then 1 / 2 else 1 := by split_ifs <;> norm_num
  generalize (if s.b1 + 1 > 1 then 1 / 2 else 1 : ℝ) = k1 at hk1 ⊢
  generalize (if s.b2 + 1 > 1 then 1 / 2 else 1 : ℝ) = k2 at hk2 ⊢
  split_ifs with c1 c2 c3 c4
  · refine ⟨⟨hit, hya, hyb, h1, h2, h1, h2⟩, Or.inr fun hcc => ?_⟩
    have := hcc.1
    dsimp only at this
    rw [sub_self, rnd_zero h] at this
    linarith
  · refine ⟨⟨hit, hya, hyb, h3, h4, h3, h4⟩, Or.inr fun hcc => ?_⟩
    have := hcc.1
    dsimp only at this
    rw [sub_self, rnd_zero h] at this
    linarith
  · refine ⟨⟨by dsimp only; omega, ?_, c3.le, ?_, ?_, ?_, ?_⟩, Or.inl rfl⟩
    · exact rnd_nonpos h hu1.le (mul_nonpos_of_nonpos_of_nonneg hya hk1)
    all_goals
      dsimp only
      rw [hP1, e1]
      linarith
  · refine ⟨⟨by dsimp only; omega, c4.le, ?_, ?_, ?_, ?_, ?_⟩, Or.inl rfl⟩
    · exact rnd_nonneg h hu1.le (mul_nonneg hyb hk2)
    all_goals
      dsimp only
      rw [hP1, e1]
      linarith
  · refine ⟨⟨by dsimp only; omega, hya, hyb, ?_, ?_, ?_, ?_⟩, Or.inl rfl⟩
    all_goals
      dsimp only
      rw [hP1, e1]
      linarith

theorem rfLoopFl_drift (h : ∀ x, |rnd x - x| ≤ u * |x|) (hu0 : 0 ≤ u) (hu : u ≤ 1 / 16) {lo hi M xtol ytol sign : ℝ}
    (hlo : |lo| ≤ M) (hhi : |hi| ≤ M) (hx : 0 ≤ xtol) (hy : 0 ≤ ytol) (func : ℝ → ℝ) :
    ∀ (n : Nat) (s : RF ℝ), Drift u lo hi M s → (1000 < n + s.iter ∨ ¬rfCondFl rnd xtol ytol s) →
      ∃ s', rfLoopFl rnd func sign xtol ytol n s = some s' ∧ Drift u lo hi M s' ∧ ¬rfCondFl rnd xtol ytol s' := by
  intro n
  induction n with
  | zero =>
    intro s hd hn
    have hnc : ¬rfCondFl rnd xtol ytol s := by
      rcases hn with hn | hn
      · exact fun hc => by have := hd.1; omega
      · exact hn
    exact ⟨s, by rw [rfLoopFl, if_neg hnc], hd, hnc⟩
  | succ n ih =>
    intro s hd hn
    by_cases hc : rfCondFl rnd xtol ytol s
    · obtain ⟨hd', hn'⟩ := Drift.step (sign := sign) h hu0 hu hlo hhi hx hy func hd hc
      have hn0 : 1000 < n + 1 + s.iter := by
        rcases hn with hn | hn
        · exact hn
        · exact absurd hc hn
      obtain ⟨s', h1, h2, h3⟩ := ih _ hd' (by
        rcases hn' with hn' | hn'
        · exact Or.inl (by omega)
        · exact Or.inr hn')
      exact ⟨s', by rw [rfLoopFl, if_pos hc]; exact h1, h2, h3⟩
    · exact ⟨s, by rw [rfLoopFl, if_neg hc], hd, hc⟩

end Verif.RootFind
