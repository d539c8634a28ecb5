import Verif.Lemmas.RootFindRate
import Mathlib.Analysis.Calculus.MeanValue
import Mathlib.Analysis.SpecialFunctions.Pow.Deriv

set_option linter.unusedSectionVars false

/-! # C61: convergence of `regula_falsi` on functions with a slope bounded away from zero -/

namespace Verif.RootFind

variable {K : Type*} [Field K] [LinearOrder K] [IsStrictOrderedRing K]

/-- C61: let `f` take the target at `r` in `[a,b]`, and let all its chords through `r` rise (`τ = 1`) or fall (`τ = -1`) at
least at rate `m > 0` there (`f` need not be monotone). Then SUCCESS means that the root returned is within `xtol` of `r`,
or within `2 ytol / m`: the halving of the working end values costs no more than a factor of two. For every guess in the
interval and every number of iterations. -/
theorem C61_chord_accuracy (fuel : Nat) (f : K → K) (yt guess a b xtol ytol τ m r xr : K) (o : Option (RF K))
    (hτ : τ = 1 ∨ τ = -1) (hm : 0 < m) (hra : a ≤ r) (hrb : r ≤ b) (hr : f r = yt)
    (hl : ∀ x, a ≤ x → x ≤ r → m * (r - x) ≤ τ * (yt - f x)) (hu : ∀ x, r ≤ x → x ≤ b → m * (x - r) ≤ τ * (f x - yt))
    (h1 : a ≤ guess) (h2 : guess ≤ b) (hx : 0 ≤ xtol) (hy : 0 ≤ ytol)
    (h : regulaFalsi fuel f yt guess a b xtol ytol = some (⟨.success, some xr⟩, o)) :
    |xr - r| ≤ max xtol (2 * ytol / m) :=
  le_max_iff.2 (regulaFalsi_rate hτ hm (fun x y p q s w => by
    rcases w with rfl | rfl
    · have := hu y q s; rw [← hr] at this; simp only; linarith
    · have := hl x p q; rw [← hr] at this; simp only; linarith) hra hrb hr h1 h2 hx hy h)

/-- C61: and it never fails, if moreover the slopes of those chords are at most `M`: with `M ≤ m 2^p` and
`(1 - m/(2M))^q (b - a) ≤ xtol`, at most `(p + 2) q` iterations are used, so SUCCESS is certain when that is below 1000. -/
theorem C61_chord_no_failure (f : K → K) (yt guess a b xtol ytol τ m M r : K) (p q : Nat)
    (hτ : τ = 1 ∨ τ = -1) (hm : 0 < m) (hmM : m ≤ M) (hp : M ≤ m * 2 ^ p) (hra : a ≤ r) (hrb : r ≤ b) (hr : f r = yt)
    (hl : ∀ x, a ≤ x → x ≤ r → m * (r - x) ≤ τ * (yt - f x) ∧ τ * (yt - f x) ≤ M * (r - x))
    (hu : ∀ x, r ≤ x → x ≤ b → m * (x - r) ≤ τ * (f x - yt) ∧ τ * (f x - yt) ≤ M * (x - r))
    (h1 : a ≤ guess) (h2 : guess ≤ b) (hx : 0 ≤ xtol) (hy : 0 ≤ ytol)
    (hq : (1 - m / (2 * M)) ^ q * (b - a) ≤ xtol) (hpq : (p + 2) * q < 1000) :
    ∃ xr s, regulaFalsi 1000 f yt guess a b xtol ytol = some (⟨.success, some xr⟩, some s) ∧
      |xr - r| ≤ max xtol (2 * ytol / m) ∧ s.iter ≤ max 1 ((p + 2) * q) := by
  obtain ⟨xr, s, e1, e2, e3⟩ := regulaFalsi_total hτ hm hmM hp
    (fun x y p q s w => by
      rcases w with rfl | rfl
      · have := (hu y q s).1; rw [← hr] at this; simp only; linarith
      · have := (hl x p q).1; rw [← hr] at this; simp only; linarith)
    (fun x y p q s w => by
      rcases w with rfl | rfl
      · have := (hu y q s).2; rw [← hr] at this; simp only; linarith
      · have := (hl x p q).2; rw [← hr] at this; simp only; linarith) hra hrb hr h1 h2 hx hy hq hpq
  exact ⟨xr, s, e1, le_max_iff.2 e2, e3⟩

/-- C61: in particular if `f` rises (`τ = 1`) or falls (`τ = -1`) at least at rate `m > 0` between any two points. -/
theorem C61_rising_accuracy (fuel : Nat) (f : K → K) (yt guess a b xtol ytol τ m r xr : K) (o : Option (RF K))
    (hτ : τ = 1 ∨ τ = -1) (hm : 0 < m) (hf : ∀ x y, a ≤ x → x ≤ y → y ≤ b → m * (y - x) ≤ τ * (f y - f x))
    (hra : a ≤ r) (hrb : r ≤ b) (hr : f r = yt) (h1 : a ≤ guess) (h2 : guess ≤ b) (hx : 0 ≤ xtol) (hy : 0 ≤ ytol)
    (h : regulaFalsi fuel f yt guess a b xtol ytol = some (⟨.success, some xr⟩, o)) :
    |xr - r| ≤ max xtol (2 * ytol / m) :=
  C61_chord_accuracy fuel f yt guess a b xtol ytol τ m r xr o hτ hm hra hrb hr
    (fun x p q => by rw [← hr]; exact hf x r p q hrb) (fun x p q => by rw [← hr]; exact hf r x hra p q) h1 h2 hx hy h

/-- C61: and if the rate between any two points is between `m` and `M`, it does not fail either. -/
theorem C61_no_failure (f : K → K) (yt guess a b xtol ytol τ m M r : K) (p q : Nat)
    (hτ : τ = 1 ∨ τ = -1) (hm : 0 < m) (hmM : m ≤ M) (hp : M ≤ m * 2 ^ p)
    (hf : ∀ x y, a ≤ x → x ≤ y → y ≤ b → m * (y - x) ≤ τ * (f y - f x) ∧ τ * (f y - f x) ≤ M * (y - x))
    (hra : a ≤ r) (hrb : r ≤ b) (hr : f r = yt) (h1 : a ≤ guess) (h2 : guess ≤ b) (hx : 0 ≤ xtol) (hy : 0 ≤ ytol)
    (hq : (1 - m / (2 * M)) ^ q * (b - a) ≤ xtol) (hpq : (p + 2) * q < 1000) :
    ∃ xr s, regulaFalsi 1000 f yt guess a b xtol ytol = some (⟨.success, some xr⟩, some s) ∧
      |xr - r| ≤ max xtol (2 * ytol / m) ∧ s.iter ≤ max 1 ((p + 2) * q) :=
  C61_chord_no_failure f yt guess a b xtol ytol τ m M r p q hτ hm hmM hp hra hrb hr
    (fun x p q => by rw [← hr]; exact hf x r p q hrb) (fun x p q => by rw [← hr]; exact hf r x hra p q) h1 h2 hx hy hq hpq

/-- The increments of a function with a derivative between `m` and `M`. -/
theorem rate_of_deriv {f f' : ℝ → ℝ} {a b m M : ℝ} (hd : ∀ x ∈ Set.Icc a b, HasDerivAt f (f' x) x)
    (hb : ∀ x ∈ Set.Icc a b, m ≤ f' x ∧ f' x ≤ M) {x y : ℝ} (hx : a ≤ x) (hxy : x ≤ y) (hy : y ≤ b) :
    m * (y - x) ≤ f y - f x ∧ f y - f x ≤ M * (y - x) := by
  have hc : ContinuousOn f (Set.Icc a b) := fun z hz => (hd z hz).continuousAt.continuousWithinAt
  have hdo : DifferentiableOn ℝ f (interior (Set.Icc a b)) := fun z hz =>
    (hd z (interior_subset hz)).differentiableAt.differentiableWithinAt
  have hx' : x ∈ Set.Icc a b := ⟨hx, hxy.trans hy⟩
  have hy' : y ∈ Set.Icc a b := ⟨hx.trans hxy, hy⟩
  constructor
  · exact (convex_Icc a b).mul_sub_le_image_sub_of_le_deriv hc hdo
      (fun z hz => by rw [(hd z (interior_subset hz)).deriv]; exact (hb z (interior_subset hz)).1) x hx' y hy' hxy
  · exact (convex_Icc a b).image_sub_le_mul_sub_of_deriv_le hc hdo
      (fun z hz => by rw [(hd z (interior_subset hz)).deriv]; exact (hb z (interior_subset hz)).2) x hx' y hy' hxy

/-- C61 in terms of the derivative: a differentiable function with slope in `[m, M]`, `0 < m`, on `[a,b]`, whose end values
enclose the target, has exactly one root there, and `regula_falsi` finds it within `max xtol (2 ytol / m)` from any guess in
the interval, without failing, if `M ≤ m 2^p`, `(1 - m/(2M))^q (b - a) ≤ xtol` and `(p + 2) q < 1000`. -/
theorem C61_bounded_slope (f f' : ℝ → ℝ) (yt guess a b xtol ytol m M : ℝ) (p q : Nat) (hm : 0 < m) (hmM : m ≤ M)
    (hp : M ≤ m * 2 ^ p) (hab : a ≤ b)
    (hd : ∀ x ∈ Set.Icc a b, HasDerivAt f (f' x) x) (hb : ∀ x ∈ Set.Icc a b, m ≤ f' x ∧ f' x ≤ M)
    (hya : f a ≤ yt) (hyb : yt ≤ f b) (h1 : a ≤ guess) (h2 : guess ≤ b) (hx : 0 ≤ xtol) (hy : 0 ≤ ytol)
    (hq : (1 - m / (2 * M)) ^ q * (b - a) ≤ xtol) (hpq : (p + 2) * q < 1000) :
    ∃ r ∈ Set.Icc a b, f r = yt ∧ (∀ r' ∈ Set.Icc a b, f r' = yt → r' = r) ∧
    ∃ xr s, regulaFalsi 1000 f yt guess a b xtol ytol = some (⟨.success, some xr⟩, some s) ∧
      |xr - r| ≤ max xtol (2 * ytol / m) := by
  have hc : ContinuousOn f (Set.Icc a b) := fun z hz => (hd z hz).continuousAt.continuousWithinAt
  obtain ⟨r, hr, hre⟩ := intermediate_value_Icc hab hc ⟨hya, hyb⟩
  refine ⟨r, hr, hre, fun r' hr' hre' => ?_, ?_⟩
  · rcases lt_trichotomy r' r with h | h | h
    · have := (rate_of_deriv hd hb hr'.1 h.le hr.2).1
      have : 0 < m * (r - r') := mul_pos hm (by linarith)
      linarith
    · exact h
    · have := (rate_of_deriv hd hb hr.1 h.le hr'.2).1
      have : 0 < m * (r' - r) := mul_pos hm (by linarith)
      linarith
  · obtain ⟨xr, s, e1, e2, -⟩ := C61_no_failure f yt guess a b xtol ytol 1 m M r p q (Or.inl rfl) hm hmM hp
      (fun x y p q s => by rw [one_mul]; exact rate_of_deriv hd hb p q s) hr.1 hr.2 hre h1 h2 hx hy hq hpq
    exact ⟨xr, s, e1, e2⟩

/-- The hypotheses are met: `x^2 = 2` on `[1, 2]` has slope between 2 and 4, and with both tolerances `10^-6` at most 147
iterations are needed (`p = 1`, `q = 49`). -/
example : let f : ℝ → ℝ := fun x => x ^ 2
    (∀ x ∈ Set.Icc (1 : ℝ) 2, HasDerivAt f (2 * x) x) ∧ (∀ x ∈ Set.Icc (1 : ℝ) 2, (2 : ℝ) ≤ 2 * x ∧ 2 * x ≤ 4) ∧
    f 1 ≤ 2 ∧ 2 ≤ f 2 ∧ (4 : ℝ) ≤ 2 * 2 ^ 1 ∧ (1 - 2 / (2 * 4)) ^ 49 * (2 - 1) ≤ (1 / 10 ^ 6 : ℝ) ∧ (1 + 2) * 49 < 1000 := by
  refine ⟨fun x _ => by simpa using hasDerivAt_pow 2 x, fun x hx => ⟨by linarith [hx.1], by linarith [hx.2]⟩, ?_⟩
  norm_num

end Verif.RootFind
