import Verif.Props.RootFind
import Mathlib.Algebra.Order.Ring.Pow

/-! # C11: a bracketed root is always found (exact arithmetic) -/

namespace Verif.RootFind

variable {K : Type*} [Field K] [LinearOrder K] [IsStrictOrderedRing K]

theorem region_ne_none {f : K → K} {yt xmin xmax x : K} (hx : 0 < x) (hm : 0 < xmin) :
    ∃ br, region f yt xmin xmax x 1000 (1 / 100) = some br ∧ br.a ≤ x ∧ x ≤ br.b := by
  have key : ∀ (n : Nat) (g : K), 0 < g → region f yt xmin xmax x n g = none →
      ∀ j < n, ¬ (x - |g * (11 / 10) ^ j * x| < xmin) := by
    intro n
    induction n with
    | zero => intro g _ _ j hj; omega
    | succ n ih =>
      intro g hg h j hj
      unfold region at h
      simp only at h
      split_ifs at h with hc
      push Not at hc
      cases j with
      | zero => simpa using hc.2.1
      | succ j =>
        have := ih (g * (11 / 10)) (by positivity) h j (by omega)
        rw [pow_succ]
        rwa [show g * ((11 / 10) ^ j * (11 / 10)) * x = g * (11 / 10) * (11 / 10) ^ j * x by ring]
  have hin : ∀ (n : Nat) (g : K) (br : Br K), region f yt xmin xmax x n g = some br →
      br.a ≤ x ∧ x ≤ br.b := by
    intro n
    induction n with
    | zero => intro g br h; simp [region] at h
    | succ n ih =>
      intro g br h
      unfold region at h
      simp only at h
      split_ifs at h with hc
      · injection h with h
        subst h
        have := abs_nonneg (g * x)
        exact ⟨by simp only; linarith, by simp only; linarith⟩
      · exact ih _ _ h
  cases h : region f yt xmin xmax x 1000 (1 / 100) with
  | some br => exact ⟨br, rfl, hin _ _ _ h⟩
  | none =>
    exfalso
    have hk := key 1000 (1 / 100) (by norm_num) h 999 (by norm_num)
    have hb : (1 : K) + (999 : ℕ) * (1 / 10) ≤ (1 + 1 / 10) ^ 999 :=
      one_add_mul_le_pow (by norm_num) 999
    rw [show (1 + 1 / 10 : K) = 11 / 10 by norm_num] at hb
    generalize ((11 : K) / 10) ^ 999 = E at hk hb
    have hb2 : (100 : K) ≤ E := by
      refine le_trans ?_ hb
      norm_num
    have h1 : x ≤ 1 / 100 * E * x := by nlinarith
    have := le_abs_self (1 / 100 * E * x)
    exact hk (by linarith)

theorem repair_bracketed {f : K → K} {yt xmin xmax : K} (hm : xmin ≤ xmax) {br : Br K} (x : K)
    (hx1 : xmin ≤ x) (hx2 : x ≤ xmax)
    (h0 : br.ya = f br.a - yt ∧ br.yb = f br.b - yt) (ha : br.a ≤ x) (hb : x ≤ br.b)
    (hs : (f xmin - yt) * (f xmax - yt) ≤ 0) :
    ∃ br', repair f yt xmin xmax br = some br' ∧ BrOk f yt br' ∧ xmin ≤ br'.a ∧ br'.a ≤ br'.b ∧
      br'.b ≤ xmax := by
  obtain ⟨a, b, ya, yb⟩ := br
  simp only at h0 ha hb
  obtain ⟨h1, h2⟩ := h0
  have hex : ∃ br', repair f yt xmin xmax ⟨a, b, ya, yb⟩ = some br' ∧ xmin ≤ br'.a ∧
      br'.a ≤ br'.b ∧ br'.b ≤ xmax := by
    unfold repair
    simp only
    by_cases c1 : b > xmax <;> by_cases c2 : a < xmin <;> simp only [c1, c2, if_true, if_false] <;>
      split_ifs <;>
      first
        | (exfalso; linarith)
        | exact ⟨_, rfl, by simp only; linarith, by simp only; linarith, by simp only; linarith⟩
  obtain ⟨br', e, h⟩ := hex
  exact ⟨br', e, repair_ok ⟨h1, h2⟩ e, h⟩

theorem bisectLoop_done {f : K → K} {yt xtol : K} (n : Nat) {br : Br K}
    (hab : br.a ≤ br.b) (hw : br.b - br.a < xtol * 2 ^ (n + 1)) :
    (bisectLoop f yt xtol (n + 1) br).1 = true ∧ br.a ≤ (bisectLoop f yt xtol (n + 1) br).2.a ∧
      (bisectLoop f yt xtol (n + 1) br).2.a ≤ (bisectLoop f yt xtol (n + 1) br).2.b ∧
      (bisectLoop f yt xtol (n + 1) br).2.b ≤ br.b := by
  have hstep : ∀ br : Br K, br.a ≤ br.b → br.a ≤ (bisectStep f yt br).a ∧
      (bisectStep f yt br).b ≤ br.b ∧
      (bisectStep f yt br).b - (bisectStep f yt br).a = (br.b - br.a) / 2 := by
    intro br h
    unfold bisectStep
    simp only
    split_ifs
    · exact ⟨le_rfl, by simp only; linarith, by simp only; ring⟩
    · exact ⟨by simp only; linarith, le_rfl, by simp only; ring⟩
  induction n generalizing br with
  | zero =>
    obtain ⟨s1, s2, s3⟩ := hstep br hab
    have : (bisectStep f yt br).b - (bisectStep f yt br).a < xtol := by
      rw [s3]; simp at hw; linarith
    unfold bisectLoop
    simp only [if_pos this]
    refine ⟨trivial, s1, ?_, s2⟩
    linarith
  | succ n ih =>
    obtain ⟨s1, s2, s3⟩ := hstep br hab
    have hab' : (bisectStep f yt br).a ≤ (bisectStep f yt br).b := by linarith
    unfold bisectLoop
    simp only
    split_ifs with hc
    · exact ⟨rfl, s1, hab', s2⟩
    · have := ih hab' (by rw [s3]; rw [pow_succ] at hw; linarith)
      exact ⟨this.1, s1.trans this.2.1, this.2.2.1, this.2.2.2.trans s2⟩

theorem repair_range {f : K → K} {yt xmin xmax : K} (hm : xmin ≤ xmax) {br br' : Br K} (x : K)
    (hx1 : xmin ≤ x) (hx2 : x ≤ xmax) (ha : br.a ≤ x) (hb : x ≤ br.b)
    (h : repair f yt xmin xmax br = some br') : xmin ≤ br'.a ∧ br'.a ≤ br'.b ∧ br'.b ≤ xmax := by
  obtain ⟨a, b, ya, yb⟩ := br
  simp only at ha hb
  unfold repair at h
  simp only at h
  by_cases c1 : b > xmax <;> by_cases c2 : a < xmin <;>
    simp only [c1, c2, if_true, if_false] at h <;> split_ifs at h <;>
    (injection h with h; subst h;
     exact ⟨by simp only; linarith, by simp only; linarith, by simp only; linarith⟩)

theorem bisectLoop_nest {f : K → K} {yt xtol : K} (n : Nat) {br : Br K} (hab : br.a ≤ br.b) :
    br.a ≤ (bisectLoop f yt xtol n br).2.a ∧
      (bisectLoop f yt xtol n br).2.a ≤ (bisectLoop f yt xtol n br).2.b ∧
      (bisectLoop f yt xtol n br).2.b ≤ br.b := by
  have hstep : ∀ br : Br K, br.a ≤ br.b → br.a ≤ (bisectStep f yt br).a ∧
      (bisectStep f yt br).a ≤ (bisectStep f yt br).b ∧ (bisectStep f yt br).b ≤ br.b := by
    intro br h
    unfold bisectStep
    simp only
    split_ifs
    · exact ⟨le_rfl, by simp only; linarith, by simp only; linarith⟩
    · exact ⟨by simp only; linarith, by simp only; linarith, le_rfl⟩
  induction n generalizing br with
  | zero => exact ⟨le_rfl, hab, le_rfl⟩
  | succ n ih =>
    obtain ⟨s1, s2, s3⟩ := hstep br hab
    unfold bisectLoop
    simp only
    split_ifs with hc
    · exact ⟨s1, s2, s3⟩
    · have := ih s2
      exact ⟨s1.trans this.1, this.2.1, this.2.2.trans s3⟩

/-- C11: what SUCCESS from `findRoot` means, with the location: the root is in the interval and either has a
residual within the relative tolerance or is the middle of a sub-interval of the searched interval, narrower
than `xtol`, across which `f - target` changes sign. -/
theorem C11_findRoot_inside (dv : K → K → K) (f : K → K) (yt g xmin xmax xtol ytol : K)
    (hx : 0 < xtol) (hy : 0 < ytol) (h1 : xtol ≤ xmin) (h2 : xmin + xtol ≤ xmax)
    (h : (findRoot dv f yt g xmin xmax xtol ytol).status = .success) :
    ∃ xr, (findRoot dv f yt g xmin xmax xtol ytol).xroot = some xr ∧ xmin ≤ xr ∧ xr ≤ xmax ∧
      (|f xr - yt| ≤ ytol * (|f xr| + ytol) ∨
        ∃ l r : K, xmin ≤ l ∧ l ≤ r ∧ r ≤ xmax ∧ xr = (l + r) / 2 ∧ r - l < xtol ∧
          (f l - yt) * (f r - yt) ≤ 0) := by
  have hm : xmin ≤ xmax := by linarith
  have hpos : ∀ x, 0 < |f x| + ytol := fun x => by positivity
  have hres : ∀ x, |f x - yt| / (|f x| + ytol) < ytol → |f x - yt| ≤ ytol * (|f x| + ytol) := by
    intro x hx; rw [div_lt_iff₀ (hpos x)] at hx; exact hx.le
  unfold findRoot at h ⊢
  simp only at h ⊢
  by_cases c1 : |f xmax - yt| / (|f xmax| + ytol) < ytol
  · rw [if_pos c1]; exact ⟨xmax, rfl, hm, le_rfl, Or.inl (hres _ c1)⟩
  rw [if_neg c1] at h ⊢
  by_cases c2 : |f xmin - yt| / (|f xmin| + ytol) < ytol
  · rw [if_pos c2]; exact ⟨xmin, rfl, le_rfl, hm, Or.inl (hres _ c2)⟩
  rw [if_neg c2] at h ⊢
  set g1 := if g ≥ xmax then xmax - xtol else g with hg1
  set g2 := if g1 ≤ xmin then xmin + xtol else g1 with hg2
  have hgl : xmin ≤ g2 := by
    rw [hg2]; split_ifs with h <;> linarith
  have hgu : g2 ≤ xmax := by
    rw [hg2]; split_ifs with h
    · exact h2
    · rw [hg1]; split_ifs with h' <;> linarith
  by_cases c3 : (secant dv f yt g2 xmin xmax xtol ytol).1 = .success
  · rw [if_pos c3]
    refine ⟨_, rfl, ?_⟩
    have hr := secantLoop_range (dv := dv) (f := f) (yt := yt) (xtol := xtol) hm 999 (g2, g2)
    refine ⟨hr.1, hr.2, Or.inl ?_⟩
    unfold secant at c3 ⊢
    simp only at c3 ⊢
    split_ifs at c3 with hc
    · push Not at hc
      have := hc.2
      rw [abs_of_nonneg (by positivity), div_le_iff₀ (hpos _)] at this
      exact this
  · rw [if_neg c3] at h ⊢
    have hg0 : ¬ |g2| < xtol := by
      rw [abs_of_nonneg (by linarith)]; linarith
    have hb : (bisect f yt g2 xmin xmax xtol).1.status = .success →
        ∃ l r : K, (bisect f yt g2 xmin xmax xtol).1 = ⟨.success, some ((l + r) / 2)⟩ ∧
        xmin ≤ l ∧ l ≤ r ∧ r ≤ xmax ∧ r - l < xtol ∧ (f l - yt) * (f r - yt) ≤ 0 := by
      intro hsuc
      unfold bisect at hsuc ⊢
      simp only [if_neg hg0] at hsuc ⊢
      obtain ⟨br, e, ha, hb⟩ := region_ne_none (f := f) (yt := yt) (xmax := xmax)
        (x := g2) (xmin := xmin) (by linarith) (by linarith)
      rw [e] at hsuc ⊢
      simp only at hsuc ⊢
      cases e' : repair f yt xmin xmax br with
      | none => rw [e'] at hsuc; simp at hsuc
      | some br' =>
        rw [e'] at hsuc
        simp only at hsuc ⊢
        obtain ⟨r1, r2, r3⟩ := repair_range hm g2 hgl hgu ha hb e'
        have hok := repair_ok (region_vals 1000 _ e) e'
        obtain ⟨l2, l3, l4⟩ := bisectLoop_nest (f := f) (yt := yt) (xtol := xtol) 1000 r2
        obtain ⟨⟨a1, a2, a3⟩, b, _⟩ := bisectLoop_ok (f := f) (yt := yt) (xtol := xtol) 1000 hok
        have l1 : (bisectLoop f yt xtol 1000 br').1 = true := by
          by_contra hh
          simp only [Bool.not_eq_true] at hh
          rw [hh] at hsuc
          simp at hsuc
        refine ⟨(bisectLoop f yt xtol 1000 br').2.a, (bisectLoop f yt xtol 1000 br').2.b, ?_,
          r1.trans l2, l3, l4.trans r3, b l1, by rw [← a1, ← a2]; exact a3⟩
        rw [l1]
        simp only [if_true]
        congr 2
        ring
    have hsuc : (bisect f yt g2 xmin xmax xtol).1.status = .success := by
      split_ifs at h
      exact h
    obtain ⟨l, r, e, b1, b2, b3, b4, b5⟩ := hb hsuc
    rw [e]
    simp only [Option.getD_some]
    rw [if_neg (by linarith), if_neg (by linarith)]
    exact ⟨_, rfl, by linarith, by linarith, Or.inr ⟨l, r, b1, b2, b3, rfl, b4, b5⟩⟩

/-- C11: `findRoot` never misses a bracketed root.  If `f - target` does not have the same sign at both
ends of an interval of positive numbers at least `xtol` away from zero, the search succeeds for every
function, guess and division hardware, and the root it reports is in the interval and either has a residual
within the relative tolerance or is the middle of a sub-interval narrower than `xtol` across which
`f - target` changes sign. -/
theorem C11_findRoot_bracketed (dv : K → K → K) (f : K → K) (yt g xmin xmax xtol ytol : K)
    (hx : 0 < xtol) (hy : 0 < ytol) (h1 : xtol ≤ xmin) (h2 : xmin + xtol ≤ xmax)
    (hw : xmax - xmin < xtol * 2 ^ 1000) (hs : (f xmin - yt) * (f xmax - yt) ≤ 0) :
    ∃ xr, findRoot dv f yt g xmin xmax xtol ytol = ⟨.success, some xr⟩ ∧ xmin ≤ xr ∧ xr ≤ xmax ∧
      (|f xr - yt| ≤ ytol * (|f xr| + ytol) ∨
        ∃ l r : K, xmin ≤ l ∧ l ≤ r ∧ r ≤ xmax ∧ xr = (l + r) / 2 ∧ r - l < xtol ∧
          (f l - yt) * (f r - yt) ≤ 0) := by
  have hm : xmin ≤ xmax := by linarith
  have hpos : ∀ x, 0 < |f x| + ytol := fun x => by positivity
  have hres : ∀ x, |f x - yt| / (|f x| + ytol) < ytol → |f x - yt| ≤ ytol * (|f x| + ytol) := by
    intro x hx; rw [div_lt_iff₀ (hpos x)] at hx; exact hx.le
  unfold findRoot
  simp only
  by_cases c1 : |f xmax - yt| / (|f xmax| + ytol) < ytol
  · rw [if_pos c1]; exact ⟨xmax, rfl, hm, le_rfl, Or.inl (hres _ c1)⟩
  rw [if_neg c1]
  by_cases c2 : |f xmin - yt| / (|f xmin| + ytol) < ytol
  · rw [if_pos c2]; exact ⟨xmin, rfl, le_rfl, hm, Or.inl (hres _ c2)⟩
  rw [if_neg c2]
  set g1 := if g ≥ xmax then xmax - xtol else g with hg1
  set g2 := if g1 ≤ xmin then xmin + xtol else g1 with hg2
  have hgl : xmin ≤ g2 := by
    rw [hg2]; split_ifs with h <;> linarith
  have hgu : g2 ≤ xmax := by
    rw [hg2]; split_ifs with h
    · exact h2
    · rw [hg1]; split_ifs with h' <;> linarith
  by_cases c3 : (secant dv f yt g2 xmin xmax xtol ytol).1 = .success
  · rw [if_pos c3]
    refine ⟨_, rfl, ?_⟩
    have hr := secantLoop_range (dv := dv) (f := f) (yt := yt) (xtol := xtol) hm 999 (g2, g2)
    refine ⟨hr.1, hr.2, Or.inl ?_⟩
    unfold secant at c3 ⊢
    simp only at c3 ⊢
    split_ifs at c3 with hc
    · push Not at hc
      have := hc.2
      rw [abs_of_nonneg (by positivity), div_le_iff₀ (hpos _)] at this
      exact this
  · rw [if_neg c3]
    have hg0 : ¬ |g2| < xtol := by
      rw [abs_of_nonneg (by linarith)]; linarith
    have hb : ∃ l r : K, (bisect f yt g2 xmin xmax xtol).1 = ⟨.success, some ((l + r) / 2)⟩ ∧
        xmin ≤ l ∧ l ≤ r ∧ r ≤ xmax ∧ r - l < xtol ∧ (f l - yt) * (f r - yt) ≤ 0 := by
      unfold bisect
      simp only [if_neg hg0]
      obtain ⟨br, e, ha, hb⟩ := region_ne_none (f := f) (yt := yt) (xmax := xmax)
        (x := g2) (xmin := xmin) (by linarith) (by linarith)
      obtain ⟨br', e', hok, r1, r2, r3⟩ := repair_bracketed hm g2 hgl hgu
        (region_vals 1000 _ e) ha hb hs
      obtain ⟨l1, l2, l3, l4⟩ := bisectLoop_done (f := f) (yt := yt) 999 r2
        (lt_of_le_of_lt (by linarith) hw)
      obtain ⟨⟨a1, a2, a3⟩, b, _⟩ := bisectLoop_ok (f := f) (yt := yt) (xtol := xtol) 1000 hok
      rw [e]
      simp only
      rw [e']
      simp only
      refine ⟨(bisectLoop f yt xtol 1000 br').2.a, (bisectLoop f yt xtol 1000 br').2.b, ?_,
        r1.trans l2, l3, l4.trans r3, b l1, by rw [← a1, ← a2]; exact a3⟩
      rw [l1]
      simp only [if_true]
      congr 2
      ring
    obtain ⟨l, r, e, b1, b2, b3, b4, b5⟩ := hb
    rw [e]
    simp only [Option.getD_some]
    rw [if_neg (by linarith), if_neg (by linarith)]
    exact ⟨_, rfl, by linarith, by linarith, Or.inr ⟨l, r, b1, b2, b3, rfl, b4, b5⟩⟩

/-- C11 non-vacuity: the hypotheses of `C11_findRoot_bracketed` hold for a square root. -/
example : (0 : ℚ) < 1 / 10 ^ 12 ∧ (1 : ℚ) / 10 ^ 12 ≤ 1 ∧ (1 : ℚ) + 1 / 10 ^ 12 ≤ 2 ∧
    (2 : ℚ) - 1 < 1 / 10 ^ 12 * 2 ^ 1000 ∧ ((1 : ℚ) ^ 2 - 2) * (2 ^ 2 - 2) ≤ 0 := by
  have h : (2 : ℚ) ^ 1000 = 2 ^ 250 * 2 ^ 250 * 2 ^ 250 * 2 ^ 250 := by rw [← pow_add, ← pow_add, ← pow_add]
  rw [h]
  norm_num

end Verif.RootFind
