import Verif.Lemmas.RootFind
import Mathlib.Topology.Order.IntermediateValue
import Mathlib.Topology.Order.Real
import Mathlib.Topology.Algebra.Ring.Real

set_option linter.unusedSectionVars false

/-! # C08–C11, C61: one-dimensional root finders -/

namespace Verif.RootFind

variable {K : Type*} [Field K] [LinearOrder K] [IsStrictOrderedRing K]

/-! ## C08 -/

/-- C08: for any function whatever, if the target is bracketed by the ends of `[a,b]` (or by the guess
and an end), `regula_falsi` stops within 1000 passes, returns the midpoint of an interval inside `[a,b]`
over which `f - target` still changes sign, and reports FAIL exactly when all 1000 iterations were used. -/
theorem C08_regulaFalsi_keeps_bracket (f : K → K) (yt guess a b xtol ytol : K)
    (hx : 0 ≤ xtol) (hy : 0 ≤ ytol) (h1 : a ≤ guess) (h2 : guess ≤ b)
    (hbr : (f a - yt) * (f b - yt) ≤ 0 ∨ (f a - yt) * (f guess - yt) ≤ 0 ∨
      (f guess - yt) * (f b - yt) ≤ 0) :
    ∃ (st : Status) (xroot : K) (s : RF K),
      regulaFalsi 1000 f yt guess a b xtol ytol = some (⟨st, some xroot⟩, some s) ∧
      xroot = (s.a + s.b) / 2 ∧ a ≤ s.a ∧ s.a ≤ xroot ∧ xroot ≤ s.b ∧ s.b ≤ b ∧
      (f s.a - yt) * (f s.b - yt) ≤ 0 ∧ s.iter ≤ 1000 ∧ (st = .fail ↔ s.iter = 1000) := by
  set func : K → K := fun x => f x - yt with hfunc
  have hex : ∃ br, initBracket func guess a b = some br ∧ a ≤ br.a ∧ br.b ≤ b := by
    unfold initBracket
    simp only
    by_cases hc1 : func a * func guess ≤ 0
    · exact ⟨⟨a, guess, func a, func guess⟩, by simp [checkBracket, hc1], le_rfl, h2⟩
    · by_cases hc2 : func guess * func b ≤ 0
      · exact ⟨⟨guess, b, func guess, func b⟩, by simp [checkBracket, hc1, hc2], h1, le_rfl⟩
      · exfalso
        rcases hbr with h | h | h
        · push Not at hc1 hc2
          have : 0 < (func a * func guess) * (func guess * func b) := mul_pos hc1 hc2
          have e : (func a * func guess) * (func guess * func b)
              = func guess ^ 2 * ((f a - yt) * (f b - yt)) := by simp only [hfunc]; ring
          rw [e] at this
          nlinarith [sq_nonneg (func guess)]
        · exact hc1 h
        · exact hc2 h
  obtain ⟨br, hbr', hba, hbb⟩ := hex
  obtain ⟨p1, p2, p3, p4, _, _⟩ := initBracket_spec h1 h2 hbr'
  obtain ⟨hsg, hinv⟩ := rfStart_inv (lo := a) (hi := b) hba hbb p4 p1 p2 p3
  obtain ⟨t, ht⟩ := rfLoop_terminates (func := func) (sign := (rfStart br).1) (ytol := ytol) hx 1000
    (rfStart br).2 (by simp [rfStart])
  obtain ⟨hti, _⟩ := rfLoop_inv hsg hx hy 1000 hinv ht
  refine ⟨if t.iter = 1000 then .fail else .success, (t.a + t.b) / 2, t, ?_, rfl, hti.lo_le, ?_, ?_,
    hti.le_hi, hti.change, hti.iter, ?_⟩
  · unfold regulaFalsi
    simp only [← hfunc, hbr', ht]
  · have := hti.ord; linarith
  · have := hti.ord; linarith
  · split_ifs with h <;> simp [h]

/-- C08: every terminating run, bracketed by the caller or not, ends in a sign-changing interval (the
loop never loses the root it started from). -/
theorem C08_regulaFalsi_always_sign_change (fuel : Nat) (f : K → K) (yt guess a b xtol ytol : K)
    (hx : 0 ≤ xtol) (hy : 0 ≤ ytol) (h1 : a ≤ guess) (h2 : guess ≤ b) (r : Res K) (s : RF K)
    (h : regulaFalsi fuel f yt guess a b xtol ytol = some (r, some s)) :
    s.a ≤ s.b ∧ r.xroot = some ((s.a + s.b) / 2) ∧ (f s.a - yt) * (f s.b - yt) ≤ 0 ∧
    (r.status = .success → s.b - s.a ≤ 2 * xtol ∨ (|s.ya| ≤ ytol ∧ |s.yb| ≤ ytol)) := by
  unfold regulaFalsi at h
  simp only at h
  cases hb : initBracket (fun x => f x - yt) guess a b with
  | none => rw [hb] at h; simp at h
  | some br =>
    rw [hb] at h
    obtain ⟨p1, p2, p3, p4, p5, p6⟩ := initBracket_spec h1 h2 hb
    obtain ⟨hsg, hinv⟩ := rfStart_inv (func := fun x => f x - yt) (lo := a) p5 p6 p4 p1 p2 p3
    cases hl : rfLoop (fun x => f x - yt) (rfStart br).1 xtol ytol fuel (rfStart br).2 with
    | none => simp [hl] at h
    | some t =>
      simp only [hl, Option.some.injEq, Prod.mk.injEq] at h
      obtain ⟨rfl, rfl⟩ := h
      obtain ⟨hti, hcond⟩ := rfLoop_inv hsg hx hy fuel hinv hl
      refine ⟨hti.ord, rfl, hti.change, fun hs => ?_⟩
      have hit : t.iter ≠ 1000 := by
        intro he; simp [he] at hs
      have := hti.iter
      unfold rfCond at hcond
      by_contra hcon
      push Not at hcon
      exact hcond ⟨hcon.1, by
        by_contra hh
        push Not at hh
        exact absurd (hcon.2 hh.1) (not_lt.mpr hh.2), by omega⟩

/-- C08 for continuous functions: the target value is attained inside the final interval, so within half
its width of the returned root — within `xtol` whenever the run stopped because of `xtol`. -/
theorem C08_regulaFalsi_near_true_root (f : ℝ → ℝ) (yt guess a b xtol ytol : ℝ)
    (hx : 0 ≤ xtol) (hy : 0 ≤ ytol) (h1 : a ≤ guess) (h2 : guess ≤ b)
    (hf : ContinuousOn f (Set.Icc a b)) (hbr : (f a - yt) * (f b - yt) ≤ 0) :
    ∃ (st : Status) (xroot : ℝ) (s : RF ℝ) (r : ℝ),
      regulaFalsi 1000 f yt guess a b xtol ytol = some (⟨st, some xroot⟩, some s) ∧
      f r = yt ∧ r ∈ Set.Icc s.a s.b ∧ |xroot - r| ≤ (s.b - s.a) / 2 ∧
      (s.b - s.a ≤ 2 * xtol → |xroot - r| ≤ xtol) := by
  obtain ⟨st, xr, s, he, hxr, ha, hax, hxb, hb, hch, _, _⟩ :=
    C08_regulaFalsi_keeps_bracket f yt guess a b xtol ytol hx hy h1 h2 (Or.inl hbr)
  have hsub : Set.Icc s.a s.b ⊆ Set.Icc a b := Set.Icc_subset_Icc ha hb
  have hle : s.a ≤ s.b := hax.trans hxb
  have hr : ∃ r ∈ Set.Icc s.a s.b, f r = yt := by
    rcases le_or_gt (f s.a) yt with hl | hl
    · have hg : yt ≤ f s.b ∨ f s.a = yt := by
        by_contra hh
        push Not at hh
        have h1' : f s.a < yt := lt_of_le_of_ne hl hh.2
        nlinarith
      rcases hg with hg | hg
      · obtain ⟨r, hr, hrf⟩ := intermediate_value_Icc hle (hf.mono hsub) ⟨hl, hg⟩
        exact ⟨r, hr, hrf⟩
      · exact ⟨s.a, ⟨le_rfl, hle⟩, hg⟩
    · have hg : f s.b ≤ yt := by
        by_contra hh
        push Not at hh
        nlinarith
      obtain ⟨r, hr, hrf⟩ := intermediate_value_Icc' hle (hf.mono hsub) ⟨hg, hl.le⟩
      exact ⟨r, hr, hrf⟩
  obtain ⟨r, hr, hrf⟩ := hr
  have hd : |xr - r| ≤ (s.b - s.a) / 2 := by
    rw [hxr, abs_le]
    obtain ⟨h3, h4⟩ := hr
    constructor <;> linarith
  exact ⟨st, xr, s, r, he, hrf, hr, hd, fun hw => by linarith⟩

/-- C08 hypotheses are met by a non-trivial case: `x^2 = 2` on `[0,2]`. -/
example : ((0 : ℚ) ^ 2 - 2) * ((2 : ℚ) ^ 2 - 2) ≤ 0 ∧ (0 : ℚ) ≤ 1 ∧ (1 : ℚ) ≤ 2 := by norm_num

/-- C08: termination needs `xtol ≥ 0`; with a negative `xtol` the loop can run for ever. -/
theorem C08_negative_xtol_never_terminates_violated (fuel : Nat) :
    regulaFalsi (K := ℚ) (fuel + 1) (fun x => x) 0 1 (-1) 1 (-1) 0 = none := by
  have hloop : ∀ n, rfLoop (K := ℚ) (fun x => x - 0) 1 (-1) 0 n ⟨0, 0, -1, 1, 0, 0, 1⟩ = none := by
    intro n
    have hc : rfCond (K := ℚ) (-1) 0 ⟨0, 0, -1, 1, 0, 0, 1⟩ := by norm_num [rfCond]
    have hbd : rfBody (K := ℚ) (fun x => x - 0) 1 ⟨0, 0, -1, 1, 0, 0, 1⟩ = ⟨0, 0, -1, 1, 0, 0, 1⟩ := by
      norm_num [rfBody]
    induction n with
    | zero => simp [rfLoop, hc]
    | succ n ih => simp only [rfLoop, hc, if_true]; rw [hbd]; exact ih
  have hi : initBracket (K := ℚ) (fun x => x - 0) 1 (-1) 1 = some ⟨-1, 1, -1, 1⟩ := by
    norm_num [initBracket, checkBracket]
  have hc : rfCond (K := ℚ) (-1) 0 ⟨-1, 1, -1, 1, 0, 0, 0⟩ := by norm_num [rfCond]
  have hbd : rfBody (K := ℚ) (fun x => x - 0) 1 ⟨-1, 1, -1, 1, 0, 0, 0⟩ = ⟨0, 0, -1, 1, 0, 0, 1⟩ := by
    norm_num [rfBody]
  have hst : rfStart (K := ℚ) ⟨-1, 1, -1, 1⟩ = (1, ⟨-1, 1, -1, 1, 0, 0, 0⟩) := by
    norm_num [rfStart]
  unfold regulaFalsi
  simp only [hi, hst, rfLoop, hc, if_true, hbd, hloop]

/-! ## C09 -/

/-- C09 violated: on `[0,1]` the decreasing line `5/4 - x` has no root, yet `regula_falsi` reports
SUCCESS with root `5/4` outside the interval, because `set_bracket` keeps the full interval width as
its sampling step at every level. -/
theorem C09_success_outside_interval_violated :
    ∃ s, regulaFalsi (K := ℚ) 1000 (fun x => 5 / 4 - x) 0 (1 / 2) 0 1 (1 / 10 ^ 6) (1 / 10 ^ 6)
      = some (⟨.success, some (5 / 4)⟩, some s) ∧ (∀ x : ℚ, 0 ≤ x → x ≤ 1 → 5 / 4 - x ≠ 0) := by
  refine ⟨⟨5 / 4, 5 / 4, -(3 / 4), 1 / 4, 0, 0, 1⟩, ?_, fun x _ h => by linarith⟩
  have hi : initBracket (K := ℚ) (fun x => 5 / 4 - x - 0) (1 / 2) 0 1
      = some ⟨1 / 2, 3 / 2, 3 / 4, -(1 / 4)⟩ := by
    norm_num [initBracket, checkBracket, setBracket, levels, levelSearch]
  have hst : rfStart (K := ℚ) ⟨1 / 2, 3 / 2, 3 / 4, -(1 / 4)⟩
      = (-1, ⟨1 / 2, 3 / 2, -(3 / 4), 1 / 4, 0, 0, 0⟩) := by norm_num [rfStart]
  have hc : rfCond (K := ℚ) (1 / 10 ^ 6) (1 / 10 ^ 6) ⟨1 / 2, 3 / 2, -(3 / 4), 1 / 4, 0, 0, 0⟩ := by
    refine ⟨by norm_num, Or.inl ?_, by norm_num⟩
    simp only
    rw [abs_of_neg] <;> norm_num
  have hbd : rfBody (K := ℚ) (fun x => 5 / 4 - x - 0) (-1) ⟨1 / 2, 3 / 2, -(3 / 4), 1 / 4, 0, 0, 0⟩
      = ⟨5 / 4, 5 / 4, -(3 / 4), 1 / 4, 0, 0, 1⟩ := by norm_num [rfBody]
  have hnc : ¬ rfCond (K := ℚ) (1 / 10 ^ 6) (1 / 10 ^ 6) ⟨5 / 4, 5 / 4, -(3 / 4), 1 / 4, 0, 0, 1⟩ := by
    intro h; have := h.1; norm_num at this
  unfold regulaFalsi
  simp only [hi, hst]
  have hl : rfLoop (K := ℚ) (fun x => 5 / 4 - x - 0) (-1) (1 / 10 ^ 6) (1 / 10 ^ 6) 1000
      ⟨1 / 2, 3 / 2, -(3 / 4), 1 / 4, 0, 0, 0⟩ = some ⟨5 / 4, 5 / 4, -(3 / 4), 1 / 4, 0, 0, 1⟩ := by
    rw [show (1000 : Nat) = 999 + 1 from rfl, rfLoop, if_pos hc, hbd]
    exact rfLoop_stop hnc 999
  rw [hl]
  norm_num

/-- C09: if the caller's interval, or the part of it on either side of the guess, brackets the target, the reported
root lies in the caller's interval, whether or not the search converged. -/
theorem C09_bracketed_root_in_interval (f : K → K) (yt guess a b xtol ytol : K)
    (hx : 0 ≤ xtol) (hy : 0 ≤ ytol) (h1 : a ≤ guess) (h2 : guess ≤ b)
    (hbr : (f a - yt) * (f b - yt) ≤ 0 ∨ (f a - yt) * (f guess - yt) ≤ 0 ∨
      (f guess - yt) * (f b - yt) ≤ 0) :
    ∃ (st : Status) (xroot : K) (s : RF K),
      regulaFalsi 1000 f yt guess a b xtol ytol = some (⟨st, some xroot⟩, some s) ∧ a ≤ xroot ∧ xroot ≤ b := by
  obtain ⟨st, xr, s, h, -, h3, h4, h5, h6, -⟩ :=
    C08_regulaFalsi_keeps_bracket f yt guess a b xtol ytol hx hy h1 h2 hbr
  exact ⟨st, xr, s, h, h3.trans h4, h5.trans h6⟩

/-- The hypotheses of `C09_bracketed_root_in_interval` are met: `x^2 = 2` on `[0,2]`. -/
example : ((0 : ℚ) ^ 2 - 2) * ((2 : ℚ) ^ 2 - 2) ≤ 0 ∧ (0 : ℚ) ≤ 1 ∧ (1 : ℚ) ≤ 2 := by norm_num

/-- C09: whatever the function and the caller's interval, a returned root lies in
`[a, max b (a + 31.5 (b-a))]`; containment in `[a,b]` needs a bracketing interval
(`C09_bracketed_root_in_interval`) and is false without (theorem above). -/
theorem C09_root_range (fuel : Nat) (f : K → K) (yt guess a b xtol ytol : K)
    (hx : 0 ≤ xtol) (hy : 0 ≤ ytol) (h1 : a ≤ guess) (h2 : guess ≤ b) (r : Res K) (o : Option (RF K))
    (xr : K) (h : regulaFalsi fuel f yt guess a b xtol ytol = some (r, o)) (hr : r.xroot = some xr) :
    a ≤ xr ∧ xr ≤ max b (a + 63 / 2 * (b - a)) := by
  unfold regulaFalsi at h
  simp only at h
  cases hb : initBracket (fun x => f x - yt) guess a b with
  | none =>
    rw [hb] at h
    simp only [Option.some.injEq, Prod.mk.injEq] at h
    rw [← h.1] at hr; simp at hr
  | some br =>
    rw [hb] at h
    obtain ⟨p1, p2, p3, p4, p5, p6⟩ := initBracket_spec h1 h2 hb
    obtain ⟨hsg, hinv⟩ := rfStart_inv (func := fun x => f x - yt) (lo := a) p5 p6 p4 p1 p2 p3
    cases hl : rfLoop (fun x => f x - yt) (rfStart br).1 xtol ytol fuel (rfStart br).2 with
    | none => simp [hl] at h
    | some t =>
      simp only [hl, Option.some.injEq, Prod.mk.injEq] at h
      rw [← h.1] at hr
      simp only [Option.some.injEq] at hr
      obtain ⟨hti, _⟩ := rfLoop_inv hsg hx hy fuel hinv hl
      have h3 := hti.lo_le; have h4 := hti.le_hi; have h5 := hti.ord
      subst hr
      constructor <;> linarith

/-! ## C61 -/

/-- C61 violated: SUCCESS does not mean converged. For `4x(1-x) = 0` on `[0,1]` with guess `1` both end
values are already zero, the loop is not entered, and the midpoint `1/2`, where the function is `1`, is
returned as the root — at distance `1/2` from both true roots. -/
theorem C61_success_without_convergence_violated :
    ∃ s, regulaFalsi (K := ℚ) 1000 (fun x => 4 * x * (1 - x)) 0 1 0 1 (1 / 10 ^ 6) (1 / 10 ^ 6)
      = some (⟨.success, some (1 / 2)⟩, some s) ∧
      |(4 * (1 / 2) * (1 - 1 / 2) : ℚ) - 0| > 1 / 10 ^ 6 ∧
      (∀ r : ℚ, 4 * r * (1 - r) = 0 → |1 / 2 - r| = 1 / 2) := by
  refine ⟨⟨0, 1, 0, 0, 0, 0, 0⟩, ?_, by norm_num, ?_⟩
  · have hi : initBracket (K := ℚ) (fun x => 4 * x * (1 - x) - 0) 1 0 1 = some ⟨0, 1, 0, 0⟩ := by
      norm_num [initBracket, checkBracket]
    have hst : rfStart (K := ℚ) ⟨0, 1, 0, 0⟩ = (-1, ⟨0, 1, 0, 0, 0, 0, 0⟩) := by norm_num [rfStart]
    have hnc : ¬ rfCond (K := ℚ) (1 / 10 ^ 6) (1 / 10 ^ 6) ⟨0, 1, 0, 0, 0, 0, 0⟩ := by
      intro h; have := h.2.1; norm_num at this
    unfold regulaFalsi
    simp only [hi, hst, rfLoop_stop hnc]
    norm_num
  · intro r hr
    have : r = 0 ∨ 1 - r = 0 := by
      rcases mul_eq_zero.mp hr with h | h
      · left; linarith
      · right; exact h
    rcases this with h | h
    · subst h; norm_num
    · have : r = 1 := by linarith
      subst this; norm_num

/-- C61: what SUCCESS does mean for a function that is continuous on the searched range: a true
root lies in the final interval around the returned midpoint, and that interval is narrower than
`2 xtol` unless both (possibly halved) end residuals are within `ytol` (how close the root is then depends on the slope:
`C61_chord_accuracy`). -/
theorem C61_success_meaning (f : ℝ → ℝ) (yt guess a b xtol ytol : ℝ)
    (hx : 0 ≤ xtol) (hy : 0 ≤ ytol) (h1 : a ≤ guess) (h2 : guess ≤ b) (hf : Continuous f)
    (fuel : Nat) (s : RF ℝ) (xr : ℝ)
    (h : regulaFalsi fuel f yt guess a b xtol ytol = some (⟨.success, some xr⟩, some s)) :
    (∃ r, f r = yt ∧ |xr - r| ≤ xtol) ∨ (|s.ya| ≤ ytol ∧ |s.yb| ≤ ytol) := by
  obtain ⟨hle, hxr, hch, hs⟩ := C08_regulaFalsi_always_sign_change fuel f yt guess a b xtol ytol hx hy
    h1 h2 _ s h
  simp only [Option.some.injEq] at hxr
  rcases hs rfl with hw | hw
  · left
    have hr : ∃ r ∈ Set.Icc s.a s.b, f r = yt := by
      rcases le_or_gt (f s.a) yt with hl | hl
      · by_cases hg : yt ≤ f s.b
        · exact intermediate_value_Icc hle hf.continuousOn ⟨hl, hg⟩
        · refine ⟨s.a, ⟨le_rfl, hle⟩, le_antisymm hl ?_⟩
          by_contra hh; push Not at hh hg; nlinarith
      · have hg : f s.b ≤ yt := by
          by_contra hh
          push Not at hh
          nlinarith
        exact intermediate_value_Icc' hle hf.continuousOn ⟨hg, hl.le⟩
    obtain ⟨r, ⟨h3, h4⟩, hrf⟩ := hr
    refine ⟨r, hrf, ?_⟩
    rw [hxr, abs_le]
    constructor <;> linarith
  · right; exact hw

/-! ## C10 -/

/-- C10: with `fail_on_bound_root` (the default), SUCCESS means the residual is below the relative
tolerance and the root is in `[a,b]`, whatever the function, its claimed derivative, and even the value
hardware returns for a division by zero. -/
theorem C10_newton_success (dv : K → K → K) (f : K → K × K) (yt guess a b ytol : K) (hab : a ≤ b)
    (hg : a ≤ guess ∧ guess ≤ b) (x : K)
    (h : newtonRaphson dv f yt guess a b ytol true = (.success, x)) :
    |(f x).1 - yt| < |ytol * yt| ∧ a ≤ x ∧ x ≤ b := by
  unfold newtonRaphson at h
  simp only at h
  cases hr : (nrLoop dv f yt a b ytol 100 guess).2 with
  | none => rw [hr] at h; simp at h
  | some v =>
    rw [hr] at h
    cases v with
    | false => simp at h
    | true =>
      simp only [Prod.mk.injEq, true_and] at h
      subst h
      exact ⟨nrLoop_conv 100 guess hr, nrLoop_range hab 100 guess hg (by rw [hr]; simp)⟩

/-- C10 non-vacuity: a run that takes one Newton step and converges inside the interval. -/
example : newtonRaphson (K := ℚ) (· / ·) (fun x => (2 * x, 2)) 3 0 (-10) 10 (1 / 100) true
    = (.success, 3 / 2) := by
  have h0 : nrLoop (K := ℚ) (· / ·) (fun x => (2 * x, 2)) 3 (-10) 10 (1 / 100) (98 + 1 + 1) 0
      = (3 / 2, some true) := by
    rw [nrLoop]
    norm_num
    rw [nrLoop]
    norm_num
  unfold newtonRaphson
  rw [show (100 : Nat) = 98 + 1 + 1 from rfl, h0]

/-- C10 violated: a target of zero can never be met — the test `|y - 0| < |ytol * 0|` is `|y| < 0` — so
the solver reports FAIL even when the guess is an exact root. -/
theorem C10_zero_target_always_fails_violated (dv : K → K → K) (f : K → K × K) (guess a b ytol : K) :
    (newtonRaphson dv f 0 guess a b ytol true).1 = .fail := by
  by_contra h
  have hs : (newtonRaphson dv f 0 guess a b ytol true).1 = .success := by
    cases h' : (newtonRaphson dv f 0 guess a b ytol true).1 with
    | success => rfl
    | fail => exact absurd h' h
  unfold newtonRaphson at hs
  simp only at hs
  cases hr : (nrLoop dv f 0 a b ytol 100 guess).2 with
  | none => rw [hr] at hs; simp at hs
  | some v =>
    rw [hr] at hs
    cases v with
    | false => simp at hs
    | true =>
      have := nrLoop_conv 100 guess hr
      rw [mul_zero, abs_zero] at this
      exact absurd this (not_lt.mpr (abs_nonneg _))

/-- C10 violated: without `fail_on_bound_root` a SUCCESS root may lie outside `[a,b]` (and be no root). -/
theorem C10_unclamped_success_violated :
    newtonRaphson (K := ℚ) (· / ·) (fun x => (x, 1)) (-1) 0 0 1 (1 / 10) false = (.success, -1) := by
  have h0 : nrLoop (K := ℚ) (· / ·) (fun x => (x, 1)) (-1) 0 1 (1 / 10) (99 + 1) 0
      = (-1, some false) := by
    rw [nrLoop]
    norm_num
  unfold newtonRaphson
  rw [show (100 : Nat) = 99 + 1 from rfl, h0]
  rfl

/-- C10: without `fail_on_bound_root`, SUCCESS means converged inside `[a,b]`, or stopped
because two successive iterates were at or beyond the same end (and then the root may be outside, theorem above). -/
theorem C10_newton_no_fail_flag (dv : K → K → K) (f : K → K × K) (yt guess a b ytol : K)
    (hab : a ≤ b) (hg : a ≤ guess ∧ guess ≤ b) (x : K)
    (h : newtonRaphson dv f yt guess a b ytol false = (.success, x)) :
    (|(f x).1 - yt| < |ytol * yt| ∧ a ≤ x ∧ x ≤ b) ∨ x ≤ a ∨ b ≤ x := by
  unfold newtonRaphson at h
  simp only at h
  have hout : ∀ n y, (nrLoop dv f yt a b ytol n y).2 = some false →
      (nrLoop dv f yt a b ytol n y).1 ≤ a ∨ b ≤ (nrLoop dv f yt a b ytol n y).1 := by
    intro n
    induction n with
    | zero => intro y h; simp [nrLoop] at h
    | succ n ih =>
      intro y h
      unfold nrLoop at h ⊢
      simp only at h ⊢
      split_ifs at h ⊢ with h1 h2
      · simp at h
      · rcases h2 with h2 | h2
        · exact Or.inl h2.1
        · exact Or.inr h2.1
      · exact ih _ h
  cases hr : (nrLoop dv f yt a b ytol 100 guess).2 with
  | none => rw [hr] at h; simp at h
  | some v =>
    rw [hr] at h
    cases v with
    | false =>
      simp only [Bool.false_eq_true, if_false, Prod.mk.injEq, true_and] at h
      right; rw [← h]; exact hout _ _ hr
    | true =>
      simp only [Prod.mk.injEq, true_and] at h
      subst h
      exact Or.inl ⟨nrLoop_conv 100 guess hr, nrLoop_range hab 100 guess hg (by rw [hr]; simp)⟩

/-! ## C11 -/

/-- C11: SUCCESS from `bisect` means `f - target` changes sign over an interval of width below `xtol`
centred on the root. -/
theorem C11_bisect_success (f : K → K) (yt g xmin xmax xtol xr : K) (o : Option (Br K))
    (h : bisect f yt g xmin xmax xtol = (⟨.success, some xr⟩, o)) :
    ∃ l r : K, xr = (l + r) / 2 ∧ r - l < xtol ∧ (f l - yt) * (f r - yt) ≤ 0 := by
  unfold bisect at h
  simp only at h
  split at h
  · simp at h
  · rename_i br hbr
    split at h
    · simp at h
    · rename_i br2 hbr2
      have hok := repair_ok (region_vals 1000 _ hbr) hbr2
      obtain ⟨⟨a1, a2, a3⟩, b, _⟩ := bisectLoop_ok (f := f) (yt := yt) (xtol := xtol) 1000 hok
      simp only [Prod.mk.injEq, Res.mk.injEq, Option.some.injEq] at h
      obtain ⟨⟨h1, h2⟩, _⟩ := h
      have hb : (bisectLoop f yt xtol 1000 br2).1 = true := by
        by_contra hh
        simp only [Bool.not_eq_true] at hh
        rw [hh] at h1; simp at h1
      refine ⟨_, _, ?_, b hb, ?_⟩
      · rw [← h2]; ring
      · rw [← a1, ← a2]; exact a3

/-- C11: each bisection halves the interval and keeps the sign change, for every function and every
number of steps. -/
theorem C11_bisect_halves (f : K → K) (yt xtol : K) (n : Nat) (br : Br K)
    (ha : br.ya = f br.a - yt) (hb : br.yb = f br.b - yt) (hs : br.ya * br.yb ≤ 0) :
    ∃ k ≤ n, (bisectLoop f yt xtol n br).2.b - (bisectLoop f yt xtol n br).2.a
        = (br.b - br.a) / 2 ^ k ∧
      (f (bisectLoop f yt xtol n br).2.a - yt) * (f (bisectLoop f yt xtol n br).2.b - yt) ≤ 0 := by
  obtain ⟨⟨a1, a2, a3⟩, _, k, hk, hw, _⟩ := bisectLoop_ok (f := f) (xtol := xtol) n ⟨ha, hb, hs⟩
  exact ⟨k, hk, hw, by rw [← a1, ← a2]; exact a3⟩

/-- C11: a SUCCESS from `findRoot` is a point of `[xmin, xmax]` whose relative residual is within `ytol`,
or that is the centre of an interval narrower than `xtol` over which `f - target` changes sign. -/
theorem C11_findRoot_success (dv : K → K → K) (f : K → K) (yt g xmin xmax xtol ytol : K)
    (hm : xmin ≤ xmax) (hy : 0 < ytol)
    (h : (findRoot dv f yt g xmin xmax xtol ytol).status = .success) :
    ∃ xr, (findRoot dv f yt g xmin xmax xtol ytol).xroot = some xr ∧ xmin ≤ xr ∧ xr ≤ xmax ∧
      (|f xr - yt| ≤ ytol * (|f xr| + ytol) ∨
        ∃ l r : K, xr = (l + r) / 2 ∧ r - l < xtol ∧ (f l - yt) * (f r - yt) ≤ 0) := by
  have hpos : ∀ x, 0 < |f x| + ytol := fun x => by positivity
  have hres : ∀ x, |f x - yt| / (|f x| + ytol) < ytol → |f x - yt| ≤ ytol * (|f x| + ytol) := by
    intro x hx; rw [div_lt_iff₀ (hpos x)] at hx; exact hx.le
  unfold findRoot at h ⊢
  simp only at h ⊢
  by_cases c1 : |f xmax - yt| / (|f xmax| + ytol) < ytol
  · rw [if_pos c1] at h ⊢; exact ⟨xmax, rfl, hm, le_rfl, Or.inl (hres _ c1)⟩
  rw [if_neg c1] at h ⊢
  by_cases c2 : |f xmin - yt| / (|f xmin| + ytol) < ytol
  · rw [if_pos c2] at h ⊢; exact ⟨xmin, rfl, le_rfl, hm, Or.inl (hres _ c2)⟩
  rw [if_neg c2] at h ⊢
  set g1 := if g ≥ xmax then xmax - xtol else g
  set g2 := if g1 ≤ xmin then xmin + xtol else g1
  by_cases c3 : (secant dv f yt g2 xmin xmax xtol ytol).1 = .success
  · rw [if_pos c3] at h ⊢
    refine ⟨_, rfl, ?_⟩
    have hr := secantLoop_range (dv := dv) (f := f) (yt := yt) (xtol := xtol) hm 999 (g2, g2)
    refine ⟨hr.1, hr.2, Or.inl ?_⟩
    unfold secant at c3 ⊢
    simp only at c3 ⊢
    split_ifs at c3 with hc
    · push Not at hc
      have := hc.2
      rw [abs_of_nonneg (by positivity), div_le_iff₀ (hpos _)] at this
      exact this
  · rw [if_neg c3] at h ⊢
    set r := (bisect f yt g2 xmin xmax xtol).1 with hr
    set xr := r.xroot.getD (secant dv f yt g2 xmin xmax xtol ytol).2 with hxr
    by_cases c4 : xr < xmin
    · rw [if_pos c4] at h; simp at h
    rw [if_neg c4] at h ⊢
    by_cases c5 : xr > xmax
    · rw [if_pos c5] at h; simp at h
    rw [if_neg c5] at h ⊢
    refine ⟨xr, rfl, not_lt.mp c4, not_lt.mp c5, Or.inr ?_⟩
    simp only at h
    have hx : ∃ y, r.xroot = some y := by
      cases hx : r.xroot with
      | some y => exact ⟨y, rfl⟩
      | none =>
        exfalso
        rw [hr] at hx h
        unfold bisect at hx h
        simp only at hx h
        split at hx
        · rename_i h'; rw [h'] at h; simp at h
        · rename_i h'
          rw [h'] at h
          split at hx
          · rename_i h''; simp only [h''] at h; simp at h
          · simp at hx
    obtain ⟨y, hy'⟩ := hx
    have hxy : xr = y := by rw [hxr, hy']; rfl
    rw [hxy]
    refine C11_bisect_success f yt g2 xmin xmax xtol y (bisect f yt g2 xmin xmax xtol).2 ?_
    rw [Prod.ext_iff]
    refine ⟨?_, rfl⟩
    simp only [← hr]
    cases hr2 : r with
    | mk st x =>
      rw [hr2] at h hy'
      simp only at h hy'
      rw [h, hy']

/-- C11 non-vacuity: a successful run. -/
example : (findRoot (K := ℚ) (· / ·) (fun x => x) 1 0 0 1 (1 / 10) (1 / 10)).status = .success ∧
    (0 : ℚ) ≤ 1 := by
  constructor
  · norm_num [findRoot]
  · norm_num

end Verif.RootFind
