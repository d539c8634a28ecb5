import Verif.Model.EosBase
import Verif.Spec.ThermoLaws
import Verif.Spec.Inversions
import Verif.Lemmas.RootFind
import Verif.Props.RootFind
import Verif.Props.Ramp
import Verif.Tactics
import Mathlib.Analysis.Calculus.Deriv.MeanValue
import Mathlib.Analysis.Calculus.Deriv.Inv

set_option linter.unusedSectionVars false

/-! # C52, C72, C73: the default member functions of the base class -/

namespace Verif.Base

open Verif.Mods Verif.Robust Verif.RootFind Verif.Spec

/-! ## Energy from density and pressure -/

section eRP
variable {K Λ : Type*} [Field K] [LinearOrder K] [IsStrictOrderedRing K]

/-- On an affine function `regula_falsi` needs at most one pass: its result is within `xtol` of the root,
or its residual is within `ytol`. -/
theorem regulaFalsi_affine (m c : K) (hm : m ≠ 0) (P root guess a b ε : K) (hε : 0 ≤ ε)
    (hroot : m * root + c = P) (h1 : a ≤ guess) (h2 : guess ≤ b) (hr : a ≤ root ∧ root ≤ b) :
    ∃ st x s, regulaFalsi 1000 (fun x => m * x + c) P guess a b ε ε = some (⟨st, some x⟩, some s) ∧
      a ≤ x ∧ x ≤ b ∧ st = .success ∧ (|x - root| ≤ ε ∨ |m * x + c - P| ≤ ε) := by
  have hfun : ∀ x, m * x + c - P = m * (x - root) := fun x => by rw [← hroot]; ring
  -- the initial bracket
  obtain ⟨br, hbr, hba, hbb, hle, hya, hyb, hb1, hb2⟩ : ∃ br : Br K,
      initBracket (fun x => m * x + c - P) guess a b = some br ∧ a ≤ br.a ∧ br.b ≤ b ∧ br.a ≤ br.b ∧
        br.ya = m * (br.a - root) ∧ br.yb = m * (br.b - root) ∧ br.a ≤ root ∧ root ≤ br.b := by
    simp only [initBracket, checkBracket, hfun, decide_eq_true_eq]
    have hsq : 0 < m * m := mul_self_pos.2 hm
    by_cases hg : m * (a - root) * (m * (guess - root)) ≤ 0
    · rw [if_pos hg]
      refine ⟨_, rfl, le_rfl, h2, h1, rfl, rfl, hr.1, ?_⟩
      by_contra hc
      push Not at hc
      have h3 : a = root ∨ a < root := hr.1.eq_or_lt
      have : m * (a - root) * (m * (guess - root)) = m * m * ((a - root) * (guess - root)) := by ring
      rw [this] at hg
      have h4 : (a - root) * (guess - root) ≤ 0 := by
        by_contra h5; push Not at h5; exact absurd hg (not_le.2 (mul_pos hsq h5))
      have : 0 < (a - root) * (guess - root) := mul_pos_of_neg_of_neg (by linarith) (by linarith)
      linarith
    · rw [if_neg hg]
      have hgr : guess ≤ root := by
        by_contra hc; push Not at hc
        apply hg
        have : m * (a - root) * (m * (guess - root)) = m * m * ((a - root) * (guess - root)) := by ring
        rw [this]
        exact mul_nonpos_of_nonneg_of_nonpos hsq.le
          (mul_nonpos_of_nonpos_of_nonneg (by linarith [hr.1]) (by linarith))
      have hb : m * (guess - root) * (m * (b - root)) ≤ 0 := by
        have : m * (guess - root) * (m * (b - root)) = m * m * ((guess - root) * (b - root)) := by ring
        rw [this]
        exact mul_nonpos_of_nonneg_of_nonpos hsq.le
          (mul_nonpos_of_nonpos_of_nonneg (by linarith) (by linarith [hr.2]))
      rw [if_pos hb]
      exact ⟨_, rfl, h1, le_rfl, h2, rfl, rfl, hgr, hr.2⟩
  -- the loop
  set func : K → K := fun x => m * x + c - P with hfn
  set sg : K := (rfStart br).1 with hsg
  have hsgv : sg = 1 ∨ sg = -1 := by simp only [hsg, rfStart]; split_ifs <;> simp
  have hsg0 : sg ≠ 0 := by rcases hsgv with h | h <;> rw [h] <;> norm_num
  have habs : ∀ x, |x * sg| = |x| := fun x => by rcases hsgv with h | h <;> rw [h] <;> simp
  set s0 : RF K := (rfStart br).2 with hs0
  have hs0v : s0 = ⟨br.a, br.b, br.ya * sg, br.yb * sg, 0, 0, 0⟩ := rfl
  have key : ∃ s, rfLoop func sg ε ε 1000 s0 = some s ∧ s.iter < 1000 ∧ br.a ≤ s.a ∧ s.a ≤ s.b ∧ s.b ≤ br.b ∧
      ((s.a + s.b) / 2 = root ∨ s = s0 ∧ ¬ rfCond ε ε s0) := by
    by_cases hc : rfCond ε ε s0
    · have hab : br.b - br.a > 2 * ε := hc.1
      have hne : br.b - br.a ≠ 0 := by intro h; rw [h] at hab; linarith
      have hcval : (s0.a * s0.yb - s0.b * s0.ya) / (s0.yb - s0.ya) = root := by
        rw [hs0v]
        simp only [hya, hyb]
        have hd : m * (br.b - root) * sg - m * (br.a - root) * sg = m * sg * (br.b - br.a) := by ring
        rw [hd, div_eq_iff (mul_ne_zero (mul_ne_zero hm hsg0) hne)]
        ring
      have hbody : rfBody func sg s0 = { s0 with b := s0.a } ∧ root = br.a ∨
          rfBody func sg s0 = { s0 with a := s0.b } ∧ root = br.b ∨
          rfBody func sg s0 = { s0 with a := root, b := root, iter := s0.iter + 1 } := by
        unfold rfBody
        simp only [hcval]
        have hf0 : sg * func root = 0 := by rw [hfn]; simp only [hfun]; simp
        simp only [hf0, gt_iff_lt, lt_irrefl, if_false]
        by_cases e1 : root = s0.a
        · left; rw [if_pos e1]; exact ⟨rfl, e1⟩
        · by_cases e2 : root = s0.b
          · right; left; rw [if_neg e1, if_pos e2]; exact ⟨rfl, e2⟩
          · right; right; rw [if_neg e1, if_neg e2]
      have hstep : rfLoop func sg ε ε 1000 s0 = rfLoop func sg ε ε 999 (rfBody func sg s0) := by
        show rfLoop func sg ε ε (999 + 1) s0 = _
        rw [rfLoop, if_pos hc]
      have hz : ∀ t : RF K, t.a = t.b → ¬ rfCond ε ε t := by
        intro t ht hct; have := hct.1; rw [ht] at this; linarith
      rcases hbody with ⟨hb, hrt⟩ | ⟨hb, hrt⟩ | hb
      · refine ⟨_, by rw [hstep, hb, rfLoop_stop (hz _ rfl)], ?_, le_rfl, le_rfl, ?_, Or.inl ?_⟩
        · simp [hs0v]
        · simp [hs0v, hle]
        · simp only [hs0v]; rw [hrt]; ring
      · refine ⟨_, by rw [hstep, hb, rfLoop_stop (hz _ rfl)], ?_, ?_, le_rfl, le_rfl, Or.inl ?_⟩
        · simp [hs0v]
        · simp [hs0v, hle]
        · simp only [hs0v]; rw [hrt]; ring
      · refine ⟨_, by rw [hstep, hb, rfLoop_stop (hz _ rfl)], ?_, hb1, le_rfl, hb2, Or.inl ?_⟩
        · simp [hs0v]
        · simp only; ring
    · exact ⟨s0, rfLoop_stop hc _, by rw [hs0v]; norm_num, le_rfl, hle, le_rfl, Or.inr ⟨rfl, hc⟩⟩
  obtain ⟨s, hs, hit, hsa, hsab, hsb, hfin⟩ := key
  refine ⟨.success, (s.a + s.b) / 2, s, ?_, by linarith, by linarith, rfl, ?_⟩
  · simp only [regulaFalsi]
    rw [hbr]
    simp only
    rw [← hfn, ← hsg, ← hs0, hs]
    simp only
    rw [if_neg (by omega)]
  · rcases hfin with h | ⟨h, hnc⟩
    · left; rw [h]; simpa using hε
    · rw [h, hs0v]
      simp only
      have hnc' : br.b - br.a ≤ 2 * ε ∨ (|br.ya| ≤ ε ∧ |br.yb| ≤ ε) := by
        by_contra hcon
        push Not at hcon
        apply hnc
        rw [hs0v]
        refine ⟨hcon.1, ?_, by norm_num⟩
        simp only [habs]
        by_cases h5 : |br.ya| ≤ ε
        · exact Or.inr (hcon.2 h5)
        · exact Or.inl (not_le.1 h5)
      rcases hnc' with hw | ⟨w1, w2⟩
      · left
        rw [abs_le]; constructor <;> linarith
      · right
        have : m * ((br.a + br.b) / 2) + c - P = (br.ya + br.yb) / 2 := by rw [hfun, hya, hyb]; ring
        rw [this, abs_div, abs_two, div_le_iff₀ (by norm_num)]
        exact (abs_add_le _ _).trans (by linarith)

theorem mid_lt {lo hi e : K} (h1 : lo < e) (h2 : e < hi) :
    lo < 1 / 2 * (lo + hi) ∧ 1 / 2 * (lo + hi) < hi := by constructor <;> linarith

/-- C52: base-class energy from density and pressure, for an EOS whose pressure at fixed density is an
affine function of the energy (every Mie-Gruneisen EOS) with the requested pressure attained between the
energy bounds: for every incoming guess not below the lower bound, the returned energy is within `EPS` of
the energy with that pressure, or its pressure is within `EPS` of the request. -/
theorem C52_affine_partial (ε : K) (hε : 0 ≤ ε) (q : Q → Λ → K → K → K) (l0 l : Λ) (tMin r P e root m c : K)
    (hm : m ≠ 0) (hq : ∀ x, q .pRE l r x = m * x + c) (hroot : q .pRE l r root = P)
    (hlo : q .eRT l0 r tMin ≤ root) (hhi : root ≤ q .eRT l0 r (10 ^ 20))
    (he : q .eRT l0 r tMin < e) :
    |eRP ε q l0 tMin l r P e - root| ≤ ε ∨ |q .pRE l r (eRP ε q l0 tMin l r P e) - P| ≤ ε := by
  have hf : (fun x => q .pRE l r x) = fun x => m * x + c := funext hq
  set lo := q .eRT l0 r tMin with hlo'
  set hi := q .eRT l0 r (10 ^ 20) with hhi'
  rw [hq] at hroot
  by_cases hin : e < hi
  · obtain ⟨st, x, s, hx, -, -, -, hx2⟩ := regulaFalsi_affine m c hm P root (1 / 2 * (lo + hi)) lo hi ε hε hroot
      (by linarith) (by linarith) ⟨hlo, hhi⟩
    have : eRP ε q l0 tMin l r P e = x := by
      simp only [eRP, ← hlo', ← hhi', hf]
      rw [if_pos ⟨he, hin⟩, hx]
    rw [this, hq]
    exact hx2
  · -- guess at or above the upper bound: the bracket is `[lo, e]`
    push Not at hin
    obtain ⟨st, x, s, hx, -, -, -, hx2⟩ := regulaFalsi_affine m c hm P root e lo e ε hε hroot
      he.le le_rfl ⟨hlo, hhi.trans hin⟩
    have hreg : regulaFalsi 1000 (fun x => m * x + c) P e lo hi ε ε
        = regulaFalsi 1000 (fun x => m * x + c) P e lo e ε ε := by
      have hsg : checkBracket (m * lo + c - P) (m * e + c - P) = true := by
        have h1 : m * lo + c - P = m * (lo - root) := by rw [← hroot]; ring
        have h2 : m * e + c - P = m * (e - root) := by rw [← hroot]; ring
        simp only [checkBracket, decide_eq_true_eq, h1, h2]
        have : m * (lo - root) * (m * (e - root)) = m * m * ((lo - root) * (e - root)) := by ring
        rw [this]
        exact mul_nonpos_of_nonneg_of_nonpos (mul_self_nonneg m)
          (mul_nonpos_of_nonpos_of_nonneg (by linarith) (by linarith))
      simp only [regulaFalsi, initBracket, hsg, if_true]
    have : eRP ε q l0 tMin l r P e = x := by
      simp only [eRP, ← hlo', ← hhi', hf]
      rw [if_neg (fun h => absurd h.2 (not_lt.2 hin)), hreg, hx]
    rw [this, hq]
    exact hx2

/-- C52: for the overload without a guess the same, with no condition on a guess. -/
theorem C52_affine_no_guess (ε : K) (hε : 0 ≤ ε) (q : Q → Λ → K → K → K) (l0 l : Λ) (tMin r P root m c : K)
    (hm : m ≠ 0) (hq : ∀ x, q .pRE l r x = m * x + c) (hroot : q .pRE l r root = P)
    (hlo : q .eRT l0 r tMin < root) (hhi : root < q .eRT l0 r (10 ^ 20)) :
    |eRPNoGuess ε q l0 tMin l r P - root| ≤ ε ∨ |q .pRE l r (eRPNoGuess ε q l0 tMin l r P) - P| ≤ ε :=
  C52_affine_partial ε hε q l0 l tMin r P _ root m c hm hq hroot hlo.le hhi.le (mid_lt hlo hhi).1

/-- C52 is violated: the caller's guess is discarded exactly when it is usable. Any two guesses strictly
inside the energy bounds give the same result. -/
theorem C52_guess_ignored_violated (ε : K) (q : Q → Λ → K → K → K) (l0 l : Λ) (tMin r P e e' : K)
    (h : q .eRT l0 r tMin < e ∧ e < q .eRT l0 r (10 ^ 20))
    (h' : q .eRT l0 r tMin < e' ∧ e' < q .eRT l0 r (10 ^ 20))
    (hbr : (q .pRE l r (q .eRT l0 r tMin) - P) * (q .pRE l r (q .eRT l0 r (10 ^ 20)) - P) ≤ 0)
    (hε : 0 ≤ ε) : eRP ε q l0 tMin l r P e = eRP ε q l0 tMin l r P e' := by
  obtain ⟨st, x, s, hx, -⟩ := C08_regulaFalsi_keeps_bracket (fun x => q .pRE l r x) P
    (1 / 2 * (q .eRT l0 r tMin + q .eRT l0 r (10 ^ 20))) (q .eRT l0 r tMin) (q .eRT l0 r (10 ^ 20)) ε ε
    hε hε (mid_lt h.1 h.2).1.le (mid_lt h.1 h.2).2.le (Or.inl hbr)
  simp only [eRP, if_pos h, if_pos h', hx]

/-- C52 is violated: a guess below the lower bound is used as it is; here the EOS is `P = e`, `e = T`,
the request `P = 0` is met exactly at the lower bound, the guess is `-2` and the answer is `-1`. -/
theorem C52_guess_below_violated :
    ∃ q : Q → Unit → ℚ → ℚ → ℚ, (∀ e, q .pRE () 1 e = e) ∧ (∀ T, q .eRT () 1 T = T) ∧
      eRP (1 / 10 ^ 9) q () 0 () 1 0 (-2) = -1 := by
  refine ⟨fun _ _ _ y => y, fun _ => rfl, fun _ => rfl, ?_⟩
  have h : regulaFalsi (K := ℚ) 1000 (fun x => x) 0 (-2) 0 (10 ^ 20) (1 / 10 ^ 9) (1 / 10 ^ 9)
      = some (⟨.success, some (-1)⟩, some ⟨0, -2, 0, 2, 0, 0, 0⟩) := by
    have hb : initBracket (K := ℚ) (fun x => x - 0) (-2) 0 (10 ^ 20) = some ⟨0, -2, 0, -2⟩ := by
      norm_num [initBracket, checkBracket]
    have hst : rfStart (K := ℚ) ⟨0, -2, 0, -2⟩ = (-1, ⟨0, -2, 0, 2, 0, 0, 0⟩) := by norm_num [rfStart]
    simp only [regulaFalsi, hb, hst]
    rw [rfLoop_stop (by norm_num [rfCond])]
    norm_num
  simp only [eRP]
  rw [if_neg (by norm_num), h]

/-- C52 for a continuous, not necessarily affine, pressure and a guess inside the bounds: the result lies
between the bounds and inside an interval with an exact solution; `C61_success_meaning` says when
it is within `EPS` of it. -/
theorem C52_continuous_partial (ε : ℝ) (hε : 0 ≤ ε) {Λ : Type*} (q : Q → Λ → ℝ → ℝ → ℝ) (l0 l : Λ)
    (tMin r P e : ℝ) (h : q .eRT l0 r tMin < e ∧ e < q .eRT l0 r (10 ^ 20))
    (hf : ContinuousOn (fun x => q .pRE l r x) (Set.Icc (q .eRT l0 r tMin) (q .eRT l0 r (10 ^ 20))))
    (hbr : (q .pRE l r (q .eRT l0 r tMin) - P) * (q .pRE l r (q .eRT l0 r (10 ^ 20)) - P) ≤ 0) :
    ∃ a b root, q .eRT l0 r tMin ≤ a ∧ b ≤ q .eRT l0 r (10 ^ 20) ∧ eRP ε q l0 tMin l r P e = (a + b) / 2 ∧
      root ∈ Set.Icc a b ∧ q .pRE l r root = P ∧ (q .pRE l r a - P) * (q .pRE l r b - P) ≤ 0 := by
  obtain ⟨st, x, s, hx, hxe, ha, hax, hxb, hb, hch, -⟩ := C08_regulaFalsi_keeps_bracket (fun x => q .pRE l r x) P
    (1 / 2 * (q .eRT l0 r tMin + q .eRT l0 r (10 ^ 20))) (q .eRT l0 r tMin) (q .eRT l0 r (10 ^ 20)) ε ε
    hε hε (mid_lt h.1 h.2).1.le (mid_lt h.1 h.2).2.le (Or.inl hbr)
  obtain ⟨st', x', s', root, hx', hroot, hmem, -⟩ := C08_regulaFalsi_near_true_root (fun x => q .pRE l r x) P
    (1 / 2 * (q .eRT l0 r tMin + q .eRT l0 r (10 ^ 20))) (q .eRT l0 r tMin) (q .eRT l0 r (10 ^ 20)) ε ε
    hε hε (mid_lt h.1 h.2).1.le (mid_lt h.1 h.2).2.le hf hbr
  rw [hx] at hx'
  simp only [Option.some.injEq, Prod.mk.injEq, Res.mk.injEq] at hx'
  obtain ⟨-, rfl⟩ := hx'
  refine ⟨s.a, s.b, root, ha, hb, ?_, hmem, hroot, hch⟩
  simp only [eRP, if_pos h, hx, hxe]

end eRP

/-! ## Density and energy from pressure and temperature -/

section rePT
variable {K Λ : Type*} [Field K] [LinearOrder K] [IsStrictOrderedRing K]

theorem bisectLoop_range {f : K → K} {yt xtol lo hi : K} (n : Nat) {br : Br K} (h1 : lo ≤ br.a)
    (h2 : br.a ≤ br.b) (h3 : br.b ≤ hi) :
    lo ≤ (bisectLoop f yt xtol n br).2.a ∧ (bisectLoop f yt xtol n br).2.a ≤ (bisectLoop f yt xtol n br).2.b ∧
    (bisectLoop f yt xtol n br).2.b ≤ hi := by
  induction n generalizing br with
  | zero => exact ⟨h1, h2, h3⟩
  | succ n ih =>
    have hstep : lo ≤ (bisectStep f yt br).a ∧ (bisectStep f yt br).a ≤ (bisectStep f yt br).b ∧
        (bisectStep f yt br).b ≤ hi := by
      unfold bisectStep
      simp only
      split_ifs <;> refine ⟨?_, ?_, ?_⟩ <;> simp only <;> linarith
    unfold bisectLoop
    simp only
    split_ifs
    · exact hstep
    · exact ih hstep.1 hstep.2.1 hstep.2.2

theorem region_around {f : K → K} {yt xmin xmax x : K} (n : Nat) (g : K) {br : Br K}
    (h : region f yt xmin xmax x n g = some br) : br.a ≤ x ∧ x ≤ br.b := by
  induction n generalizing g with
  | zero => simp [region] at h
  | succ n ih =>
    unfold region at h
    simp only at h
    split_ifs at h with hc
    · injection h with h; subst h
      exact ⟨by simp only; linarith [abs_nonneg (g * x)], by simp only; linarith [abs_nonneg (g * x)]⟩
    · exact ih _ h

theorem repair_range {f : K → K} {yt xmin xmax x : K} (hx : xmin ≤ x ∧ x ≤ xmax) {br br' : Br K}
    (h : br.a ≤ x ∧ x ≤ br.b) (hr : repair f yt xmin xmax br = some br') :
    xmin ≤ br'.a ∧ br'.a ≤ br'.b ∧ br'.b ≤ xmax := by
  unfold repair at hr
  simp only at hr
  split_ifs at hr <;> injection hr with hr <;> subst hr <;>
    refine ⟨?_, ?_, ?_⟩ <;> (try dsimp only at *) <;> linarith [h.1, h.2, hx.1, hx.2]

/-- `findRoot` started strictly inside its bounds always returns a point inside them. -/
theorem findRoot_range (dv : K → K → K) (f : K → K) (yt g xmin xmax xtol ytol : K) (hg : xmin < g ∧ g < xmax)
    (hx : g + 2 * xtol ≤ xmax ∨ xtol ≤ |g|) (hx0 : 0 ≤ xtol) :
    ∃ x, (findRoot dv f yt g xmin xmax xtol ytol).xroot = some x ∧ xmin ≤ x ∧ x ≤ xmax := by
  have hm : xmin ≤ xmax := by linarith [hg.1, hg.2]
  have hsec : ∀ g', xmin ≤ (secant dv f yt g' xmin xmax xtol ytol).2 ∧
      (secant dv f yt g' xmin xmax xtol ytol).2 ≤ xmax := by
    intro g'
    exact secantLoop_range (dv := dv) (f := f) (yt := yt) (xtol := xtol) hm 999 (g', g')
  unfold findRoot
  simp only
  rw [if_neg (show ¬ g ≥ xmax from not_le.2 hg.2), if_neg (not_le.2 hg.1)]
  split_ifs with c1 c2 c3 c4 c5
  · exact ⟨_, rfl, hm, le_rfl⟩
  · exact ⟨_, rfl, le_rfl, hm⟩
  · exact ⟨_, rfl, hsec g⟩
  all_goals
    refine ⟨_, rfl, ?_⟩
    clear c4
    unfold bisect
    simp only
    have hxg : xmin ≤ (if |g| < xtol then g + 2 * xtol else g) ∧ (if |g| < xtol then g + 2 * xtol else g) ≤ xmax := by
      split_ifs with hgx
      · refine ⟨by linarith [hg.1], ?_⟩
        rcases hx with h | h
        · exact h
        · exact absurd hgx (not_lt.2 h)
      · exact ⟨hg.1.le, hg.2.le⟩
    split
    · exact hsec g
    · rename_i br hbr
      split
      · exact hsec g
      · rename_i br' hbr'
        have h3 := repair_range hxg (region_around _ _ hbr) hbr'
        have h4 := bisectLoop_range (f := f) (yt := yt) (xtol := xtol) 1000 h3.1 h3.2.1 h3.2.2
        simp only [Option.getD_some]
        constructor <;> linarith [h4.1, h4.2.1, h4.2.2]

/-- C52: the base-class density from pressure and temperature always lies within the EOS's density
bounds, whether or not the root find converged and whatever density was passed in; and the returned energy
is the EOS's energy at that density and temperature. -/
theorem C52_density_in_bounds (ε : K) (hε : 0 < ε) (dv : K → K → K) (q : Q → Λ → K → K → K) (rhoMin rhoMax : K)
    (rhoPmin : K → K) (l : Λ) (P T : K) (g : K × K) (h0 : 0 ≤ rhoMin) (h1 : rhoMin < rhoMax)
    (h2 : rhoPmin T < rhoMax) (h3 : 3 * ε ≤ rhoMax) :
    let o := rePT ε dv q rhoMin rhoMax rhoPmin l P T g
    rhoMin ≤ o.1 ∧ rhoPmin T ≤ o.1 ∧ o.1 ≤ rhoMax ∧ o.2 = q .eRT l o.1 T := by
  intro o
  set lo := max (rhoPmin T) rhoMin with hlo
  have hlt : lo < rhoMax := max_lt h2 h1
  have hlo0 : 0 ≤ lo := h0.trans (le_max_right _ _)
  have hg : lo < rhoGuess lo rhoMax g.1 ∧ rhoGuess lo rhoMax g.1 < rhoMax := by
    unfold rhoGuess
    split_ifs with c1 c2
    · exact c2
    · constructor <;> linarith
    · push Not at c1; exact c1
  have hgx : rhoGuess lo rhoMax g.1 + 2 * ε ≤ rhoMax ∨ ε ≤ |rhoGuess lo rhoMax g.1| := by
    by_cases hc : ε ≤ |rhoGuess lo rhoMax g.1|
    · exact Or.inr hc
    · left
      push Not at hc
      have := le_abs_self (rhoGuess lo rhoMax g.1)
      linarith
  obtain ⟨x, hx, hx1, hx2⟩ := findRoot_range dv (fun r => q .pRT l r T) P (rhoGuess lo rhoMax g.1) lo rhoMax ε ε
    hg hgx hε.le
  have ho : o = (x, q .eRT l x T) := by
    show rePT ε dv q rhoMin rhoMax rhoPmin l P T g = _
    simp only [rePT, ← hlo, hx, Option.getD_some]
  rw [ho]
  exact ⟨(le_max_right _ _).trans hx1, (le_max_left _ _).trans hx1, hx2, rfl⟩

/-- C52: when its root find reports success, the pressure at the returned density matches the request to
relative accuracy `EPS`, or the density is the centre of an interval narrower than `EPS` over which the
pressure crosses the request. -/
theorem C52_density_success (ε : K) (hε : 0 < ε) (dv : K → K → K) (q : Q → Λ → K → K → K) (rhoMin rhoMax : K)
    (rhoPmin : K → K) (l : Λ) (P T : K) (g : K × K) (h1 : max (rhoPmin T) rhoMin ≤ rhoMax)
    (hs : (findRoot dv (fun r => q .pRT l r T) P (rhoGuess (max (rhoPmin T) rhoMin) rhoMax g.1)
      (max (rhoPmin T) rhoMin) rhoMax ε ε).status = .success) :
    let o := rePT ε dv q rhoMin rhoMax rhoPmin l P T g
    |q .pRT l o.1 T - P| ≤ ε * (|q .pRT l o.1 T| + ε) ∨
      ∃ a b : K, o.1 = (a + b) / 2 ∧ b - a < ε ∧ (q .pRT l a T - P) * (q .pRT l b T - P) ≤ 0 := by
  obtain ⟨x, hx, -, -, h⟩ := C11_findRoot_success dv _ P _ _ _ ε ε h1 hε hs
  intro o
  have ho : o.1 = x := by
    show (rePT ε dv q rhoMin rhoMax rhoPmin l P T g).1 = _
    simp only [rePT, hx, Option.getD_some]
  rw [ho]
  exact h

/-- C52 non-vacuity: bounds of a typical EOS. -/
example : let o := rePT (K := ℚ) (1 / 10 ^ 9) (· / ·) (fun _ _ r y => r * y) 0 100 (fun _ => 0) () 6 2 (0, 0)
    (0 : ℚ) ≤ o.1 ∧ o.1 ≤ 100 := by
  have := C52_density_in_bounds (K := ℚ) (1 / 10 ^ 9) (by norm_num) (· / ·) (fun _ _ r y => r * y) 0 100
    (fun _ => 0) () 6 2 (0, 0) (by norm_num) (by norm_num) (by norm_num) (by norm_num)
  exact ⟨this.1, this.2.2.1⟩

end rePT

/-! ## Finite-difference derivatives -/

section fd

/-- C72: with an exact inversion `rho(P,T)`, `e(P,T)` that is differentiable between the perturbed and the
given state, each of the four finite-difference derivatives is the true partial derivative at an
intermediate state no further away than a relative `δ` (or `EPS` when that is larger). -/
theorem C72_finite_differences (ε δ : ℝ) (hε : 0 < ε) (hδ : 0 < δ) (rho sie rhoP sieP rhoT sieT : ℝ → ℝ → ℝ)
    (u : ℝ × ℝ) (P T : ℝ)
    (hP : ∀ p, |p - P| ≤ max (δ * |P|) ε → HasDerivAt (fun p => rho p T) (rhoP p T) p ∧ HasDerivAt (fun p => sie p T) (sieP p T) p)
    (hT : ∀ t, T ≤ t → t - T ≤ max (δ * |T|) ε → HasDerivAt (fun t => rho P t) (rhoT P t) t ∧ HasDerivAt (fun t => sie P t) (sieT P t) t) :
    let d := ptdFD 0 ε δ (fun p t _ => (rho p t, sie p t)) u (rho P T) (sie P T) P T
    (∃ p, |p - P| ≤ max (δ * |P|) ε ∧ d.drdP_T = rhoP p T) ∧
    (∃ p, |p - P| ≤ max (δ * |P|) ε ∧ d.dedP_T = sieP p T) ∧
    (∃ t, T ≤ t ∧ t - T ≤ max (δ * |T|) ε ∧ d.drdT_P = rhoT P t) ∧
    (∃ t, T ≤ t ∧ t - T ≤ max (δ * |T|) ε ∧ d.dedT_P = sieT P t) := by
  have hmax : ∀ x : ℝ, max |x| (ε / δ) * δ = max (δ * |x|) ε := fun x => by
    rw [max_mul_of_nonneg _ _ hδ.le, div_mul_cancel₀ _ hδ.ne', mul_comm]
  have mv : ∀ (f f' : ℝ → ℝ) (x h : ℝ), h ≠ 0 → (∀ y, |y - x| ≤ |h| → HasDerivAt f (f' y) y) →
      ∃ y, |y - x| ≤ |h| ∧ (f (x + h) - f x) / h = f' y := by
    intro f f' x h hh hf
    rcases lt_or_gt_of_ne hh with hneg | hpos
    · obtain ⟨y, hy, he⟩ := exists_hasDerivAt_eq_slope f f' (show x + h < x by linarith)
        (HasDerivAt.continuousOn fun y hy => hf y (by
          rw [abs_of_neg hneg, abs_le]; constructor <;> linarith [hy.1, hy.2]))
        (fun y hy => hf y (by rw [abs_of_neg hneg, abs_le]; constructor <;> linarith [hy.1, hy.2]))
      refine ⟨y, ?_, ?_⟩
      · rw [abs_of_neg hneg, abs_le]; constructor <;> linarith [hy.1, hy.2]
      · rw [he, ← neg_sub, neg_div, ← div_neg]; congr 1; ring
    · obtain ⟨y, hy, he⟩ := exists_hasDerivAt_eq_slope f f' (show x < x + h by linarith)
        (HasDerivAt.continuousOn fun y hy => hf y (by
          rw [abs_of_pos hpos, abs_le]; constructor <;> linarith [hy.1, hy.2]))
        (fun y hy => hf y (by rw [abs_of_pos hpos, abs_le]; constructor <;> linarith [hy.1, hy.2]))
      refine ⟨y, ?_, ?_⟩
      · rw [abs_of_pos hpos, abs_le]; constructor <;> linarith [hy.1, hy.2]
      · rw [he]; congr 1; ring
  have mv' : ∀ (f f' : ℝ → ℝ) (x h : ℝ), 0 < h → (∀ y, x ≤ y → y - x ≤ h → HasDerivAt f (f' y) y) →
      ∃ y, x ≤ y ∧ y - x ≤ h ∧ (f (x + h) - f x) / h = f' y := by
    intro f f' x h hpos hf
    obtain ⟨y, hy, he⟩ := exists_hasDerivAt_eq_slope f f' (show x < x + h by linarith)
      (HasDerivAt.continuousOn fun y hy => hf y hy.1 (by linarith [hy.2])) (fun y hy => hf y hy.1.le (by linarith [hy.2]))
    refine ⟨y, hy.1.le, by linarith [hy.2], ?_⟩
    rw [he]; congr 1; ring
  have hsg : sgn P = 1 ∨ sgn P = -1 := by
    unfold sgn
    rcases le_or_gt 0 P with h | h
    · left; simp [h, not_lt.2 h]
    · right; simp [h, not_le.2 h]
  have hmp : 0 < max (δ * |P|) ε := lt_max_of_lt_right hε
  have hmt : 0 < max (δ * |T|) ε := lt_max_of_lt_right hε
  have hdP : -sgn P * max |P| (ε / δ) * δ = -sgn P * max (δ * |P|) ε := by rw [mul_assoc, hmax]
  have hdP0 : -sgn P * max (δ * |P|) ε ≠ 0 := by
    rcases hsg with h | h <;> rw [h] <;> simp [hmp.ne']
  have habs : |-sgn P * max (δ * |P|) ε| = max (δ * |P|) ε := by
    rcases hsg with h | h <;> rw [h] <;> simp [abs_of_pos hmp]
  simp only [ptdFD, ratio_zero_small, hdP, hmax]
  refine ⟨?_, ?_, ?_, ?_⟩
  · obtain ⟨y, h1, h2⟩ := mv (fun p => rho p T) (fun p => rhoP p T) P _ hdP0 fun y h => (hP y (by rwa [habs] at h)).1
    exact ⟨y, by rwa [habs] at h1, h2⟩
  · obtain ⟨y, h1, h2⟩ := mv (fun p => sie p T) (fun p => sieP p T) P _ hdP0 fun y h => (hP y (by rwa [habs] at h)).2
    exact ⟨y, by rwa [habs] at h1, h2⟩
  · obtain ⟨y, h0, h1, h2⟩ := mv' (fun t => rho P t) (fun t => rhoT P t) T _ hmt fun y h h' => (hT y h h').1
    exact ⟨y, h0, h1, h2⟩
  · obtain ⟨y, h0, h1, h2⟩ := mv' (fun t => sie P t) (fun t => sieT P t) T _ hmt fun y h h' => (hT y h h').2
    exact ⟨y, h0, h1, h2⟩

/-- C72: for inversions that are affine in pressure and temperature the finite differences are exact. -/
theorem C72_exact_on_affine (ε δ : ℝ) (hε : 0 < ε) (hδ : 0 < δ) (a b c a' b' c' : ℝ) (u : ℝ × ℝ) (P T : ℝ) :
    ptdFD 0 ε δ (fun p t _ => (a * p + b * t + c, a' * p + b' * t + c')) u (a * P + b * T + c)
      (a' * P + b' * T + c') P T = ⟨a', a, b', b⟩ := by
  have lin : ∀ k m x : ℝ, HasDerivAt (fun y => k * y + m) k x := fun k m x => by
    simpa using ((hasDerivAt_id x).const_mul k).add_const m
  have h := C72_finite_differences ε δ hε hδ (fun p t => a * p + b * t + c) (fun p t => a' * p + b' * t + c')
    (fun _ _ => a) (fun _ _ => a') (fun _ _ => b) (fun _ _ => b') u P T
    (fun p _ => ⟨by simpa [add_assoc] using lin a (b * T + c) p, by simpa [add_assoc] using lin a' (b' * T + c') p⟩)
    (fun t _ _ => ⟨((lin b (a * P + c) t).congr_of_eventuallyEq (Filter.Eventually.of_forall fun y => by ring)),
      ((lin b' (a' * P + c') t).congr_of_eventuallyEq (Filter.Eventually.of_forall fun y => by ring))⟩)
  obtain ⟨⟨_, _, h1⟩, ⟨_, _, h2⟩, ⟨_, _, _, h3⟩, ⟨_, _, _, h4⟩⟩ := h
  have ext : ∀ d : PTDer ℝ, d.drdP_T = a → d.dedP_T = a' → d.drdT_P = b → d.dedT_P = b' → d = ⟨a', a, b', b⟩ := by
    rintro ⟨_, _, _, _⟩ h1 h2 h3 h4
    simp_all
  exact ext _ h1 h2 h3 h4

/-- C72 is violated in the base class: the incoming density of the first inversion is uninitialised memory,
and when the inversion uses it as a guess the derivative depends on it. -/
theorem C72_uninitialised_guess_violated :
    ∃ (inv : ℚ → ℚ → ℚ × ℚ → ℚ × ℚ) (u u' : ℚ × ℚ),
      (ptdFD 0 (1 / 10 ^ 9) (1 / 10 ^ 6) inv u 1 1 1 1).drdP_T
        ≠ (ptdFD 0 (1 / 10 ^ 9) (1 / 10 ^ 6) inv u' 1 1 1 1).drdP_T :=
  ⟨fun _ _ g => g, (0, 0), (1, 1), by norm_num [ptdFD, ratio, sgn]⟩

end fd

/-! ## Minimum internal energy -/

section minE
variable {K Λ : Type*} [Field K] [LinearOrder K] [IsStrictOrderedRing K]

/-- C52: the default `MinInternalEnergyFromDensity` is the least energy of the isochore when the energy
does not decrease with temperature and does not depend on the lambda: it is a lower bound over all
temperatures `T ≥ 0`, and it is attained. -/
theorem C52_min_energy (q : Q → Λ → K → K → K) (l0 l : Λ) (r : K)
    (hm : ∀ T T', 0 ≤ T → T ≤ T' → q .eRT l r T ≤ q .eRT l r T')
    (hl : ∀ T, q .eRT l0 r T = q .eRT l r T) :
    (∀ T, 0 ≤ T → minE q l0 l r ≤ q .eRT l r T) ∧ (∃ T, 0 ≤ T ∧ minE q l0 l r = q .eRT l r T) := by
  simp only [minE, hl]
  exact ⟨fun T hT => hm 0 T le_rfl hT, 0, le_rfl, rfl⟩

/-- C52: an ideal-gas-like energy meets the hypotheses. -/
example : (∀ T T' : ℚ, 0 ≤ T → T ≤ T' → (fun (_ : Q) (_ : Unit) (_ T : ℚ) => 2 * T) .eRT () 1 T
    ≤ (fun (_ : Q) (_ : Unit) (_ T : ℚ) => 2 * T) .eRT () 1 T') := by
  intro T T' _ h; dsimp only; linarith

/-- C52 is violated for an EOS whose energy depends on the lambda: the lambda passed by the caller is
ignored, and the value returned is above an energy the EOS takes at that density and lambda. -/
theorem C52_min_energy_lambda_violated :
    ∃ (q : Q → ℚ → ℚ → ℚ → ℚ) (l0 l r T : ℚ), 0 ≤ T ∧
      (∀ x y z w : ℚ, z ≤ w → q .eRT x y z ≤ q .eRT x y w) ∧ q .eRT l r T < minE q l0 l r :=
  ⟨fun _ l _ T => T - l, 0, 5, 1, 1, by norm_num, fun x y z w h => by dsimp only; linarith,
    by norm_num [minE]⟩

end minE

/-! ## Gibbs free energy -/

section gibbs
variable {K : Type*} [Field K] [LinearOrder K]

/-- C73: the two Gibbs queries agree along `e = e(rho,T)`. -/
theorem C73_gibbs_twin (q : Q → K → K → K) (r T : K) (h : RoundTripT q r T) :
    gibbsRE q r (q .eRT r T) = gibbsRT q r T := by
  simp only [gibbsRE, gibbsRT]
  rw [h]

/-- C73: `G` is `e + P/rho - T S` and satisfies `dG = -S dT + dP/rho`: for every EOS whose energy, pressure,
heat capacity and entropy satisfy the first law, along a temperature change at constant density
`dG/dT = -S + (dP/dT)/rho`, and along a density change at constant temperature `dG/drho = (dP/drho)/rho`. -/
theorem C73_gibbs_first_law (q : Q → ℝ → ℝ → ℝ) (r T PT Pr : ℝ) (hr : r ≠ 0) (hT : T ≠ 0)
    (hcv : HeatCapacity q r T) (hS : EntropyT q r T)
    (hPT : HasDerivAt (fun t => q .pRT r t) PT T) (hPr : HasDerivAt (fun x => q .pRT x T) Pr r)
    (hSr : HasDerivAt (fun x => q .sRT x T) (-PT / r ^ 2) r)
    (hEr : HasDerivAt (fun x => q .eRT x T) ((q .pRT r T - T * PT) / r ^ 2) r) :
    HasDerivAt (fun t => gibbsRT q r t) (-q .sRT r T + PT / r) T ∧
    HasDerivAt (fun x => gibbsRT q x T) (Pr / r) r := by
  constructor
  · have h := ((hcv.add (hPT.div_const r)).sub ((hasDerivAt_id T).mul hS))
    refine (h.congr_deriv ?_).congr_of_eventuallyEq (Filter.Eventually.of_forall fun t => rfl)
    simp only [id]
    field_simp
    ring
  · have h := ((hEr.add (hPr.div (hasDerivAt_id r) hr)).sub (hSr.const_mul T))
    refine (h.congr_deriv ?_).congr_of_eventuallyEq (Filter.Eventually.of_forall fun t => rfl)
    simp only [id]
    field_simp
    ring

end gibbs

end Verif.Base
