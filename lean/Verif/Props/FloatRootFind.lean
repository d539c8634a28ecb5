import Verif.Lemmas.FloatRootFind
import Verif.Props.FloatSum
import Verif.Props.RootFind

/-! # C134: `regula_falsi` in floating-point arithmetic

C08 and C09 say that in exact arithmetic the root reported lies in the caller's interval when that interval brackets the target.
Here every operation is rounded. -/

namespace Verif

open RootFind Rounding

/-- Auxiliary to C134 (`Q` a bound of the powers). If no operation loses more than a relative error `u ≤ 1/16` (no overflow or underflow), the computed residual changes
sign over `[a,b]` and does not vanish exactly at `a` or at the guess, then `regula_falsi` stops within 1000 iterations and the
root reported is in `[a,b]` up to `Q - 1` times the size of the interval's ends, whatever the function. -/
theorem RootFind.root_near_aux {u : ℝ} {rnd : ℝ → ℝ} (hr : ∀ x, |rnd x - x| ≤ u * |x|) (hu0 : 0 ≤ u)
    (hu : u ≤ 1 / 16) (f : ℝ → ℝ) (yt guess a b xtol ytol : ℝ) (hx : 0 ≤ xtol) (hy : 0 ≤ ytol) (h1 : a ≤ guess) (h2 : guess ≤ b)
    (hbr : rnd (f a - yt) * rnd (f b - yt) ≤ 0) (ha : rnd (f a - yt) ≠ 0) (hg : rnd (f guess - yt) ≠ 0) {Q : ℝ}
    (hpow : ∀ k ≤ 1000, (1 + 5 * u) ^ k * (1 + 5 * u) ≤ Q) :
    ∃ st x, regulaFalsiFl rnd 1001 f yt guess a b xtol ytol = some ⟨st, some x⟩ ∧
      a - (Q - 1) * max |a| |b| ≤ x ∧ x ≤ b + (Q - 1) * max |a| |b| := by
  set M := max |a| |b| with hM
  have hM0 : 0 ≤ M := (abs_nonneg a).trans (le_max_left _ _)
  have hu1 : u < 1 := by linarith
  have hlo : |a| ≤ M := le_max_left _ _
  have hhi : |b| ≤ M := le_max_right _ _
  -- a bracket within `[a,b]` whose first residual is not zero
  obtain ⟨br, hib, hb1, hb2, hb3, hb4, hb5⟩ : ∃ br : Br ℝ,
      initBracketFl rnd (fun x => rnd (f x - yt)) guess a b = some br ∧ a ≤ br.a ∧ br.a ≤ b ∧ (a ≤ br.b ∧ br.b ≤ b) ∧
        br.ya ≠ 0 ∧ br.ya * br.yb ≤ 0 := by
    unfold initBracketFl checkBracketFl
    dsimp only
    by_cases hc : rnd (rnd (f a - yt) * rnd (f guess - yt)) ≤ 0
    · exact ⟨_, if_pos (by simpa using hc), le_rfl, h1.trans h2, ⟨h1, h2⟩, ha, (rnd_nonpos_iff hr hu1).mp hc⟩
    · have hgb : rnd (f guess - yt) * rnd (f b - yt) ≤ 0 := by
        have hpos : 0 < rnd (f a - yt) * rnd (f guess - yt) := by
          by_contra hcc
          exact hc ((rnd_nonpos_iff hr hu1).mpr (not_lt.mp hcc))
        by_contra hcc
        have hcc := not_le.mp hcc
        have h3 := mul_pos hpos hcc
        have hg2 : 0 < rnd (f guess - yt) ^ 2 := by positivity
        nlinarith
      refine ⟨_, (if_neg (by simpa using hc)).trans (if_pos (by simpa using (rnd_nonpos_iff hr hu1).mpr hgb)), h1, h2,
        ⟨h1.trans h2, le_rfl⟩, hg, hgb⟩
  have hd0 : Drift u a b M (rfStartFl rnd br).2 := by
    unfold rfStartFl
    dsimp only
    refine ⟨Nat.zero_le _, ?_, ?_, ?_, ?_, ?_, ?_⟩
    · refine rnd_nonpos hr hu1.le ?_
      split_ifs with hs
      · linarith
      · have := not_lt.mp hs
        linarith
    · refine rnd_nonneg hr hu1.le ?_
      split_ifs with hs
      · nlinarith
      · have : 0 < br.ya := lt_of_le_of_ne (not_lt.mp hs) (Ne.symm hb4)
        nlinarith
    all_goals
      dsimp only
      rw [pow_zero, sub_self, zero_mul]
      linarith [hb3.1, hb3.2]
  obtain ⟨s, hs1, hs2, -⟩ := rfLoopFl_drift (sign := (rfStartFl rnd br).1) hr hu0 hu hlo hhi hx hy (fun x => rnd (f x - yt))
    1001 _ hd0 (Or.inl (by omega))
  refine ⟨if s.iter = 1000 then .fail else .success, rnd (1 / 2 * rnd (s.a + s.b)), ?_, ?_, ?_⟩
  · unfold regulaFalsiFl
    dsimp only
    rw [hib]
    dsimp only
    rw [hs1]
  all_goals
    obtain ⟨hA, hB⟩ := hs2.abs_le hlo hhi
    obtain ⟨hit, -, -, d1, d2, d3, d4⟩ := hs2
    set P := (1 + 5 * u) ^ s.iter with hP
    have hp := hpow s.iter hit
    have hPM : 0 ≤ P * M := by positivity
    have hsum : |s.a + s.b| ≤ 2 * (P * M) := (abs_add_le _ _).trans (by linarith)
    have e1 := hr (s.a + s.b)
    have e2 := hr (1 / 2 * rnd (s.a + s.b))
    have e3 : u * |s.a + s.b| ≤ u * (2 * (P * M)) := mul_le_mul_of_nonneg_left hsum hu0
    have e4 : |1 / 2 * rnd (s.a + s.b)| ≤ (1 + u) * (P * M) := by
      rw [abs_mul, abs_of_pos (by norm_num : (0 : ℝ) < 1 / 2)]
      have : |rnd (s.a + s.b)| ≤ |s.a + s.b| + |rnd (s.a + s.b) - (s.a + s.b)| := by
        have := abs_add_le (s.a + s.b) (rnd (s.a + s.b) - (s.a + s.b))
        rwa [add_sub_cancel] at this
      linarith
    have e5 : u * |1 / 2 * rnd (s.a + s.b)| ≤ u * ((1 + u) * (P * M)) := mul_le_mul_of_nonneg_left e4 hu0
    have e6 : u * ((1 + u) * (P * M)) ≤ 2 * u * (P * M) := by
      have : u * (P * M) * u ≤ u * (P * M) * 1 := mul_le_mul_of_nonneg_left (by linarith) (by positivity)
      nlinarith
    have e7 : (P * (1 + 5 * u)) * M ≤ Q * M := mul_le_mul_of_nonneg_right hp hM0
    have e8 : (P * (1 + 5 * u)) * M = P * M + 5 * u * (P * M) := by ring
    have hq : 0 ≤ u * (P * M) := by positivity
    have a1 := abs_le.mp e1
    have a2 := abs_le.mp e2
    linarith [a1.1, a1.2, a2.1, a2.2]

/-- C134: if no operation loses more than a relative error `u ≤ 1/16` (no overflow or underflow), the computed residual changes
sign over `[a,b]` and does not vanish exactly at `a` or at the guess, then `regula_falsi` stops within 1000 iterations and the
root reported is in `[a,b]` up to `(1+5u)^1001 - 1` times the size of the interval's ends, whatever the function. -/
theorem C134_root_near_interval_partial {u : ℝ} {rnd : ℝ → ℝ} (hr : ∀ x, |rnd x - x| ≤ u * |x|) (hu0 : 0 ≤ u)
    (hu : u ≤ 1 / 16) (f : ℝ → ℝ) (yt guess a b xtol ytol : ℝ) (hx : 0 ≤ xtol) (hy : 0 ≤ ytol) (h1 : a ≤ guess) (h2 : guess ≤ b)
    (hbr : rnd (f a - yt) * rnd (f b - yt) ≤ 0) (ha : rnd (f a - yt) ≠ 0) (hg : rnd (f guess - yt) ≠ 0) :
    ∃ st x, regulaFalsiFl rnd 1001 f yt guess a b xtol ytol = some ⟨st, some x⟩ ∧
      a - ((1 + 5 * u) ^ 1001 - 1) * max |a| |b| ≤ x ∧ x ≤ b + ((1 + 5 * u) ^ 1001 - 1) * max |a| |b| := by
  refine root_near_aux hr hu0 hu f yt guess a b xtol ytol hx hy h1 h2 hbr ha hg fun k hk => ?_
  rw [← pow_succ]
  exact pow_le_pow_right₀ (by linarith) (by omega)

/-- C134 for double precision: within `2^{-40}` of the size of the interval's ends. -/
theorem C134_root_near_interval_double_partial {rnd : ℝ → ℝ} (hr : ∀ x, |rnd x - x| ≤ 1 / 2 ^ 53 * |x|)
    (f : ℝ → ℝ) (yt guess a b xtol ytol : ℝ) (hx : 0 ≤ xtol) (hy : 0 ≤ ytol) (h1 : a ≤ guess) (h2 : guess ≤ b)
    (hbr : rnd (f a - yt) * rnd (f b - yt) ≤ 0) (ha : rnd (f a - yt) ≠ 0) (hg : rnd (f guess - yt) ≠ 0) :
    ∃ st x, regulaFalsiFl rnd 1001 f yt guess a b xtol ytol = some ⟨st, some x⟩ ∧
      a - 1 / 2 ^ 40 * max |a| |b| ≤ x ∧ x ≤ b + 1 / 2 ^ 40 * max |a| |b| := by
  obtain ⟨st, x, h3, h4, h5⟩ := C134_root_near_interval_partial hr (by positivity) (by norm_num) f yt guess a b xtol ytol hx hy
    h1 h2 hbr ha hg
  have hM : 0 ≤ max |a| |b| := (abs_nonneg a).trans (le_max_left _ _)
  have hp : (1 + 5 * (1 / 2 ^ 53 : ℝ)) ^ 1001 - 1 ≤ 1 / 2 ^ 40 := by
    have h4' : 4 * (((1001 : ℕ) : ℝ) * (5 * (1 / 2 ^ 53))) ≤ 1 := by norm_num
    have hb := one_add_pow_le (u := 5 * (1 / 2 ^ 53)) (n := 1001) (by norm_num) h4'
    have h6 : (0 : ℝ) < 1 - ((1001 : ℕ) : ℝ) * (5 * (1 / 2 ^ 53)) := by norm_num
    have h7 : (1 + 5 * (1 / 2 ^ 53 : ℝ)) ^ 1001 ≤ 1 / (1 - ((1001 : ℕ) : ℝ) * (5 * (1 / 2 ^ 53))) := by
      rw [le_div_iff₀ h6]
      exact hb
    refine (sub_le_sub_right h7 1).trans ?_
    norm_num
  generalize (1 + 5 * (1 / 2 ^ 53 : ℝ)) ^ 1001 = Q at h4 h5 hp
  have := mul_le_mul_of_nonneg_right hp hM
  exact ⟨st, x, h3, by linarith, by linarith⟩

/-- Rounding to nearest picks the number with a full significand within half its spacing. -/
theorem Rounding.ToNearest.eq_of_close {p : ℕ} {emin : ℤ} {rnd : ℝ → ℝ} (h : ToNearest p emin rnd) {m e : ℤ} {x : ℝ}
    (hm1 : 2 ^ p < 2 * |m|) (hm2 : |m| < 2 ^ p) (he : emin ≤ e) (hx : |x - m * (2 : ℝ) ^ e| < 2 ^ e / 2) :
    rnd x = m * (2 : ℝ) ^ e := by
  have h2e := two_zpow_pos e
  have hy : IsFloat p emin (m * (2 : ℝ) ^ e) := ⟨m, e, hm2, he, rfl⟩
  by_contra hne
  obtain ⟨k, g, hk, hg, hz⟩ := h.isFloat x
  have hfar : (2 : ℝ) ^ e ≤ |rnd x - m * 2 ^ e| := by
    rcases le_or_gt e g with heg | heg
    · obtain ⟨j, hj⟩ : Mult e (rnd x) := Mult.mono heg ⟨k, hz⟩
      have hjm : j ≠ m := fun e1 => hne (by rw [hj, e1])
      rw [hj, ← sub_mul, abs_mul, abs_of_pos h2e]
      have : 1 ≤ |j - m| := Int.one_le_abs (sub_ne_zero.mpr hjm)
      have : (1 : ℝ) ≤ |(j : ℝ) - m| := by exact_mod_cast this
      nlinarith
    · have hzb : |rnd x| ≤ 2 ^ p * 2 ^ (e - 1) := by
        rw [hz, abs_mul, abs_of_pos (two_zpow_pos g)]
        have hk' : |(k : ℝ)| < 2 ^ p := by exact_mod_cast hk
        have hpow : (2 : ℝ) ^ g ≤ 2 ^ (e - 1) := zpow_le_zpow_right₀ one_le_two (by omega)
        exact mul_le_mul hk'.le hpow (two_zpow_pos g).le (by positivity)
      have he1 : (2 : ℝ) ^ e = 2 * 2 ^ (e - 1) := by
        have := two_zpow_add 1 (e - 1)
        rw [zpow_one] at this
        rw [← this]
        congr 1
        ring
      rcases Nat.eq_zero_or_pos p with rfl | hp0
      · have : |m| < 1 := by simpa using hm2
        omega
      have hm3 : (2 : ℤ) ^ p + 2 ≤ 2 * |m| := by
        obtain ⟨q, rfl⟩ : ∃ q, p = q + 1 := ⟨p - 1, by omega⟩
        rw [pow_succ] at hm1 ⊢
        omega
      have hm3' : (2 : ℝ) ^ p + 2 ≤ 2 * |(m : ℝ)| := by exact_mod_cast hm3
      have hyb : 2 ^ p * 2 ^ (e - 1) + 2 ^ e ≤ |(m : ℝ) * 2 ^ e| := by
        rw [abs_mul, abs_of_pos h2e]
        have := two_zpow_pos (e - 1)
        rw [he1]
        nlinarith
      have := abs_sub_abs_le_abs_sub ((m : ℝ) * 2 ^ e) (rnd x)
      rw [abs_sub_comm]
      linarith
  have hn := h.nearest x _ hy
  have htri : |rnd x - m * 2 ^ e| ≤ |x - rnd x| + |x - m * 2 ^ e| := by
    have e1 : rnd x - m * 2 ^ e = -(x - rnd x) + (x - m * 2 ^ e) := by ring
    rw [e1]
    have := abs_add_le (-(x - rnd x)) (x - m * 2 ^ e)
    rwa [abs_neg] at this
  linarith

/-- The rising function of the counter-example below. -/
noncomputable def RootFind.stepUp (x : ℝ) : ℝ :=
  if x < 2476979795053773 / 2 ^ 51 then -1
  else if x = 2476979795053773 / 2 ^ 51 then 0
  else if x < 2 then 8193100498310432
  else 8193100498310433

/-- C134 fails when the function takes the target value exactly at the lower end of the interval, as here at `a = 1.1` (its
nearest double): in double precision, whatever the rule for ties, `regula_falsi` on `[1.1, 2]` with tolerances `2^{-30}` reports
SUCCESS with the root `-3686895224239692.5`, because `(a * yb) / yb` is not `a`, the test `c == a` misses, and the two residuals
no longer differ in sign. The function is non-decreasing and `a` is its exact root. -/
theorem C134_root_at_lower_end_violated {rnd : ℝ → ℝ} (hr : ToNearest 53 (-1074) rnd) :
    Monotone stepUp ∧ stepUp (2476979795053773 / 2 ^ 51) = 0 ∧
    IsFloat 53 (-1074) (2476979795053773 / 2 ^ 51) ∧ (∀ x, IsFloat 53 (-1074) (stepUp x)) ∧
    regulaFalsiFl rnd 1001 stepUp 0 2 (2476979795053773 / 2 ^ 51) 2 (1 / 2 ^ 30) (1 / 2 ^ 30) =
      some ⟨.success, some (-7373790448479385 / 2)⟩ := by
  set a : ℝ := 2476979795053773 / 2 ^ 51 with ha
  have hsa : stepUp a = 0 := by
    unfold stepUp
    rw [if_neg (lt_irrefl _), if_pos rfl]
  have hs2 : stepUp 2 = 8193100498310433 := by
    unfold stepUp
    rw [if_neg (by norm_num), if_neg (by norm_num), if_neg (lt_irrefl _)]
  have hmono : Monotone stepUp := by
    intro x y hxy
    unfold stepUp
    rcases lt_or_ge x (2476979795053773 / 2 ^ 51) with g1 | g1
    · rw [if_pos g1]
      split_ifs <;> norm_num
    · rw [if_neg (not_lt.mpr g1), if_neg (not_lt.mpr (g1.trans hxy))]
      rcases eq_or_lt_of_le g1 with g2 | g2
      · rw [if_pos g2.symm]
        split_ifs <;> norm_num
      · rw [if_neg g2.ne', if_neg (g2.trans_le hxy).ne']
        split_ifs <;> first | linarith | norm_num
  have hfl : ∀ x, IsFloat 53 (-1074) (stepUp x) := by
    intro x
    unfold stepUp
    split_ifs
    · exact ⟨-1, 0, by norm_num, by norm_num, by norm_num⟩
    · exact isFloat_zero
    · exact ⟨8193100498310432, 0, by norm_num, by norm_num, by norm_num⟩
    · exact ⟨8193100498310433, 0, by norm_num, by norm_num, by norm_num⟩
  refine ⟨hmono, hsa, ⟨2476979795053773, -51, by norm_num, by norm_num, by rw [ha]; norm_num⟩, hfl, ?_⟩
  -- the function and the first bracket
  have hfunc : (fun x => rnd (stepUp x - 0)) = stepUp := by
    funext x
    rw [sub_zero, hr.exact (hfl x)]
  have r0 : rnd 0 = 0 := hr.exact isFloat_zero
  have ex : ∀ (x : ℝ) (m e : ℤ), |m| < 2 ^ 53 → -1074 ≤ e → x = m * (2 : ℝ) ^ e → rnd x = x :=
    fun x m e h1 h2 h3 => hr.exact ⟨m, e, h1, h2, h3⟩
  have hib : initBracketFl rnd stepUp 2 a 2 = some ⟨a, 2, 0, 8193100498310433⟩ := by
    unfold initBracketFl checkBracketFl
    dsimp only
    rw [hsa, hs2, zero_mul, r0]
    simp
  have hst : rfStartFl rnd ⟨a, 2, 0, 8193100498310433⟩ = (-1, ⟨a, 2, 0, -8193100498310433, 0, 0, 0⟩) := by
    unfold rfStartFl
    dsimp only
    rw [if_neg (lt_irrefl _), zero_mul, r0, ex (8193100498310433 * -1) (-8193100498310433) 0 (by norm_num) (by norm_num) (by norm_num)]
    norm_num
  set c1 : ℝ := 4953959590107547 / 2 ^ 52 with hc1
  have htol : rnd (2 * (1 / 2 ^ 30)) = 1 / 2 ^ 29 := by
    rw [ex _ 1 (-29) (by norm_num) (by norm_num) (by norm_num)]
    norm_num
  -- the first secant is next to `a`, not `a`
  have hsec1 : rfSecantFl rnd ⟨a, 2, 0, -8193100498310433, 0, 0, 0⟩ = c1 := by
    unfold rfSecantFl
    dsimp only
    have e1 : rnd (a * -8193100498310433) = -9012410548141478 := by
      have := hr.eq_of_close (m := -4506205274070739) (e := 1) (x := a * -8193100498310433) (by norm_num) (by norm_num)
        (by norm_num) (by rw [ha, abs_lt]; constructor <;> norm_num)
      rw [this]
      norm_num
    rw [e1, mul_zero, r0, sub_zero, sub_zero,
      ex (-9012410548141478) (-4506205274070739) 1 (by norm_num) (by norm_num) (by norm_num),
      ex (-8193100498310433) (-8193100498310433) 0 (by norm_num) (by norm_num) (by norm_num)]
    have := hr.eq_of_close (m := 4953959590107547) (e := -52) (x := -9012410548141478 / -8193100498310433) (by norm_num)
      (by norm_num) (by norm_num) (by rw [abs_lt]; constructor <;> norm_num)
    rw [this, hc1]
    norm_num
  have hsc1 : stepUp c1 = 8193100498310432 := by
    unfold stepUp
    rw [if_neg (by rw [hc1]; norm_num), if_neg (by rw [hc1]; norm_num), if_pos (by rw [hc1]; norm_num)]
  have hb1 : rfBodyFl rnd stepUp (-1) ⟨a, 2, 0, -8193100498310433, 0, 0, 0⟩ =
      ⟨c1, 2, -8193100498310432, -8193100498310433, 0, 1, 1⟩ := by
    unfold rfBodyFl
    dsimp only
    rw [hsec1, hsc1, if_neg (by rw [hc1, ha]; norm_num), if_neg (by rw [hc1]; norm_num),
      ex (-1 * 8193100498310432) (-8193100498310432) 0 (by norm_num) (by norm_num) (by norm_num),
      if_neg (by norm_num), if_pos (by norm_num), if_neg (by norm_num),
      ex (-8193100498310433 * 1) (-8193100498310433) 0 (by norm_num) (by norm_num) (by norm_num)]
    norm_num
  have hsec2 : rfSecantFl rnd ⟨c1, 2, -8193100498310432, -8193100498310433, 0, 1, 1⟩ = -7373790448479386 := by
    unfold rfSecantFl
    dsimp only
    have e1 : rnd (c1 * -8193100498310433) = -9012410548141478 := by
      have := hr.eq_of_close (m := -4506205274070739) (e := 1) (x := c1 * -8193100498310433) (by norm_num) (by norm_num)
        (by norm_num) (by rw [hc1, abs_lt]; constructor <;> norm_num)
      rw [this]
      norm_num
    rw [e1, ex (2 * -8193100498310432) (-8193100498310432) 1 (by norm_num) (by norm_num) (by norm_num),
      ex (-9012410548141478 - 2 * -8193100498310432) 7373790448479386 0 (by norm_num) (by norm_num) (by norm_num),
      ex (-8193100498310433 - -8193100498310432) (-1) 0 (by norm_num) (by norm_num) (by norm_num),
      ex _ (-7373790448479386) 0 (by norm_num) (by norm_num) (by norm_num)]
    norm_num
  have hsc2 : stepUp (-7373790448479386) = -1 := by
    unfold stepUp
    rw [if_pos (by norm_num)]
  have hb2 : rfBodyFl rnd stepUp (-1) ⟨c1, 2, -8193100498310432, -8193100498310433, 0, 1, 1⟩ =
      ⟨c1, -7373790448479386, -8193100498310432, 1, 1, 0, 2⟩ := by
    unfold rfBodyFl
    dsimp only
    rw [hsec2, hsc2, if_neg (by rw [hc1]; norm_num), if_neg (by norm_num),
      ex (-1 * -1) 1 0 (by norm_num) (by norm_num) (by norm_num),
      if_pos (by norm_num), if_neg (by norm_num),
      ex (-8193100498310432 * 1) (-8193100498310432) 0 (by norm_num) (by norm_num) (by norm_num)]
    norm_num
  have hl : rfLoopFl rnd stepUp (-1) (1 / 2 ^ 30) (1 / 2 ^ 30) 1001 ⟨a, 2, 0, -8193100498310433, 0, 0, 0⟩ =
      some ⟨c1, -7373790448479386, -8193100498310432, 1, 1, 0, 2⟩ := by
    have k1 : rfCondFl rnd (1 / 2 ^ 30) (1 / 2 ^ 30) ⟨a, 2, 0, -8193100498310433, 0, 0, 0⟩ := by
      refine ⟨?_, Or.inr ?_, by norm_num⟩
      · dsimp only
        rw [htol, ex (2 - a) 2026619832316723 (-51) (by norm_num) (by norm_num) (by rw [ha]; norm_num), ha]
        norm_num
      · dsimp only
        rw [abs_of_neg (by norm_num)]
        norm_num
    have k2 : rfCondFl rnd (1 / 2 ^ 30) (1 / 2 ^ 30) ⟨c1, 2, -8193100498310432, -8193100498310433, 0, 1, 1⟩ := by
      refine ⟨?_, Or.inr ?_, by norm_num⟩
      · dsimp only
        rw [htol, ex (2 - c1) 4053239664633445 (-52) (by norm_num) (by norm_num) (by rw [hc1]; norm_num), hc1]
        norm_num
      · dsimp only
        rw [abs_of_neg (by norm_num)]
        norm_num
    have k3 : ¬rfCondFl rnd (1 / 2 ^ 30) (1 / 2 ^ 30) ⟨c1, -7373790448479386, -8193100498310432, 1, 1, 0, 2⟩ := by
      rintro ⟨hk, -, -⟩
      dsimp only at hk
      have := hr.eq_of_close (m := -7373790448479387) (e := 0) (x := -7373790448479386 - c1) (by norm_num) (by norm_num)
        (by norm_num) (by rw [hc1, abs_lt]; constructor <;> norm_num)
      rw [this, htol] at hk
      norm_num at hk
    rw [rfLoopFl, if_pos k1, hb1, rfLoopFl, if_pos k2, hb2, rfLoopFl, if_neg k3]
  unfold regulaFalsiFl
  dsimp only
  rw [hfunc, hib]
  dsimp only
  rw [hst]
  dsimp only
  rw [hl]
  dsimp only
  have e1 := hr.eq_of_close (m := -7373790448479385) (e := 0) (x := c1 + -7373790448479386) (by norm_num) (by norm_num)
    (by norm_num) (by rw [hc1, abs_lt]; constructor <;> norm_num)
  rw [e1, if_neg (by norm_num), ex (1 / 2 * (((-7373790448479385 : ℤ) : ℝ) * 2 ^ (0 : ℤ))) (-7373790448479385) (-1) (by norm_num)
    (by norm_num) (by norm_num)]
  norm_num

/-- The hypotheses of `C134_root_near_interval_double_partial` are met by exact arithmetic and by every rounding to nearest
without a smallest number; e.g. `x^2 = 2` on `[1,2]`. -/
example : ∃ st x, regulaFalsiFl (fun x => x) 1001 (fun x => x ^ 2) 2 (3 / 2) 1 2 (1 / 100) (1 / 100) = some ⟨st, some x⟩ ∧
    1 - 1 / 2 ^ 40 * max |(1 : ℝ)| |2| ≤ x ∧ x ≤ 2 + 1 / 2 ^ 40 * max |(1 : ℝ)| |2| :=
  C134_root_near_interval_double_partial (fun x => by rw [sub_self, abs_zero]; positivity) _ _ _ _ _ _ _ (by norm_num)
    (by norm_num) (by norm_num) (by norm_num) (by norm_num) (by norm_num) (by norm_num)

end Verif
