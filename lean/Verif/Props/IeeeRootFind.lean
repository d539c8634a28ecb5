import Verif.Model.IeeeRootFind
import Verif.Lemmas.IeeeMono
import Verif.Spec.Damped

/-! # C146: the root finders on machine numbers

C08-C11 are about exact arithmetic and functions that always have a value. Here the numbers are doubles, and the callable may return
NaN or an infinity. -/

namespace Verif

open Ieee Rounding RootFind Classical

namespace Ieee

variable {rnd : ℝ → ℝ}

theorem ofReal_exact (h : Dbl rnd) {x : ℝ} (hf : IsFloat 53 (-1074) x) (hm : |x| ≤ maxDouble) :
    ofReal rnd maxDouble x = .fin x := by
  unfold ofReal
  rw [h.exact hf, if_neg (not_lt.2 hm)]

/-- Dyadic numbers of moderate size are exact. -/
theorem ofReal_dy (h : Dbl rnd) {x : ℝ} (m : ℤ) (k : ℕ) (hx : x = m / 2 ^ k) (hm : |m| < 2 ^ 53) (hk : k ≤ 1074) :
    ofReal rnd maxDouble x = .fin x := by
  refine ofReal_exact h ⟨m, -(k : ℤ), hm, by omega, ?_⟩ ?_
  · rw [hx, zpow_neg, zpow_natCast]; rfl
  · have h1 : |(m : ℝ)| ≤ 2 ^ 53 := by
      rw [← Int.cast_abs]
      exact_mod_cast hm.le
    have h2 : (1 : ℝ) ≤ 2 ^ k := one_le_pow₀ one_le_two
    rw [hx, abs_div, abs_of_pos (by positivity : (0 : ℝ) < 2 ^ k)]
    calc |(m : ℝ)| / 2 ^ k ≤ |(m : ℝ)| / 1 := div_le_div_of_nonneg_left (abs_nonneg _) one_pos h2
      _ ≤ 2 ^ 53 := by rw [div_one]; exact h1
      _ ≤ 2 ^ 100 := by norm_num
      _ ≤ _ := maxDouble_large

theorem sub_self_not (h : Dbl rnd) {xtol : Ext} (hx : ¬ lt xtol (.fin 0)) (a : Ext) :
    ¬ lt (mul rnd maxDouble (.fin 2) xtol) (sub rnd maxDouble a a) := by
  have h0 : ofReal rnd maxDouble 0 = .fin 0 := ofReal_dy h 0 0 (by norm_num) (by norm_num) (by norm_num)
  have hs : sub rnd maxDouble a a = .nan ∨ sub rnd maxDouble a a = .fin 0 := by
    rcases a with _ | s | x
    · exact Or.inl rfl
    · left; cases s <;> simp [sub, neg, add]
    · right; simp only [sub, neg, add, add_neg_cancel]; exact h0
  rcases hs with e | e <;> rw [e]
  · cases mul rnd maxDouble (.fin 2) xtol <;> simp [lt]
  · rcases xtol with _ | s | x
    · simp [mul, lt]
    · cases s
      · simp [mul, lt]
      · exact absurd (by simp [lt]) hx
    · have hx0 : 0 ≤ x := not_lt.1 hx
      have : 0 ≤ rnd (2 * x) := Ieee.rnd_nonneg h (by linarith)
      simp only [mul, ofReal]
      split_ifs with hc
      · simp only [lt, decide_eq_true_eq, not_lt]; linarith
      · simpa [lt] using this

theorem rfBodyE_iter (func : Ext → Ext) (sign : Ext) (s : RF Ext) :
    (rfBodyE rnd maxDouble func sign s).iter = s.iter + 1 ∨ (rfBodyE rnd maxDouble func sign s).a = (rfBodyE rnd maxDouble func sign s).b := by
  unfold rfBodyE
  dsimp only
  split_ifs
  · exact Or.inr rfl
  · exact Or.inr rfl
  all_goals exact Or.inl rfl

theorem rfLoopE_stops (h : Dbl rnd) (func : Ext → Ext) (sign xtol ytol : Ext) (hx : ¬ lt xtol (.fin 0)) : ∀ (n : Nat) (s : RF Ext),
    1000 - s.iter < n → ∃ t, rfLoopE rnd maxDouble func sign xtol ytol n s = some t := by
  intro n
  induction n with
  | zero => intro s hs; omega
  | succ n ih =>
    intro s hs
    unfold rfLoopE
    split_ifs with hc
    · rcases rfBodyE_iter (rnd := rnd) func sign s with e | e
      · refine ih _ ?_
        have := hc.2.2
        rw [e]; omega
      · have hn : ¬ rfCondE rnd maxDouble xtol ytol (rfBodyE rnd maxDouble func sign s) := fun hh =>
          sub_self_not h hx _ (by have := hh.1; rwa [e] at this)
        cases n <;> exact ⟨_, by rw [rfLoopE, if_neg hn]⟩
    · exact ⟨_, rfl⟩

end Ieee

/-- C146: `regula_falsi` stops within 1000 iterations whatever the function returns, NaN and infinities included, and whatever the
other arguments are, as long as the tolerance in `x` is not negative. -/
theorem C146_regula_falsi_terminates {rnd : ℝ → ℝ} (h : ToNearest 53 (-1074) rnd) (f : Ext → Ext) (yt guess a b xtol ytol : Ext)
    (hx : ¬ lt xtol (.fin 0)) : ∃ r, regulaFalsiE rnd maxDouble 1001 f yt guess a b xtol ytol = some r := by
  unfold regulaFalsiE
  dsimp only
  rcases initBracketE rnd maxDouble (fun x => sub rnd maxDouble (f x) yt) guess a b with _ | br
  · exact ⟨_, rfl⟩
  · obtain ⟨t, ht⟩ := rfLoopE_stops h (fun x => sub rnd maxDouble (f x) yt) (rfStartE rnd maxDouble br).1 xtol ytol hx 1001
      (rfStartE rnd maxDouble br).2 (by simp [rfStartE])
    exact ⟨_, by dsimp only; rw [ht]⟩

/-- C146 is violated for a negative tolerance: `regula_falsi` on `f(x) = x` between `0` and `1` never stops. (When the secant point
is an end of the interval the pass is not counted.) -/
theorem C146_regula_falsi_hangs_violated {rnd : ℝ → ℝ} (h : ToNearest 53 (-1074) rnd) (fuel : Nat) :
    regulaFalsiE rnd maxDouble fuel id (.fin 0) (.fin 1) (.fin 0) (.fin 1) (.fin (-1)) (.fin 0) = none := by
  have c0 : ofReal rnd maxDouble 0 = .fin 0 := ofReal_dy h 0 0 (by norm_num) (by norm_num) (by norm_num)
  have c1 : ofReal rnd maxDouble 1 = .fin 1 := ofReal_dy h 1 0 (by norm_num) (by norm_num) (by norm_num)
  have c2 : ofReal rnd maxDouble (-1) = .fin (-1) := ofReal_dy h (-1) 0 (by norm_num) (by norm_num) (by norm_num)
  have c3 : ofReal rnd maxDouble (-2) = .fin (-2) := ofReal_dy h (-2) 0 (by norm_num) (by norm_num) (by norm_num)
  have hib : initBracketE rnd maxDouble (fun x => sub rnd maxDouble (id x) (.fin 0)) (.fin 1) (.fin 0) (.fin 1)
      = some ⟨.fin 0, .fin 1, .fin 0, .fin 1⟩ := by
    unfold initBracketE checkBracketE
    simp [sub, neg, add, mul, c0, c1, le]
  have hst : rfStartE rnd maxDouble ⟨.fin 0, .fin 1, .fin 0, .fin 1⟩ = (.fin (-1), ⟨.fin 0, .fin 1, .fin 0, .fin (-1), 0, 0, 0⟩) := by
    unfold rfStartE
    simp [lt, mul, c0, c2]
  -- the two states it goes through
  have key : ∀ b : ℝ, (b = 0 ∨ b = 1) →
      let s : RF Ext := ⟨.fin 0, .fin b, .fin 0, .fin (-1), 0, 0, 0⟩
      rfCondE rnd maxDouble (.fin (-1)) (.fin 0) s ∧
        rfBodyE rnd maxDouble (fun x => sub rnd maxDouble (id x) (.fin 0)) (.fin (-1)) s = ⟨.fin 0, .fin 0, .fin 0, .fin (-1), 0, 0, 0⟩ := by
    intro b hb s
    have cb : ofReal rnd maxDouble b = .fin b := by rcases hb with rfl | rfl; exacts [c0, c1]
    constructor
    · refine ⟨?_, Or.inr ?_, by norm_num [s]⟩
      · have : (-2 : ℝ) < b := by rcases hb with rfl | rfl <;> norm_num
        simp only [s, mul, sub, neg, add, neg_zero, add_zero, cb, show (2 : ℝ) * -1 = -2 by norm_num, c3, lt, this]
      · simp [s, absE, lt]
    · have hc : rfSecantE rnd maxDouble s = .fin 0 := by
        simp [rfSecantE, s, mul, sub, neg, add, c0, c2, div]
      unfold rfBodyE
      dsimp only
      rw [hc, if_pos ⟨by simp, rfl⟩]
  have hloop : ∀ n, ∀ b : ℝ, (b = 0 ∨ b = 1) →
      rfLoopE rnd maxDouble (fun x => sub rnd maxDouble (id x) (.fin 0)) (.fin (-1)) (.fin (-1)) (.fin 0) n
        ⟨.fin 0, .fin b, .fin 0, .fin (-1), 0, 0, 0⟩ = none := by
    intro n
    induction n with
    | zero => intro b hb; rw [rfLoopE, if_pos (key b hb).1]
    | succ n ih => intro b hb; rw [rfLoopE, if_pos (key b hb).1, (key b hb).2]; exact ih 0 (Or.inl rfl)
  unfold regulaFalsiE
  dsimp only
  rw [hib]
  dsimp only
  rw [hst, hloop fuel 1 (Or.inr rfl)]

/-- C146 is violated: a NaN is taken for a root. With values `-1` at `0`, `1` at `1` and NaN at `1/2`, `regula_falsi` reports SUCCESS
and the root `1/2`. -/
theorem C146_regula_falsi_nan_violated {rnd : ℝ → ℝ} (h : ToNearest 53 (-1074) rnd) (f : Ext → Ext) (h0 : f (.fin 0) = .fin (-1))
    (h1 : f (.fin 1) = .fin 1) (hn : f (.fin (1 / 2)) = .nan) :
    regulaFalsiE rnd maxDouble 1001 f (.fin 0) (.fin 1) (.fin 0) (.fin 1) (.fin 0) (.fin 0) = some ⟨.success, some (.fin (1 / 2))⟩ := by
  have c0 : ofReal rnd maxDouble 0 = .fin 0 := ofReal_dy h 0 0 (by norm_num) (by norm_num) (by norm_num)
  have c1 : ofReal rnd maxDouble 1 = .fin 1 := ofReal_dy h 1 0 (by norm_num) (by norm_num) (by norm_num)
  have c2 : ofReal rnd maxDouble (-1) = .fin (-1) := ofReal_dy h (-1) 0 (by norm_num) (by norm_num) (by norm_num)
  have c3 : ofReal rnd maxDouble 2 = .fin 2 := ofReal_dy h 2 0 (by norm_num) (by norm_num) (by norm_num)
  have c4 : ofReal rnd maxDouble (1 / 2) = .fin (1 / 2) := ofReal_dy h 1 1 (by norm_num) (by norm_num) (by norm_num)
  set func : Ext → Ext := fun x => sub rnd maxDouble (f x) (.fin 0) with hfunc
  have f0 : func (.fin 0) = .fin (-1) := by simp [hfunc, h0, sub, neg, add, c2]
  have f1 : func (.fin 1) = .fin 1 := by simp [hfunc, h1, sub, neg, add, c1]
  have fn : func (.fin (1 / 2)) = .nan := by simp only [hfunc, hn, sub, add]
  have hib : initBracketE rnd maxDouble func (.fin 1) (.fin 0) (.fin 1) = some ⟨.fin 0, .fin 1, .fin (-1), .fin 1⟩ := by
    unfold initBracketE checkBracketE
    simp [f0, f1, mul, c2, le]
  have hst : rfStartE rnd maxDouble ⟨.fin 0, .fin 1, .fin (-1), .fin 1⟩ = (.fin 1, ⟨.fin 0, .fin 1, .fin (-1), .fin 1, 0, 0, 0⟩) := by
    unfold rfStartE
    simp [lt, mul, c1, c2]
  have hc1 : rfCondE rnd maxDouble (.fin 0) (.fin 0) ⟨.fin 0, .fin 1, .fin (-1), .fin 1, 0, 0, 0⟩ := by
    refine ⟨?_, Or.inl ?_, by norm_num⟩
    · simp [mul, sub, neg, add, c0, c1, lt]
    · simp [absE, lt]
  have hsec : rfSecantE rnd maxDouble ⟨.fin 0, .fin 1, .fin (-1), .fin 1, 0, 0, 0⟩ = .fin (1 / 2) := by
    simp only [rfSecantE, mul, sub, neg, add]
    simp only [show (0 : ℝ) * 1 = 0 by norm_num, show (1 : ℝ) * -1 = -1 by norm_num, c0, c2, show (1 : ℝ) + - -1 = 2 by norm_num,
      show (0 : ℝ) + - -1 = 1 by norm_num, c1, c3, div, two_ne_zero, if_false, c4]
  have hb : rfBodyE rnd maxDouble func (.fin 1) ⟨.fin 0, .fin 1, .fin (-1), .fin 1, 0, 0, 0⟩
      = ⟨.fin (1 / 2), .fin (1 / 2), .fin (-1), .fin 1, 0, 0, 1⟩ := by
    unfold rfBodyE
    dsimp only
    rw [hsec, fn, if_neg (by rintro ⟨-, e⟩; norm_num [Ext.fin.injEq] at e), if_neg (by rintro ⟨-, e⟩; norm_num [Ext.fin.injEq] at e)]
    simp [mul, lt]
  have hc2 : ¬ rfCondE rnd maxDouble (.fin 0) (.fin 0) ⟨.fin (1 / 2), .fin (1 / 2), .fin (-1), .fin 1, 0, 0, 1⟩ := fun hh =>
    sub_self_not h (xtol := .fin 0) (by simp [lt]) _ hh.1
  unfold regulaFalsiE
  dsimp only
  rw [← hfunc, hib]
  dsimp only
  rw [hst]
  dsimp only
  rw [rfLoopE, if_pos hc1, hb, rfLoopE, if_neg hc2]
  dsimp only
  simp only [add, mul, show (1 / 2 : ℝ) + 1 / 2 = 1 by norm_num, c1, mul_one, c4]
  simp

/-- C146 is violated: residuals whose product underflows pass for a sign change. For the constant residual `2^-1000`, which has no
root, `regula_falsi` between `0` and `1` reports SUCCESS and the root `+inf`. -/
theorem C146_regula_falsi_underflow_violated {rnd : ℝ → ℝ} (h : ToNearest 53 (-1074) rnd) :
    regulaFalsiE rnd maxDouble 1001 (fun _ => .fin (1 / 2 ^ 1000)) (.fin 0) (.fin 1) (.fin 0) (.fin 1) (.fin 0) (.fin 0)
      = some ⟨.success, some (.inf false)⟩ := by
  set t : ℝ := 1 / 2 ^ 1000 with ht
  have tp : 0 < t := by rw [ht]; positivity
  have c0 : ofReal rnd maxDouble 0 = .fin 0 := ofReal_dy h 0 0 (by norm_num) (by norm_num) (by norm_num)
  have ct : ofReal rnd maxDouble t = .fin t := ofReal_dy h 1 1000 (by rw [ht]; norm_num) (by norm_num) (by norm_num)
  have c1 : ofReal rnd maxDouble 1 = .fin 1 := ofReal_dy h 1 0 (by norm_num) (by norm_num) (by norm_num)
  have cn : ofReal rnd maxDouble (-t) = .fin (-t) := ofReal_dy h (-1) 1000 (by rw [ht]; push_cast; ring) (by norm_num) (by norm_num)
  have ctt : le (ofReal rnd maxDouble (t * t)) (.fin 0) := by
    have hz : rnd (t * t) = 0 := by
      have hn := h.nearest (t * t) 0 isFloat_zero
      rw [sub_zero] at hn
      have h2 : |t * t| = t * t := abs_of_pos (mul_pos tp tp)
      rw [h2] at hn
      have hle : rnd (t * t) ≤ 2 * (t * t) := by linarith [(abs_le.1 hn).1]
      have hge : 0 ≤ rnd (t * t) := Ieee.rnd_nonneg h (mul_pos tp tp).le
      obtain ⟨m, e, -, he, hme⟩ := h.isFloat (t * t)
      rcases eq_or_lt_of_le hge with h0 | hpos
      · exact h0.symm
      · exfalso
        have hE : (0 : ℝ) < 2 ^ e := by positivity
        have hm : (1 : ℝ) ≤ m := by
          have : (0 : ℝ) < m := by
            rw [hme] at hpos
            exact (mul_pos_iff_of_pos_right hE).1 hpos
          exact_mod_cast this
        have h3 : (2 : ℝ) ^ (-1074 : ℤ) ≤ rnd (t * t) := by
          rw [hme]
          calc (2 : ℝ) ^ (-1074 : ℤ) ≤ 2 ^ e := zpow_le_zpow_right₀ one_le_two he
            _ = 1 * 2 ^ e := (one_mul _).symm
            _ ≤ _ := mul_le_mul_of_nonneg_right hm hE.le
        have h4 : 2 * (t * t) = (2 : ℝ) ^ (-1999 : ℤ) := by
          have t' : t = (2 : ℝ) ^ (-1000 : ℤ) := by rw [ht, zpow_neg, one_div, zpow_ofNat]
          rw [t', show (-1999 : ℤ) = 1 + (-1000 + -1000) from rfl, two_zpow_add, two_zpow_add, zpow_one]
        have h5 : (2 : ℝ) ^ (-1999 : ℤ) < 2 ^ (-1074 : ℤ) := zpow_lt_zpow_right₀ one_lt_two (by norm_num)
        linarith
    unfold ofReal
    rw [hz, abs_zero, if_neg (not_lt.2 maxDouble_pos.le)]
    simp [le]
  set func : Ext → Ext := fun x => sub rnd maxDouble ((fun _ => Ext.fin t) x) (.fin 0) with hfunc
  have ff : ∀ x, func x = .fin t := fun x => by simp [hfunc, sub, neg, add, ct]
  have hib : initBracketE rnd maxDouble func (.fin 1) (.fin 0) (.fin 1) = some ⟨.fin 0, .fin 1, .fin t, .fin t⟩ := by
    unfold initBracketE checkBracketE
    simp only [ff, mul, ctt, if_true]
  have hst : rfStartE rnd maxDouble ⟨.fin 0, .fin 1, .fin t, .fin t⟩ = (.fin (-1), ⟨.fin 0, .fin 1, .fin (-t), .fin (-t), 0, 0, 0⟩) := by
    unfold rfStartE
    simp [lt, mul, cn, not_lt.2 tp.le]
  have hc1 : rfCondE rnd maxDouble (.fin 0) (.fin 0) ⟨.fin 0, .fin 1, .fin (-t), .fin (-t), 0, 0, 0⟩ := by
    refine ⟨?_, Or.inl ?_, by norm_num⟩
    · simp [mul, sub, neg, add, c0, c1, lt]
    · simp [absE, lt, tp.ne']
  have hsec : rfSecantE rnd maxDouble ⟨.fin 0, .fin 1, .fin (-t), .fin (-t), 0, 0, 0⟩ = .inf false := by
    simp [rfSecantE, mul, sub, neg, add, c0, cn, ct, div, tp.ne', not_lt.2 tp.le]
  have hb : rfBodyE rnd maxDouble func (.fin (-1)) ⟨.fin 0, .fin 1, .fin (-t), .fin (-t), 0, 0, 0⟩
      = ⟨.inf false, .fin 1, .fin (-t), .fin (-t), 0, 1, 1⟩ := by
    unfold rfBodyE
    dsimp only
    rw [hsec, ff (.inf false), if_neg (by rintro ⟨-, e⟩; simp at e), if_neg (by rintro ⟨-, e⟩; simp at e)]
    simp [mul, lt, cn, tp, not_lt.2 tp.le]
  have hc2 : ¬ rfCondE rnd maxDouble (.fin 0) (.fin 0) ⟨.inf false, .fin 1, .fin (-t), .fin (-t), 0, 1, 1⟩ := by
    rintro ⟨hh, -⟩
    simp [sub, neg, add, mul, c0, lt] at hh
  unfold regulaFalsiE
  dsimp only
  rw [← hfunc, hib]
  dsimp only
  rw [hst]
  dsimp only
  rw [rfLoopE, if_pos hc1, hb, rfLoopE, if_neg hc2]
  simp [add, mul]

/-! ## What the results mean -/

namespace Ieee

variable {rnd : ℝ → ℝ}

theorem mul_comm_ext (x y : Ext) : mul rnd maxDouble x y = mul rnd maxDouble y x := by
  rcases x with _ | s | x <;> rcases y with _ | t | y <;> simp [mul, mul_comm, Bool.xor_comm]

/-- What subtraction returns. -/
theorem sub_cases (h : Dbl rnd) (x y : Ext) : sub rnd maxDouble x y = .nan ∨ (∃ s, sub rnd maxDouble x y = .inf s) ∨
    ∃ r, sub rnd maxDouble x y = .fin r ∧ IsFloat 53 (-1074) r ∧ |r| ≤ maxDouble := by
  generalize hz : sub rnd maxDouble x y = z
  rcases z with _ | s | r
  · exact Or.inl rfl
  · exact Or.inr (Or.inl ⟨s, rfl⟩)
  · right; right
    refine ⟨r, rfl, ?_⟩
    rcases x with _ | s | x <;> rcases y with _ | t | y
    case fin.fin =>
      simp only [sub, neg, add, ofReal] at hz
      split_ifs at hz with hc
      injection hz with hz
      subst hz
      exact ⟨h.isFloat _, not_lt.1 hc⟩
    case inf.inf => simp only [sub, neg, add] at hz; split_ifs at hz
    all_goals simp [sub, neg, add] at hz

theorem IsFloat.neg' {x : ℝ} (hx : IsFloat 53 (-1074) x) : IsFloat 53 (-1074) (-x) := by
  obtain ⟨m, e, h1, h2, h3⟩ := hx
  exact ⟨-m, e, by rwa [abs_neg], h2, by rw [h3]; push_cast; ring⟩

/-- Multiplying a computed difference by `±1` changes its sign only, and is exact. -/
theorem abs_sign (h : Dbl rnd) (x y : Ext) {σ : Ext} (hσ : σ = .fin 1 ∨ σ = .fin (-1)) :
    absE (mul rnd maxDouble σ (sub rnd maxDouble x y)) = absE (sub rnd maxDouble x y) ∧
    absE (mul rnd maxDouble (sub rnd maxDouble x y) σ) = absE (sub rnd maxDouble x y) := by
  rcases sub_cases h x y with e | ⟨s, e⟩ | ⟨r, e, hf, hm⟩ <;> rw [e]
  · rcases hσ with rfl | rfl <;> exact ⟨rfl, rfl⟩
  · rcases hσ with rfl | rfl <;> simp [mul, absE]
  · have e1 : ofReal rnd maxDouble r = .fin r := ofReal_exact h hf hm
    have e2 : ofReal rnd maxDouble (-r) = .fin (-r) := ofReal_exact h (IsFloat.neg' hf) (by rwa [abs_neg])
    rcases hσ with rfl | rfl <;> simp [mul, absE, e1, e2]

theorem not_pos_abs {v : Ext} (h1 : ¬ lt (.fin 0) v) (h2 : ¬ lt v (.fin 0)) : ¬ lt (.fin 0) (absE v) := by
  rcases v with _ | s | x
  · simp [absE, lt]
  · cases s
    · exact absurd (by simp [lt]) h1
    · exact absurd (by simp [lt]) h2
  · have h1' : ¬ (0 : ℝ) < x := h1
    have h2' : ¬ x < (0 : ℝ) := h2
    have : x = 0 := le_antisymm (not_lt.1 h1') (not_lt.1 h2')
    simp [absE, lt, this]

/-- The working value of the end set last is the computed residual there, up to its sign. -/
structure FreshE (rnd : ℝ → ℝ) (sign : Ext) (func : Ext → Ext) (s : RF Ext) : Prop where
  one : s.b1 = 0 ∨ s.b2 = 0
  fa : s.b1 = 0 → absE s.ya = absE (func s.a)
  fb : s.b2 = 0 → absE s.yb = absE (func s.b)
  it : s.iter ≤ 1000
  da : Damped (fun y c => mul rnd maxDouble y (.fin c)) (mul rnd maxDouble sign (func s.a)) s.ya
  db : Damped (fun y c => mul rnd maxDouble y (.fin c)) (mul rnd maxDouble sign (func s.b)) s.yb

/-- How the interval can have collapsed to a point. -/
def CollapsedE (rnd : ℝ → ℝ) (func : Ext → Ext) (s : RF Ext) : Prop :=
  s.a = s.b ∧ (¬ lt (.fin 0) (absE (func s.a)) ∨ ∃ (t : RF Ext) (σ : Ext), (σ = .fin 1 ∨ σ = .fin (-1)) ∧
    Damped (fun y c => mul rnd maxDouble y (.fin c)) (mul rnd maxDouble σ (func t.a)) t.ya ∧
    Damped (fun y c => mul rnd maxDouble y (.fin c)) (mul rnd maxDouble σ (func t.b)) t.yb ∧
    (s.a = t.a ∨ s.a = t.b) ∧ s.a = rfSecantE rnd maxDouble t)

theorem rfBodyE_fresh (h : Dbl rnd) (f : Ext → Ext) (yt : Ext) {sign : Ext} (hsg : sign = .fin 1 ∨ sign = .fin (-1)) {s : RF Ext}
    (hit : s.iter < 1000) (hs : FreshE rnd sign (fun x => sub rnd maxDouble (f x) yt) s) :
    FreshE rnd sign (fun x => sub rnd maxDouble (f x) yt) (rfBodyE rnd maxDouble (fun x => sub rnd maxDouble (f x) yt) sign s) ∨
      CollapsedE rnd (fun x => sub rnd maxDouble (f x) yt) (rfBodyE rnd maxDouble (fun x => sub rnd maxDouble (f x) yt) sign s) := by
  unfold rfBodyE
  dsimp only
  have hab := abs_sign h (f (rfSecantE rnd maxDouble s)) yt hsg
  by_cases ca : eqE (rfSecantE rnd maxDouble s) s.a
  · rw [if_pos ca]
    exact Or.inr ⟨rfl, Or.inr ⟨s, sign, hsg, hs.da, hs.db, Or.inl rfl, ca.2.symm⟩⟩
  rw [if_neg ca]
  by_cases cb : eqE (rfSecantE rnd maxDouble s) s.b
  · rw [if_pos cb]
    exact Or.inr ⟨rfl, Or.inr ⟨s, sign, hsg, hs.da, hs.db, Or.inr rfl, cb.2.symm⟩⟩
  rw [if_neg cb]
  by_cases hp : lt (.fin 0) (mul rnd maxDouble sign (sub rnd maxDouble (f (rfSecantE rnd maxDouble s)) yt))
  · rw [if_pos hp]
    exact Or.inl ⟨Or.inr rfl, fun e => absurd e (Nat.succ_ne_zero _), fun _ => hab.1, hit,
      .step hs.da (by split_ifs <;> simp), .refl⟩
  rw [if_neg hp]
  by_cases hn : lt (mul rnd maxDouble sign (sub rnd maxDouble (f (rfSecantE rnd maxDouble s)) yt)) (.fin 0)
  · rw [if_pos hn]
    exact Or.inl ⟨Or.inl rfl, fun _ => hab.1, fun e => absurd e (Nat.succ_ne_zero _), hit, .refl, .step hs.db (by split_ifs <;> simp)⟩
  rw [if_neg hn]
  exact Or.inr ⟨rfl, Or.inl (by dsimp only; rw [← hab.1]; exact not_pos_abs hp hn)⟩

theorem rfLoopE_fresh (h : Dbl rnd) (f : Ext → Ext) (yt : Ext) {sign xtol ytol : Ext} (hx : ¬ lt xtol (.fin 0))
    (hsg : sign = .fin 1 ∨ sign = .fin (-1)) : ∀ (n : Nat) {s t : RF Ext},
    FreshE rnd sign (fun x => sub rnd maxDouble (f x) yt) s ∨ CollapsedE rnd (fun x => sub rnd maxDouble (f x) yt) s →
    rfLoopE rnd maxDouble (fun x => sub rnd maxDouble (f x) yt) sign xtol ytol n s = some t →
    (FreshE rnd sign (fun x => sub rnd maxDouble (f x) yt) t ∨ CollapsedE rnd (fun x => sub rnd maxDouble (f x) yt) t) ∧
      ¬ rfCondE rnd maxDouble xtol ytol t := by
  intro n
  induction n with
  | zero =>
    intro s t hs he
    unfold rfLoopE at he
    split_ifs at he with hc
    injection he with he; subst he; exact ⟨hs, hc⟩
  | succ n ih =>
    intro s t hs he
    unfold rfLoopE at he
    split_ifs at he with hc
    · rcases hs with hs | hs
      · exact ih (rfBodyE_fresh h f yt hsg hc.2.2 hs) he
      · exact absurd hc.1 (by rw [hs.1]; exact sub_self_not h hx _)
    · injection he with he; subst he; exact ⟨hs, hc⟩

theorem initBracketE_values {func : Ext → Ext} {guess a b : Ext} {br : Br Ext} (he : initBracketE rnd maxDouble func guess a b = some br) :
    br.ya = func br.a ∧ br.yb = func br.b := by
  have hl : ∀ n i, levelSearchE rnd maxDouble func a (sub rnd maxDouble b a) guess (func guess) i n = some br →
      br.ya = func br.a ∧ br.yb = func br.b := by
    intro n
    induction n with
    | zero => intro i hi; simp [levelSearchE] at hi
    | succ n ih =>
      intro i hi
      unfold levelSearchE at hi
      dsimp only at hi
      split_ifs at hi
      · injection hi with hi; subst hi; exact ⟨rfl, rfl⟩
      · injection hi with hi; subst hi; exact ⟨rfl, rfl⟩
      · exact ih _ hi
  have hL : ∀ n l, levelsE rnd maxDouble func a (sub rnd maxDouble b a) guess (func guess) l n = some br →
      br.ya = func br.a ∧ br.yb = func br.b := by
    intro n
    induction n with
    | zero => intro l hi; simp [levelsE] at hi
    | succ n ih =>
      intro l hi
      unfold levelsE at hi
      split at hi
      · next r hr => exact hl _ _ (hr.trans hi)
      · exact ih _ hi
  unfold initBracketE at he
  dsimp only at he
  split_ifs at he
  · injection he with he; subst he; exact ⟨rfl, rfl⟩
  · injection he with he; subst he; exact ⟨rfl, rfl⟩
  · exact hL _ _ he

end Ieee

/-- C146: what the root reported by `regula_falsi` is worth on machine numbers, for any function, also one that returns NaN or
infinities, and any arguments with a tolerance that is not negative. The root is the computed midpoint of two points `p`, `q`, and,
with `r(x)` the computed residual, either a success means that the computed distance of the two is not above `2 xtol` or the
residual at one of them is not above `ytol`; or `p = q` and `r(p)` is zero or NaN, or `p` is the computed secant point of a pair of
which it is an end, with the values `±r` there after some number of halvings. (Not above: at most, or not comparable.) -/
theorem C146_regula_falsi_stop_rule {rnd : ℝ → ℝ} (h : ToNearest 53 (-1074) rnd) (fuel : Nat) (f : Ext → Ext)
    (yt guess a b xtol ytol : Ext) (hx : ¬ lt xtol (.fin 0)) {st : Status} {x : Ext}
    (he : regulaFalsiE rnd maxDouble fuel f yt guess a b xtol ytol = some ⟨st, some x⟩) :
    ∃ p q, x = mul rnd maxDouble (.fin (1 / 2)) (add rnd maxDouble p q) ∧
      ((st = .success → ¬ lt (mul rnd maxDouble (.fin 2) xtol) (sub rnd maxDouble q p) ∨
          ¬ lt ytol (absE (sub rnd maxDouble (f p) yt)) ∨ ¬ lt ytol (absE (sub rnd maxDouble (f q) yt))) ∨
        (p = q ∧ (¬ lt (.fin 0) (absE (sub rnd maxDouble (f p) yt)) ∨
          ∃ (t : RF Ext) (σ : Ext), (σ = .fin 1 ∨ σ = .fin (-1)) ∧
            Damped (fun y c => mul rnd maxDouble y (.fin c)) (mul rnd maxDouble σ (sub rnd maxDouble (f t.a) yt)) t.ya ∧
            Damped (fun y c => mul rnd maxDouble y (.fin c)) (mul rnd maxDouble σ (sub rnd maxDouble (f t.b) yt)) t.yb ∧
            (p = t.a ∨ p = t.b) ∧ p = rfSecantE rnd maxDouble t))) := by
  unfold regulaFalsiE at he
  dsimp only at he
  rcases hib : initBracketE rnd maxDouble (fun x => sub rnd maxDouble (f x) yt) guess a b with _ | br
  · rw [hib] at he
    exact absurd he (by simp)
  rw [hib] at he
  dsimp only at he
  obtain ⟨b1, b2⟩ := initBracketE_values hib
  have hsg : (rfStartE rnd maxDouble br).1 = .fin 1 ∨ (rfStartE rnd maxDouble br).1 = .fin (-1) := by
    unfold rfStartE; dsimp only; split_ifs <;> simp
  have hst : FreshE rnd (rfStartE rnd maxDouble br).1 (fun x => sub rnd maxDouble (f x) yt) (rfStartE rnd maxDouble br).2 := by
    refine ⟨Or.inl rfl, fun _ => ?_, fun _ => ?_, Nat.zero_le _, ?_, ?_⟩
    · change absE (mul rnd maxDouble br.ya (rfStartE rnd maxDouble br).1) = _
      rw [b1]; exact (abs_sign h _ _ hsg).2
    · change absE (mul rnd maxDouble br.yb (rfStartE rnd maxDouble br).1) = _
      rw [b2]; exact (abs_sign h _ _ hsg).2
    · change Damped _ _ (mul rnd maxDouble br.ya (rfStartE rnd maxDouble br).1)
      rw [b1, mul_comm_ext]; exact .refl
    · change Damped _ _ (mul rnd maxDouble br.yb (rfStartE rnd maxDouble br).1)
      rw [b2, mul_comm_ext]; exact .refl
  rcases hl : rfLoopE rnd maxDouble (fun x => sub rnd maxDouble (f x) yt) (rfStartE rnd maxDouble br).1 xtol ytol fuel
    (rfStartE rnd maxDouble br).2 with _ | s
  · rw [hl] at he
    exact absurd he (by simp)
  rw [hl] at he
  simp only [Option.some.injEq, Res.mk.injEq] at he
  obtain ⟨he1, he2⟩ := he
  obtain ⟨hs, hc⟩ := rfLoopE_fresh h f yt hx hsg fuel (Or.inl hst) hl
  refine ⟨s.a, s.b, he2.symm, ?_⟩
  rcases hs with hs | ⟨hab, hs⟩
  · left
    intro hsucc
    have hit : s.iter ≠ 1000 := by
      intro h
      rw [if_pos h, hsucc] at he1
      exact absurd he1 (by simp)
    by_contra hcon
    push Not at hcon
    obtain ⟨c1, c2, c3⟩ := hcon
    refine hc ⟨c1, ?_, lt_of_le_of_ne hs.it hit⟩
    rcases hs.one with e | e
    · left; rw [hs.fa e]; exact c2
    · right; rw [hs.fb e]; exact c3
  · exact Or.inr ⟨hab, hs⟩

namespace Ieee

variable {rnd : ℝ → ℝ}

theorem le_of_not_lt {x y : Ext} (hx : x ≠ .nan) (hy : y ≠ .nan) (h : ¬ lt x y) : le y x := by
  rcases x with _ | s | x <;> rcases y with _ | t | y <;> simp_all [lt, le]
  all_goals cases s <;> simp_all

theorem ne_nan_of_le {x y : Ext} (h : le x y) : x ≠ .nan ∧ y ≠ .nan := by
  rcases x with _ | s | x <;> rcases y with _ | t | y <;> simp_all [le]

theorem secantStepE_bounds (f : Ext → Ext) (yt xmin xmax xtol x : Ext) (hb : le xmin xmax)
    (hn : secantStepE rnd maxDouble f yt xmin xmax xtol x ≠ .nan) :
    le xmin (secantStepE rnd maxDouble f yt xmin xmax xtol x) ∧ le (secantStepE rnd maxDouble f yt xmin xmax xtol x) xmax := by
  obtain ⟨n1, n2⟩ := ne_nan_of_le hb
  revert hn
  unfold secantStepE
  dsimp only
  generalize sub rnd maxDouble x _ = x1
  intro hn
  split_ifs at hn ⊢ with c1 c2 c2
  · exact ⟨hb, le_refl_of n2⟩
  · exact ⟨le_refl_of n1, le_of_not_lt n2 n1 c2⟩
  · exact ⟨hb, le_refl_of n2⟩
  · exact ⟨le_of_not_lt hn n1 c1, le_of_not_lt n2 hn c2⟩

theorem secantLoopE_bounds (f : Ext → Ext) (yt xmin xmax xtol : Ext) (hb : le xmin xmax) : ∀ (n : Nat) (p q : Ext × Ext),
    (0 < n ∨ (le xmin p.1 ∧ le p.1 xmax)) → secantLoopE rnd maxDouble f yt xmin xmax xtol n p = some q → le xmin q.1 ∧ le q.1 xmax := by
  intro n
  induction n with
  | zero =>
    intro p q hp he
    rw [secantLoopE] at he
    injection he with he; subst he
    rcases hp with hp | hp
    · exact absurd hp (lt_irrefl 0)
    · exact hp
  | succ n ih =>
    intro p q _ he
    unfold secantLoopE at he
    dsimp only at he
    split_ifs at he with c1 c2
    all_goals
      have hn : secantStepE rnd maxDouble f yt xmin xmax xtol p.1 ≠ .nan := fun e => c1 (by rw [e]; trivial)
      have hbd := secantStepE_bounds f yt xmin xmax xtol p.1 hb hn
    · injection he with he; subst he; exact hbd
    · exact ih _ _ (Or.inr hbd) he

theorem bisectLoopE_width (f : Ext → Ext) (yt xtol : Ext) : ∀ (n : Nat) (br : Br Ext),
    (bisectLoopE rnd maxDouble f yt xtol n br).1 = true →
      lt (sub rnd maxDouble (bisectLoopE rnd maxDouble f yt xtol n br).2.b (bisectLoopE rnd maxDouble f yt xtol n br).2.a) xtol := by
  intro n
  induction n with
  | zero => intro br h; simp [bisectLoopE] at h
  | succ n ih =>
    intro br h
    unfold bisectLoopE at h ⊢
    dsimp only at h ⊢
    split_ifs at h ⊢ with c
    · exact c
    · exact ih _ h

end Ieee

/-- C146: whatever the function returns, NaN and infinities included, a root that `findRoot` reports as a success lies in
`[xmin, xmax]` (and so is not NaN), and either the relative error there is below `ytol` (at an end of the interval), or it is not
above `ytol` (secant), or the root is the computed midpoint of two points whose computed distance is below `xtol` (bisection). -/
theorem C146_findRoot_success {rnd : ℝ → ℝ} (f : Ext → Ext) (yt guess xmin xmax xtol ytol xroot0 x : Ext)
    (hb : le xmin xmax) (he : findRootE rnd maxDouble f yt guess xmin xmax xtol ytol xroot0 = (.success, x)) :
    let err := fun z => div rnd maxDouble (absE (sub rnd maxDouble (f z) yt)) (add rnd maxDouble (absE (f z)) ytol)
    le xmin x ∧ le x xmax ∧
      (((x = xmin ∨ x = xmax) ∧ lt (err x) ytol) ∨ ¬ lt ytol (absE (err x)) ∨
        ∃ p q, lt (sub rnd maxDouble q p) xtol ∧ x = mul rnd maxDouble (.fin (1 / 2)) (add rnd maxDouble p q)) := by
  intro err
  obtain ⟨n1, n2⟩ := ne_nan_of_le hb
  unfold findRootE at he
  by_cases c1 : lt (div rnd maxDouble (absE (sub rnd maxDouble (f xmax) yt)) (add rnd maxDouble (absE (f xmax)) ytol)) ytol
  · rw [if_pos c1] at he
    simp only [Prod.mk.injEq, true_and] at he
    subst he
    exact ⟨hb, le_refl_of n2, Or.inl ⟨Or.inr rfl, c1⟩⟩
  rw [if_neg c1] at he
  by_cases c2 : lt (div rnd maxDouble (absE (sub rnd maxDouble (f xmin) yt)) (add rnd maxDouble (absE (f xmin)) ytol)) ytol
  · rw [if_pos c2] at he
    simp only [Prod.mk.injEq, true_and] at he
    subst he
    exact ⟨le_refl_of n1, hb, Or.inl ⟨Or.inl rfl, c2⟩⟩
  · rw [if_neg c2] at he
    dsimp only at he
    generalize hg : (if le (if le xmax guess then sub rnd maxDouble xmax xtol else guess) xmin then add rnd maxDouble xmin xtol
      else if le xmax guess then sub rnd maxDouble xmax xtol else guess) = g at he
    split_ifs at he with c3 c4 c5 c6
    · simp only [Prod.mk.injEq, true_and] at he
      unfold secantE at c3 he
      rcases hl : secantLoopE rnd maxDouble f yt xmin xmax xtol 1000 (g, g) with _ | p
      · rw [hl] at c3; exact absurd c3 (by simp)
      rw [hl] at c3 he
      dsimp only at c3 he
      subst he
      obtain ⟨b1, b2⟩ := secantLoopE_bounds f yt xmin xmax xtol hb 1000 _ _ (Or.inl (by norm_num)) hl
      refine ⟨b1, b2, Or.inr (Or.inl fun hc => ?_)⟩
      rw [if_pos (Or.inr (Or.inl hc))] at c3
      exact absurd c3 (by simp)
    · simp at he
    · simp at he
    · simp at he
    · set r := bisectE rnd maxDouble f yt g xmin xmax xtol (secantE rnd maxDouble f yt g xmin xmax xtol ytol xroot0).2 with hr
      have e1 : r.1 = .success := by rw [he]
      have e2 : r.2 = x := by rw [he]
      rw [e2] at c4 c5 c6
      have hx : x ≠ .nan := fun e => c4 (by rw [e]; trivial)
      refine ⟨le_of_not_lt hx n1 c5, le_of_not_lt n2 hx c6, Or.inr (Or.inr ?_)⟩
      unfold bisectE at hr
      dsimp only at hr
      split at hr
      · rw [hr] at e1; exact absurd e1 (by simp)
      split at hr
      · rw [hr] at e1; exact absurd e1 (by simp)
      rw [hr] at e1 e2
      dsimp only at e1 e2
      have hw := bisectLoopE_width (rnd := rnd) f yt xtol 1000 (by assumption) (by
        by_contra hc
        rw [if_neg hc] at e1
        exact absurd e1 (by simp))
      exact ⟨_, _, hw, e2.symm⟩

/-- C146 is violated by a function without values: `findRoot` on a function that is NaN everywhere reports success, for every
target. -/
theorem C146_findRoot_nan_violated {rnd : ℝ → ℝ} (h : ToNearest 53 (-1074) rnd) (yt ytol xroot0 : Ext) :
    findRootE rnd maxDouble (fun _ => .nan) yt (.fin 1) (.fin (127 / 128)) (.fin (129 / 128)) (.fin (1 / 64)) ytol xroot0
      = (.success, .fin (257 / 256)) := by
  have d : ∀ (m : ℤ) (k : ℕ), |m| < 2 ^ 53 → k ≤ 1074 → ofReal rnd maxDouble ((m : ℝ) / 2 ^ k) = .fin (m / 2 ^ k) :=
    fun m k h1 h2 => ofReal_dy h m k rfl h1 h2
  have hs : secantE rnd maxDouble (fun _ => .nan) yt (.fin 1) (.fin (127 / 128)) (.fin (129 / 128)) (.fin (1 / 64)) ytol xroot0
      = (.fail, xroot0) := by
    have h1 : secantStepE rnd maxDouble (fun _ => .nan) yt (.fin (127 / 128)) (.fin (129 / 128)) (.fin (1 / 64)) (.fin 1) = .nan := by
      simp [secantStepE, sub, add, div, neg, lt]
    unfold secantE
    rw [show (1000 : ℕ) = 999 + 1 from rfl, secantLoopE]
    dsimp only
    rw [h1, if_pos (show notFinite .nan from trivial)]
  -- the first region is wider than the interval
  have f1 : IsFloat 53 (-1074) (9 / 1024 : ℝ) := ⟨9, -10, by norm_num, by norm_num, by norm_num [zpow_neg]⟩
  have f2 : IsFloat 53 (-1074) (11 / 1024 : ℝ) := ⟨11, -10, by norm_num, by norm_num, by norm_num [zpow_neg]⟩
  have f3 : IsFloat 53 (-1074) (1015 / 1024 : ℝ) := ⟨1015, -10, by norm_num, by norm_num, by norm_num [zpow_neg]⟩
  have f4 : IsFloat 53 (-1074) (1033 / 1024 : ℝ) := ⟨1033, -10, by norm_num, by norm_num, by norm_num [zpow_neg]⟩
  have big : ∀ x : ℝ, |x| ≤ 2 → |x| ≤ maxDouble := fun x hx => hx.trans (le_trans (by norm_num) maxDouble_large)
  obtain ⟨D, hD, hD1, hD2⟩ : ∃ D, absE (mul rnd maxDouble (lit rnd (1 / 100)) (.fin 1)) = .fin D ∧ 9 / 1024 ≤ D ∧ D ≤ 11 / 1024 := by
    have e1 := rnd_ge h f1 (show (9 / 1024 : ℝ) ≤ 1 / 100 by norm_num)
    have e2 := rnd_le h f2 (show (1 / 100 : ℝ) ≤ 11 / 1024 by norm_num)
    refine ⟨rnd (1 / 100), ?_, e1, e2⟩
    have e3 := ofReal_exact h (h.isFloat (1 / 100)) (big _ (by rw [abs_le]; constructor <;> linarith))
    simp only [lit, mul, mul_one, e3, absE, abs_of_pos (show (0 : ℝ) < rnd (1 / 100) by linarith)]
  obtain ⟨L, hL, hL1⟩ : ∃ L, sub rnd maxDouble (.fin 1) (.fin D) = .fin L ∧ L ≤ 1015 / 1024 := by
    have e1 := rnd_le h f3 (show 1 + -D ≤ 1015 / 1024 by linarith)
    have e0 := Ieee.rnd_nonneg h (show 0 ≤ 1 + -D by linarith)
    exact ⟨rnd (1 + -D), by simp only [sub, neg, add]; exact Ieee.ofReal_fin (big _ (by rw [abs_le]; constructor <;> linarith)), e1⟩
  obtain ⟨R, hR, hR1⟩ : ∃ R, add rnd maxDouble (.fin 1) (.fin D) = .fin R ∧ 1033 / 1024 ≤ R := by
    have e1 := rnd_ge h f4 (show 1033 / 1024 ≤ 1 + D by linarith)
    have e2 := rnd_le h (show IsFloat 53 (-1074) (2 : ℝ) from ⟨2, 0, by norm_num, by norm_num, by norm_num⟩) (show 1 + D ≤ 2 by linarith)
    exact ⟨rnd (1 + D), by simp only [add]; exact Ieee.ofReal_fin (big _ (by rw [abs_le]; constructor <;> linarith)), e1⟩
  have hreg : regionE rnd maxDouble (fun _ => .nan) yt (.fin (127 / 128)) (.fin (129 / 128)) (.fin 1) 1000 (lit rnd (1 / 100))
      = some ⟨.fin L, .fin R, .nan, .nan⟩ := by
    rw [show (1000 : ℕ) = 999 + 1 from rfl, regionE]
    dsimp only
    rw [hD, hL, hR, if_pos (Or.inr (Or.inl (by simp only [lt]; linarith)))]
    simp [sub, add]
  have hrep : repairE rnd maxDouble (fun _ => .nan) yt (.fin (127 / 128)) (.fin (129 / 128)) ⟨.fin L, .fin R, .nan, .nan⟩
      = some ⟨.fin (127 / 128), .fin (129 / 128), .nan, .nan⟩ := by
    unfold repairE
    dsimp only
    rw [if_pos (show lt (.fin (129 / 128)) (.fin R) by simp only [lt]; linarith)]
    rw [if_pos (show lt (.fin L) (.fin (127 / 128)) by simp only [lt]; linarith)]
    simp [sub, add, mul, lt]
  have c2 : ofReal rnd maxDouble (127 / 128 + 129 / 128) = .fin 2 := by
    rw [show (127 / 128 + 129 / 128 : ℝ) = 2 by norm_num]
    exact ofReal_dy h 2 0 (by norm_num) (by norm_num) (by norm_num)
  have c1 : ofReal rnd maxDouble (1 / 2 * 2) = .fin 1 := by
    rw [show (1 / 2 * 2 : ℝ) = 1 by norm_num]
    exact ofReal_dy h 1 0 (by norm_num) (by norm_num) (by norm_num)
  have hstep : bisectStepE rnd maxDouble (fun _ => .nan) yt ⟨.fin (127 / 128), .fin (129 / 128), .nan, .nan⟩
      = ⟨.fin 1, .fin (129 / 128), .nan, .nan⟩ := by
    unfold bisectStepE
    dsimp only
    simp only [add, mul, c2, c1, sub, le, if_false]
  have hw : sub rnd maxDouble (.fin (129 / 128)) (.fin 1) = .fin (1 / 128) := by
    simp only [sub, neg, add]
    rw [show (129 / 128 + -1 : ℝ) = 1 / 128 by norm_num]
    exact ofReal_dy h 1 7 (by norm_num) (by norm_num) (by norm_num)
  have hloop : bisectLoopE rnd maxDouble (fun _ => .nan) yt (.fin (1 / 64)) 1000 ⟨.fin (127 / 128), .fin (129 / 128), .nan, .nan⟩
      = (true, ⟨.fin 1, .fin (129 / 128), .nan, .nan⟩) := by
    rw [show (1000 : ℕ) = 999 + 1 from rfl, bisectLoopE, hstep]
    dsimp only
    rw [hw, if_pos (by simp only [lt]; norm_num)]
  have hroot : mul rnd maxDouble (.fin (1 / 2)) (add rnd maxDouble (.fin 1) (.fin (129 / 128))) = .fin (257 / 256) := by
    simp only [add]
    rw [show (1 + 129 / 128 : ℝ) = 257 / 128 by norm_num, ofReal_dy h 257 7 (by norm_num) (by norm_num) (by norm_num)]
    simp only [mul]
    rw [show (1 / 2 * (257 / 128) : ℝ) = 257 / 256 by norm_num]
    exact ofReal_dy h 257 8 (by norm_num) (by norm_num) (by norm_num)
  have hbis : bisectE rnd maxDouble (fun _ => .nan) yt (.fin 1) (.fin (127 / 128)) (.fin (129 / 128)) (.fin (1 / 64)) xroot0
      = (.success, .fin (257 / 256)) := by
    unfold bisectE
    dsimp only
    rw [if_neg (show ¬ lt (absE (.fin 1)) (.fin (1 / 64)) by simp only [absE, lt]; norm_num), hreg]
    dsimp only
    rw [hrep]
    dsimp only
    rw [hloop, hroot, if_pos rfl]
  unfold findRootE
  have n1 : ∀ z : Ext, ¬ lt (div rnd maxDouble (absE (sub rnd maxDouble .nan yt)) z) ytol := by
    intro z; simp [sub, add, absE, div, lt]
  rw [if_neg (n1 _), if_neg (n1 _)]
  dsimp only
  rw [if_neg (show ¬ le (.fin (129 / 128)) (.fin 1) by simp only [le]; norm_num),
    if_neg (show ¬ le (.fin 1) (.fin (127 / 128)) by simp only [le]; norm_num), hs, if_neg (by simp)]
  dsimp only
  rw [hbis]
  dsimp only
  rw [if_neg (by simp [notFinite]), if_neg (by simp only [lt]; norm_num), if_neg (by simp only [lt]; norm_num)]

/-- C146 is violated: a function with values everywhere the iteration looks except at the point where it ends. The last change is
below the tolerance, the error there is NaN, and `findRoot` reports success. -/
theorem C146_findRoot_nan_at_root_violated {rnd : ℝ → ℝ} (h : ToNearest 53 (-1074) rnd) (f : Ext → Ext) (h0 : f (.fin 0) = .fin 1)
    (h1 : f (.fin 1) = .fin 4) (h2 : f (.fin (-1)) = .fin 0) (h3 : f (.fin (-(1 / 2))) = .nan) (h4 : f (.fin 10) = .fin 5)
    (h5 : f (.fin (-10)) = .fin (-5)) (xroot0 : Ext) :
    findRootE rnd maxDouble f (.fin 0) (.fin 0) (.fin (-10)) (.fin 10) (.fin 1) (.fin (1 / 8)) xroot0 = (.success, .fin (-(1 / 2))) := by
  have big : ∀ x : ℝ, |x| ≤ 100 → |x| ≤ maxDouble := fun x hx => hx.trans (le_trans (by norm_num) maxDouble_large)
  have c : ∀ m : ℤ, |m| < 2 ^ 53 → ofReal rnd maxDouble (m : ℝ) = .fin m := fun m hm => ofReal_dy h m 0 (by norm_num) hm (by norm_num)
  have c0 : ofReal rnd maxDouble 0 = .fin 0 := by simpa using c 0 (by norm_num)
  have c1 : ofReal rnd maxDouble 1 = .fin 1 := by simpa using c 1 (by norm_num)
  have cn1 : ofReal rnd maxDouble (-1) = .fin (-1) := by simpa using c (-1) (by norm_num)
  have c4 : ofReal rnd maxDouble 4 = .fin 4 := by simpa using c 4 (by norm_num)
  have c2 : ofReal rnd maxDouble 2 = .fin 2 := by simpa using c 2 (by norm_num)
  have c5 : ofReal rnd maxDouble 5 = .fin 5 := by simpa using c 5 (by norm_num)
  have cn5 : ofReal rnd maxDouble (-5) = .fin (-5) := by simpa using c (-5) (by norm_num)
  have ch : ofReal rnd maxDouble (1 / 2) = .fin (1 / 2) := ofReal_dy h 1 1 (by norm_num) (by norm_num) (by norm_num)
  have cnh : ofReal rnd maxDouble (-(1 / 2)) = .fin (-(1 / 2)) := ofReal_dy h (-1) 1 (by norm_num) (by norm_num) (by norm_num)
  have ch3 : ofReal rnd maxDouble (3 / 2) = .fin (3 / 2) := ofReal_dy h 3 1 (by norm_num) (by norm_num) (by norm_num)
  have c58 : ofReal rnd maxDouble (41 / 8) = .fin (41 / 8) := ofReal_dy h 41 3 (by norm_num) (by norm_num) (by norm_num)
  obtain ⟨q, hq, hq1⟩ : ∃ q, ofReal rnd maxDouble (5 / (41 / 8)) = .fin q ∧ 1 / 2 ≤ q := by
    have e1 := rnd_ge h (show IsFloat 53 (-1074) (1 / 2 : ℝ) from ⟨1, -1, by norm_num, by norm_num, by norm_num [zpow_neg]⟩)
      (show (1 / 2 : ℝ) ≤ 5 / (41 / 8) by norm_num)
    have e2 := rnd_le h (show IsFloat 53 (-1074) (2 : ℝ) from ⟨2, 0, by norm_num, by norm_num, by norm_num⟩)
      (show (5 / (41 / 8) : ℝ) ≤ 2 by norm_num)
    exact ⟨_, Ieee.ofReal_fin (big _ (by rw [abs_le]; constructor <;> linarith)), e1⟩
  obtain ⟨t, ht, ht1⟩ : ∃ t, ofReal rnd maxDouble (1 / 2 / (3 / 2)) = .fin t ∧ t ≤ 1 / 2 := by
    have e1 := rnd_le h (show IsFloat 53 (-1074) (1 / 2 : ℝ) from ⟨1, -1, by norm_num, by norm_num, by norm_num [zpow_neg]⟩)
      (show (1 / 2 / (3 / 2) : ℝ) ≤ 1 / 2 by norm_num)
    have e2 := Ieee.rnd_nonneg h (show (0 : ℝ) ≤ 1 / 2 / (3 / 2) by norm_num)
    exact ⟨_, Ieee.ofReal_fin (big _ (by rw [abs_le]; constructor <;> linarith)), e1⟩
  have hstep : secantStepE rnd maxDouble f (.fin 0) (.fin (-10)) (.fin 10) (.fin 1) (.fin 0) = .fin (-(1 / 2)) := by
    unfold secantStepE
    dsimp only
    have hd : add rnd maxDouble (absE (mul rnd maxDouble (lit rnd (1 / 10 ^ 7)) (.fin 0))) (.fin 1) = .fin 1 := by
      simp [lit, mul, c0, absE, add, c1]
    rw [hd]
    have hp : add rnd maxDouble (.fin 0) (.fin 1) = .fin 1 := by simp [add, c1]
    have hm : sub rnd maxDouble (.fin 0) (.fin 1) = .fin (-1) := by simp [sub, neg, add, cn1]
    rw [hp, hm, h0, h1, h2]
    have hy : sub rnd maxDouble (.fin 1) (.fin 0) = .fin 1 := by simp [sub, neg, add, c1]
    have hdy : div rnd maxDouble (sub rnd maxDouble (.fin 4) (.fin 0)) (mul rnd maxDouble (.fin 2) (.fin 1)) = .fin 2 := by
      simp only [sub, neg, add, mul, neg_zero, add_zero, mul_one, c4, c2, div]
      rw [if_neg (by norm_num), show (4 / 2 : ℝ) = 2 by norm_num, c2]
    rw [hy, hdy]
    have hx : sub rnd maxDouble (.fin 0) (div rnd maxDouble (.fin 1) (.fin 2)) = .fin (-(1 / 2)) := by
      simp only [div]
      rw [if_neg (by norm_num), ch]
      simp only [sub, neg, add, zero_add, cnh]
    rw [hx, if_neg (by simp only [lt]; norm_num), if_neg (by simp only [lt]; norm_num)]
  have hsec : secantE rnd maxDouble f (.fin 0) (.fin 0) (.fin (-10)) (.fin 10) (.fin 1) (.fin (1 / 8)) xroot0
      = (.success, .fin (-(1 / 2))) := by
    have hdx : absE (sub rnd maxDouble (.fin (-(1 / 2))) (.fin 0)) = .fin (1 / 2) := by
      simp only [sub, neg, add, neg_zero, add_zero, cnh, absE]
      norm_num
    unfold secantE
    rw [show (1000 : ℕ) = 999 + 1 from rfl, secantLoopE]
    dsimp only
    rw [hstep, if_neg (by simp [notFinite]), hdx]
    have hden : add rnd maxDouble (absE (.fin (-(1 / 2)))) (.fin 1) = .fin (3 / 2) := by
      simp only [absE, add]
      rw [show |(-(1 / 2) : ℝ)| + 1 = 3 / 2 by norm_num, ch3]
    rw [hden]
    have hqt : div rnd maxDouble (.fin (1 / 2)) (.fin (3 / 2)) = .fin t := by
      simp only [div]
      rw [if_neg (by norm_num), ht]
    rw [hqt, if_pos (by simp only [lt]; linarith)]
    dsimp only
    rw [hdx, h3]
    have hnan : absE (div rnd maxDouble (absE (sub rnd maxDouble .nan (.fin 0))) (add rnd maxDouble (absE .nan) (.fin (1 / 8)))) = .nan := by
      simp [sub, add, absE, div]
    rw [hnan, if_neg]
    rintro (c | c | c)
    · simp only [lt] at c; norm_num at c
    · exact c
    · exact c
  unfold findRootE
  have e1 : ¬ lt (div rnd maxDouble (absE (sub rnd maxDouble (f (.fin 10)) (.fin 0))) (add rnd maxDouble (absE (f (.fin 10))) (.fin (1 / 8))))
      (.fin (1 / 8)) := by
    simp only [h4, sub, neg, add, neg_zero, add_zero, c5, absE, show |(5 : ℝ)| = 5 by norm_num, show (5 + 1 / 8 : ℝ) = 41 / 8 by norm_num, c58, div]
    rw [if_neg (by norm_num), hq]
    simp only [lt]; linarith
  have e2 : ¬ lt (div rnd maxDouble (absE (sub rnd maxDouble (f (.fin (-10))) (.fin 0))) (add rnd maxDouble (absE (f (.fin (-10)))) (.fin (1 / 8))))
      (.fin (1 / 8)) := by
    simp only [h5, sub, neg, add, neg_zero, add_zero, cn5, absE, show |(-5 : ℝ)| = 5 by norm_num, show (5 + 1 / 8 : ℝ) = 41 / 8 by norm_num, c58, div]
    rw [if_neg (by norm_num), hq]
    simp only [lt]; linarith
  rw [if_neg e1, if_neg e2]
  dsimp only
  rw [if_neg (show ¬ le (.fin 10) (.fin 0) by simp only [le]; norm_num),
    if_neg (show ¬ le (.fin 0) (.fin (-10)) by simp only [le]; norm_num), hsec, if_pos rfl]

namespace Ieee

theorem nrLoopE_true {rnd : ℝ → ℝ} (f : Ext → Ext × Ext) (yt a b ytol : Ext) (hab : le a b) : ∀ (n : Nat) (x r : Ext),
    nrLoopE rnd maxDouble f yt a b ytol n x = (r, some true) →
    lt (absE (sub rnd maxDouble (f r).1 yt)) (absE (mul rnd maxDouble ytol yt)) ∧ (r = x ∨ r = .nan ∨ (le a r ∧ le r b)) := by
  intro n
  induction n with
  | zero => intro x r hr; simp [nrLoopE] at hr
  | succ n ih =>
    intro x r hr
    unfold nrLoopE at hr
    dsimp only at hr
    split at hr
    · rename_i hc
      simp only [Prod.mk.injEq, and_true] at hr
      subst hr
      exact ⟨hc, Or.inl rfl⟩
    split at hr
    · simp at hr
    · obtain ⟨h1, h2⟩ := ih _ _ hr
      refine ⟨h1, ?_⟩
      obtain ⟨na, nb⟩ := ne_nan_of_le hab
      rcases h2 with e | e
      · generalize sub rnd maxDouble x (div rnd maxDouble (sub rnd maxDouble (f x).1 yt) (f x).2) = x' at e
        by_cases hx : x' = .nan
        · right; left
          rw [e, hx]
          simp [stdMax, stdMin, lt]
        · right; right
          rw [e]
          unfold stdMax stdMin
          by_cases c1 : lt b x'
          · rw [if_pos c1]
            split_ifs
            · exact ⟨le_refl_of na, hab⟩
            · exact ⟨hab, le_refl_of nb⟩
          · rw [if_neg c1]
            split_ifs with c2
            · exact ⟨le_refl_of na, hab⟩
            · exact ⟨le_of_not_lt hx na c2, le_of_not_lt nb hx c1⟩
      · exact Or.inr e

theorem nrLoopE_zero {rnd : ℝ → ℝ} (f : Ext → Ext × Ext) (a b ytol : Ext) (h : Dbl rnd) : ∀ (n : Nat) (x : Ext),
    (nrLoopE rnd maxDouble f (.fin 0) a b ytol n x).2 ≠ some true := by
  have c0 : ofReal rnd maxDouble 0 = .fin 0 := ofReal_dy h 0 0 (by norm_num) (by norm_num) (by norm_num)
  have hz : ∀ v, ¬ lt (absE v) (absE (mul rnd maxDouble ytol (.fin 0))) := by
    intro v hv
    rcases ytol with _ | s | y
    · simp only [mul, absE] at hv
      rcases v with _ | t | v <;> simp [lt] at hv
    · simp only [mul, if_true, absE] at hv
      rcases v with _ | t | v <;> simp [lt] at hv
    · simp only [mul, mul_zero, c0, absE, abs_zero] at hv
      rcases v with _ | t | v <;> simp [lt] at hv
      exact absurd hv (not_lt.2 (abs_nonneg v))
  intro n
  induction n with
  | zero => intro x; simp [nrLoopE]
  | succ n ih =>
    intro x
    unfold nrLoopE
    dsimp only
    rw [if_neg (hz _)]
    split_ifs
    · simp
    · exact ih _

end Ieee

/-- C146: what a successful `newton_raphson` certifies on machine numbers (default `fail_on_bound_root`, a function that is NaN at
NaN): the computed error is below the computed `|ytol * ytarget|`, and the root is the guess or lies within the bounds. -/
theorem C146_newton_success {rnd : ℝ → ℝ} (f : Ext → Ext × Ext) (yt guess a b ytol x : Ext) (hab : le a b)
    (hf : (f .nan).1 = .nan) (he : newtonRaphsonE rnd maxDouble f yt guess a b ytol true = (.success, x)) :
    lt (absE (sub rnd maxDouble (f x).1 yt)) (absE (mul rnd maxDouble ytol yt)) ∧ x ≠ .nan ∧ (x = guess ∨ (le a x ∧ le x b)) := by
  unfold newtonRaphsonE at he
  rcases hl : nrLoopE rnd maxDouble f yt a b ytol 100 guess with ⟨r, _ | _ | _⟩
  · simp [hl] at he
  · simp [hl] at he
  · simp only [hl, Prod.mk.injEq, true_and] at he
    subst he
    obtain ⟨h1, h2⟩ := nrLoopE_true f yt a b ytol hab 100 guess r hl
    have hn : r ≠ .nan := by
      rintro rfl
      rw [hf] at h1
      simp [sub, add, absE, lt] at h1
    exact ⟨h1, hn, h2.imp id fun h3 => h3.resolve_left hn⟩

/-- C146 is violated for a zero target: the error is compared with `|ytol * ytarget| = 0`, so `newton_raphson` fails even if it
starts at an exact root. -/
theorem C146_newton_zero_target_violated {rnd : ℝ → ℝ} (h : ToNearest 53 (-1074) rnd) (f : Ext → Ext × Ext) (guess a b ytol : Ext) :
    (newtonRaphsonE rnd maxDouble f (.fin 0) guess a b ytol true).1 = .fail := by
  unfold newtonRaphsonE
  rcases hl : nrLoopE rnd maxDouble f (.fin 0) a b ytol 100 guess with ⟨r, _ | _ | _⟩
  · simp
  · simp
  · exact absurd (by rw [hl]) (nrLoopE_zero f a b ytol h 100 guess)

/-- C146 is violated where the slope vanishes: with `fail_on_bound_root = false`, `newton_raphson` started at its upper bound reports
success with the root `+inf`. -/
theorem C146_newton_flat_violated {rnd : ℝ → ℝ} (h : ToNearest 53 (-1074) rnd) :
    newtonRaphsonE rnd maxDouble (fun _ => (.fin 1, .fin 0)) (.fin 2) (.fin 1) (.fin 0) (.fin 1) (.fin (1 / 8)) false
      = (.success, .inf false) := by
  have c1 : ofReal rnd maxDouble (1 + -2) = .fin (-1) := by
    rw [show (1 + -2 : ℝ) = -1 by norm_num]
    exact ofReal_dy h (-1) 0 (by norm_num) (by norm_num) (by norm_num)
  have c2 : ofReal rnd maxDouble (1 / 8 * 2) = .fin (1 / 4) := by
    rw [show (1 / 8 * 2 : ℝ) = 1 / 4 by norm_num]
    exact ofReal_dy h 1 2 (by norm_num) (by norm_num) (by norm_num)
  have hs : sub rnd maxDouble (.fin 1) (.fin 2) = .fin (-1) := by simp only [sub, neg, add, c1]
  have hm : mul rnd maxDouble (.fin (1 / 8)) (.fin 2) = .fin (1 / 4) := by simp only [mul, c2]
  have hx : sub rnd maxDouble (.fin 1) (div rnd maxDouble (.fin (-1)) (.fin 0)) = .inf false := by
    simp [div, sub, neg, add]
  unfold newtonRaphsonE
  rw [show (100 : ℕ) = 99 + 1 from rfl, nrLoopE]
  dsimp only
  rw [hs, hm, hx, if_neg (by simp only [absE, lt]; norm_num), if_pos (Or.inr ⟨by simp [le], by simp [le]⟩)]
  simp

/-- `C146_newton_success` is not vacuous: started at the root of `x = 1` with slope 1. -/
example {rnd : ℝ → ℝ} (h : ToNearest 53 (-1074) rnd) :
    newtonRaphsonE rnd maxDouble (fun x => (x, .fin 1)) (.fin 1) (.fin 1) (.fin 0) (.fin 2) (.fin (1 / 8)) true = (.success, .fin 1) := by
  have c0 : ofReal rnd maxDouble 0 = .fin 0 := ofReal_dy h 0 0 (by norm_num) (by norm_num) (by norm_num)
  have c1 : ofReal rnd maxDouble (1 / 8) = .fin (1 / 8) := ofReal_dy h 1 3 (by norm_num) (by norm_num) (by norm_num)
  have hs : sub rnd maxDouble (.fin 1) (.fin 1) = .fin 0 := by simp only [sub, neg, add, add_neg_cancel, c0]
  have hm : mul rnd maxDouble (.fin (1 / 8)) (.fin 1) = .fin (1 / 8) := by simp only [mul, mul_one, c1]
  unfold newtonRaphsonE
  rw [show (100 : ℕ) = 99 + 1 from rfl, nrLoopE]
  dsimp only
  rw [hs, hm, if_pos (by simp only [absE, lt]; norm_num)]

/-- `C146_regula_falsi_stop_rule` and `C146_findRoot_success` are not vacuous: see `C146_regula_falsi_nan_violated` for a run that
returns a root, and `C146_findRoot_nan_violated` for a successful `findRoot` with `xmin ≤ xmax`. -/
example : le (.fin (127 / 128)) (.fin (129 / 128)) := by simp only [le]; norm_num

end Verif
