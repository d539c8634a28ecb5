import Verif.Props.IeeeRootFind

set_option linter.unusedVariables false

/-! # C146: bisection with a tolerance below the spacing of doubles

The library's own callers pass `robust::EPS() ≈ 2.2e-15` (`eos_base.hpp:661`) or `1e-12` (`ramps_eos.hpp:64,70`) as the *absolute*
tolerance in `x`; doubles are further apart than that from 16 and from 8192 on. -/

namespace Verif

open Ieee Rounding RootFind Classical

namespace Ieee

variable {rnd : ℝ → ℝ}

theorem zp (e : ℤ) : (0 : ℝ) < (2 : ℝ) ^ e := zpow_pos (by norm_num) e

/-- A double of at least `2^k` is a multiple of `2^(k-52)`. -/
theorem mult_of_large {x : ℝ} {k : ℤ} (hf : IsFloat 53 (-1074) x) (hx : (2 : ℝ) ^ k ≤ x) : Mult (k - 52) x := by
  obtain ⟨m, e, hm, he, rfl⟩ := hf
  have hm0 : 0 < (m : ℝ) := by
    by_contra hc
    push Not at hc
    have := mul_nonpos_of_nonpos_of_nonneg hc (zp e).le
    linarith [zp k]
  have hm1 : (m : ℝ) < 2 ^ (53 : ℤ) := by
    have h1 : m < 2 ^ 53 := lt_of_le_of_lt (le_abs_self m) hm
    have h2 : (m : ℝ) < ((2 ^ 53 : ℤ) : ℝ) := by exact_mod_cast h1
    push_cast at h2
    norm_num at h2 ⊢
    linarith
  have h1 : (2 : ℝ) ^ k < 2 ^ (53 + e) := by
    rw [zpow_add₀ (by norm_num)]
    exact lt_of_le_of_lt hx (mul_lt_mul_of_pos_right hm1 (zp e))
  have h2 : k < 53 + e := (zpow_lt_zpow_iff_right₀ (by norm_num : (1 : ℝ) < 2)).1 h1
  obtain ⟨j, hj⟩ : ∃ j : ℕ, e = (k - 52) + j := ⟨(e - (k - 52)).toNat, by omega⟩
  refine ⟨m * 2 ^ j, ?_⟩
  rw [hj, zpow_add₀ (by norm_num), zpow_natCast]
  push_cast
  ring

/-- Two different doubles of at least `2^k` are at least `2^(k-52)` apart. -/
theorem spacing {a b : ℝ} {k : ℤ} (ha : IsFloat 53 (-1074) a) (hb : IsFloat 53 (-1074) b) (hk : (2 : ℝ) ^ k ≤ a)
    (hab : a < b) : (2 : ℝ) ^ (k - 52) ≤ b - a := by
  obtain ⟨i, hi⟩ := mult_of_large ha hk
  obtain ⟨j, hj⟩ := mult_of_large hb (hk.trans hab.le)
  have h0 := zp (k - 52)
  have h1 : i < j := by
    have : (i : ℝ) < j := by
      rw [hi, hj] at hab
      exact lt_of_mul_lt_mul_right hab h0.le
    exact_mod_cast this
  have h2 : (i : ℝ) + 1 ≤ j := by exact_mod_cast h1
  rw [hi, hj, ← sub_mul]
  nlinarith

/-- What a bracket looks like while no sampled value is exactly on target: doubles `a ≤ b` in `[l, r]`, the values there, and
opposite signs. -/
def Opp (rnd : ℝ → ℝ) (f : Ext → Ext) (yt : Ext) (l r : ℝ) (br : Br Ext) : Prop :=
  ∃ a b va vb : ℝ, br = ⟨.fin a, .fin b, .fin va, .fin vb⟩ ∧ IsFloat 53 (-1074) a ∧ IsFloat 53 (-1074) b ∧
    l ≤ a ∧ a ≤ b ∧ b ≤ r ∧ sub rnd maxDouble (f (.fin a)) yt = .fin va ∧ sub rnd maxDouble (f (.fin b)) yt = .fin vb ∧
    va * vb < 0

/-- Specification: the function, minus the target, is finite, of moderate size and never exactly zero at any double of `[l, r]`. -/
def NeverHits (rnd : ℝ → ℝ) (f : Ext → Ext) (yt : Ext) (l r : ℝ) : Prop :=
  ∀ x, IsFloat 53 (-1074) x → l ≤ x → x ≤ r →
    ∃ v : ℝ, sub rnd maxDouble (f (.fin x)) yt = .fin v ∧ (2 : ℝ) ^ (-500 : ℤ) ≤ |v| ∧ |v| ≤ 2 ^ (500 : ℤ)

theorem isFloat_zpow {e : ℤ} (he : -1074 ≤ e) : IsFloat 53 (-1074) ((2 : ℝ) ^ e) := ⟨1, e, by norm_num, he, by simp⟩

theorem zpow_le_maxDouble {e : ℤ} (he : e ≤ 1023) : (2 : ℝ) ^ e ≤ maxDouble := by
  have h1 : (2 : ℝ) ^ e ≤ 2 ^ (1023 : ℤ) := zpow_le_zpow_right₀ (by norm_num) he
  refine h1.trans ?_
  unfold maxDouble
  have h2 : (2 : ℝ) ^ (1023 : ℤ) = 2 ^ 52 * 2 ^ 971 := by
    rw [← pow_add, ← zpow_natCast]; rfl
  rw [h2]
  exact mul_le_mul_of_nonneg_right (by norm_num) (by positivity)

theorem opp_step (h : Dbl rnd) {f : Ext → Ext} {yt : Ext} {l r : ℝ} (hl : 0 < l) (hr : r ≤ 2 ^ (1000 : ℤ))
    (hv : NeverHits rnd f yt l r) {br : Br Ext} (hb : Opp rnd f yt l r br) :
    Opp rnd f yt l r (bisectStepE rnd maxDouble f yt br) := by
  obtain ⟨a, b, va, vb, rfl, fa, fb, la, ab, br', ea, eb, hs⟩ := hb
  have f2a : IsFloat 53 (-1074) (2 * a) := by
    obtain ⟨m, e, hm, he, rfl⟩ := fa
    exact ⟨m, e + 1, hm, by omega, by rw [zpow_add_one₀ (by norm_num)]; ring⟩
  have f2b : IsFloat 53 (-1074) (2 * b) := by
    obtain ⟨m, e, hm, he, rfl⟩ := fb
    exact ⟨m, e + 1, hm, by omega, by rw [zpow_add_one₀ (by norm_num)]; ring⟩
  have s1 : 2 * a ≤ rnd (a + b) := rnd_ge h f2a (by linarith)
  have s2 : rnd (a + b) ≤ 2 * b := rnd_le h f2b (by linarith)
  have hM : (2 : ℝ) ^ (1001 : ℤ) ≤ maxDouble := zpow_le_maxDouble (by norm_num)
  have hM2 : 2 * b ≤ (2 : ℝ) ^ (1001 : ℤ) := by
    have : (2 : ℝ) ^ (1001 : ℤ) = 2 * 2 ^ (1000 : ℤ) := by
      rw [show (1001 : ℤ) = 1 + 1000 by norm_num, zpow_add₀ (by norm_num)]; norm_num
    rw [this]; linarith
  have e1 : add rnd maxDouble (.fin a) (.fin b) = .fin (rnd (a + b)) := by
    simp only [add]
    exact ofReal_fin (by rw [abs_of_nonneg (by linarith)]; exact (s2.trans hM2).trans hM)
  have t1 : a ≤ rnd (1 / 2 * rnd (a + b)) := rnd_ge h fa (by linarith)
  have t2 : rnd (1 / 2 * rnd (a + b)) ≤ b := rnd_le h fb (by linarith)
  have e2 : mul rnd maxDouble (.fin (1 / 2)) (.fin (rnd (a + b))) = .fin (rnd (1 / 2 * rnd (a + b))) := by
    simp only [mul]
    exact ofReal_fin (by
      rw [abs_of_nonneg (by linarith)]
      exact ((show _ ≤ 2 * b by linarith).trans hM2).trans hM)
  set m := rnd (1 / 2 * rnd (a + b)) with hm
  have fm : IsFloat 53 (-1074) m := h.isFloat _
  obtain ⟨vm, em, m1, m2⟩ := hv m fm (la.trans t1) (t2.trans br')
  obtain ⟨va', ea', a1, a2⟩ := hv a fa la (ab.trans br')
  have : va' = va := by rw [ea] at ea'; injection ea' with e; exact e.symm
  subst this
  have habs : |va' * vm| ≤ (2 : ℝ) ^ (1000 : ℤ) := by
    rw [abs_mul, show (1000 : ℤ) = 500 + 500 by norm_num, zpow_add₀ (by norm_num)]
    exact mul_le_mul a2 m2 (abs_nonneg _) (zp _).le
  have habs' : (2 : ℝ) ^ (-1000 : ℤ) ≤ |va' * vm| := by
    rw [abs_mul, show (-1000 : ℤ) = -500 + -500 by norm_num, zpow_add₀ (by norm_num)]
    exact mul_le_mul a1 m1 (zp _).le (abs_nonneg _)
  have hrnd : |rnd (va' * vm)| ≤ maxDouble := by
    rw [abs_le]
    rw [abs_le] at habs
    have f1 : IsFloat 53 (-1074) ((2 : ℝ) ^ (1000 : ℤ)) := isFloat_zpow (by norm_num)
    have f2 : IsFloat 53 (-1074) (-(2 : ℝ) ^ (1000 : ℤ)) := ⟨-1, 1000, by norm_num, by norm_num, by simp⟩
    have g1 := rnd_ge h f2 habs.1
    have g2 := rnd_le h f1 habs.2
    have : (2 : ℝ) ^ (1000 : ℤ) ≤ maxDouble := zpow_le_maxDouble (by norm_num)
    exact ⟨(neg_le_neg this).trans g1, g2.trans this⟩
  have e3 : mul rnd maxDouble (.fin va') (.fin vm) = .fin (rnd (va' * vm)) := by
    simp only [mul]; exact ofReal_fin hrnd
  unfold bisectStepE
  simp only [e1, e2, em, e3]
  by_cases hp : 0 < va' * vm
  · have : ¬ le (.fin (rnd (va' * vm))) (.fin 0) := by
      have h1 : (2 : ℝ) ^ (-1000 : ℤ) ≤ rnd (va' * vm) :=
        rnd_ge h (isFloat_zpow (by norm_num)) (by rwa [abs_of_pos hp] at habs')
      have := zp (-1000)
      simp only [le, decide_eq_true_eq, not_le]
      linarith
    rw [if_neg this]
    refine ⟨m, b, vm, vb, rfl, fm, fb, la.trans t1, t2, br', em, eb, ?_⟩
    by_contra hc
    push Not at hc
    have h1 : 0 ≤ (va' * vm) * (vm * vb) := mul_nonneg hp.le hc
    have h2 : (va' * vm) * (vm * vb) = (va' * vb) * vm ^ 2 := by ring
    have hvm : vm ≠ 0 := by rintro rfl; simp at hp
    have h3 : 0 < vm ^ 2 := by positivity
    have h4 : (va' * vb) * vm ^ 2 < 0 := mul_neg_of_neg_of_pos hs h3
    linarith
  · have hne : va' * vm ≠ 0 := by
      intro h0
      rw [h0, abs_zero] at habs'
      linarith [zp (-1000)]
    have hneg : va' * vm < 0 := lt_of_le_of_ne (not_lt.1 hp) hne
    have : le (.fin (rnd (va' * vm))) (.fin 0) := by
      have := rnd_le h isFloat_zero hneg.le
      simpa [le] using this
    rw [if_pos this]
    exact ⟨a, m, va', vm, rfl, fa, fm, la, t1, t2.trans br', ea, em, hneg⟩

theorem opp_wide (h : Dbl rnd) {f : Ext → Ext} {yt : Ext} {l r t : ℝ} {k : ℤ} (hk : (2 : ℝ) ^ k ≤ l) (hk' : -1022 ≤ k)
    (ht : t ≤ 2 ^ (k - 52)) (hr : r ≤ 2 ^ (1000 : ℤ)) {br : Br Ext} (hb : Opp rnd f yt l r br) :
    ¬ lt (sub rnd maxDouble br.b br.a) (.fin t) := by
  obtain ⟨a, b, va, vb, rfl, fa, fb, la, ab, br', ea, eb, hs⟩ := hb
  have hne : a ≠ b := by
    rintro rfl
    rw [ea] at eb
    injection eb with e
    rw [e] at hs
    nlinarith [mul_self_nonneg vb]
  have hlt : a < b := lt_of_le_of_ne ab hne
  have hsp := spacing fa fb (hk.trans la) hlt
  have h1 : (2 : ℝ) ^ (k - 52) ≤ rnd (b + -a) := rnd_ge h (isFloat_zpow (by omega)) (by linarith)
  have h2 : rnd (b + -a) ≤ b := rnd_le h fb (by linarith [zp k])
  have : sub rnd maxDouble (.fin b) (.fin a) = .fin (rnd (b + -a)) := by
    simp only [sub, neg, add]
    refine ofReal_fin ?_
    rw [abs_of_nonneg (by linarith [zp (k - 52)])]
    exact h2.trans (br'.trans (hr.trans (zpow_le_maxDouble (by norm_num))))
  simp only [this, lt, decide_eq_true_eq, not_lt]
  linarith

theorem opp_never (h : Dbl rnd) {f : Ext → Ext} {yt : Ext} {l r t : ℝ} {k : ℤ} (hk : (2 : ℝ) ^ k ≤ l) (hk' : -1022 ≤ k)
    (ht : t ≤ 2 ^ (k - 52)) (hr : r ≤ 2 ^ (1000 : ℤ)) (hv : NeverHits rnd f yt l r) (n : Nat) {br : Br Ext}
    (hb : Opp rnd f yt l r br) : (bisectLoopE rnd maxDouble f yt (.fin t) n br).1 = false := by
  induction n generalizing br with
  | zero => rfl
  | succ n ih =>
    have hs := opp_step h ((zp k).trans_le hk) hr hv hb
    unfold bisectLoopE
    simp only
    rw [if_neg (opp_wide h hk hk' ht hr hs)]
    exact ih hs

end Ieee

/-- C146 violated: bisection cannot meet an absolute tolerance finer than the spacing of doubles. If the bracket lies at or above
`2^k`, the tolerance is at most `2^(k-52)`, and the function changes sign but is not exactly on target at any double of the bracket,
`bisect` reports FAIL, after all its 1000 halvings — although the bracket is as narrow as two neighbouring doubles allow. -/
theorem C146_bisect_spacing_violated {rnd : ℝ → ℝ} (h : ToNearest 53 (-1074) rnd) (f : Ext → Ext)
    (yt guess xmin xmax xroot0 : Ext) (l r t : ℝ) (k : ℤ) (hk : (2 : ℝ) ^ k ≤ l) (hk' : -1022 ≤ k) (ht : t ≤ 2 ^ (k - 52))
    (hr : r ≤ 2 ^ (1000 : ℤ)) (hv : NeverHits rnd f yt l r) (br0 br : Br Ext)
    (h1 : regionE rnd maxDouble f yt xmin xmax
      (if lt (absE guess) (.fin t) then add rnd maxDouble guess (mul rnd maxDouble (.fin 2) (.fin t)) else guess) 1000
      (lit rnd (1 / 100)) = some br0)
    (h2 : repairE rnd maxDouble f yt xmin xmax br0 = some br) (hb : Opp rnd f yt l r br) :
    (bisectE rnd maxDouble f yt guess xmin xmax (.fin t) xroot0).1 = .fail := by
  unfold bisectE
  simp only [h1, h2, opp_never h hk hk' ht hr hv 1000 hb]
  rfl

/-- C146 violated: with the tolerance the library uses for "density from pressure and temperature", `10` epsilons, this is the case
for every density of at least 16 (gold, tungsten, uranium in g/cm³; everything in kg/m³): whatever the number of halvings, the
loop does not find its bracket narrow enough. -/
theorem C146_bisect_dense_violated {rnd : ℝ → ℝ} (h : ToNearest 53 (-1074) rnd) (f : Ext → Ext) (yt : Ext) (l r : ℝ)
    (hl : 16 ≤ l) (hr : r ≤ 2 ^ (1000 : ℤ)) (hv : NeverHits rnd f yt l r) (br : Br Ext) (hb : Opp rnd f yt l r br) (n : Nat) :
    (bisectLoopE rnd maxDouble f yt (.fin (10 * 2 ^ (-52 : ℤ))) n br).1 = false :=
  opp_never h (k := 4) (by norm_num; exact hl) (by norm_num) (by norm_num) hr hv n hb

/-- C146 non-vacuity: a pressure that jumps past its target between 16 and 32 meets the hypotheses. -/
example {rnd : ℝ → ℝ} (h : ToNearest 53 (-1074) rnd) :
    let f : Ext → Ext := fun x => if le x (.fin 20) then .fin (-1) else .fin 1
    NeverHits rnd f (.fin 0) 16 32 ∧ Opp rnd f (.fin 0) 16 32 ⟨.fin 16, .fin 32, .fin (-1), .fin 1⟩ := by
  intro f
  have q1 : sub rnd maxDouble (.fin (-1)) (.fin 0) = .fin (-1) := by
    simp only [sub, neg, add]
    rw [show (-1 : ℝ) + -0 = -1 by norm_num]
    exact ofReal_dy h (-1) 0 (by norm_num) (by norm_num) (by norm_num)
  have q2 : sub rnd maxDouble (.fin 1) (.fin 0) = .fin 1 := by
    simp only [sub, neg, add]
    rw [show (1 : ℝ) + -0 = 1 by norm_num]
    exact ofReal_dy h 1 0 (by norm_num) (by norm_num) (by norm_num)
  have z1 : (2 : ℝ) ^ (-500 : ℤ) ≤ 1 := by
    rw [show (1 : ℝ) = 2 ^ (0 : ℤ) by simp]
    exact zpow_le_zpow_right₀ (by norm_num) (by norm_num)
  have z2 : (1 : ℝ) ≤ 2 ^ (500 : ℤ) := by
    rw [show (1 : ℝ) = 2 ^ (0 : ℤ) by simp]
    exact zpow_le_zpow_right₀ (by norm_num) (by norm_num)
  refine ⟨fun x _ _ _ => ?_, ⟨16, 32, -1, 1, rfl, ?_, ?_, le_rfl, by norm_num, le_rfl, ?_, ?_, by norm_num⟩⟩
  · by_cases hx : le (.fin x) (.fin 20)
    · exact ⟨-1, by simp only [f, if_pos hx, q1], by simpa using z1, by simpa using z2⟩
    · exact ⟨1, by simp only [f, if_neg hx, q2], by simpa using z1, by simpa using z2⟩
  · exact ⟨16, 0, by norm_num, by norm_num, by norm_num⟩
  · exact ⟨32, 0, by norm_num, by norm_num, by norm_num⟩
  · have : le (.fin 16) (.fin 20) := by norm_num [le]
    simp only [f, if_pos this, q1]
  · have : ¬ le (.fin 32) (.fin 20) := by norm_num [le]
    simp only [f, if_neg this, q2]

/-- C146 non-vacuity: the same jump searched between 19.9375 and 20.0625 from a guess of 20: the region overshoots both ends at once and
is forced back onto them, and the bracket that reaches the loop meets the hypotheses of `C146_bisect_spacing_violated`. -/
example {rnd : ℝ → ℝ} (h : ToNearest 53 (-1074) rnd) :
    let f : Ext → Ext := fun x => if le x (.fin 20) then .fin (-1) else .fin 1
    let xmin : Ext := .fin (319 / 16)
    let xmax : Ext := .fin (321 / 16)
    let t : ℝ := 10 * 2 ^ (-52 : ℤ)
    ∃ br0 br, regionE rnd maxDouble f (.fin 0) xmin xmax
      (if lt (absE (.fin 20)) (.fin t) then add rnd maxDouble (.fin 20) (mul rnd maxDouble (.fin 2) (.fin t)) else .fin 20) 1000
      (lit rnd (1 / 100)) = some br0 ∧ repairE rnd maxDouble f (.fin 0) xmin xmax br0 = some br ∧
      Opp rnd f (.fin 0) (319 / 16) (321 / 16) br := by
  intro f xmin xmax t
  have q1 : sub rnd maxDouble (.fin (-1)) (.fin 0) = .fin (-1) := by
    simp only [sub, neg, add]
    rw [show (-1 : ℝ) + -0 = -1 by norm_num]
    exact ofReal_dy h (-1) 0 (by norm_num) (by norm_num) (by norm_num)
  have q2 : sub rnd maxDouble (.fin 1) (.fin 0) = .fin 1 := by
    simp only [sub, neg, add]
    rw [show (1 : ℝ) + -0 = 1 by norm_num]
    exact ofReal_dy h 1 0 (by norm_num) (by norm_num) (by norm_num)
  have big : (100 : ℝ) ≤ maxDouble := le_trans (by norm_num) maxDouble_large
  have hx : ¬ lt (absE (.fin 20)) (.fin t) := by norm_num [lt, absE, t]
  rw [if_neg hx]
  have g1 : 1 / 128 ≤ rnd (1 / 100) := rnd_ge h ⟨1, -7, by norm_num, by norm_num, by norm_num⟩ (by norm_num)
  have g2 : rnd (1 / 100) ≤ 1 := rnd_le h ⟨1, 0, by norm_num, by norm_num, by norm_num⟩ (by norm_num)
  have d1 : 1 / 8 ≤ rnd (rnd (1 / 100) * 20) := rnd_ge h ⟨1, -3, by norm_num, by norm_num, by norm_num⟩ (by linarith)
  have d2 : rnd (rnd (1 / 100) * 20) ≤ 20 := rnd_le h ⟨20, 0, by norm_num, by norm_num, by norm_num⟩ (by linarith)
  have e1 : absE (mul rnd maxDouble (lit rnd (1 / 100)) (.fin 20)) = .fin (rnd (rnd (1 / 100) * 20)) := by
    simp only [lit, mul]
    rw [ofReal_fin (by rw [abs_of_nonneg (by linarith)]; linarith)]
    simp only [absE]
    rw [abs_of_nonneg (by linarith)]
  set dx := rnd (rnd (1 / 100) * 20)
  have l1 : rnd (20 + -dx) ≤ 159 / 8 := rnd_le h ⟨159, -3, by norm_num, by norm_num, by norm_num⟩ (by linarith)
  have l2 : 0 ≤ rnd (20 + -dx) := rnd_ge h isFloat_zero (by linarith)
  have r1 : 161 / 8 ≤ rnd (20 + dx) := rnd_ge h ⟨161, -3, by norm_num, by norm_num, by norm_num⟩ (by linarith)
  have r2 : rnd (20 + dx) ≤ 40 := rnd_le h ⟨40, 0, by norm_num, by norm_num, by norm_num⟩ (by linarith)
  have e2 : sub rnd maxDouble (.fin 20) (.fin dx) = .fin (rnd (20 + -dx)) := by
    simp only [sub, neg, add]
    exact ofReal_fin (by rw [abs_of_nonneg l2]; linarith)
  have e3 : add rnd maxDouble (.fin 20) (.fin dx) = .fin (rnd (20 + dx)) := by
    simp only [add]
    exact ofReal_fin (by rw [abs_of_nonneg (by linarith)]; linarith)
  have fa : f (.fin (319 / 16)) = .fin (-1) := if_pos (by norm_num [le])
  have fb : f (.fin (321 / 16)) = .fin 1 := if_neg (by norm_num [le])
  have c1 : lt (.fin (rnd (20 + -dx))) xmin := by simp only [lt, xmin, decide_eq_true_eq]; linarith
  have c2 : lt xmax (.fin (rnd (20 + dx))) := by simp only [lt, xmax, decide_eq_true_eq]; linarith
  have m1 : mul rnd maxDouble (.fin (-1)) (.fin 1) = .fin (-1) := by
    simp only [mul]
    rw [show (-1 : ℝ) * 1 = -1 by norm_num]
    exact ofReal_dy h (-1) 0 (by norm_num) (by norm_num) (by norm_num)
  have c3 : ¬ lt (.fin 0) (.fin (-1)) := by norm_num [lt]
  refine ⟨⟨.fin (rnd (20 + -dx)), .fin (rnd (20 + dx)), sub rnd maxDouble (f (.fin (rnd (20 + -dx)))) (.fin 0),
    sub rnd maxDouble (f (.fin (rnd (20 + dx)))) (.fin 0)⟩, ⟨.fin (319 / 16), .fin (321 / 16), .fin (-1), .fin 1⟩, ?_, ?_, ?_⟩
  · rw [show (1000 : Nat) = 999 + 1 from rfl, regionE]
    simp only [e1, e2, e3]
    rw [if_pos (Or.inr (Or.inl c1))]
  · unfold repairE
    simp only [if_pos c2, if_pos c1, xmin, xmax, fa, fb, q1, q2, m1, if_neg c3]
  · exact ⟨319 / 16, 321 / 16, -1, 1, rfl, ⟨319, -4, by norm_num, by norm_num, by norm_num⟩,
      ⟨321, -4, by norm_num, by norm_num, by norm_num⟩, le_rfl, by norm_num, le_rfl, by rw [fa, q1], by rw [fb, q2], by norm_num⟩

end Verif
