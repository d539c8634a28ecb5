import Verif.Props.IeeeKinetic

/-! # C141: the log-space rates in machine arithmetic -/

namespace Verif.Kinetic

open Ieee Rounding Finset Spec Classical

variable {rnd : ℝ → ℝ}

theorem ratesM_row (ρ : Nat → Ext) (ks : List Nat) (s : Int × (Int → Ext)) :
    let r := ks.foldl (fun (s : Int × (Int → Ext)) k => (s.1 + 1, Function.update s.2 s.1 (ρ k))) s
    r.1 = s.1 + ks.length ∧ (∀ i, i < s.1 ∨ s.1 + ks.length ≤ i → r.2 i = s.2 i) ∧
    (∀ (i k : Nat), ks[i]? = some k → r.2 (s.1 + i) = ρ k) := by
  induction ks generalizing s with
  | nil => simp
  | cons k0 ks ih =>
    simp only [List.foldl_cons, List.length_cons]
    obtain ⟨a1, a2, a3⟩ := ih (s.1 + 1, Function.update s.2 s.1 (ρ k0))
    refine ⟨?_, ?_, ?_⟩
    · rw [a1]; push_cast; ring
    · intro i hi
      rw [a2 i (by dsimp only; push_cast at hi; omega)]
      have hne : i ≠ s.1 := by push_cast at hi; omega
      exact Function.update_of_ne hne _ _
    · intro i k hk
      cases i with
      | zero =>
        simp only [List.getElem?_cons_zero, Option.some.injEq] at hk
        subst hk
        simp only [Nat.cast_zero, add_zero]
        rw [a2 s.1 (by dsimp only; omega)]
        simp
      | succ i =>
        rw [List.getElem?_cons_succ] at hk
        have := a3 i k hk
        have e : s.1 + ((i + 1 : Nat) : Int) = s.1 + 1 + i := by push_cast; ring
        rw [e]; exact this

theorem ratesM_all (n : Nat) (ρ : Nat → Nat → Ext) (l0 : Int → Ext) :
    let r := (List.range (n - 1)).foldl (fun s j =>
      (down n j).foldl (fun (s : Int × (Int → Ext)) k => (s.1 + 1, Function.update s.2 s.1 (ρ j k))) s) (0, l0)
    (∀ j k, j < k → k < n → r.2 (slot n j k) = ρ j k) ∧ ∀ i, i < 0 ∨ base n (n - 1) ≤ i → r.2 i = l0 i := by
  suffices H : ∀ c, c ≤ n - 1 →
      let r := (List.range c).foldl (fun s j =>
        (down n j).foldl (fun (s : Int × (Int → Ext)) k => (s.1 + 1, Function.update s.2 s.1 (ρ j k))) s) (0, l0)
      r.1 = base n c ∧ (∀ j k, j < c → j < k → k < n → r.2 (slot n j k) = ρ j k) ∧
        ∀ i, i < 0 ∨ base n c ≤ i → r.2 i = l0 i by
    obtain ⟨-, h2, h3⟩ := H _ le_rfl
    exact ⟨fun j k hjk hk => h2 j k (by omega) hjk hk, h3⟩
  intro c
  induction c with
  | zero => exact fun _ => ⟨by simp [base_zero], by simp, by simp⟩
  | succ c ih =>
    intro hc
    obtain ⟨i1, i2, i3⟩ := ih (by omega)
    rw [List.range_succ, List.foldl_append]
    simp only [List.foldl_cons, List.foldl_nil]
    obtain ⟨a1, a2, a3⟩ := ratesM_row (ρ c) (down n c) ((List.range c).foldl (fun s j =>
      (down n j).foldl (fun (s : Int × (Int → Ext)) k => (s.1 + 1, Function.update s.2 s.1 (ρ j k))) s) (0, l0))
    rw [length_down, i1] at a2
    rw [length_down, i1] at a1
    rw [i1] at a3
    have hold : ∀ j k, j < c → j < k → k < n → slot n j k < base n c := by
      intro j k hj hjk hk
      have h1 := slot_range hjk hk
      have h2 := base_mono (n := n) (show j + 1 ≤ c by omega) (by omega)
      omega
    have hsl : ∀ k, k < n → c < k → slot n c k = base n c + ((n - 1 - k : Nat) : Int) := by
      intro k hk hck; rw [slot_eq]; omega
    refine ⟨?_, ?_, ?_⟩
    · rw [a1, base_succ]; omega
    · intro j k hj hjk hk
      rcases Nat.lt_succ_iff_lt_or_eq.mp hj with hj | rfl
      · rw [a2 _ (Or.inl (hold j k hj hjk hk))]; exact i2 j k hj hjk hk
      · rw [hsl k hk hjk]; exact a3 _ k (getElem?_down hjk hk)
    · intro i hi
      have hb : 0 ≤ base n c := by
        have := base_mono (n := n) (show 0 ≤ c by omega) (by omega)
        rwa [base_zero] at this
      have hb' := base_succ n c
      exact (a2 i (by omega)).trans (i3 i (by omega))

/-- C141: the rate stored for the pair `j < k` is, with finite Gibbs energies `gj`, `gk`, prefactor `w` and width `b ≠ 0` and no
operation overflowing, `log(w d) + d d` with `d = (gj - gk) / b`, each operation rounded once and the logarithm the library's; it is
`-inf` (no transfer) when the two energies are equal; nothing outside the `n (n - 1) / 2` positions is written. -/
theorem C141_rates (h : ToNearest 53 (-1074) rnd) {log exp : Ext → Ext} (hl : Libm log exp) (n : Nat) (w b gibbs : Nat → Ext)
    (ord : Nat → Nat) (l0 : Int → Ext) :
    let out := (logRatesM rnd maxDouble log n w b gibbs ord l0).2
    (∀ j k, j < k → k < n → ∀ gj gk wv bv : ℝ, gibbs (ord j) = .fin gj → gibbs (ord k) = .fin gk →
      w (ord j * n + ord k) = .fin wv → b (ord j * n + ord k) = .fin bv → bv ≠ 0 →
      let d := rnd (rnd (gj - gk) / bv)
      (gj = gk → out (pairIndex n j k) = .inf true) ∧
      (|rnd (gj - gk)| ≤ maxDouble → |d| ≤ maxDouble → |rnd (wv * d)| ≤ maxDouble → |rnd (d * d)| ≤ maxDouble →
        ∀ L, log (.fin (rnd (wv * d))) = .fin L → |rnd (L + rnd (d * d))| ≤ maxDouble →
        out (pairIndex n j k) = .fin (rnd (L + rnd (d * d))))) ∧
    (∀ i : Int, i < 0 ∨ (n : Int) * (n - 1) ≤ 2 * i → out i = l0 i) := by
  intro out
  obtain ⟨h1, h2⟩ := ratesM_all n (rateOfM rnd maxDouble log n w b gibbs ord) l0
  refine ⟨?_, fun i hi => h2 i ?_⟩
  · intro j k hjk hk gj gk wv bv e1 e2 e3 e4 hb d
    have ho : out (pairIndex n j k) = rateOfM rnd maxDouble log n w b gibbs ord j k := by
      rw [pairIndex_eq_slot hjk hk]; exact h1 j k hjk hk
    have hsub : ∀ x y : ℝ, sub rnd maxDouble (.fin x) (.fin y) = ofReal rnd maxDouble (x - y) := fun x y => by
      simp [sub, neg, add, sub_eq_add_neg]
    constructor
    · intro hg
      have r0 : rnd 0 = 0 := h.exact isFloat_zero
      have hz : ofReal rnd maxDouble 0 = .fin 0 := by
        rw [ofReal_fin (by rw [r0, abs_zero]; exact maxDouble_pos.le), r0]
      rw [ho, rateOfM]
      simp only [e1, e2, e3, e4, hg, hsub, sub_self, hz, div, if_neg hb, zero_div, mul, mul_zero, hl.log_zero, add]
    · intro q1 q2 q3 q4 L hL q5
      rw [ho, rateOfM]
      simp only [e1, e2, e3, e4, hsub, ofReal_fin q1, div, if_neg hb]
      have hd : ofReal rnd maxDouble (rnd (gj - gk) / bv) = .fin d := ofReal_fin q2
      rw [hd]
      simp only [mul]
      rw [ofReal_fin q3, ofReal_fin q4, hL]
      exact ofReal_fin q5
  · rcases hi with hi | hi
    · exact Or.inl hi
    · right
      rcases n with _ | n
      · simp [base_zero] at hi ⊢; omega
      · have := two_base (n + 1) n
        simp only [Nat.add_sub_cancel] at *
        push_cast at hi this ⊢
        nlinarith

/-- Non-vacuity: two phases with energies 3 and 1, unit prefactor and width 2: `d = 1`, the rate is `log 1 + 1 = 1`. -/
example (h : ToNearest 53 (-1074) rnd) {log exp : Ext → Ext} (hl : Libm log exp) (l0 : Int → Ext) :
    (logRatesM rnd maxDouble log 2 (fun _ => .fin 1) (fun _ => .fin 2) (fun i => if i = 0 then .fin 3 else .fin 1) id l0).2
      (pairIndex 2 0 1) = .fin 1 := by
  have r1 : rnd 1 = 1 := h.exact ⟨1, 0, by norm_num, by norm_num, by norm_num⟩
  have r2 : rnd 2 = 2 := h.exact ⟨1, 1, by norm_num, by norm_num, by norm_num⟩
  have hm : (2 : ℝ) ≤ maxDouble := le_trans (by norm_num) maxDouble_large
  have key := ((C141_rates h hl 2 (fun _ => .fin 1) (fun _ => .fin 2) (fun i => if i = 0 then .fin 3 else .fin 1) id l0).1 0 1
    (by norm_num) (by norm_num) 3 1 1 2 (by simp) (by simp) rfl rfl (by norm_num)).2
  have e1 : rnd (3 - 1 : ℝ) = 2 := by rw [show (3 - 1 : ℝ) = 2 by norm_num, r2]
  have e2 : rnd (rnd (3 - 1 : ℝ) / 2) = 1 := by rw [e1, div_self two_ne_zero, r1]
  simp only [e2, mul_one, r1, abs_one] at key
  have := key (by rw [e1, abs_of_pos two_pos]; exact hm) (by linarith) (by linarith) (by linarith) 0 hl.log_one
    (by rw [zero_add, r1, abs_one]; linarith)
  rw [zero_add, r1] at this
  exact this

end Verif.Kinetic
