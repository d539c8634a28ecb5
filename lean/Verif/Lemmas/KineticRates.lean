import Verif.Lemmas.KineticXfer

/-! Lemmas for `LogRatesCGModel` and `LogMaxTimeStep`. -/

namespace Verif.Kinetic

open Finset

/-- Invariant of `logRates` after `c` rows. -/
structure RatesDone (n : Nat) (w b gibbs : Nat → ℝ) (ord : Nat → Nat) (c : Nat) (r0 r : Rates) :
    Prop where
  jk : r.jk = base n c
  rate : ∀ j k, j < c → j < k → k < n → r.logR (slot n j k) = rateOf n w b gibbs ord j k
  label : ∀ j k, j < c → j < k → k < n → r.fromto (slot n j k) = ord j * 10 + ord k
  frame : ∀ i, i < 0 ∨ base n c ≤ i → r.logR i = r0.logR i ∧ r.fromto i = r0.fromto i

theorem rates_row {n : Nat} {w b gibbs : Nat → ℝ} {ord : Nat → Nat} (j : Nat) (ks : List Nat)
    (s : Rates) :
    let r := ks.foldl (fun (s : Rates) k =>
      { jk := s.jk + 1
        logR := Function.update s.logR s.jk (rateOf n w b gibbs ord j k)
        fromto := Function.update s.fromto s.jk (ord j * 10 + ord k) }) s
    r.jk = s.jk + ks.length ∧
    (∀ i, i < s.jk ∨ s.jk + ks.length ≤ i → r.logR i = s.logR i ∧ r.fromto i = s.fromto i) ∧
    (∀ (i k : Nat), ks[i]? = some k → r.logR (s.jk + i) = rateOf n w b gibbs ord j k ∧
      r.fromto (s.jk + i) = ord j * 10 + ord k) := by
  induction ks generalizing s with
  | nil => simp
  | cons k0 ks ih =>
    simp only [List.foldl_cons, List.length_cons]
    set s' : Rates := { jk := s.jk + 1
                        logR := Function.update s.logR s.jk (rateOf n w b gibbs ord j k0)
                        fromto := Function.update s.fromto s.jk (ord j * 10 + ord k0) } with hs'
    obtain ⟨a1, a2, a3⟩ := ih s'
    have hjk : s'.jk = s.jk + 1 := rfl
    refine ⟨?_, ?_, ?_⟩
    · rw [a1, hjk]; push_cast; ring
    · intro i hi
      obtain ⟨b1, b2⟩ := a2 i (by rw [hjk]; push_cast at hi; omega)
      have hne : i ≠ s.jk := by push_cast at hi; omega
      rw [b1, b2]
      exact ⟨by simp [hs', Function.update_of_ne hne], by simp [hs', Function.update_of_ne hne]⟩
    · intro i k hk
      cases i with
      | zero =>
        simp only [List.getElem?_cons_zero, Option.some.injEq] at hk
        subst hk
        obtain ⟨b1, b2⟩ := a2 s.jk (by rw [hjk]; omega)
        simp only [Nat.cast_zero, add_zero]
        rw [b1, b2]
        exact ⟨by simp [hs'], by simp [hs']⟩
      | succ i =>
        rw [List.getElem?_cons_succ] at hk
        have := a3 i k hk
        rw [hjk] at this
        have e : s.jk + ((i + 1 : Nat) : Int) = s.jk + 1 + i := by push_cast; ring
        rw [e]; exact this

theorem ratesDone_all (n : Nat) (w b gibbs : Nat → ℝ) (ord : Nat → Nat)
    (l0 : Int → WithBot ℝ) (f0 : Int → Nat) :
    RatesDone n w b gibbs ord (n - 1) ⟨0, l0, f0⟩ (logRates n w b gibbs ord l0 f0) := by
  unfold logRates
  suffices H : ∀ c, c ≤ n - 1 → RatesDone n w b gibbs ord c ⟨0, l0, f0⟩
      ((List.range c).foldl (fun s j =>
        (down n j).foldl (fun (s : Rates) k =>
          { jk := s.jk + 1
            logR := Function.update s.logR s.jk (rateOf n w b gibbs ord j k)
            fromto := Function.update s.fromto s.jk (ord j * 10 + ord k) }) s) ⟨0, l0, f0⟩) from
    H _ le_rfl
  intro c
  induction c with
  | zero =>
    exact fun _ => ⟨by simp [base_zero], by simp, by simp, by simp⟩
  | succ c ih =>
    intro hc
    have h := ih (by omega)
    rw [List.range_succ, List.foldl_append]
    simp only [List.foldl_cons, List.foldl_nil]
    set s := (List.range c).foldl (fun s j =>
        (down n j).foldl (fun (s : Rates) k =>
          { jk := s.jk + 1
            logR := Function.update s.logR s.jk (rateOf n w b gibbs ord j k)
            fromto := Function.update s.fromto s.jk (ord j * 10 + ord k) }) s)
        (⟨0, l0, f0⟩ : Rates) with hs
    obtain ⟨a1, a2, a3⟩ := rates_row (n := n) (w := w) (b := b) (gibbs := gibbs) (ord := ord) c
      (down n c) s
    rw [length_down, h.jk] at a2
    rw [length_down, h.jk] at a1
    rw [h.jk] at a3
    have hold : ∀ j k, j < c → j < k → k < n → slot n j k < base n c := by
      intro j k hj hjk hk
      have h1 := slot_range hjk hk
      have h2 := base_mono (n := n) (show j + 1 ≤ c by omega) (by omega)
      omega
    have hsl : ∀ k, k < n → c < k → slot n c k = base n c + ((n - 1 - k : Nat) : Int) := by
      intro k hk hck; rw [slot_eq]; omega
    refine ⟨?_, ?_, ?_, ?_⟩
    · rw [a1, base_succ]; omega
    · intro j k hj hjk hk
      rcases Nat.lt_succ_iff_lt_or_eq.mp hj with hj | rfl
      · rw [(a2 _ (Or.inl (hold j k hj hjk hk))).1]; exact h.rate j k hj hjk hk
      · rw [hsl k hk hjk]; exact (a3 _ k (getElem?_down hjk hk)).1
    · intro j k hj hjk hk
      rcases Nat.lt_succ_iff_lt_or_eq.mp hj with hj | rfl
      · rw [(a2 _ (Or.inl (hold j k hj hjk hk))).2]; exact h.label j k hj hjk hk
      · rw [hsl k hk hjk]; exact (a3 _ k (getElem?_down hjk hk)).2
    · intro i hi
      have hb : 0 ≤ base n c := by
        have := base_mono (n := n) (show 0 ≤ c by omega) (by omega)
        rwa [base_zero] at this
      have hb' := base_succ n c
      obtain ⟨b1, b2⟩ := a2 i (by omega)
      obtain ⟨c1, c2⟩ := h.frame i (by omega)
      exact ⟨b1.trans c1, b2.trans c2⟩

/-- when is a bound below the running minimum -/
def LeNeg (x : ℝ) (l : WithBot ℝ) : Prop := ∀ r : ℝ, l = (r : WithBot ℝ) → x ≤ -r

theorem le_minNeg {x ts : ℝ} {l : WithBot ℝ} : x ≤ minNeg ts l ↔ x ≤ ts ∧ LeNeg x l := by
  cases l with
  | bot => simp [minNeg, LeNeg]
  | coe r =>
    change x ≤ min ts (-r) ↔ _
    rw [le_min_iff]
    refine and_congr_right fun _ => ⟨fun h r' hr' => ?_, fun h => h r rfl⟩
    rw [WithBot.coe_inj] at hr'; subst hr'; exact h

theorem maxStep_row (x : ℝ) (p : Prop) [Decidable p] (logR : Int → WithBot ℝ) (L : Nat)
    (s : ℝ × Int) :
    let r := (fun s : ℝ × Int => if p then (minNeg s.1 (logR s.2), s.2 + 1) else (s.1, s.2 + 1))^[L] s
    r.2 = s.2 + L ∧
    (x ≤ r.1 ↔ x ≤ s.1 ∧ (p → ∀ i : Nat, i < L → LeNeg x (logR (s.2 + i)))) := by
  induction L generalizing s with
  | zero => simp
  | succ L ih =>
    simp only [Function.iterate_succ, Function.comp]
    obtain ⟨a1, a2⟩ := ih (if p then (minNeg s.1 (logR s.2), s.2 + 1) else (s.1, s.2 + 1))
    have h2 : (if p then (minNeg s.1 (logR s.2), s.2 + 1) else (s.1, s.2 + 1)).2 = s.2 + 1 := by
      split_ifs <;> rfl
    rw [h2] at a1 a2
    refine ⟨by rw [a1]; push_cast; ring, ?_⟩
    rw [a2]
    have hsh : (∀ i : Nat, i < L + 1 → LeNeg x (logR (s.2 + i))) ↔
        LeNeg x (logR s.2) ∧ ∀ i : Nat, i < L → LeNeg x (logR (s.2 + 1 + i)) := by
      constructor
      · intro h
        refine ⟨by simpa using h 0 (by omega), fun i hi => ?_⟩
        have := h (i + 1) (by omega)
        have e : s.2 + ((i + 1 : Nat) : Int) = s.2 + 1 + i := by push_cast; ring
        rwa [e] at this
      · rintro ⟨h0, h1⟩ i hi
        cases i with
        | zero => simpa using h0
        | succ i =>
          have e : s.2 + ((i + 1 : Nat) : Int) = s.2 + 1 + i := by push_cast; ring
          rw [e]; exact h1 i (by omega)
    rw [hsh]
    split_ifs with hp
    · rw [le_minNeg]; tauto
    · tauto

theorem maxStep_all (x : ℝ) (n : Nat) (mfs : Nat → ℝ) (ord : Nat → Nat) (logR : Int → WithBot ℝ) :
    x ≤ logMaxTimeStep n mfs ord logR ↔ x ≤ 1 ∧
      ∀ j k, j < k → k < n → mfs (ord j) > tiny → LeNeg x (logR (slot n j k)) := by
  unfold logMaxTimeStep
  suffices H : ∀ c, c ≤ n - 1 →
      let r := (List.range c).foldl (fun s j =>
        (down n j).foldl (fun (s : ℝ × Int) _ =>
          if mfs (ord j) > tiny then (minNeg s.1 (logR s.2), s.2 + 1) else (s.1, s.2 + 1)) s)
        ((1 : ℝ), (0 : Int))
      r.2 = base n c ∧ (x ≤ r.1 ↔ x ≤ 1 ∧
        ∀ j k, j < c → j < k → k < n → mfs (ord j) > tiny → LeNeg x (logR (slot n j k))) by
    rw [(H _ le_rfl).2]
    refine and_congr_right fun _ => ⟨fun h j k hjk hk => h j k (by omega) hjk hk,
      fun h j k _ hjk hk => h j k hjk hk⟩
  intro c
  induction c with
  | zero => intro _; simp [base_zero]
  | succ c ih =>
    intro hc
    obtain ⟨h1, h2⟩ := ih (by omega)
    simp only [List.range_succ, List.foldl_append, List.foldl_cons, List.foldl_nil]
    set s := (List.range c).foldl (fun s j =>
        (down n j).foldl (fun (s : ℝ × Int) _ =>
          if mfs (ord j) > tiny then (minNeg s.1 (logR s.2), s.2 + 1) else (s.1, s.2 + 1)) s)
        ((1 : ℝ), (0 : Int)) with hs
    rw [foldl_const (fun s : ℝ × Int =>
      if mfs (ord c) > tiny then (minNeg s.1 (logR s.2), s.2 + 1) else (s.1, s.2 + 1))]
    rw [length_down]
    obtain ⟨a1, a2⟩ := maxStep_row x (mfs (ord c) > tiny) logR (n - 1 - c) s
    refine ⟨?_, ?_⟩
    · rw [a1, h1, base_succ]; omega
    · rw [a2, h2, h1, and_assoc]
      refine and_congr_right fun _ => ⟨?_, ?_⟩
      · rintro ⟨b1, b2⟩ j k hj hjk hk hm
        rcases Nat.lt_succ_iff_lt_or_eq.mp hj with hj | rfl
        · exact b1 j k hj hjk hk hm
        · have := b2 hm (n - 1 - k) (by omega)
          rw [slot_eq]
          have e : base n j + ((n : Int) - 1 - k) = base n j + ((n - 1 - k : Nat) : Int) := by omega
          rw [e]; exact this
      · intro h
        refine ⟨fun j k hj => h j k (by omega), fun hm i hi => ?_⟩
        have := h c (n - 1 - i) (by omega) (by omega) (by omega) hm
        rw [slot_eq] at this
        have e : base n c + ((n : Int) - 1 - (n - 1 - i : Nat)) = base n c + (i : Int) := by omega
        rwa [e] at this

end Verif.Kinetic
