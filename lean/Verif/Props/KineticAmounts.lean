import Verif.Props.Kinetic

/-! # C02/C04: how much each phase transfer moves -/

namespace Verif.Kinetic

open Finset Spec

/-- What a donor holding `left` gives when asked for `want`: nothing below the threshold; everything if less
than the threshold would remain; otherwise what was asked for. -/
noncomputable def portion (left want : ℝ) : ℝ :=
  if left < tiny then 0 else if left - want < tiny then left else want

theorem runRow_amount (logdt : ℝ) (logR : Int → WithBot ℝ) (m : ℝ) (L : Nat) (r : Row) (i : Nat) (hi : i < L) :
    (runRow logdt logR m L r).dmfs (r.jk + i)
      = portion (r.nm - ∑ i' ∈ range i, (runRow logdt logR m L r).dmfs (r.jk + i'))
        (expE ((logdt : WithBot ℝ) + logR (r.jk + i) + logE m)) := by
  induction L generalizing r i with
  | zero => omega
  | succ L ih =>
    have hs : runRow logdt logR m (L + 1) r = runRow logdt logR m L (xfer logdt logR m r) := by
      simp [runRow]
    rw [hs]
    set x := xfer logdt logR m r with hx
    obtain ⟨_, a2, _, a4, _⟩ := runRow_spec logdt logR m L x
    have hjk : x.jk = r.jk + 1 := by rw [hx]; unfold xfer; split_ifs <;> rfl
    have hfst : (runRow logdt logR m L x).dmfs r.jk = x.dmfs r.jk := a2 _ (by rw [hjk]; omega)
    have hval : x.dmfs r.jk = portion r.nm (expE ((logdt : WithBot ℝ) + logR r.jk + logE m)) := by
      rw [hx]; unfold xfer portion
      by_cases h1 : r.nm < tiny
      · simp [h1]
      · simp [h1]
    have hshift : ∀ i : Nat, (runRow logdt logR m L x).dmfs (r.jk + ((i + 1 : Nat) : Int))
        = (runRow logdt logR m L x).dmfs (x.jk + i) := by
      intro i; congr 1; rw [hjk]; push_cast; ring
    cases i with
    | zero => simp only [Nat.cast_zero, add_zero, range_zero, sum_empty, sub_zero]; rw [hfst, hval]
    | succ i =>
      rw [sum_range_succ', sum_congr rfl (fun i _ => hshift i), hshift]
      simp only [Nat.cast_zero, add_zero]
      rw [hfst]
      have hd : (expE ((logdt : WithBot ℝ) + logR (r.jk + ((i + 1 : Nat) : Int)) + logE m))
          = expE ((logdt : WithBot ℝ) + logR (x.jk + i) + logE m) := by
        rw [hjk]; congr 3; push_cast; ring_nf
      rw [hd]
      by_cases h1 : r.nm < tiny
      · have hxn : x.nm = r.nm := by rw [hx]; unfold xfer; rw [if_pos h1]
        have hx0 : x.dmfs r.jk = 0 := by rw [hval]; unfold portion; rw [if_pos h1]
        rw [ih x i (by omega), hx0, hxn, add_zero]
      · have hxn : x.nm = r.nm - expE ((logdt : WithBot ℝ) + logR r.jk + logE m) := by
          rw [hx]; unfold xfer; rw [if_neg h1]
        by_cases h2 : r.nm - expE ((logdt : WithBot ℝ) + logR r.jk + logE m) < tiny
        · obtain ⟨_, b2⟩ := a4 (by rw [hxn]; exact h2)
          rw [b2 i (by omega), sum_eq_zero (fun i' hi' => b2 i' (by have := mem_range.mp hi'; omega)), hval]
          have : portion r.nm (expE ((logdt : WithBot ℝ) + logR r.jk + logE m)) = r.nm := by
            unfold portion; rw [if_neg h1, if_pos h2]
          rw [this, zero_add, sub_self]
          unfold portion; rw [if_pos tiny_pos]
        · have : x.dmfs r.jk = expE ((logdt : WithBot ℝ) + logR r.jk + logE m) := by
            rw [hval]; unfold portion; rw [if_neg h1, if_neg h2]
          rw [ih x i (by omega), this, hxn]
          congr 1; ring

/-- Invariant of the outer loop: rows already done hold the portions, slots not yet reached and fractions of
phases not in the list are untouched. -/
structure AmountsDone (logdt : ℝ) (n : Nat) (m : Nat → ℝ) (ord : Nat → Nat) (logR : Int → WithBot ℝ)
    (d0 : Int → ℝ) (f0 : Nat → ℝ) (c : Nat) (s : St) : Prop where
  jk : s.jk = base n c
  amount : ∀ j k, j < c → j < k → k < n → s.dmfs (slot n j k)
    = portion (avail n m ord s.dmfs j - ∑ k' ∈ Ico (k + 1) n, s.dmfs (slot n j k'))
      (expE ((logdt : WithBot ℝ) + logR (slot n j k) + logE (m (ord j))))
  frameD : ∀ i : Int, i < 0 ∨ base n c ≤ i → s.dmfs i = d0 i
  frameF : ∀ i, (∀ j < c, ord j ≠ i) → s.newmfs i = f0 i

theorem sum_tail_row (n j k : Nat) (hjk : j < k) (hk : k < n) (f : Int → ℝ) :
    ∑ i ∈ range (n - 1 - k), f (base n j + i) = ∑ k' ∈ Ico (k + 1) n, f (slot n j k') := by
  refine sum_nbij' (fun i => n - 1 - i) (fun k' => n - 1 - k') ?_ ?_ ?_ ?_ ?_
  · intro i hi; have := mem_range.mp hi; exact mem_Ico.mpr ⟨by omega, by omega⟩
  · intro i hi; have := mem_Ico.mp hi; exact mem_range.mpr (by omega)
  · intro i hi; have := mem_range.mp hi; omega
  · intro i hi; have := mem_Ico.mp hi; omega
  · intro i hi
    have := mem_range.mp hi
    simp only [slot_eq]
    congr 1; omega

theorem amountsDone_step {logdt : ℝ} {n : Nat} {m : Nat → ℝ} {ord : Nat → Nat}
    {logR : Int → WithBot ℝ} {d0 : Int → ℝ} {f0 : Nat → ℝ} {c : Nat} {s : St} (hc : c + 1 < n)
    (h : AmountsDone logdt n m ord logR d0 f0 c s) :
    AmountsDone logdt n m ord logR d0 f0 (c + 1) (phaseStep logdt n m ord logR s c) := by
  have hfold : ∀ r, (down n c).foldl (fun r _ => xfer logdt logR (m (ord c)) r) r
      = runRow logdt logR (m (ord c)) (n - 1 - c) r := by
    intro r; rw [foldl_const, length_down]; rfl
  set r0 : Row := ⟨avail n m ord s.dmfs c, s.jk, s.dmfs⟩ with hr0
  set r := runRow logdt logR (m (ord c)) (n - 1 - c) r0 with hr
  have hstep : phaseStep logdt n m ord logR s c
      = ⟨r.jk, r.dmfs, Function.update s.newmfs (ord c) (clip r.nm)⟩ := by
    unfold phaseStep; simp only [hfold]; rfl
  rw [hstep]
  obtain ⟨a1, a2, _, _, _⟩ := runRow_spec logdt logR (m (ord c)) (n - 1 - c) r0
  rw [← hr] at a1 a2
  have hjk0 : r0.jk = base n c := h.jk
  have hold : ∀ j k, j < c → j < k → k < n → r.dmfs (slot n j k) = s.dmfs (slot n j k) := by
    intro j k hj hjk hk
    refine a2 _ (Or.inl ?_)
    rw [hjk0]
    have h1 := slot_range hjk hk
    have h2 := base_mono (n := n) (show j + 1 ≤ c by omega) (by omega)
    omega
  have havail : ∀ j, j ≤ c → avail n m ord r.dmfs j = avail n m ord s.dmfs j := by
    intro j hj
    exact avail_congr fun k hk => hold k j (by omega) hk (by omega)
  have hb1 : base n (c + 1) = r0.jk + ((n - 1 - c : Nat) : Int) := by rw [hjk0, base_succ]; omega
  refine ⟨?_, ?_, ?_, ?_⟩
  · simp only; rw [a1, hb1]
  · intro j k hj hjk hk
    simp only
    rcases Nat.lt_succ_iff_lt_or_eq.mp hj with hj | rfl
    · rw [hold j k hj hjk hk, h.amount j k hj hjk hk, havail j (by omega)]
      congr 2
      refine sum_congr rfl fun k' hk' => ?_
      have := mem_Ico.mp hk'
      rw [hold j k' hj (by omega) this.2]
    · have he : slot n j k = r0.jk + ((n - 1 - k : Nat) : Int) := by rw [slot_eq, hjk0]; omega
      have hh := runRow_amount logdt logR (m (ord j)) (n - 1 - j) r0 (n - 1 - k) (by omega)
      rw [← hr, ← he] at hh
      rw [hh, havail j le_rfl, hjk0, sum_tail_row n j k hjk hk]
  · intro i hi
    simp only
    have h0 := base_mono (n := n) (show 0 ≤ c by omega) (by omega)
    rw [base_zero] at h0
    have h1 := base_mono (n := n) (show c ≤ c + 1 by omega) (by omega)
    rw [a2 i (by rw [← hb1, hjk0]; omega)]
    exact h.frameD i (by omega)
  · intro i hi
    simp only
    rw [Function.update_of_ne (fun e => hi c (by omega) e.symm)]
    exact h.frameF i fun j hj => hi j (by omega)

theorem amountsDone_all {logdt : ℝ} {n : Nat} {m : Nat → ℝ} {ord : Nat → Nat}
    {logR : Int → WithBot ℝ} {d0 : Int → ℝ} {f0 : Nat → ℝ} :
    AmountsDone logdt n m ord logR d0 f0 (n - 1)
      ((List.range (n - 1)).foldl (phaseStep logdt n m ord logR) ⟨0, d0, f0⟩) := by
  suffices H : ∀ c, c ≤ n - 1 → AmountsDone logdt n m ord logR d0 f0 c
      ((List.range c).foldl (phaseStep logdt n m ord logR) ⟨0, d0, f0⟩) from H _ le_rfl
  intro c
  induction c with
  | zero => exact fun _ => ⟨by simp [base_zero], by simp, by simp, by simp⟩
  | succ c ih =>
    intro hc
    rw [List.range_succ, List.foldl_append]
    exact amountsDone_step (by omega) (ih (by omega))

/-- C04 (amounts): receivers are served from the lowest Gibbs energy upwards. Each gets
`exp(log dt + log R + log m)`, `m` being the donor's own mass fraction before the step, unless less than the
threshold would remain of what the donor still has (own mass and receipts minus earlier gifts): then it gets all of
it, and later receivers nothing. -/
theorem C04_transfer_amount (logdt : ℝ) (n : Nat) (m : Nat → ℝ) (ord : Nat → Nat)
    (logR : Int → WithBot ℝ) (d0 : Int → ℝ) (f0 : Nat → ℝ) {j k : Nat} (hjk : j < k) (hk : k < n) :
    let d := (smallStep logdt n m ord logR d0 f0).dmfs
    let left := available n m ord d j - ∑ k' ∈ Ico (k + 1) n, d (pairIndex n j k')
    let want := expE ((logdt : WithBot ℝ) + logR (pairIndex n j k) + logE (m (ord j)))
    d (pairIndex n j k) = if left < tiny then 0 else if left - want < tiny then left else want := by
  intro d left want
  have h := (amountsDone_all (logdt := logdt) (n := n) (m := m) (ord := ord) (logR := logR) (d0 := d0)
    (f0 := f0)).amount j k (by omega) hjk hk
  have e1 : left = avail n m ord d j - ∑ k' ∈ Ico (k + 1) n, d (slot n j k') := by
    simp only [left]
    rw [available_eq_avail (by omega)]
    congr 1
    refine sum_congr rfl fun k' hk' => ?_
    have := mem_Ico.mp hk'
    rw [pairIndex_eq_slot (by omega) this.2]
  have e2 : want = expE ((logdt : WithBot ℝ) + logR (slot n j k) + logE (m (ord j))) := by
    simp only [want]; rw [pairIndex_eq_slot hjk hk]
  rw [e1, e2, pairIndex_eq_slot hjk hk]
  exact h

/-- C04: within the time step limit, a donor above the threshold asked by the first receiver only (the phase of
lowest Gibbs energy) gives `exp(log dt + log R + log m)` or, if less than the threshold would remain, everything. -/
theorem C04_first_receiver (logdt : ℝ) (n : Nat) (m : Nat → ℝ) (ord : Nat → Nat)
    (logR : Int → WithBot ℝ) (d0 : Int → ℝ) (f0 : Nat → ℝ) (hn : 1 < n) (hm : tiny ≤ m (ord 0)) :
    let want := expE ((logdt : WithBot ℝ) + logR 0 + logE (m (ord 0)))
    (smallStep logdt n m ord logR d0 f0).dmfs 0 = if m (ord 0) - want < tiny then m (ord 0) else want := by
  have h := C04_transfer_amount logdt n m ord logR d0 f0 (j := 0) (k := n - 1) (by omega) (by omega)
  have e : pairIndex n 0 (n - 1) = 0 := by
    rw [pairIndex_eq_slot (by omega) (by omega), slot_eq, base_zero]; omega
  have e' : n - 1 + 1 = n := by omega
  simp only [e, e', Ico_self, sum_empty, available, range_zero, add_zero, sub_zero] at h
  intro want
  rw [h, if_neg (not_lt.mpr hm)]

/-- C02/C03: nothing is written outside the `n(n-1)/2` slots of the transfer table, nor beyond the phases. -/
theorem C03_smallStep_frame (logdt : ℝ) (n : Nat) (m : Nat → ℝ) (ord : Nat → Nat)
    (logR : Int → WithBot ℝ) (d0 : Int → ℝ) (f0 : Nat → ℝ) (hn : 0 < n) (ho : IsOrdering n ord) :
    (∀ i : Int, i < 0 ∨ (n : Int) * (n - 1) ≤ 2 * i → (smallStep logdt n m ord logR d0 f0).dmfs i = d0 i) ∧
    (∀ i, n ≤ i → (smallStep logdt n m ord logR d0 f0).newmfs i = f0 i) := by
  have h := amountsDone_all (logdt := logdt) (n := n) (m := m) (ord := ord) (logR := logR) (d0 := d0)
    (f0 := f0)
  have hi := isInj_of_isOrdering ho
  refine ⟨fun i hh => ?_, fun i hh => ?_⟩
  · refine h.frameD i ?_
    have h2 := two_base n (n - 1)
    rw [Nat.cast_sub hn] at h2
    rcases hh with hh | hh
    · exact Or.inl hh
    · right
      have : ((n : Int) - (1 : Nat)) * (2 * n - 1 - (n - (1 : Nat))) = n * (n - 1) := by push_cast; ring
      rw [this] at h2; omega
  · have hne : ∀ j < n, ord j ≠ i := fun j hj e => by have := hi.1 j hj; omega
    have : (smallStep logdt n m ord logR d0 f0).newmfs i = _ :=
      Function.update_of_ne (hne (n - 1) (by omega)).symm _ _
    rw [this]
    exact h.frameF i fun j hj => hne j (by omega)

/-- C02: total mass is conserved exactly if and only if no donor phase reached has an available mass strictly
between zero and the threshold. -/
theorem C02_conserved_iff (logdt : ℝ) (n : Nat) (m : Nat → ℝ) (ord : Nat → Nat)
    (logR : Int → WithBot ℝ) (d0 : Int → ℝ) (f0 : Nat → ℝ) (hn : 0 < n) (ho : IsOrdering n ord)
    (hm : ∀ i < n, 0 ≤ m i) :
    ∑ i ∈ range n, (smallStep logdt n m ord logR d0 f0).newmfs i = ∑ i ∈ range n, m i ↔
      ∀ j, j + 1 < n → ¬ (0 < available n m ord (smallStep logdt n m ord logR d0 f0).dmfs j ∧
        available n m ord (smallStep logdt n m ord logR d0 f0).dmfs j < tiny) := by
  obtain ⟨hp, _, _⟩ := C02_local_balance logdt n m ord logR d0 f0 hn ho
  have hi := isInj_of_isOrdering ho
  have hav : ∀ j, j + 1 < n → 0 ≤ available n m ord (smallStep logdt n m ord logR d0 f0).dmfs j := by
    intro j hj
    refine add_nonneg (hm _ (hi.1 j (by omega))) (sum_nonneg fun k hk => ?_)
    have := mem_range.mp hk
    exact hp k j this (by omega)
  constructor
  · intro he j hj ⟨h1, h2⟩
    have ht := C02_total_mass logdt n m ord logR d0 f0 hn ho
    simp only at ht
    rw [he] at ht
    have : 0 < ∑ j ∈ range (n - 1), (if available n m ord (smallStep logdt n m ord logR d0 f0).dmfs j < tiny
        then available n m ord (smallStep logdt n m ord logR d0 f0).dmfs j else 0) := by
      refine sum_pos' (fun j' hj' => ?_) ⟨j, mem_range.mpr (by omega), by rw [if_pos h2]; exact h1⟩
      have := mem_range.mp hj'
      split_ifs
      · exact hav j' (by omega)
      · exact le_rfl
    linarith
  · intro h
    refine C02_conserved_exactly logdt n m ord logR d0 f0 hn ho fun j hj => ?_
    rcases (hav j hj).eq_or_lt with h0 | h0
    · exact Or.inl h0.symm
    · exact Or.inr (not_lt.mp fun hlt => h j hj ⟨h0, hlt⟩)

/-- Non-vacuity: two phases, the donor holds a quarter and is asked for all of it. -/
example : (smallStep 0 2 (fun i => if i = 0 then 1 / 4 else 3 / 4) id (fun _ => ((0 : ℝ) : WithBot ℝ))
    (fun _ => 7) (fun _ => 7)).dmfs 0 = 1 / 4 := by
  have h := C04_first_receiver 0 2 (fun i => if i = 0 then (1 / 4 : ℝ) else 3 / 4) id
    (fun _ => ((0 : ℝ) : WithBot ℝ)) (fun _ => 7) (fun _ => 7) (by norm_num) (by norm_num [tiny])
  have hw : expE (((0 : ℝ) : WithBot ℝ) + ((0 : ℝ) : WithBot ℝ) + logE (1 / 4)) = 1 / 4 := by
    unfold logE
    rw [if_neg (by norm_num), ← WithBot.coe_add, ← WithBot.coe_add]
    change Real.exp _ = _
    rw [add_zero, zero_add, Real.exp_log (by norm_num)]
  simp only [id_eq, if_true] at h
  rw [h, hw, if_pos (by norm_num [tiny])]

end Verif.Kinetic
