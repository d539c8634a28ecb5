import Verif.Lemmas.KineticRates
import Verif.Spec.Pairs

/-! # C01–C04: kinetic phase transitions -/

namespace Verif.Kinetic

open Finset Spec

/-! ## C01 -/

/-- C01: whatever the array held before, `SortGibbs` returns an ordering of the phases from highest to
lowest Gibbs energy. -/
theorem C01_sortGibbs_orders {K : Type*} [LinearOrder K] (n : Nat) (gibbs : Nat → K) (o : Nat → Nat) :
    IsOrdering n (sortGibbs n gibbs o) ∧ HighToLow n gibbs (sortGibbs n gibbs o) := by
  obtain ⟨h1, h2⟩ := sortGibbs_inv n gibbs o
  refine ⟨isOrdering_of_isInj h1, ?_⟩
  unfold HighToLow
  rw [List.pairwise_map]
  refine List.Pairwise.imp_of_mem ?_ (List.pairwise_lt_range (n := n))
  intro a b _ hb hab
  have := List.mem_range.mp hb
  exact h2 a (by omega) b hab this

/-- C01: entries beyond the phase count are not written. -/
theorem C01_sortGibbs_frame {K : Type*} [LinearOrder K] (n : Nat) (gibbs : Nat → K) (o : Nat → Nat)
    (i : Nat) (hi : n ≤ i) : sortGibbs n gibbs o i = o i := by
  unfold sortGibbs
  have h0 : initOrder n o i = o i := by rw [initOrder_eq, if_neg (by omega)]
  suffices H : ∀ (js : List Nat), (∀ j ∈ js, j < n) → ∀ o' : Nat → Nat, o' i = o i →
      js.foldl (fun o j => sortRow gibbs j (down n j) o) o' i = o i by
    exact H _ (fun j hj => by have := List.mem_range.mp hj; omega) _ h0
  intro js
  induction js with
  | nil => intro _ o' h; simpa using h
  | cons j js ih =>
    intro hjs o' h
    simp only [List.foldl_cons]
    refine ih (fun j' hj' => hjs j' (by simp [hj'])) _ ?_
    have hj := hjs j (by simp)
    suffices G : ∀ (ks : List Nat), (∀ k ∈ ks, k < n) → ∀ o' : Nat → Nat, o' i = o i →
        sortRow gibbs j ks o' i = o i from
      G _ (fun k hk => (mem_down.mp hk).2) _ h
    intro ks
    induction ks with
    | nil => intro _ o' h; simpa [sortRow] using h
    | cons k ks ihk =>
      intro hks o' h
      have hk := hks k (by simp)
      have : sortRow gibbs j (k :: ks) o' =
          sortRow gibbs j ks (if gibbs (o' k) > gibbs (o' j) then swap o' j k else o') := by
        simp [sortRow]
      rw [this]
      refine ihk (fun k' hk' => hks k' (by simp [hk'])) _ ?_
      split_ifs
      · rw [swap_apply, if_neg (by omega), if_neg (by omega)]; exact h
      · exact h

/-- C01 on a concrete input with a tie. -/
example : (List.range 4).map (sortGibbs 4 (fun i => [3, 7, (3 : ℤ), 9].getD i 0) (fun _ => 5))
    = [3, 1, 2, 0] := by decide

/-! ## C03 (stated first, the others use its indexing) -/

theorem pairIndex_eq_slot {n j k : Nat} (hjk : j < k) (hkn : k < n) :
    pairIndex n j k = slot n j k := by
  have hb : ∀ c, c ≤ n - 1 → ((∑ i ∈ range c, (n - 1 - i) : Nat) : Int) = base n c := by
    intro c
    induction c with
    | zero => intro _; simp [base_zero]
    | succ c ih =>
      intro hc
      rw [sum_range_succ, Nat.cast_add, ih (by omega), base_succ]; omega
  rw [pairIndex, slot_eq, hb j (by omega)]; omega

/-- C03: the documented closed form `(j+1)(n-1) - (j-1)j/2 - k`, with C integer division, is the
position of the pair `(j,k)` in the row-by-row listing. -/
theorem C03_closed_form_is_position {n j k : Nat} (hjk : j < k) (hkn : k < n) :
    ((j : Int) + 1) * ((n : Int) - 1) - Int.tdiv (((j : Int) - 1) * j) 2 - k = pairIndex n j k := by
  rw [pairIndex_eq_slot hjk hkn, slot]
  rw [Int.tdiv_eq_ediv_of_nonneg]
  rcases j with _ | j
  · simp
  · push_cast; rw [add_sub_cancel_right]; positivity

/-- C03: the closed form is a bijection from the pairs `j < k < n` onto `0, …, n(n-1)/2 - 1`. -/
theorem C03_slots_bijective (n : Nat) (s : Int) :
    (0 ≤ s ∧ 2 * s < (n : Int) * (n - 1)) ↔
      ∃! p : Nat × Nat, p.1 < p.2 ∧ p.2 < n ∧ slot n p.1 p.2 = s := by
  constructor
  · rintro ⟨h0, h1⟩
    have hn : s < base n n := by
      have := two_base n n
      have e : (n : Int) * (2 * n - 1 - n) = n * (n - 1) := by ring
      rw [e] at this; omega
    obtain ⟨j, k, _, hjk, hk, he⟩ := slot_surj n le_rfl s h0 hn
    refine ⟨(j, k), ⟨hjk, hk, he⟩, ?_⟩
    rintro ⟨j', k'⟩ ⟨a, b, c⟩
    obtain ⟨e1, e2⟩ := slot_inj a b hjk hk (c.trans he.symm)
    simp only at e1 e2
    rw [e1, e2]
  · rintro ⟨⟨j, k⟩, ⟨hjk, hk, he⟩, _⟩
    simp only at hjk hk he
    obtain ⟨a, b⟩ := slot_range hjk hk
    have h0 := base_mono (n := n) (show 0 ≤ j by omega) (by omega)
    have h1 := base_mono (n := n) (show j + 1 ≤ n by omega) le_rfl
    rw [base_zero] at h0
    have := two_base n n
    have e : (n : Int) * (2 * n - 1 - n) = n * (n - 1) := by ring
    rw [e] at this
    omega

/-- C03: `LogRatesCGModel` stores, for every pair `j < k`, the rate and the label of that pair at the
documented position, and writes nothing outside the `n(n-1)/2` positions. -/
theorem C03_logRates_layout (n : Nat) (w b gibbs : Nat → ℝ) (ord : Nat → Nat)
    (l0 : Int → WithBot ℝ) (f0 : Int → Nat) :
    (∀ j k, j < k → k < n →
      let dgdb := (gibbs (ord j) - gibbs (ord k)) / b (ord j * n + ord k)
      (logRates n w b gibbs ord l0 f0).logR (pairIndex n j k)
        = logE (w (ord j * n + ord k) * dgdb) + ((dgdb * dgdb : ℝ) : WithBot ℝ) ∧
      (logRates n w b gibbs ord l0 f0).fromto (pairIndex n j k) = ord j * 10 + ord k) ∧
    (∀ i : Int, i < 0 ∨ (n : Int) * (n - 1) ≤ 2 * i →
      (logRates n w b gibbs ord l0 f0).logR i = l0 i ∧
      (logRates n w b gibbs ord l0 f0).fromto i = f0 i) := by
  have h := ratesDone_all n w b gibbs ord l0 f0
  refine ⟨fun j k hjk hk => ?_, fun i hi => ?_⟩
  · rw [pairIndex_eq_slot hjk hk]
    exact ⟨h.rate j k (by omega) hjk hk, h.label j k (by omega) hjk hk⟩
  · refine h.frame i ?_
    rcases hi with hi | hi
    · exact Or.inl hi
    · right
      rcases n with _ | n
      · simp [base_zero] at hi ⊢; omega
      · have := two_base (n + 1) n
        simp only [Nat.add_sub_cancel] at *
        push_cast at hi this ⊢
        nlinarith

/-- C03: with at most ten phases the label `10*from + to` identifies both phases. -/
theorem C03_fromto_unambiguous {a b a' b' : Nat} (hb : b < 10) (hb' : b' < 10)
    (h : a * 10 + b = a' * 10 + b') : a = a' ∧ b = b' := by omega

/-- C03: with eleven phases two different transitions carry the same label (`1→0` and `0→10`). -/
theorem C03_fromto_ambiguous_beyond_ten_violated :
    ∃ (gibbs : Nat → ℝ) (ord : Nat → Nat) (j k j' k' : Nat), IsOrdering 11 ord ∧
      HighToLow 11 gibbs ord ∧ j < k ∧ k < 11 ∧ j' < k' ∧ k' < 11 ∧
      (ord j, ord k) ≠ (ord j', ord k') ∧
      (logRates 11 (fun _ => 1) (fun _ => 1) gibbs ord (fun _ => ⊥) (fun _ => 0)).fromto (slot 11 j k)
      = (logRates 11 (fun _ => 1) (fun _ => 1) gibbs ord (fun _ => ⊥) (fun _ => 0)).fromto
          (slot 11 j' k') := by
  refine ⟨fun _ => 0, fun i => [1, 0, 10, 2, 3, 4, 5, 6, 7, 8, 9].getD i 0, 0, 1, 1, 2, by unfold IsOrdering; decide, ?_,
    by decide, by decide, by decide, by decide, by decide, ?_⟩
  · unfold HighToLow
    rw [List.pairwise_map]
    exact List.Pairwise.imp (fun _ => le_rfl) (List.pairwise_lt_range (n := 11))
  · have h := ratesDone_all 11 (fun _ => 1) (fun _ => 1) (fun _ => 0)
      (fun i => [1, 0, 10, 2, 3, 4, 5, 6, 7, 8, 9].getD i 0) (fun _ => ⊥) (fun _ => 0)
    rw [h.label 0 1 (by decide) (by decide) (by decide), h.label 1 2 (by decide) (by decide) (by decide)]
    decide

example : pairIndex 4 1 3 = 3 ∧ pairIndex 4 1 2 = 4 ∧ pairIndex 4 2 3 = 5 ∧ slot 4 2 3 = 5 := by
  decide

/-! ## C02 -/

/-- Mass available to phase `j` (in order of decreasing Gibbs energy): its own plus everything the
output table `d` says it received from phases of higher Gibbs energy. -/
def available (n : Nat) (m : Nat → ℝ) (ord : Nat → Nat) (d : Int → ℝ) (j : Nat) : ℝ :=
  m (ord j) + ∑ k ∈ range j, d (pairIndex n k j)

/-- Mass phase `j` gave away according to the output table `d`. -/
def given (n : Nat) (d : Int → ℝ) (j : Nat) : ℝ := ∑ k ∈ Ico (j + 1) n, d (pairIndex n j k)

theorem available_eq_avail {n : Nat} {m : Nat → ℝ} {ord : Nat → Nat} {d : Int → ℝ} {j : Nat}
    (hj : j < n) : available n m ord d j = avail n m ord d j := by
  rw [available, avail_eq]
  congr 1
  exact sum_congr rfl fun k hk => by rw [pairIndex_eq_slot (mem_range.mp hk) hj]

theorem given_eq {n : Nat} {d : Int → ℝ} {j : Nat} :
    given n d j = ∑ k ∈ Ico (j + 1) n, d (slot n j k) := by
  unfold given
  refine sum_congr rfl fun k hk => ?_
  have := mem_Ico.mp hk
  rw [pairIndex_eq_slot (by omega) (by omega)]

/-- C02 (local balance): for each phase, what it ends with is what it had available minus what it gave,
unless the available mass is below the threshold: then it gives nothing and is emptied. Every recorded
transfer is non-negative. -/
theorem C02_local_balance (logdt : ℝ) (n : Nat) (m : Nat → ℝ) (ord : Nat → Nat)
    (logR : Int → WithBot ℝ) (d0 : Int → ℝ) (f0 : Nat → ℝ) (hn : 0 < n) (ho : IsOrdering n ord) :
    let out := smallStep logdt n m ord logR d0 f0
    (∀ j k, j < k → k < n → 0 ≤ out.dmfs (pairIndex n j k)) ∧
    (∀ j, j < n → (j + 1 = n ∨ tiny ≤ available n m ord out.dmfs j) →
      out.newmfs (ord j) = available n m ord out.dmfs j - given n out.dmfs j) ∧
    (∀ j, j + 1 < n → available n m ord out.dmfs j < tiny →
      out.newmfs (ord j) = 0 ∧ given n out.dmfs j = 0) := by
  intro out
  have hi := isInj_of_isOrdering ho
  have h := rowsDone_all (logdt := logdt) (n := n) (m := m) (ord := ord) (logR := logR) (d0 := d0)
    (f0 := f0) hi
  set s := (List.range (n - 1)).foldl (phaseStep logdt n m ord logR) ⟨0, d0, f0⟩ with hs
  have hd : out.dmfs = s.dmfs := rfl
  have hf : ∀ j, j + 1 < n → out.newmfs (ord j) = s.newmfs (ord j) := by
    intro j hj
    have : ord j ≠ ord (n - 1) := by
      intro he; have := hi.2 j (by omega) (n - 1) (by omega) he; omega
    exact Function.update_of_ne this _ _
  refine ⟨?_, ?_, ?_⟩
  · intro j k hjk hk
    rw [pairIndex_eq_slot hjk hk, hd]
    exact h.nonneg j k (by omega) hjk hk
  · intro j hj hc
    rw [available_eq_avail hj, given_eq, hd]
    by_cases hl : j + 1 = n
    · have hj' : j = n - 1 := by omega
      subst hj'
      have : out.newmfs (ord (n - 1)) = avail n m ord s.dmfs (n - 1) := Function.update_self _ _ _
      rw [this, show n - 1 + 1 = n by omega]
      simp
    · rw [hf j (by omega)]
      refine h.big j (by omega) ?_
      rw [available_eq_avail hj, hd] at hc
      tauto
  · intro j hj hc
    rw [available_eq_avail (by omega), hd] at hc
    obtain ⟨b1, b2⟩ := h.small j (by omega) hc
    refine ⟨by rw [hf j hj, b1], ?_⟩
    rw [given_eq, hd]
    refine sum_eq_zero fun k hk => ?_
    have := mem_Ico.mp hk
    exact b2 k (by omega) this.2

/-- C02: no output mass fraction is negative. -/
theorem C02_nonneg (logdt : ℝ) (n : Nat) (m : Nat → ℝ) (ord : Nat → Nat)
    (logR : Int → WithBot ℝ) (d0 : Int → ℝ) (f0 : Nat → ℝ) (ho : IsOrdering n ord)
    (hm : ∀ i < n, 0 ≤ m i) (i : Nat) (hin : i < n) :
    0 ≤ (smallStep logdt n m ord logR d0 f0).newmfs i := by
  have hi := isInj_of_isOrdering ho
  have h := rowsDone_all (logdt := logdt) (n := n) (m := m) (ord := ord) (logR := logR) (d0 := d0)
    (f0 := f0) hi
  have hmem : i ∈ (List.range n).map ord := ho.mem_iff.mpr (List.mem_range.mpr hin)
  obtain ⟨j, hj, rfl⟩ := List.mem_map.mp hmem
  have hj := List.mem_range.mp hj
  unfold smallStep
  simp only [Function.update_apply]
  split_ifs with he
  · have := hi.2 j hj (n - 1) (by omega) he
    subst this
    rw [avail_eq]
    refine add_nonneg (hm _ hin) (sum_nonneg fun k hk => ?_)
    have := mem_range.mp hk
    exact h.nonneg k (n - 1) this this (by omega)
  · have hne : j ≠ n - 1 := fun e => he (by rw [e])
    rcases h.clipped j (by omega) with h' | h'
    · exact h'.ge
    · exact tiny_pos.le.trans h'

theorem sum_ordering {n : Nat} {ord : Nat → Nat} (ho : IsOrdering n ord) (f : Nat → ℝ) :
    ∑ j ∈ range n, f (ord j) = ∑ i ∈ range n, f i := by
  have hi := isInj_of_isOrdering ho
  refine sum_nbij ord (fun j hj => mem_range.mpr (hi.1 j (mem_range.mp hj))) ?_ ?_ (fun _ _ => rfl)
  · intro a ha b hb hab
    exact hi.2 a (by simpa using ha) b (by simpa using hb) hab
  · intro i hin
    have hmem : i ∈ (List.range n).map ord := ho.mem_iff.mpr (List.mem_range.mpr (by simpa using hin))
    obtain ⟨j, hj, rfl⟩ := List.mem_map.mp hmem
    exact ⟨j, by simpa using hj, rfl⟩

/-- C02 (total mass): the sum of the new mass fractions is the sum of the old ones minus exactly the
sub-threshold available masses of the donor phases. -/
theorem C02_total_mass (logdt : ℝ) (n : Nat) (m : Nat → ℝ) (ord : Nat → Nat)
    (logR : Int → WithBot ℝ) (d0 : Int → ℝ) (f0 : Nat → ℝ) (hn : 0 < n) (ho : IsOrdering n ord) :
    let out := smallStep logdt n m ord logR d0 f0
    ∑ i ∈ range n, out.newmfs i = ∑ i ∈ range n, m i -
      ∑ j ∈ range (n - 1), (if available n m ord out.dmfs j < tiny
        then available n m ord out.dmfs j else 0) := by
  intro out
  obtain ⟨_, h1, h2⟩ := C02_local_balance logdt n m ord logR d0 f0 hn ho
  change ∀ j, j < n → _ → out.newmfs (ord j) = _ at h1
  change ∀ j, j + 1 < n → available n m ord out.dmfs j < tiny → out.newmfs (ord j) = 0 ∧
    given n out.dmfs j = 0 at h2
  rw [← sum_ordering ho, ← sum_ordering ho m]
  have hsub : ∑ j ∈ range (n - 1), (if available n m ord out.dmfs j < tiny
      then available n m ord out.dmfs j else 0) = ∑ j ∈ range n, (if j + 1 < n ∧
      available n m ord out.dmfs j < tiny then available n m ord out.dmfs j else 0) := by
    obtain ⟨p, rfl⟩ : ∃ p, n = p + 1 := ⟨n - 1, by omega⟩
    rw [sum_range_succ, Nat.add_sub_cancel]
    simp only [lt_irrefl, false_and, if_false, add_zero]
    refine sum_congr rfl fun j hj => ?_
    have := mem_range.mp hj
    simp [this]
  rw [hsub]
  have hj : ∀ j ∈ range n, out.newmfs (ord j) = available n m ord out.dmfs j - given n out.dmfs j
      - (if j + 1 < n ∧ available n m ord out.dmfs j < tiny then available n m ord out.dmfs j
        else 0) := by
    intro j hj
    have hj := mem_range.mp hj
    split_ifs with hc
    · obtain ⟨a, b⟩ := h2 j hc.1 hc.2
      rw [a, b]; ring
    · rw [h1 j hj (by by_contra hh; push Not at hh; exact hc ⟨by omega, hh.2⟩)]; ring
  rw [sum_congr rfl hj, sum_sub_distrib, sum_sub_distrib]
  have : ∑ j ∈ range n, available n m ord out.dmfs j
      = ∑ j ∈ range n, m (ord j) + ∑ j ∈ range n, given n out.dmfs j := by
    unfold available given
    rw [sum_add_distrib, sum_pairs_comm n (fun j k => out.dmfs (pairIndex n j k))]
  rw [this]; ring

/-- C02: the mass lost is between zero and `(num_phases - 1) * 1e-10`. -/
theorem C02_loss_bounded (logdt : ℝ) (n : Nat) (m : Nat → ℝ) (ord : Nat → Nat)
    (logR : Int → WithBot ℝ) (d0 : Int → ℝ) (f0 : Nat → ℝ) (hn : 0 < n) (ho : IsOrdering n ord)
    (hm : ∀ i < n, 0 ≤ m i) :
    let lost := ∑ i ∈ range n, m i - ∑ i ∈ range n, (smallStep logdt n m ord logR d0 f0).newmfs i
    0 ≤ lost ∧ lost ≤ (n - 1 : ℝ) * (1 / 10 ^ 10) := by
  intro lost
  have ht := C02_total_mass logdt n m ord logR d0 f0 hn ho
  obtain ⟨hp, _, _⟩ := C02_local_balance logdt n m ord logR d0 f0 hn ho
  have hl : lost = ∑ j ∈ range (n - 1),
      (if available n m ord (smallStep logdt n m ord logR d0 f0).dmfs j < tiny
        then available n m ord (smallStep logdt n m ord logR d0 f0).dmfs j else 0) := by
    simp only [lost]; simp only at ht; rw [ht]; ring
  have hi := isInj_of_isOrdering ho
  rw [hl]
  constructor
  · refine sum_nonneg fun j hj => ?_
    have := mem_range.mp hj
    split_ifs
    · refine add_nonneg (hm _ (hi.1 j (by omega))) (sum_nonneg fun k hk => ?_)
      have := mem_range.mp hk
      exact hp k j this (by omega)
    · exact le_rfl
  · have : (n - 1 : ℝ) * (1 / 10 ^ 10) = ∑ _j ∈ range (n - 1), tiny := by
      rw [sum_const, card_range, nsmul_eq_mul, Nat.cast_sub hn, tiny]; simp
    rw [this]
    refine sum_le_sum fun j _ => ?_
    split_ifs with h
    · exact h.le
    · exact tiny_pos.le

/-- C02: total mass is conserved exactly when no donor phase has a positive available mass below the
threshold. -/
theorem C02_conserved_exactly (logdt : ℝ) (n : Nat) (m : Nat → ℝ) (ord : Nat → Nat)
    (logR : Int → WithBot ℝ) (d0 : Int → ℝ) (f0 : Nat → ℝ) (hn : 0 < n) (ho : IsOrdering n ord)
    (h : ∀ j, j + 1 < n → available n m ord (smallStep logdt n m ord logR d0 f0).dmfs j = 0 ∨
      tiny ≤ available n m ord (smallStep logdt n m ord logR d0 f0).dmfs j) :
    ∑ i ∈ range n, (smallStep logdt n m ord logR d0 f0).newmfs i = ∑ i ∈ range n, m i := by
  have ht := C02_total_mass logdt n m ord logR d0 f0 hn ho
  simp only at ht
  rw [ht]
  refine (congrArg _ (sum_eq_zero ?_)).trans (sub_zero _)
  intro j hj
  have := mem_range.mp hj
  rcases h j (by omega) with h' | h'
  · rw [h']; simp
  · rw [if_neg (not_lt.mpr h')]

theorem isOrdering_id (n : Nat) : IsOrdering n id := by simp [IsOrdering]

/-- C02: hypotheses of `C02_conserved_exactly` are met by a state in which the donor is depleted. -/
example : ∑ i ∈ range 2, (smallStep 0 2 (fun i => if i = 0 then 1/4 else 3/4) id (fun _ => (5 : ℝ))
    (fun _ => 0) (fun _ => 0)).newmfs i = 1 := by
  rw [C02_conserved_exactly]
  · simp [sum_range_succ]; norm_num
  · decide
  · exact isOrdering_id 2
  · intro j hj
    have : j = 0 := by omega
    subst this
    right
    simp [available, tiny]; norm_num

/-- C02: exact conservation of the total mass is violated, even when every phase is either empty or
well above the threshold: a phase that receives less than `1e-10` is emptied without passing it on. -/
theorem C02_exact_conservation_violated :
    ∃ (logdt : ℝ) (m : Nat → ℝ) (logR : Int → WithBot ℝ),
      (∀ i < 3, m i = 0 ∨ tiny ≤ m i) ∧ (∀ i < 3, 0 ≤ m i) ∧ ∑ i ∈ range 3, m i = 1 ∧
      ∑ i ∈ range 3, (smallStep logdt 3 m id logR (fun _ => 0) (fun _ => 0)).newmfs i < 1 := by
  refine ⟨0, fun i => if i = 1 then 0 else 1/2,
    fun i => if i = 1 then ((Real.log tiny : ℝ) : WithBot ℝ) else ⊥, ?_, ?_, ?_, ?_⟩
  · intro i _; by_cases h : i = 1
    · simp [h]
    · right; simp [h, tiny]; norm_num
  · intro i _; by_cases h : i = 1 <;> simp [h]
  · simp [sum_range_succ]; norm_num
  · have hx : Real.exp (Real.log tiny + Real.log 2⁻¹) = tiny / 2 := by
      rw [Real.exp_add, Real.exp_log tiny_pos, Real.exp_log (by norm_num)]; ring
    have ht : tiny ≤ 1 / 100 := by unfold tiny; norm_num
    have ht0 := tiny_pos
    have hbot : ∀ x : WithBot ℝ, expE (((0 : ℝ) : WithBot ℝ) + ⊥ + x) = 0 := by
      intro x; simp only [WithBot.add_bot, WithBot.bot_add]; rfl
    have hd : down 3 0 = [2, 1] ∧ down 3 1 = [2] := by decide
    have h1 : expE (((0 : ℝ) : WithBot ℝ) + ((Real.log tiny : ℝ) : WithBot ℝ) + logE 2⁻¹) = tiny / 2 := by
      have : logE (2⁻¹ : ℝ) = ((Real.log 2⁻¹ : ℝ) : WithBot ℝ) := by simp [logE]
      rw [this, ← WithBot.coe_add, ← WithBot.coe_add]
      change Real.exp _ = _
      rw [zero_add, hx]
    have r0 : xfer 0 (fun i => if i = 1 then ((Real.log tiny : ℝ) : WithBot ℝ) else ⊥) (1/2)
        (xfer 0 (fun i => if i = 1 then ((Real.log tiny : ℝ) : WithBot ℝ) else ⊥) (1/2)
          ⟨1/2, 0, fun _ => 0⟩)
        = ⟨1/2 - tiny/2, 2, Function.update (Function.update (fun _ => 0) 0 0) 1 (tiny/2)⟩ := by
      have hne : ¬ ((1:ℝ)/2 < tiny) := by linarith
      have e1 : xfer 0 (fun i => if i = 1 then ((Real.log tiny : ℝ) : WithBot ℝ) else ⊥) (1/2)
          ⟨1/2, 0, fun _ => 0⟩ = ⟨1/2, 1, Function.update (fun _ => 0) 0 0⟩ := by
        unfold xfer
        have hb := hbot (logE (1/2))
        simp only [if_neg hne]
        simp only [show ((0 : Int) = 1) = False by simp, if_false, hb, sub_zero, if_neg hne]
        rfl
      rw [e1]
      unfold xfer
      simp only [if_neg hne, if_true]
      have h1' : expE (((0 : ℝ) : WithBot ℝ) + ((Real.log tiny : ℝ) : WithBot ℝ) + logE (1/2)) = tiny / 2 := by
        rw [one_div]; exact h1
      rw [h1', if_neg (by linarith)]
      rfl
    have s1 : phaseStep 0 3 (fun i => if i = 1 then 0 else 1/2) id
        (fun i => if i = 1 then ((Real.log tiny : ℝ) : WithBot ℝ) else ⊥)
        ⟨0, fun _ => 0, fun _ => 0⟩ 0 = ⟨2, Function.update (Function.update (fun _ => 0) 0 0) 1 (tiny/2),
          Function.update (fun _ => 0) 0 (1/2 - tiny/2)⟩ := by
      have h12 : ¬ (1/2 - tiny/2 < tiny) := by linarith
      unfold phaseStep
      simp only [hd.1, avail, List.range_zero, List.foldl_nil, List.foldl_cons, id]
      simp only [show ((0 : Nat) = 1) = False by simp, if_false, r0, if_neg h12]
    unfold smallStep
    simp only [show (3 - 1) = 2 from rfl, List.range_succ, List.range_zero, List.nil_append,
      List.foldl_append, List.foldl_cons, List.foldl_nil, s1]
    have s2 : slot 3 0 1 = 1 ∧ slot 3 0 2 = 0 ∧ slot 3 1 2 = 2 := by decide
    have h2 : tiny / 2 < tiny := by linarith
    simp [phaseStep, hd.2, avail, List.range_succ, s2, xfer, sum_range_succ, Function.update_apply, h2]
    linarith

/-! ## C04 -/

/-- C04: `LogMaxTimeStep` is the largest value not above `1` and not above `-log R` for any pair whose
donor is above the mass threshold. -/
theorem C04_logMaxTimeStep_is_greatest (n : Nat) (mfs : Nat → ℝ) (ord : Nat → Nat)
    (logR : Int → WithBot ℝ) :
    IsGreatest {x : ℝ | x ≤ 1 ∧ ∀ j k, j < k → k < n → mfs (ord j) > tiny →
      ∀ r : ℝ, logR (pairIndex n j k) = (r : WithBot ℝ) → x + r ≤ 0}
      (logMaxTimeStep n mfs ord logR) := by
  have key : ∀ x, x ≤ logMaxTimeStep n mfs ord logR ↔ x ≤ 1 ∧ ∀ j k, j < k → k < n →
      mfs (ord j) > tiny → ∀ r : ℝ, logR (pairIndex n j k) = (r : WithBot ℝ) → x + r ≤ 0 := by
    intro x
    rw [maxStep_all]
    refine and_congr_right fun _ => ?_
    constructor
    · intro h j k hjk hk hm r hr
      rw [pairIndex_eq_slot hjk hk] at hr
      have := h j k hjk hk hm r hr; linarith
    · intro h j k hjk hk hm r hr
      have := h j k hjk hk hm r (by rw [pairIndex_eq_slot hjk hk]; exact hr); linarith
  exact ⟨(key _).mp le_rfl, fun x hx => (key x).mpr hx⟩

/-- C04: with a time step within the limit, the amount `exp(log dt + log R + log m)` requested from a
donor above the threshold for any single receiver never exceeds the donor's mass. -/
theorem C04_transfer_within_mass (n : Nat) (mfs : Nat → ℝ) (ord : Nat → Nat)
    (logR : Int → WithBot ℝ) (logdt : ℝ) (h : logdt ≤ logMaxTimeStep n mfs ord logR)
    {j k : Nat} (hjk : j < k) (hk : k < n) (hm : mfs (ord j) > tiny) :
    expE ((logdt : WithBot ℝ) + logR (pairIndex n j k) + logE (mfs (ord j))) ≤ mfs (ord j) := by
  obtain ⟨_, h2⟩ := (C04_logMaxTimeStep_is_greatest n mfs ord logR).1
  have hpos : 0 < mfs (ord j) := tiny_pos.trans hm
  have hl : logE (mfs (ord j)) = ((Real.log (mfs (ord j)) : ℝ) : WithBot ℝ) := by
    simp [logE, hpos.ne']
  rw [hl]
  cases hr : logR (pairIndex n j k) with
  | bot => simp only [WithBot.add_bot, WithBot.bot_add]; exact hpos.le
  | coe r =>
    have := h2 j k hjk hk hm r hr
    rw [← WithBot.coe_add, ← WithBot.coe_add]
    change Real.exp _ ≤ _
    calc Real.exp (logdt + r + Real.log (mfs (ord j)))
        ≤ Real.exp (Real.log (mfs (ord j))) := Real.exp_le_exp.mpr (by linarith)
      _ = mfs (ord j) := Real.exp_log hpos

/-- C04 non-vacuity: for two phases the limit is `min 1 (-log R)`. -/
example : logMaxTimeStep 2 (fun _ => 1/2) id (fun _ => ((3 : ℝ) : WithBot ℝ)) = -3 := by
  have hd : down 2 0 = [1] := by decide
  have ht : tiny < 2⁻¹ := by unfold tiny; norm_num
  simp only [logMaxTimeStep, show (2 - 1) = 1 from rfl, List.range_succ, List.range_zero,
    List.nil_append, List.foldl_cons, List.foldl_nil, hd]
  rw [if_pos (by rw [one_div]; exact ht)]
  change min (1 : ℝ) (-3) = -3
  norm_num

end Verif.Kinetic
