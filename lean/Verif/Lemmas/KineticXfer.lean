import Verif.Lemmas.KineticSort
import Mathlib.Algebra.BigOperators.Intervals
import Mathlib.Algebra.BigOperators.Group.Finset.Sigma
import Mathlib.Tactic.Ring
import Mathlib.Tactic.Linarith
import Mathlib.Tactic.Positivity
import Mathlib.Tactic.NormNum

/-! Lemmas for the packed pair table and `SmallStepMFUpdate`. -/

namespace Verif.Kinetic

open Finset

theorem length_down (n j : Nat) : (down n j).length = n - 1 - j := by simp [down]

theorem getElem?_down {n j k : Nat} (hjk : j < k) (hkn : k < n) :
    (down n j)[n - 1 - k]? = some k := by
  unfold down
  rw [List.getElem?_reverse (by simp; omega), List.getElem?_range' (by simp; omega)]
  simp; omega

/-- first slot of row `j`. -/
def base (n j : Nat) : Int := (j : Int) * ((n : Int) - 1) - ((j : Int) - 1) * j / 2

theorem tri_succ (j : Nat) : (((j + 1 : Nat) : Int) - 1) * ((j + 1 : Nat) : Int) / 2
    = ((j : Int) - 1) * j / 2 + j := by
  have : (((j + 1 : Nat) : Int) - 1) * ((j + 1 : Nat) : Int) = ((j : Int) - 1) * j + 2 * j := by
    push_cast; ring
  rw [this, Int.add_mul_ediv_left _ _ (by norm_num)]

theorem base_zero (n : Nat) : base n 0 = 0 := by simp [base]

theorem base_succ (n j : Nat) : base n (j + 1) = base n j + ((n : Int) - 1 - j) := by
  unfold base; rw [tri_succ]; push_cast; ring

theorem slot_eq (n j k : Nat) : slot n j k = base n j + ((n : Int) - 1 - k) := by
  unfold slot base; ring

theorem base_mono {n j j' : Nat} (h : j ≤ j') (hj : j' ≤ n) : base n j ≤ base n j' := by
  induction j', h using Nat.le_induction with
  | base => exact le_rfl
  | succ m hm ih =>
    rw [base_succ]
    have := ih (by omega)
    omega

theorem two_base (n j : Nat) : 2 * base n j = (j : Int) * (2 * n - 1 - j) := by
  induction j with
  | zero => simp [base_zero]
  | succ j ih => rw [base_succ, mul_add, ih]; push_cast; ring

theorem slot_range {n j k : Nat} (hjk : j < k) (hkn : k < n) :
    base n j ≤ slot n j k ∧ slot n j k < base n (j + 1) := by
  rw [slot_eq, base_succ]; omega

theorem slot_inj {n j k j' k' : Nat} (hjk : j < k) (hkn : k < n) (hjk' : j' < k') (hkn' : k' < n)
    (h : slot n j k = slot n j' k') : j = j' ∧ k = k' := by
  have h1 := slot_range hjk hkn
  have h2 := slot_range hjk' hkn'
  rcases lt_trichotomy j j' with hlt | rfl | hlt
  · have := base_mono (n := n) (show j + 1 ≤ j' by omega) (by omega); omega
  · rw [slot_eq, slot_eq] at h; omega
  · have := base_mono (n := n) (show j' + 1 ≤ j by omega) (by omega); omega

/-- every integer in `[0, base n c)` is the slot of a pair with `j < c`. -/
theorem slot_surj {n : Nat} (c : Nat) (hc : c ≤ n) (s : Int) (h0 : 0 ≤ s) (h1 : s < base n c) :
    ∃ j k, j < c ∧ j < k ∧ k < n ∧ slot n j k = s := by
  induction c with
  | zero => rw [base_zero] at h1; omega
  | succ c ih =>
    by_cases h : s < base n c
    · obtain ⟨j, k, a, b⟩ := ih (by omega) h
      exact ⟨j, k, by omega, b⟩
    · rw [base_succ] at h1
      refine ⟨c, (n - 1 - (s - base n c).toNat), by omega, by omega, by omega, ?_⟩
      rw [slot_eq]; omega

theorem tiny_pos : 0 < tiny := by unfold tiny; positivity

theorem expE_nonneg (x : WithBot ℝ) : 0 ≤ expE x := by
  cases x with
  | bot => exact le_rfl
  | coe x => exact (Real.exp_pos x).le

/-- threshold clipping -/
noncomputable def clip (x : ℝ) : ℝ := if x < tiny then 0 else x

/-- Running the inner loop `L` times. -/
noncomputable def runRow (logdt : ℝ) (logR : Int → WithBot ℝ) (m : ℝ) (L : Nat) (r : Row) : Row :=
  (fun r => xfer logdt logR m r)^[L] r

theorem foldl_const {α β : Type*} (f : β → β) (l : List α) (b : β) :
    l.foldl (fun b _ => f b) b = f^[l.length] b := by
  induction l generalizing b with
  | nil => rfl
  | cons a l ih => simp [ih]

theorem runRow_spec (logdt : ℝ) (logR : Int → WithBot ℝ) (m : ℝ) (L : Nat) (r : Row) :
    (runRow logdt logR m L r).jk = r.jk + L ∧
    (∀ i, i < r.jk ∨ r.jk + L ≤ i → (runRow logdt logR m L r).dmfs i = r.dmfs i) ∧
    (∀ i : Nat, i < L → 0 ≤ (runRow logdt logR m L r).dmfs (r.jk + i)) ∧
    (r.nm < tiny → (runRow logdt logR m L r).nm = r.nm ∧
      ∀ i : Nat, i < L → (runRow logdt logR m L r).dmfs (r.jk + i) = 0) ∧
    (tiny ≤ r.nm → ∑ i ∈ range L, (runRow logdt logR m L r).dmfs (r.jk + i)
      = r.nm - clip (runRow logdt logR m L r).nm) := by
  induction L generalizing r with
  | zero =>
    refine ⟨by simp [runRow], by simp [runRow], by simp, by simp [runRow], ?_⟩
    intro h; simp [runRow, clip, not_lt.mpr h]
  | succ L ih =>
    have hs : runRow logdt logR m (L + 1) r = runRow logdt logR m L (xfer logdt logR m r) := by
      simp [runRow]
    rw [hs]
    set x := xfer logdt logR m r with hx
    obtain ⟨a1, a2, a3, a4, a5⟩ := ih x
    have hjk : x.jk = r.jk + 1 := by rw [hx]; unfold xfer; split_ifs <;> rfl
    have hd0 : ∀ i, i ≠ r.jk → x.dmfs i = r.dmfs i := by
      intro i hi; rw [hx]; unfold xfer; split_ifs <;> simp [Function.update_of_ne hi]
    have hfst : (runRow logdt logR m L x).dmfs r.jk = x.dmfs r.jk := a2 _ (by rw [hjk]; omega)
    have hshift : ∀ i : Nat, (runRow logdt logR m L x).dmfs (r.jk + ((i + 1 : Nat) : Int))
        = (runRow logdt logR m L x).dmfs (x.jk + i) := by
      intro i; congr 1; rw [hjk]; push_cast; ring
    have hval : x.dmfs r.jk = if r.nm < tiny then 0 else
        if x.nm < tiny then r.nm else r.nm - x.nm := by
      rw [hx]; unfold xfer; split_ifs <;> simp_all
    have hnm : r.nm < tiny → x.nm = r.nm := by
      intro h; rw [hx]; unfold xfer; rw [if_pos h]
    have hle : tiny ≤ r.nm → x.nm ≤ r.nm := by
      intro h; rw [hx]; unfold xfer; rw [if_neg (not_lt.mpr h)]
      simp [expE_nonneg]
    refine ⟨?_, ?_, ?_, ?_, ?_⟩
    · rw [a1, hjk]; push_cast; ring
    · intro i hi
      rw [a2 i (by rw [hjk]; push_cast at hi; omega)]
      exact hd0 i (by push_cast at hi; omega)
    · intro i hi
      cases i with
      | zero =>
        simp only [Nat.cast_zero, add_zero]
        rw [hfst, hval]
        split_ifs with h1 h2
        · exact le_rfl
        · exact le_trans tiny_pos.le (not_lt.mp h1)
        · have := hle (not_lt.mp h1); linarith
      | succ i => rw [hshift]; exact a3 i (by omega)
    · intro h
      have hxn := hnm h
      obtain ⟨b1, b2⟩ := a4 (by rw [hxn]; exact h)
      refine ⟨by rw [b1, hxn], ?_⟩
      intro i hi
      cases i with
      | zero => simp only [Nat.cast_zero, add_zero]; rw [hfst, hval, if_pos h]
      | succ i => rw [hshift]; exact b2 i (by omega)
    · intro h
      rw [sum_range_succ']
      simp only [Nat.cast_zero, add_zero]
      rw [hfst, hval, if_neg (not_lt.mpr h), sum_congr rfl (fun i _ => hshift i)]
      split_ifs with h2
      · obtain ⟨b1, b2⟩ := a4 h2
        rw [sum_eq_zero (fun i hi => b2 i (mem_range.mp hi)), b1]
        simp [clip, h2]
      · rw [a5 (not_lt.mp h2)]; ring

theorem avail_eq (n : Nat) (m : Nat → ℝ) (ord : Nat → Nat) (d : Int → ℝ) (j : Nat) :
    avail n m ord d j = m (ord j) + ∑ k ∈ range j, d (slot n k j) := by
  unfold avail
  suffices H : ∀ c, (List.range c).foldl (fun a k => a + d (slot n k j)) (m (ord j))
      = m (ord j) + ∑ k ∈ range c, d (slot n k j) from H j
  intro c
  induction c with
  | zero => simp
  | succ c ih =>
    rw [List.range_succ, List.foldl_append, ih, sum_range_succ]
    simp; ring

/-- `Σ_{i<n-1-j} f (base + i) = Σ_{j<k<n} f (slot j k)`. -/
theorem sum_row (n j : Nat) (hj : j < n) (f : Int → ℝ) :
    ∑ i ∈ range (n - 1 - j), f (base n j + i) = ∑ k ∈ Ico (j + 1) n, f (slot n j k) := by
  rw [← sum_range_reflect, sum_Ico_eq_sum_range]
  have : n - (j + 1) = n - 1 - j := by omega
  rw [this]
  refine sum_congr rfl fun i hi => ?_
  rw [slot_eq]
  congr 1
  have := mem_range.mp hi
  push_cast; omega

/-- What the rows `0 … c-1` have established. -/
structure RowsDone (n : Nat) (m : Nat → ℝ) (ord : Nat → Nat) (c : Nat) (s : St) : Prop where
  jk : s.jk = base n c
  nonneg : ∀ j k, j < c → j < k → k < n → 0 ≤ s.dmfs (slot n j k)
  small : ∀ j < c, avail n m ord s.dmfs j < tiny →
    s.newmfs (ord j) = 0 ∧ ∀ k, j < k → k < n → s.dmfs (slot n j k) = 0
  big : ∀ j < c, tiny ≤ avail n m ord s.dmfs j →
    s.newmfs (ord j) = avail n m ord s.dmfs j - ∑ k ∈ Ico (j + 1) n, s.dmfs (slot n j k)
  clipped : ∀ j < c, s.newmfs (ord j) = 0 ∨ tiny ≤ s.newmfs (ord j)

theorem avail_congr {n : Nat} {m : Nat → ℝ} {ord : Nat → Nat} {d d' : Int → ℝ} {j : Nat}
    (h : ∀ k < j, d (slot n k j) = d' (slot n k j)) :
    avail n m ord d j = avail n m ord d' j := by
  rw [avail_eq, avail_eq, sum_congr rfl (fun k hk => h k (mem_range.mp hk))]

theorem rowsDone_step {logdt : ℝ} {n : Nat} {m : Nat → ℝ} {ord : Nat → Nat}
    {logR : Int → WithBot ℝ} {c : Nat} {s : St} (ho : IsInj n ord) (hc : c + 1 < n)
    (h : RowsDone n m ord c s) : RowsDone n m ord (c + 1) (phaseStep logdt n m ord logR s c) := by
  have hfold : ∀ r, (down n c).foldl (fun r _ => xfer logdt logR (m (ord c)) r) r
      = runRow logdt logR (m (ord c)) (n - 1 - c) r := by
    intro r; rw [foldl_const, length_down]; rfl
  set r0 : Row := ⟨avail n m ord s.dmfs c, s.jk, s.dmfs⟩ with hr0
  set r := runRow logdt logR (m (ord c)) (n - 1 - c) r0 with hr
  have hstep : phaseStep logdt n m ord logR s c
      = ⟨r.jk, r.dmfs, Function.update s.newmfs (ord c) (clip r.nm)⟩ := by
    unfold phaseStep; simp only [hfold]; rfl
  rw [hstep]
  obtain ⟨a1, a2, a3, a4, a5⟩ := runRow_spec logdt logR (m (ord c)) (n - 1 - c) r0
  rw [← hr] at a1 a2 a3 a4 a5
  have hjk0 : r0.jk = base n c := h.jk
  -- old slots are untouched
  have hold : ∀ j k, j < c → j < k → k < n → r.dmfs (slot n j k) = s.dmfs (slot n j k) := by
    intro j k hj hjk hk
    refine a2 _ (Or.inl ?_)
    rw [hjk0]
    have h1 := slot_range hjk hk
    have h2 := base_mono (n := n) (show j + 1 ≤ c by omega) (by omega)
    omega
  have hnew : ∀ k, c < k → k < n → ∃ i : Nat, i < n - 1 - c ∧ slot n c k = r0.jk + i := by
    intro k hk hkn
    refine ⟨n - 1 - k, by omega, ?_⟩
    rw [slot_eq, hjk0]; omega
  have havail : ∀ j, j ≤ c → avail n m ord r.dmfs j = avail n m ord s.dmfs j := by
    intro j hj
    exact avail_congr fun k hk => hold k j (by omega) hk (by omega)
  have hne : ∀ j < c, ord j ≠ ord c := by
    intro j hj he
    have := ho.2 j (by omega) c (by omega) he
    omega
  refine ⟨?_, ?_, ?_, ?_, ?_⟩
  · simp only; rw [a1, hjk0, base_succ]; omega
  · intro j k hj hjk hk
    simp only
    rcases Nat.lt_succ_iff_lt_or_eq.mp hj with hj | rfl
    · rw [hold j k hj hjk hk]; exact h.nonneg j k hj hjk hk
    · obtain ⟨i, hi, he⟩ := hnew k hjk hk
      rw [he]; exact a3 i hi
  · intro j hj
    rcases Nat.lt_succ_iff_lt_or_eq.mp hj with hj' | rfl
    · simp only
      rw [havail j (by omega), Function.update_of_ne (hne j hj')]
      intro hs
      obtain ⟨b1, b2⟩ := h.small j hj' hs
      exact ⟨b1, fun k hjk hk => by rw [hold j k hj' hjk hk]; exact b2 k hjk hk⟩
    · simp only
      rw [havail j le_rfl]
      intro hs
      obtain ⟨b1, b2⟩ := a4 hs
      refine ⟨?_, ?_⟩
      · rw [Function.update_self, b1]; exact if_pos hs
      · intro k hjk hk
        obtain ⟨i, hi, he⟩ := hnew k hjk hk
        rw [he]; exact b2 i hi
  · intro j hj
    rcases Nat.lt_succ_iff_lt_or_eq.mp hj with hj' | rfl
    · simp only
      rw [havail j (by omega), Function.update_of_ne (hne j hj')]
      intro hs
      rw [h.big j hj' hs]
      congr 1
      refine sum_congr rfl fun k hk => ?_
      have := mem_Ico.mp hk
      exact (hold j k hj' (by omega) this.2).symm
    · simp only
      rw [havail j le_rfl]
      intro hs
      rw [Function.update_self]
      have := a5 hs
      rw [hjk0, sum_row n j (by omega)] at this
      rw [this]; simp [hr0]
  · intro j hj
    rcases Nat.lt_succ_iff_lt_or_eq.mp hj with hj' | rfl
    · simp only
      rw [Function.update_of_ne (hne j hj')]
      exact h.clipped j hj'
    · simp only
      rw [Function.update_self]
      unfold clip
      split_ifs with hh
      · exact Or.inl rfl
      · exact Or.inr (not_lt.mp hh)

theorem rowsDone_all {logdt : ℝ} {n : Nat} {m : Nat → ℝ} {ord : Nat → Nat}
    {logR : Int → WithBot ℝ} {d0 : Int → ℝ} {f0 : Nat → ℝ} (ho : IsInj n ord) :
    RowsDone n m ord (n - 1)
      ((List.range (n - 1)).foldl (phaseStep logdt n m ord logR) ⟨0, d0, f0⟩) := by
  suffices H : ∀ c, c ≤ n - 1 → RowsDone n m ord c
      ((List.range c).foldl (phaseStep logdt n m ord logR) ⟨0, d0, f0⟩) from H _ le_rfl
  intro c
  induction c with
  | zero => exact fun _ => ⟨by simp [base_zero], by simp, by simp, by simp, by simp⟩
  | succ c ih =>
    intro hc
    rw [List.range_succ, List.foldl_append]
    exact rowsDone_step ho (by omega) (ih (by omega))

/-- exchanging the order of summation over pairs `j < k < n` -/
theorem sum_pairs_comm (n : Nat) (f : Nat → Nat → ℝ) :
    ∑ j ∈ range n, ∑ k ∈ Ico (j + 1) n, f j k = ∑ k ∈ range n, ∑ j ∈ range k, f j k := by
  refine sum_comm' ?_
  intro x y
  simp only [mem_range, mem_Ico]
  omega

end Verif.Kinetic
