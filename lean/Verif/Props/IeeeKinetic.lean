import Verif.Lemmas.IeeeKinetic
import Verif.Props.Kinetic

/-! # C141: kinetic phase transitions in machine arithmetic -/

namespace Verif.Kinetic

open Ieee Rounding Finset Spec Classical

variable {rnd : ℝ → ℝ}

/-! ## Sorting -/

theorem ltM_asymm {a b : Ext} (h : lt a b) : ¬ lt b a := by
  cases a <;> cases b <;> simp_all [lt]
  exact h.le

theorem ltM_trans {a b c : Ext} (h : lt a b) (h' : lt b c) : lt a c := by
  cases a <;> cases b <;> cases c <;> simp_all [lt]
  exact h.trans h'

theorem ltM_not_nan {a b : Ext} (h : lt a b) : a ≠ .nan ∧ b ≠ .nan := by
  cases a <;> cases b <;> simp_all [lt]

/-- What the rows `0 … j-1` of the sort have established. -/
structure SortInv (gibbs : Nat → Ext) (n j : Nat) (o : Nat → Nat) : Prop where
  inj : IsInj n o
  dom : ∀ i, i < j → ∀ m, i < m → m < n → ¬ lt (gibbs (o i)) (gibbs (o m))
  nan : ∀ i, i < n → gibbs i = .nan → o i = i

theorem sortRowM_inv {gibbs : Nat → Ext} {n j : Nat} (ks : List Nat) (o : Nat → Nat) (done : Nat → Prop)
    (hks : ∀ k ∈ ks, j < k ∧ k < n) (hj : j < n) (hi : SortInv gibbs n j o)
    (hdone : ∀ m, done m → j < m → m < n → ¬ lt (gibbs (o j)) (gibbs (o m))) :
    SortInv gibbs n j (sortRowM gibbs j ks o) ∧ ∀ m, (done m ∨ m ∈ ks) → j < m → m < n →
      ¬ lt (gibbs (sortRowM gibbs j ks o j)) (gibbs (sortRowM gibbs j ks o m)) := by
  induction ks generalizing o done with
  | nil => exact ⟨hi, fun m hm => hdone m (by simpa using hm)⟩
  | cons k ks ih =>
    obtain ⟨hjk, hkn⟩ := hks k (by simp)
    have hks' : ∀ k ∈ ks, j < k ∧ k < n := fun k' hk' => hks k' (by simp [hk'])
    have key : ∀ o', sortRowM gibbs j (k :: ks) o = sortRowM gibbs j ks o' → SortInv gibbs n j o' →
        (∀ m, (done m ∨ m = k) → j < m → m < n → ¬ lt (gibbs (o' j)) (gibbs (o' m))) →
        SortInv gibbs n j (sortRowM gibbs j (k :: ks) o) ∧ ∀ m, (done m ∨ m ∈ k :: ks) → j < m → m < n →
          ¬ lt (gibbs (sortRowM gibbs j (k :: ks) o j)) (gibbs (sortRowM gibbs j (k :: ks) o m)) := by
      intro o' he h1 h3
      have := ih o' (fun m => done m ∨ m = k) hks' h1 h3
      rw [← he] at this
      exact ⟨this.1, fun m hm => this.2 m (by simpa [or_assoc] using hm)⟩
    by_cases hc : lt (gibbs (o j)) (gibbs (o k))
    · obtain ⟨nj, nk⟩ := ltM_not_nan hc
      refine key (swap o j k) (by simp [sortRowM, hc]) ⟨swap_isInj hi.inj hj hkn, ?_, ?_⟩ ?_
      · intro i hij m him hmn
        rw [swap_apply, swap_apply, if_neg (by omega : ¬ i = k), if_neg (by omega : ¬ i = j)]
        split_ifs
        · exact hi.dom i hij j hij hj
        · exact hi.dom i hij k (by omega) hkn
        · exact hi.dom i hij m him hmn
      · intro i hin hnan
        have e := hi.nan i hin hnan
        rw [swap_apply, if_neg, if_neg]
        · exact e
        · rintro rfl; rw [e] at nj; exact nj hnan
        · rintro rfl; rw [e] at nk; exact nk hnan
      · intro m hm hjm hmn
        rw [swap_apply, swap_apply, if_neg (by omega : ¬ j = k), if_pos rfl, if_neg (by omega : ¬ m = j)]
        split_ifs with h
        · exact ltM_asymm hc
        · intro hl
          exact hdone m (by rcases hm with h' | h'; exacts [h', absurd h' h]) hjm hmn (ltM_trans hc hl)
    · refine key o (by simp [sortRowM, hc]) hi ?_
      intro m hm hjm hmn
      rcases hm with h | rfl
      · exact hdone m h hjm hmn
      · exact hc

/-- C141: on machine numbers, NaN included, `SortGibbs` returns an ordering of all phases in which no phase is followed by one with a
larger Gibbs energy; phases whose Gibbs energy is NaN stay where they are and do not spoil the order of the others. -/
theorem C141_sort (n : Nat) (gibbs : Nat → Ext) (o : Nat → Nat) :
    let out := sortGibbsM n gibbs o
    IsOrdering n out ∧ (∀ i m, i < m → m < n → ¬ lt (gibbs (out i)) (gibbs (out m))) ∧ (∀ i, i < n → gibbs i = .nan → out i = i) := by
  intro out
  have h0 : SortInv gibbs n 0 (initOrder n o) := by
    refine ⟨⟨fun i hi => ?_, fun i hi i' hi' he => ?_⟩, fun i hi => absurd hi (by omega), fun i hi _ => ?_⟩
    · rw [initOrder_eq, if_pos hi]; exact hi
    · rw [initOrder_eq, initOrder_eq, if_pos hi, if_pos hi'] at he; exact he
    · rw [initOrder_eq, if_pos hi]
  have H : ∀ c, c ≤ n - 1 → SortInv gibbs n c ((List.range c).foldl (fun o j => sortRowM gibbs j (down n j) o) (initOrder n o)) := by
    intro c
    induction c with
    | zero => exact fun _ => h0
    | succ c ih =>
      intro hc
      have h1 := ih (by omega)
      rw [List.range_succ, List.foldl_append]
      simp only [List.foldl_cons, List.foldl_nil]
      obtain ⟨r1, r3⟩ := sortRowM_inv (down n c) _ (fun _ => False) (fun k hk => mem_down.mp hk) (by omega) h1 (fun _ h => h.elim)
      refine ⟨r1.inj, fun i hi m him hmn => ?_, r1.nan⟩
      rcases Nat.lt_succ_iff_lt_or_eq.mp hi with h | rfl
      · exact r1.dom i h m him hmn
      · exact r3 m (Or.inr (mem_down.mpr ⟨him, hmn⟩)) him hmn
  have hf := H (n - 1) le_rfl
  exact ⟨isOrdering_of_isInj hf.inj, fun i m him hmn => hf.dom i (by omega) m him hmn, hf.nan⟩

/-! ## Mass fractions -/

/-- C141: when no exponent is NaN, every new mass fraction and every transfer is a finite number that is not negative, and the total
mass is that of before up to one rounding per addition or subtraction (`n (n - 1)` of them) and to `KPT_MIN_MASS_FRACTION` for each
phase but the last. Infinite transfers (`exp` overflowing) are included. -/
theorem C141_mass_fractions (h : ToNearest 53 (-1074) rnd) {log exp : Ext → Ext} (hl : Libm log exp) (logdt : Ext) (n : Nat) (hn : 0 < n)
    (m : Nat → Ext) (μ : Nat → ℝ) (hm : ∀ i, i < n → Mass (m i) (μ i))
    (hT : (1 + 1 / 2 ^ 53) ^ (n * (n - 1)) * ∑ i ∈ range n, μ i ≤ maxDouble) (ord : Nat → Nat) (ho : IsOrdering n ord) (logR : Int → Ext)
    (hx : ∀ j k, j < k → k < n →
      add rnd maxDouble (add rnd maxDouble logdt (logR (pairIndex n j k))) (log (m (ord j))) ≠ .nan)
    (d0 : Int → Ext) (f0 : Nat → Ext) :
    let out := smallStepM rnd maxDouble log exp logdt n m ord logR d0 f0
    ∃ (ν : Nat → ℝ) (δ : Nat → Nat → ℝ), (∀ i, i < n → Mass (out.newmfs i) (ν i)) ∧
      (∀ j k, j < k → k < n → Mass (out.dmfs (pairIndex n j k)) (δ j k)) ∧
      (1 - 1 / 2 ^ 53) ^ (n * (n - 1)) * ∑ i ∈ range n, μ i - (n - 1) * rnd (1 / 10 ^ 10) ≤ ∑ i ∈ range n, ν i ∧
      ∑ i ∈ range n, ν i ≤ (1 + 1 / 2 ^ 53) ^ (n * (n - 1)) * ∑ i ∈ range n, μ i := by
  intro out
  have hi := isInj_of_isOrdering ho
  have hm' : ∀ i, i < n → IsMass (m (ord i)) ∧ val (m (ord i)) = μ (ord i) := fun i hin => Mass.isMass (hm _ (hi.1 i hin))
  have hsum : ∑ i ∈ range n, val (m (ord i)) = ∑ i ∈ range n, μ i := by
    rw [← sum_ordering ho μ]
    exact sum_congr rfl fun i hin => (hm' i (mem_range.mp hin)).2
  have hT' : (1 + u) ^ (n * (n - 1)) * ∑ i ∈ range n, val (m (ord i)) ≤ maxDouble := by rw [hsum]; exact hT
  have hr := rowsDoneM_all (log := log) (exp := exp) (logdt := logdt) (logR := logR) (d0 := d0) (f0 := f0) h hi
    (fun i hin => (hm' i hin).1) hT' (by
      intro j k hjk hk
      have := hl.exp_num _ (hx j k hjk hk)
      rw [pairIndex_eq_slot hjk hk] at this
      rcases this with h1 | ⟨x, h1, h2⟩
      · exact Or.inl h1
      · obtain ⟨a, b⟩ := Mass.isMass h1
        exact Or.inr ⟨a, by rw [b]; exact h2⟩)
  set s := (List.range (n - 1)).foldl (phaseStepM rnd maxDouble log exp logdt n m ord logR) ⟨0, d0, f0⟩ with hs
  have hout : out = ⟨s.jk, s.dmfs, Function.update s.newmfs (ord (n - 1)) (availM rnd maxDouble n m ord s.dmfs (n - 1))⟩ := rfl
  obtain ⟨a1, a2, a3, -⟩ := avail_next h (by omega : n - 1 < n) (fun i hin => (hm' i hin).1) hT' hr
  obtain ⟨s0, s1⟩ := share_le (by omega : n - 1 < n) (fun i hin => (hm' i hin).1) hr
  have hne : ∀ j, j < n - 1 → ord j ≠ ord (n - 1) := fun j hj he => by
    have := hi.2 j (by omega) (n - 1) (by omega) he
    omega
  have hnew : ∀ j, j < n → IsMass (out.newmfs (ord j)) := by
    intro j hj
    rw [hout]
    simp only
    by_cases e : j = n - 1
    · rw [e, Function.update_self]; exact a1
    · rw [Function.update_of_ne (hne j (by omega))]; exact hr.new j (by omega)
  have hnew' : ∀ i, i < n → IsMass (out.newmfs i) := by
    intro i hin
    have hmem : i ∈ (List.range n).map ord := ho.mem_iff.mpr (List.mem_range.mpr hin)
    obtain ⟨j, hj, rfl⟩ := List.mem_map.mp hmem
    exact hnew j (List.mem_range.mp hj)
  have hT0 : 0 ≤ ∑ i ∈ range n, val (m (ord i)) := sum_nonneg fun i hin => (hm' i (mem_range.mp hin)).1.nonneg
  obtain ⟨l1, l2⟩ := ledger_step (c := n - 1) (n := n) (θ := 0) s0 s1 hT0 (tinyM_pos h).le hr.lo hr.hi (by rw [sub_zero]; exact a2) a3
  have htot : ∑ i ∈ range n, val (out.newmfs i) = ledger n m ord (n - 1) s -
      (val (m (ord (n - 1))) + ∑ k ∈ range (n - 1), val (s.dmfs (slot n k (n - 1)))) + val (availM rnd maxDouble n m ord s.dmfs (n - 1)) := by
    rw [← sum_ordering ho (fun i => val (out.newmfs i)), ledger_split (by omega : n - 1 < n)]
    have e : Ico (n - 1 + 1) n = ∅ := by apply Ico_eq_empty; omega
    rw [e, sum_empty]
    have e2 : n = (n - 1) + 1 := by omega
    conv_lhs => rw [e2, sum_range_succ]
    have e3 : val (out.newmfs (ord (n - 1))) = val (availM rnd maxDouble n m ord s.dmfs (n - 1)) := by
      rw [hout]; simp only; rw [Function.update_self]
    have e4 : ∑ i ∈ range (n - 1), val (out.newmfs (ord i)) = ∑ i ∈ range (n - 1), val (s.newmfs (ord i)) :=
      sum_congr rfl fun i hin => by
        rw [hout]; simp only; rw [Function.update_of_ne (hne i (mem_range.mp hin))]
    rw [e3, e4]
    ring
  have en : n - 1 + 1 = n := by omega
  rw [en, ← htot] at l1 l2
  rw [hsum] at l1 l2
  refine ⟨fun i => val (out.newmfs i), fun j k => val (out.dmfs (pairIndex n j k)), hnew', ?_, ?_, l2⟩
  · intro j k hjk hk
    change IsMass (out.dmfs (pairIndex n j k))
    rw [pairIndex_eq_slot hjk hk, hout]
    exact hr.mass j k (by omega) hjk hk
  · have e5 : ((n - 1 : Nat) : ℝ) = (n : ℝ) - 1 := by rw [Nat.cast_sub hn]; simp
    rw [e5, add_zero] at l1
    exact l1

/-- C141: an exponent is not NaN when the logarithm of the time step plus that of the rate is a number below `+inf`, whatever the mass
fraction, a zero one included. -/
theorem C141_exponent {log exp : Ext → Ext} (hl : Libm log exp) {logdt r : Ext} (hr : lt (add rnd maxDouble logdt r) (.inf false))
    {v : Ext} {x : ℝ} (hv : Mass v x) : add rnd maxDouble (add rnd maxDouble logdt r) (log v) ≠ .nan := by
  obtain ⟨rfl, hx, -⟩ := hv
  generalize add rnd maxDouble logdt r = a at hr ⊢
  rcases hx.eq_or_lt with rfl | hx
  · rw [hl.log_zero]
    cases a with
    | nan => simp [lt] at hr
    | inf s => cases s <;> simp_all [lt, add]
    | fin y => simp [add]
  · obtain ⟨y, hy⟩ := hl.log_pos x hx
    rw [hy]
    cases a with
    | nan => simp [lt] at hr
    | inf s => simp [add]
    | fin y => simp only [add]; unfold ofReal; split_ifs <;> simp

/-! ## The time step -/

theorem neg_lt_iff {a b : Ext} : lt (neg a) (neg b) ↔ lt b a := by
  cases a <;> cases b <;> simp [lt, neg]
  rename_i s t
  cases s <;> cases t <;> simp

theorem minM_le_left (x y : Ext) (hx : x ≠ .nan) : le (minM x y) x ∧ minM x y ≠ .nan := by
  unfold minM
  split_ifs with h
  · exact ⟨by cases x <;> cases y <;> simp_all [lt, le]; exact h.le, (ltM_not_nan h).1⟩
  · exact ⟨by cases x <;> simp_all [le], hx⟩

theorem le_trans' {a b c : Ext} (h : le a b) (h' : le b c) : le a c := by
  cases a <;> cases b <;> cases c <;> simp_all [le]
  · rename_i s t v
    cases s <;> cases t <;> cases v <;> simp_all
  · exact h.trans h'

theorem minM_le_right (x y : Ext) (hx : x ≠ .nan) (hy : y ≠ .nan) : le (minM x y) y := by
  unfold minM
  split_ifs with h
  · cases y <;> simp_all [le]
  · cases x <;> cases y <;> simp_all [lt, le]
    rename_i s t
    cases s <;> cases t <;> simp_all

/-- One row of the time step. -/
theorem maxStepRowM (p : Prop) (logR : Int → Ext) (L : Nat) (s : Ext × Int) (hs : s.1 ≠ .nan) :
    let r := (fun s : Ext × Int => if p then (minM s.1 (neg (logR s.2)), s.2 + 1) else (s.1, s.2 + 1))^[L] s
    r.1 ≠ .nan ∧ r.2 = s.2 + L ∧ le r.1 s.1 ∧ (p → ∀ i : Nat, i < L → logR (s.2 + i) ≠ .nan → le r.1 (neg (logR (s.2 + i)))) := by
  induction L generalizing s with
  | zero =>
    refine ⟨hs, by simp, ?_, by intro _ i hi; omega⟩
    obtain ⟨x, y⟩ := s
    cases x <;> simp_all [le]
  | succ L ih =>
    intro r
    by_cases hp : p
    · have hr : r = (fun s : Ext × Int => if p then (minM s.1 (neg (logR s.2)), s.2 + 1) else (s.1, s.2 + 1))^[L]
          (minM s.1 (neg (logR s.2)), s.2 + 1) := by
        change (_)^[L + 1] s = _
        rw [Function.iterate_succ_apply, if_pos hp]
      obtain ⟨m1, m2⟩ := minM_le_left s.1 (neg (logR s.2)) hs
      obtain ⟨a1, a2, a3, a4⟩ := ih (minM s.1 (neg (logR s.2)), s.2 + 1) m2
      rw [← hr] at a1 a2 a3 a4
      refine ⟨a1, by rw [a2]; push_cast; ring, le_trans' a3 m1, ?_⟩
      intro _ i hi hn
      cases i with
      | zero =>
        simp only [Nat.cast_zero, add_zero] at hn ⊢
        exact le_trans' a3 (minM_le_right _ _ hs (by cases hh : logR s.2 <;> simp_all [neg]))
      | succ i =>
        have e : s.2 + ((i + 1 : Nat) : Int) = s.2 + 1 + i := by push_cast; ring
        rw [e] at hn ⊢
        exact a4 hp i (by omega) hn
    · have hr : r = (fun s : Ext × Int => if p then (minM s.1 (neg (logR s.2)), s.2 + 1) else (s.1, s.2 + 1))^[L] (s.1, s.2 + 1) := by
        change (_)^[L + 1] s = _
        rw [Function.iterate_succ_apply, if_neg hp]
      obtain ⟨a1, a2, a3, a4⟩ := ih (s.1, s.2 + 1) hs
      rw [← hr] at a1 a2 a3 a4
      exact ⟨a1, by rw [a2]; push_cast; ring, a3, fun h => absurd h hp⟩

/-- C141: the maximum time step is never NaN, at most `1`, and at most minus the logarithm of every rate that is a number of every phase
above the threshold; rates that are NaN are ignored. -/
theorem C141_max_time_step (n : Nat) (mfs : Nat → Ext) (ord : Nat → Nat) (logR : Int → Ext) :
    let t := logMaxTimeStepM rnd n mfs ord logR
    t ≠ .nan ∧ le t (.fin 1) ∧ ∀ j k, j < k → k < n → lt (.fin (rnd (1 / 10 ^ 10))) (mfs (ord j)) → logR (pairIndex n j k) ≠ .nan →
      le t (neg (logR (pairIndex n j k))) := by
  have H : ∀ c, c ≤ n - 1 →
      let r := (List.range c).foldl (fun s j => (down n j).foldl (fun (s : Ext × Int) _ =>
        if lt (.fin (tinyM rnd)) (mfs (ord j)) then (minM s.1 (neg (logR s.2)), s.2 + 1) else (s.1, s.2 + 1)) s) (Ext.fin 1, (0 : Int))
      r.1 ≠ .nan ∧ r.2 = base n c ∧ le r.1 (.fin 1) ∧ ∀ j k, j < c → j < k → k < n → lt (.fin (tinyM rnd)) (mfs (ord j)) →
        logR (slot n j k) ≠ .nan → le r.1 (neg (logR (slot n j k))) := by
    intro c
    induction c with
    | zero => exact fun _ => ⟨by simp, by simp [base_zero], by simp [le], by simp⟩
    | succ c ih =>
      intro hc r
      obtain ⟨i1, i2, i3, i4⟩ := ih (by omega)
      set r0 := (List.range c).foldl (fun s j => (down n j).foldl (fun (s : Ext × Int) _ =>
        if lt (.fin (tinyM rnd)) (mfs (ord j)) then (minM s.1 (neg (logR s.2)), s.2 + 1) else (s.1, s.2 + 1)) s) (Ext.fin 1, (0 : Int))
        with hr0
      have hr : r = (fun s : Ext × Int => if lt (.fin (tinyM rnd)) (mfs (ord c)) then (minM s.1 (neg (logR s.2)), s.2 + 1)
          else (s.1, s.2 + 1))^[n - 1 - c] r0 := by
        change (List.range (c + 1)).foldl _ _ = _
        rw [List.range_succ, List.foldl_append]
        simp only [List.foldl_cons, List.foldl_nil]
        rw [← hr0, foldl_const (fun s : Ext × Int => if lt (.fin (tinyM rnd)) (mfs (ord c)) then (minM s.1 (neg (logR s.2)), s.2 + 1)
          else (s.1, s.2 + 1)), length_down]
      obtain ⟨a1, a2, a3, a4⟩ := maxStepRowM (lt (.fin (tinyM rnd)) (mfs (ord c))) logR (n - 1 - c) r0 i1
      rw [← hr] at a1 a2 a3 a4
      refine ⟨a1, by rw [a2, i2, base_succ]; omega, le_trans' a3 i3, ?_⟩
      intro j k hj hjk hk hm hnan
      rcases Nat.lt_succ_iff_lt_or_eq.mp hj with hj | rfl
      · exact le_trans' a3 (i4 j k hj hjk hk hm hnan)
      · have e : slot n j k = r0.2 + ((n - 1 - k : Nat) : Int) := by rw [slot_eq, i2]; omega
        rw [e] at hnan ⊢
        exact a4 hm (n - 1 - k) (by omega) hnan
  obtain ⟨h1, -, h3, h4⟩ := H (n - 1) le_rfl
  refine ⟨h1, h3, ?_⟩
  intro j k hjk hk hm hnan
  rw [pairIndex_eq_slot hjk hk] at hnan ⊢
  exact h4 j k (by omega) hjk hk hm hnan

/-! ## Infinite rates -/

theorem two_pow_float (k : ℕ) : IsFloat 53 (-1074) ((2 : ℝ) ^ k) :=
  ⟨1, k, by norm_num, by omega, by rw [zpow_natCast]; norm_num⟩

theorem ofReal_float (h : ToNearest 53 (-1074) rnd) {x : ℝ} (hx : IsFloat 53 (-1074) x) (hb : |x| ≤ maxDouble) :
    ofReal rnd maxDouble x = .fin x := by
  have e := h.exact hx
  rw [ofReal_fin (by rw [e]; exact hb), e]

theorem two600 : (2 : ℝ) ^ 600 ≤ maxDouble ∧ maxDouble < 2 ^ 600 * 2 ^ 600 := by
  unfold maxDouble
  constructor
  · have h1 : (2 : ℝ) ^ 600 ≤ 2 ^ 971 := pow_le_pow_right₀ one_le_two (by norm_num)
    have h2 : (0 : ℝ) < 2 ^ 971 := by positivity
    have h3 : (1 : ℝ) ≤ 2 ^ 53 - 1 := by norm_num
    calc (2 : ℝ) ^ 600 ≤ 1 * 2 ^ 971 := by rw [one_mul]; exact h1
      _ ≤ (2 ^ 53 - 1) * 2 ^ 971 := mul_le_mul_of_nonneg_right h3 h2.le
  · have h2 : (0 : ℝ) < 2 ^ 971 := by positivity
    calc ((2 : ℝ) ^ 53 - 1) * 2 ^ 971 ≤ 2 ^ 53 * 2 ^ 971 := mul_le_mul_of_nonneg_right (by norm_num) h2.le
      _ = 2 ^ 1024 := by rw [← pow_add]
      _ < 2 ^ 1200 := pow_lt_pow_right₀ one_lt_two (by norm_num)
      _ = 2 ^ 600 * 2 ^ 600 := by rw [← pow_add]

theorem tinyM_le (h : ToNearest 53 (-1074) rnd) : tinyM rnd ≤ 1 / 4 := by
  refine rnd_le h (y := 1 / 4) ⟨1, -2, by norm_num, by norm_num, by norm_num⟩ ?_
  unfold tiny
  norm_num

theorem not_lt_tinyM (h : ToNearest 53 (-1074) rnd) {x : ℝ} (hx : 1 / 4 ≤ x) : ¬ lt (.fin x) (.fin (tinyM rnd)) := by
  have := tinyM_le h
  change ¬ x < tinyM rnd
  linarith

/-- C141, fails: the largest recommended time step can give NaN. For two phases with finite parameters and Gibbs energies whose
difference, over the width, squares beyond the largest double, the rate is `+inf`, the recommended step is `-inf`, and with it both mass
fractions become NaN. -/
theorem C141_max_step_finite_violated (h : ToNearest 53 (-1074) rnd) {log exp : Ext → Ext} (hl : Libm log exp) :
    ∃ (w b gibbs m : Nat → Ext) (μ : Nat → ℝ), (∀ i, ∃ x, gibbs i = .fin x ∧ |x| ≤ maxDouble) ∧ (∀ i, w i = .fin 1 ∧ b i = .fin 1) ∧
      (∀ i, i < 2 → Mass (m i) (μ i)) ∧ ∑ i ∈ range 2, μ i = 1 ∧
      ∀ l0 d0 f0,
      let logR := (logRatesM rnd maxDouble log 2 w b gibbs id l0).2
      let out := smallStepM rnd maxDouble log exp (logMaxTimeStepM rnd 2 m id logR) 2 m id logR d0 f0
      out.newmfs 0 = .nan ∧ out.newmfs 1 = .nan := by
  obtain ⟨t1, t2⟩ := two600
  have h600 : (0 : ℝ) < 2 ^ 600 := by positivity
  refine ⟨fun _ => .fin 1, fun _ => .fin 1, fun i => if i = 0 then .fin (2 ^ 600) else .fin 0, fun _ => .fin (1 / 2), fun _ => 1 / 2, ?_,
    fun _ => ⟨rfl, rfl⟩, ?_, ?_, ?_⟩
  · intro i
    by_cases hi : i = 0
    · exact ⟨2 ^ 600, by simp [hi], by rw [abs_of_pos h600]; exact t1⟩
    · exact ⟨0, by simp [hi], by rw [abs_zero]; exact maxDouble_pos.le⟩
  · intro i _
    exact ⟨rfl, by norm_num, 1, -1, by norm_num, by norm_num, by norm_num⟩
  · simp [sum_range_succ]
  intro l0 d0 f0
  have hof : ofReal rnd maxDouble ((2 : ℝ) ^ 600) = .fin (2 ^ 600) :=
    ofReal_float h (two_pow_float 600) (by rw [abs_of_pos h600]; exact t1)
  have hsq : ofReal rnd maxDouble ((2 : ℝ) ^ 600 * 2 ^ 600) = .inf false := by
    have e : rnd ((2 : ℝ) ^ 600 * 2 ^ 600) = 2 ^ 600 * 2 ^ 600 := by
      rw [← pow_add]; exact h.exact (two_pow_float _)
    have hp : (0 : ℝ) < 2 ^ 600 * 2 ^ 600 := mul_pos h600 h600
    unfold ofReal
    rw [e, abs_of_pos hp, if_pos t2]
    simp [hp.le, not_lt.mpr hp.le]
  obtain ⟨y, hy⟩ := hl.log_pos (2 ^ 600) h600
  have hrate : rateOfM rnd maxDouble log 2 (fun _ => .fin 1) (fun _ => .fin 1) (fun i => if i = 0 then .fin (2 ^ 600) else .fin 0) id 0 1 =
      .inf false := by
    simp only [rateOfM, id, if_true, if_neg one_ne_zero, sub, neg, neg_zero, add, add_zero, hof, div, div_one, mul, one_mul, hy, hsq]
  have hd : down 2 0 = [1] := by decide
  have hr2 : List.range (2 - 1) = [0] := by decide
  have hlog : (logRatesM rnd maxDouble log 2 (fun _ => .fin 1) (fun _ => .fin 1) (fun i => if i = 0 then .fin (2 ^ 600) else .fin 0)
      id l0).2 0 = .inf false := by
    unfold logRatesM
    simp only [hr2, List.foldl_cons, List.foldl_nil, hd, hrate, Function.update_self]
  intro logR out
  change logR 0 = _ at hlog
  have htl : lt (.fin (tinyM rnd)) (.fin (1 / 2)) := by
    have := tinyM_le h
    change tinyM rnd < 1 / 2
    linarith
  have hstep : logMaxTimeStepM rnd 2 (fun _ => .fin (1 / 2)) id logR = .inf true := by
    unfold logMaxTimeStepM
    simp only [hr2, List.foldl_cons, List.foldl_nil, hd, if_pos htl, hlog, neg, Bool.not_false]
    unfold minM
    rw [if_pos (by simp [lt])]
  have hnl := not_lt_tinyM h (x := 1 / 2) (by norm_num)
  have hnn : ∀ y, ¬ lt .nan y := by intro y; cases y <;> simp [lt]
  have hx : ∀ d, xferM rnd maxDouble log exp (.inf true) logR (.fin (1 / 2)) ⟨.fin (1 / 2), 0, d⟩ =
      ⟨.nan, 1, Function.update d 0 .nan⟩ := by
    intro d
    unfold xferM
    rw [if_neg hnl]
    simp only [hlog, add, Bool.true_eq_false, if_false, hl.exp_nan, sub, neg, zero_add]
    rw [if_neg (hnn _)]
  have hs : slot 2 0 1 = 0 := by decide
  have hout : out = smallStepM rnd maxDouble log exp (.inf true) 2 (fun _ => .fin (1 / 2)) id logR d0 f0 := by
    change smallStepM _ _ _ _ (logMaxTimeStepM rnd 2 (fun _ => .fin (1 / 2)) id logR) _ _ _ _ _ _ = _
    rw [hstep]
  rw [hout]
  unfold smallStepM
  simp only [hr2, List.foldl_cons, List.foldl_nil, phaseStepM, hd, availM, List.range_zero, hx, if_neg (hnn _), id]
  refine ⟨?_, ?_⟩
  · simp
  · simp [hs, add, List.range_succ]

/-- C141, fails: with a finite time step and mass fractions that sum to one, a phase without mass that receives some and leaves at an
infinite rate gets NaN (`+inf` plus `log 0`), and so does the phase it would go to. -/
theorem C141_zero_mass_violated (h : ToNearest 53 (-1074) rnd) {log exp : Ext → Ext} (hl : Libm log exp) :
    ∃ (m : Nat → Ext) (μ : Nat → ℝ) (logR : Int → Ext), (∀ i, logR i ≠ .nan) ∧ (∀ i, i < 3 → Mass (m i) (μ i)) ∧ ∑ i ∈ range 3, μ i = 1 ∧
      ∀ d0 f0, let out := smallStepM rnd maxDouble log exp (.fin (-1)) 3 m id logR d0 f0
      out.newmfs 1 = .nan ∧ out.newmfs 2 = .nan := by
  have one_float : IsFloat 53 (-1074) (1 : ℝ) := ⟨1, 0, by norm_num, by norm_num, by norm_num⟩
  have hm1 : (1 : ℝ) ≤ maxDouble := le_trans (by norm_num) maxDouble_large
  refine ⟨fun i => if i = 0 then .fin 1 else .fin 0, fun i => if i = 0 then 1 else 0,
    fun i => if i = 0 then .inf true else if i = 1 then .fin 1 else .inf false, ?_, ?_, ?_, ?_⟩
  · intro i; dsimp only; split_ifs <;> simp
  · intro i _
    by_cases hi : i = 0
    · simp only [hi, if_true]; exact ⟨rfl, by norm_num, one_float⟩
    · simp only [hi, if_false]; exact ⟨rfl, le_rfl, isFloat_zero⟩
  · simp [sum_range_succ]
  intro d0 f0 out
  have hr3 : List.range (3 - 1) = [0, 1] := by decide
  have hd0 : down 3 0 = [2, 1] := by decide
  have hd1 : down 3 1 = [2] := by decide
  have hs1 : slot 3 0 1 = 1 := by decide
  have hs2 : slot 3 0 2 = 0 := by decide
  have hs3 : slot 3 1 2 = 2 := by decide
  have o1 : ofReal rnd maxDouble 1 = .fin 1 := ofReal_float h one_float (by rw [abs_one]; exact hm1)
  have o0 : ofReal rnd maxDouble 0 = .fin 0 := ofReal_float h isFloat_zero (by rw [abs_zero]; linarith)
  have hnl := not_lt_tinyM h (x := 1) (by norm_num)
  have hz : lt (.fin 0) (.fin (tinyM rnd)) := tinyM_pos h
  have hnn : ∀ y, ¬ lt .nan y := by intro y; cases y <;> simp [lt]
  set m : Nat → Ext := fun i => if i = 0 then .fin 1 else .fin 0 with hm
  set logR : Int → Ext := fun i => if i = 0 then .inf true else if i = 1 then .fin 1 else .inf false with hR
  have r0 : logR 0 = .inf true := by simp [hR]
  have r1 : logR 1 = .fin 1 := by simp [hR]
  have r2 : logR 2 = .inf false := by simp [hR]
  have m0 : m 0 = .fin 1 := by simp [hm]
  have m1 : m 1 = .fin 0 := by simp [hm]
  have m2 : m 2 = .fin 0 := by simp [hm]
  have x0 : ∀ d, xferM rnd maxDouble log exp (.fin (-1)) logR (.fin 1) ⟨.fin 1, 0, d⟩ = ⟨.fin 1, 1, Function.update d 0 (.fin 0)⟩ := by
    intro d
    unfold xferM
    rw [if_neg hnl]
    simp only [r0, add, hl.log_one, hl.exp_neg_inf, sub, neg, neg_zero, add_zero, o1, zero_add, if_neg hnl]
  have x1 : ∀ d, xferM rnd maxDouble log exp (.fin (-1)) logR (.fin 1) ⟨.fin 1, 1, d⟩ = ⟨.fin 0, 2, Function.update d 1 (.fin 1)⟩ := by
    intro d
    unfold xferM
    rw [if_neg hnl]
    simp only [r1, add, neg_add_cancel, hl.log_one, o0, add_zero, hl.exp_zero, sub, neg, add_neg_cancel, if_pos hz]
    rfl
  have x2 : ∀ d, xferM rnd maxDouble log exp (.fin (-1)) logR (.fin 0) ⟨.fin 1, 2, d⟩ = ⟨.nan, 3, Function.update d 2 .nan⟩ := by
    intro d
    unfold xferM
    rw [if_neg hnl]
    simp only [r2, add, hl.log_zero, Bool.false_eq_true, if_false, hl.exp_nan, sub, neg, if_neg (hnn _)]
    rfl
  have hout : out = smallStepM rnd maxDouble log exp (.fin (-1)) 3 m id logR d0 f0 := rfl
  have a1 : ∀ d : Int → Ext, d 1 = .fin 1 → availM rnd maxDouble 3 m id d 1 = .fin 1 := by
    intro d hd
    simp [availM, List.range_succ, hs1, hd, m1, add, o1]
  have a0 : ∀ d : Int → Ext, availM rnd maxDouble 3 m id d 0 = .fin 1 := by
    intro d
    simp [availM, m0]
  have a2 : ∀ d : Int → Ext, d 0 = .fin 0 → d 2 = .nan → availM rnd maxDouble 3 m id d 2 = .nan := by
    intro d hd hd2
    simp [availM, List.range_succ, hs2, hs3, hd, hd2, m2, add, o0]
  have p0 : phaseStepM rnd maxDouble log exp (.fin (-1)) 3 m id logR ⟨0, d0, f0⟩ 0 =
      ⟨2, Function.update (Function.update d0 0 (.fin 0)) 1 (.fin 1), Function.update f0 0 (.fin 0)⟩ := by
    unfold phaseStepM
    simp only [a0, hd0, List.foldl_cons, List.foldl_nil, id, m0, x0, x1, if_pos hz]
  have p1 : ∀ d f, d 1 = Ext.fin 1 → phaseStepM rnd maxDouble log exp (.fin (-1)) 3 m id logR ⟨2, d, f⟩ 1 =
      ⟨3, Function.update d 2 .nan, Function.update f 1 .nan⟩ := by
    intro d f hd
    unfold phaseStepM
    simp only [a1 d hd, hd1, List.foldl_cons, List.foldl_nil, id, m1, x2, if_neg (hnn _)]
  rw [hout]
  unfold smallStepM
  simp only [hr3, List.foldl_cons, List.foldl_nil, p0]
  rw [p1 _ _ (by simp)]
  refine ⟨by simp, ?_⟩
  have := a2 (Function.update (Function.update (Function.update d0 0 (.fin 0)) 1 (.fin 1)) 2 .nan) (by simp [Function.update]) (by simp)
  simp only [Nat.add_one_sub_one, id, Function.update_self]
  exact this

/-- There are such library functions: the real logarithm, and the rounded exponential. -/
theorem exists_libm (h : ToNearest 53 (-1074) rnd) : ∃ log exp : Ext → Ext, Libm log exp := by
  refine ⟨fun v => match v with
      | .nan => .nan
      | .inf s => .inf s
      | .fin x => if x = 0 then .inf true else .fin (Real.log x),
    fun v => match v with
      | .nan => .nan
      | .inf true => .fin 0
      | .inf false => .inf false
      | .fin x => ofReal rnd maxDouble (Real.exp x), ?_⟩
  refine ⟨by simp, fun x hx => ⟨Real.log x, by simp [hx.ne']⟩, by simp, ?_, ?_, by simp, by simp⟩
  · intro v hv
    match v with
    | .nan => exact absurd rfl hv
    | .inf true => exact Or.inr ⟨0, ⟨rfl, le_rfl, isFloat_zero⟩, maxDouble_pos.le⟩
    | .inf false => exact Or.inl rfl
    | .fin x =>
      have hp := Real.exp_pos x
      have hn := rnd_nonneg h hp.le
      by_cases hb : maxDouble < |rnd (Real.exp x)|
      · left
        simp only [ofReal, if_pos hb]
        simp [hp.le]
      · right
        refine ⟨rnd (Real.exp x), ⟨?_, hn, h.isFloat _⟩, ?_⟩
        · simp only [ofReal, if_neg hb]
        · rw [abs_of_nonneg hn] at hb; exact not_lt.mp hb
  · simp only [Real.exp_zero]
    exact ofReal_float h ⟨1, 0, by norm_num, by norm_num, by norm_num⟩ (by rw [abs_one]; exact le_trans (by norm_num) maxDouble_large)

/-- Three phases meet the hypotheses of `C141_mass_fractions`. -/
example (h : ToNearest 53 (-1074) rnd) : ∃ log exp : Ext → Ext, ∃ logdt : Ext, ∃ m : Nat → Ext, ∃ μ : Nat → ℝ, ∃ logR : Int → Ext,
    Libm log exp ∧ (∀ i, i < 3 → Mass (m i) (μ i)) ∧ (1 + 1 / 2 ^ 53) ^ (3 * (3 - 1)) * ∑ i ∈ range 3, μ i ≤ maxDouble ∧
    IsOrdering 3 id ∧
    ∀ j k, j < k → k < 3 → add rnd maxDouble (add rnd maxDouble logdt (logR (pairIndex 3 j k))) (log (m (id j))) ≠ .nan := by
  obtain ⟨log, exp, hl⟩ := exists_libm h
  have hm : ∀ i, i < 3 → Mass ((fun i : Nat => if i = 1 then Ext.fin 0 else .fin (1 / 2)) i) (if i = 1 then 0 else 1 / 2) := by
    intro i _
    by_cases hi : i = 1
    · simp only [hi, if_true]; exact ⟨rfl, le_rfl, isFloat_zero⟩
    · simp only [hi, if_false]; exact ⟨rfl, by norm_num, 1, -1, by norm_num, by norm_num, by norm_num⟩
  refine ⟨log, exp, .inf true, fun i => if i = 1 then .fin 0 else .fin (1 / 2), fun i => if i = 1 then 0 else 1 / 2, fun _ => .fin 3, hl, hm,
    ?_, by unfold IsOrdering; decide, ?_⟩
  · refine le_trans ?_ maxDouble_large
    simp [sum_range_succ]
    norm_num
  · intro j k hjk hk
    exact C141_exponent hl (by simp [add, lt]) (hm j (by omega))

end Verif.Kinetic
