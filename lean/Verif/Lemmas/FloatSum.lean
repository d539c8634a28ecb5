import Verif.Lemmas.Rounding
import Verif.Model.FloatSum
import Mathlib.Algebra.BigOperators.Intervals
import Mathlib.Algebra.Order.BigOperators.Group.Finset

/-! # A rounding to nearest exists; the invariant of the compensated summation -/

namespace Verif

namespace Rounding

variable {p : ℕ} {emin : ℤ} {rnd : ℝ → ℝ}

theorem exists_nearest (hp : 1 ≤ p) (x : ℝ) :
    ∃ y, IsFloat p emin y ∧ ∀ z, IsFloat p emin z → |x - y| ≤ |x - z| := by
  rcases eq_or_ne x 0 with rfl | hx
  · exact ⟨0, isFloat_zero, fun z _ => by rw [sub_self, abs_zero]; positivity⟩
  have hx0 : 0 < |x| := abs_pos.mpr hx
  set g := Int.log 2 |x| with hg
  have hlo : (2 : ℝ) ^ g ≤ |x| := by
    have := Int.zpow_log_le_self (b := 2) (by norm_num) hx0
    exact_mod_cast this
  have hhi : |x| < (2 : ℝ) ^ (g + 1) := by
    have := Int.lt_zpow_succ_log_self (b := 2) (by norm_num) |x|
    exact_mod_cast this
  set e := max emin (g + 1 - p) with he
  have h2e := two_zpow_pos e
  have hle : g + 1 ≤ p + e := by have := le_max_right emin (g + 1 - p); omega
  have hlt : |x / 2 ^ e| < 2 ^ p := by
    rw [abs_div, abs_of_pos h2e, div_lt_iff₀ h2e]
    refine hhi.trans_le ?_
    rw [← zpow_natCast, ← two_zpow_add]
    exact zpow_le_zpow_right₀ one_le_two hle
  set k := round (x / 2 ^ e) with hkd
  have hk1 : |x / 2 ^ e - k| ≤ 1 / 2 := abs_sub_round _
  have hmul : ∀ j : ℤ, |x - k * 2 ^ e| ≤ |x - j * 2 ^ e| := by
    intro j
    have e1 : ∀ i : ℤ, x - i * 2 ^ e = (x / 2 ^ e - i) * 2 ^ e := fun i => by field_simp
    rw [e1 k, e1 j, abs_mul, abs_mul]
    exact mul_le_mul_of_nonneg_right (round_le _ j) (abs_nonneg _)
  refine ⟨k * 2 ^ e, ?_, ?_⟩
  · refine isFloat_of_mult hp (le_max_left _ _) ⟨k, rfl⟩ ?_
    have h4 : |(k : ℝ)| < 2 ^ p + 1 := by
      have : (k : ℝ) = x / 2 ^ e - (x / 2 ^ e - k) := by ring
      rw [this]
      have := abs_sub (x / 2 ^ e) (x / 2 ^ e - k)
      linarith
    have h5 : |k| < 2 ^ p + 1 := by exact_mod_cast h4
    have h6 : |k| ≤ 2 ^ p := by omega
    have h7 : |(k : ℝ)| ≤ 2 ^ p := by exact_mod_cast h6
    rw [abs_mul, abs_of_pos h2e]
    exact mul_le_mul_of_nonneg_right h7 h2e.le
  · rintro z ⟨m, f, hm, hf, rfl⟩
    rcases le_or_gt e f with hef | hef
    · obtain ⟨j, hj⟩ := Mult.mono hef ⟨m, rfl⟩
      rw [hj]
      exact hmul j
    · have heq : e = g + 1 - p := by
        rcases max_choice emin (g + 1 - p) with h | h
        · omega
        · rw [he, h]
      have hz : |(m : ℝ) * 2 ^ f| ≤ 2 ^ g := by
        rw [abs_mul, abs_of_pos (two_zpow_pos f)]
        have hm' : |(m : ℝ)| < 2 ^ p := by exact_mod_cast hm
        refine (mul_le_mul_of_nonneg_right hm'.le (two_zpow_pos f).le).trans ?_
        rw [← zpow_natCast, ← two_zpow_add]
        exact zpow_le_zpow_right₀ one_le_two (by omega)
      have heg : e ≤ g := by omega
      obtain ⟨j, hj⟩ : Mult e ((2 : ℝ) ^ g) := Mult.mono heg ⟨1, by simp⟩
      have htri : |x| - 2 ^ g ≤ |x - m * 2 ^ f| := by
        have := abs_sub_abs_le_abs_sub x (m * 2 ^ f)
        linarith
      refine le_trans ?_ htri
      rcases le_or_gt 0 x with h0 | h0
      · have := hmul j
        rw [← hj, abs_of_nonneg (by rw [abs_of_nonneg h0] at hlo; linarith : 0 ≤ x - 2 ^ g)] at this
        rwa [abs_of_nonneg h0]
      · have := hmul (-j)
        have e2 : x - ((-j : ℤ) : ℝ) * 2 ^ e = x + 2 ^ g := by rw [hj]; push_cast; ring
        rw [e2, abs_of_nonpos (by rw [abs_of_neg h0] at hlo; linarith : x + 2 ^ g ≤ 0)] at this
        rw [abs_of_neg h0]
        linarith

/-- There is a rounding to nearest. -/
theorem exists_toNearest (hp : 1 ≤ p) : ∃ rnd, ToNearest p emin rnd := by
  choose f h1 h2 using exists_nearest (p := p) (emin := emin) hp
  exact ⟨f, h1, h2⟩

/-- `|rnd x| ≤ (1 + u)|x|` on multiples of the smallest number. -/
theorem ToNearest.abs_le (h : ToNearest p emin rnd) (hp : 1 ≤ p) {x : ℝ} (hx : Mult emin x) :
    |rnd x| ≤ (1 + unitRoundoff p) * |x| := by
  have h1 := h.rel_error hp hx
  have h2 : |rnd x| ≤ |x| + |x - rnd x| := by
    have := abs_sub x (x - rnd x)
    rwa [sub_sub_cancel] at this
  linarith

theorem u_pos (p : ℕ) : 0 < unitRoundoff p := by unfold unitRoundoff; positivity

theorem u_le_half (hp : 1 ≤ p) : unitRoundoff p ≤ 1 / 2 := by
  unfold unitRoundoff
  refine one_div_le_one_div_of_le (by norm_num) ?_
  calc (2 : ℝ) = 2 ^ 1 := by norm_num
    _ ≤ 2 ^ p := pow_le_pow_right₀ (by norm_num) hp

/-- One step of the loop: the compensation added is the exact error of the addition. -/
theorem step_exact (h : ToNearest p emin rnd) (hp : 1 ≤ p) {s c x : ℝ} (hs : IsFloat p emin s) (hx : IsFloat p emin x) :
    (if |s| ≥ |x| then (rnd (s + x), rnd (c + rnd (rnd (s - rnd (s + x)) + x)))
      else (rnd (s + x), rnd (c + rnd (rnd (x - rnd (s + x)) + s)))) =
      (rnd (s + x), rnd (c + (s + x - rnd (s + x)))) := by
  have herr := h.error_isFloat hp hs hx
  split_ifs with hc
  · have h1 := (h.sum_sub_isFloat hp hs hx hc).neg
    rw [neg_sub] at h1
    have e : s - rnd (s + x) + x = s + x - rnd (s + x) := by ring
    rw [h.exact h1, e, h.exact herr]
  · have h1 := (h.sum_sub_isFloat hp hx hs (not_le.mp hc).le).neg
    rw [neg_sub, add_comm x s] at h1
    have e : x - rnd (s + x) + s = s + x - rnd (s + x) := by ring
    rw [h.exact h1, e, h.exact herr]

/-- The state of the loop: running sum `s`, compensation `c`; `T` is the exact sum, `A` the sum of the absolute values of the `k`
terms so far. -/
def Inv (p : ℕ) (emin : ℤ) (k : ℕ) (T A s c : ℝ) : Prop :=
  IsFloat p emin s ∧ IsFloat p emin c ∧ |s| ≤ (1 + unitRoundoff p) ^ k * A ∧
    ∃ D E, s + D = T ∧ |D| ≤ E ∧ E ≤ k * unitRoundoff p * (1 + unitRoundoff p) ^ k * A ∧
      |c - D| ≤ ((1 + unitRoundoff p) ^ k - 1) * E

theorem Inv.step (h : ToNearest p emin rnd) (hp : 1 ≤ p) {k : ℕ} {T A s c x : ℝ} (hi : Inv p emin k T A s c) (hA : 0 ≤ A)
    (hx : IsFloat p emin x) :
    Inv p emin (k + 1) (T + x) (A + |x|) (rnd (s + x)) (rnd (c + (s + x - rnd (s + x)))) := by
  obtain ⟨hs, hc, hsb, D, E, hD, hDE, hE, hcD⟩ := hi
  set u := unitRoundoff p with hu
  have hu0 : 0 < u := u_pos p
  set q := (1 + u) ^ k with hq
  have hq1 : 1 ≤ q := one_le_pow₀ (by linarith)
  have hq2 : (1 + u) ^ (k + 1) = q * (1 + u) := pow_succ _ _
  have hM : Mult emin (s + x) := hs.mult.add hx.mult
  have hsx : |s + x| ≤ q * (A + |x|) := by
    refine (abs_add_le s x).trans ?_
    have : |x| ≤ q * |x| := le_mul_of_one_le_left (abs_nonneg x) hq1
    linarith
  set d := s + x - rnd (s + x) with hd
  have hdf : IsFloat p emin d := h.error_isFloat hp hs hx
  have hdb : |d| ≤ u * (q * (A + |x|)) :=
    (h.rel_error hp hM).trans (mul_le_mul_of_nonneg_left hsx hu0.le)
  refine ⟨h.isFloat _, h.isFloat _, ?_, D + d, E + |d|, ?_, ?_, ?_, ?_⟩
  · refine (h.abs_le hp hM).trans ?_
    rw [hq2]
    calc (1 + u) * |s + x| ≤ (1 + u) * (q * (A + |x|)) := mul_le_mul_of_nonneg_left hsx (by linarith)
      _ = _ := by ring
  · rw [hd]
    linarith
  · exact (abs_add_le D d).trans (by linarith)
  · rw [hq2]
    push_cast
    have hx0 := abs_nonneg x
    have hk0 : (0 : ℝ) ≤ k := Nat.cast_nonneg k
    have h1 : (k : ℝ) * u * q * A ≤ k * u * q * (A + |x|) :=
      mul_le_mul_of_nonneg_left (by linarith) (by positivity)
    have h2 : 0 ≤ ((k : ℝ) + 1) * u * q * u * (A + |x|) := by positivity
    have e : ((k : ℝ) + 1) * u * (q * (1 + u)) * (A + |x|) =
        k * u * q * (A + |x|) + u * (q * (A + |x|)) + ((k : ℝ) + 1) * u * q * u * (A + |x|) := by ring
    rw [e]
    linarith
  · rw [hq2]
    have hcd : Mult emin (c + d) := hc.mult.add hdf.mult
    have h1 := h.rel_error hp hcd
    have hE0 : 0 ≤ E := (abs_nonneg D).trans hDE
    have e1 : rnd (c + d) - (D + d) = (c - D) - (c + d - rnd (c + d)) := by ring
    have h2 : |rnd (c + d) - (D + d)| ≤ |c - D| + |c + d - rnd (c + d)| := by
      rw [e1]
      exact abs_sub _ _
    have h3 : |c + d| ≤ |c - D| + E + |d| := by
      have e2 : c + d = (c - D) + (D + d) := by ring
      rw [e2]
      refine (abs_add_le _ _).trans ?_
      have := abs_add_le D d
      linarith
    have h4 : |c + d - rnd (c + d)| ≤ u * (|c - D| + E + |d|) := h1.trans (mul_le_mul_of_nonneg_left h3 hu0.le)
    have h5 : (1 + u) * |c - D| ≤ (1 + u) * ((q - 1) * E) := mul_le_mul_of_nonneg_left hcD (by linarith)
    have h6 : u * |d| ≤ (q * (1 + u) - 1) * |d| := by
      refine mul_le_mul_of_nonneg_right ?_ (abs_nonneg d)
      nlinarith
    calc |rnd (c + d) - (D + d)| ≤ (1 + u) * |c - D| + u * E + u * |d| := by linarith
      _ ≤ (1 + u) * ((q - 1) * E) + u * E + (q * (1 + u) - 1) * |d| := by linarith
      _ = (q * (1 + u) - 1) * (E + |d|) := by ring

theorem Inv.skip {k : ℕ} {T A s c : ℝ} (hi : Inv p emin k T A s c) (hA : 0 ≤ A) : Inv p emin (k + 1) T A s c := by
  obtain ⟨hs, hc, hsb, D, E, hD, hDE, hE, hcD⟩ := hi
  have hu0 : 0 < unitRoundoff p := u_pos p
  have hq2 : (1 + unitRoundoff p) ^ k ≤ (1 + unitRoundoff p) ^ (k + 1) := pow_le_pow_right₀ (by linarith) (by omega)
  have hE0 : 0 ≤ E := (abs_nonneg D).trans hDE
  refine ⟨hs, hc, hsb.trans (mul_le_mul_of_nonneg_right hq2 hA), D, E, hD, hDE, hE.trans ?_, hcD.trans ?_⟩
  · push_cast
    have h1 : (k : ℝ) * unitRoundoff p ≤ ((k : ℝ) + 1) * unitRoundoff p := by
      exact mul_le_mul_of_nonneg_right (by linarith) hu0.le
    have h2 := mul_le_mul h1 hq2 (by positivity) (by positivity)
    exact mul_le_mul_of_nonneg_right h2 hA
  · exact mul_le_mul_of_nonneg_right (by linarith) hE0

theorem Inv.zero : Inv p emin 0 0 0 0 0 :=
  ⟨isFloat_zero, isFloat_zero, by simp, 0, 0, by simp, by simp, by simp, by simp⟩

/-- The error of the final result, from the invariant. -/
theorem Inv.result (h : ToNearest p emin rnd) (hp : 1 ≤ p) {n : ℕ} {T A s c : ℝ} (hi : Inv p emin n T A s c) :
    |rnd (s + c) - T| ≤ unitRoundoff p * |T| +
      n * unitRoundoff p * ((1 + unitRoundoff p) ^ n - 1) * (1 + unitRoundoff p) ^ (n + 1) * A := by
  obtain ⟨hs, hc, hsb, D, E, hD, hDE, hE, hcD⟩ := hi
  set u := unitRoundoff p with hu
  have hu0 : 0 < u := u_pos p
  have hq1 : 1 ≤ (1 + u) ^ n := one_le_pow₀ (by linarith)
  have h1 := h.rel_error hp (hs.mult.add hc.mult)
  have h2 : |s + c| ≤ |T| + |c - D| := by
    have e : s + c = T + (c - D) := by rw [← hD]; ring
    rw [e]
    exact abs_add_le _ _
  have h3 : |rnd (s + c) - T| ≤ |c - D| + |s + c - rnd (s + c)| := by
    have e : rnd (s + c) - T = (c - D) - (s + c - rnd (s + c)) := by rw [← hD]; ring
    rw [e]
    exact abs_sub _ _
  have h4 := mul_le_mul_of_nonneg_left h2 hu0.le
  have h5 : |c - D| ≤ ((1 + u) ^ n - 1) * (n * u * (1 + u) ^ n * A) :=
    hcD.trans (mul_le_mul_of_nonneg_left hE (by linarith))
  have h6 := mul_le_mul_of_nonneg_left h5 (by linarith : 0 ≤ 1 + u)
  have e : n * u * ((1 + u) ^ n - 1) * (1 + u) ^ (n + 1) * A = (1 + u) * (((1 + u) ^ n - 1) * (n * u * (1 + u) ^ n * A)) := by
    rw [pow_succ]
    ring
  rw [e]
  change |s + c - rnd (s + c)| ≤ u * |s + c| at h1
  linarith

/-- The loop of `sum_neumaier` keeps the invariant. -/
theorem sumNeumaierFl_inv (h : ToNearest p emin rnd) (hp : 1 ≤ p) (data : Nat → ℝ) (n offset : Nat) (iskip : Int) (op : ℝ → ℝ)
    (hf : ∀ i < n, (i : Int) ≠ iskip → IsFloat p emin (op (data (i + offset)))) :
    ∃ s c, sumNeumaierFl rnd data n offset iskip op = rnd (s + c) ∧
      Inv p emin n (∑ i ∈ (Finset.range n).filter (fun i : Nat => (i : Int) ≠ iskip), op (data (i + offset)))
        (∑ i ∈ (Finset.range n).filter (fun i : Nat => (i : Int) ≠ iskip), |op (data (i + offset))|) s c := by
  unfold sumNeumaierFl
  have hinv := forN_inv (n := n) (s := ((0 : ℝ), (0 : ℝ)))
    (body := fun (s : ℝ × ℝ) i =>
      if iskip ≥ 0 ∧ (i : Int) = iskip then s
      else
        let x := op (data (i + offset))
        let t := rnd (s.1 + x)
        if |s.1| ≥ |x| then (t, rnd (s.2 + rnd (rnd (s.1 - t) + x)))
        else (t, rnd (s.2 + rnd (rnd (x - t) + s.1))))
    (P := fun k s => Inv p emin k (∑ i ∈ (Finset.range k).filter (fun i : Nat => (i : Int) ≠ iskip), op (data (i + offset)))
        (∑ i ∈ (Finset.range k).filter (fun i : Nat => (i : Int) ≠ iskip), |op (data (i + offset))|) s.1 s.2)
    (by simpa using Inv.zero) ?_
  · exact ⟨_, _, rfl, hinv⟩
  · rintro m ⟨s, c⟩ hm hi
    have hA : 0 ≤ ∑ i ∈ (Finset.range m).filter (fun i : Nat => (i : Int) ≠ iskip), |op (data (i + offset))| :=
      Finset.sum_nonneg fun i _ => abs_nonneg _
    dsimp only at hi ⊢
    rw [Finset.range_add_one, Finset.filter_insert]
    by_cases hk : (m : Int) = iskip
    · have h1 : iskip ≥ 0 ∧ (m : Int) = iskip := ⟨by omega, hk⟩
      have h2 : ¬(m : Int) ≠ iskip := not_not.mpr hk
      simp only [if_pos h1, if_neg h2]
      exact hi.skip hA
    · have h1 : ¬(iskip ≥ 0 ∧ (m : Int) = iskip) := fun h => hk h.2
      have h2 : (m : Int) ≠ iskip := hk
      rw [if_pos h2, if_neg h1, Finset.sum_insert (by simp), Finset.sum_insert (by simp),
        step_exact h hp hi.1 (hf m hm hk), add_comm (op _), add_comm |op _|]
      exact hi.step h hp hA (hf m hm hk)

/-- If every partial result is in the format nothing is lost. -/
theorem sumNeumaierFl_exact (h : ToNearest p emin rnd) (hp : 1 ≤ p) (data : Nat → ℝ) (n offset : Nat) (iskip : Int)
    (op : ℝ → ℝ) {e : ℤ} (he : emin ≤ e)
    (hf : ∀ i < n, (i : Int) ≠ iskip → Mult e (op (data (i + offset))))
    (hb : (∑ i ∈ (Finset.range n).filter (fun i : Nat => (i : Int) ≠ iskip), |op (data (i + offset))|) ≤ 2 ^ p * 2 ^ e) :
    sumNeumaierFl rnd data n offset iskip op =
      ∑ i ∈ (Finset.range n).filter (fun i : Nat => (i : Int) ≠ iskip), op (data (i + offset)) := by
  have habs : ∀ k ≤ n, |∑ i ∈ (Finset.range k).filter (fun i : Nat => (i : Int) ≠ iskip), op (data (i + offset))|
      ≤ 2 ^ p * 2 ^ e := by
    intro k hk
    refine (Finset.abs_sum_le_sum_abs _ _).trans (le_trans ?_ hb)
    refine Finset.sum_le_sum_of_subset_of_nonneg ?_ (fun i _ _ => abs_nonneg _)
    exact Finset.filter_subset_filter _ (Finset.range_subset_range.mpr hk)
  have hmul : ∀ k ≤ n, Mult e (∑ i ∈ (Finset.range k).filter (fun i : Nat => (i : Int) ≠ iskip), op (data (i + offset))) := by
    intro k
    induction k with
    | zero => exact fun _ => ⟨0, by simp⟩
    | succ k ih =>
      intro hk
      rw [Finset.range_add_one, Finset.filter_insert]
      by_cases hks : (k : Int) = iskip
      · rw [if_neg (by simpa using hks)]
        exact ih (by omega)
      · rw [if_pos hks, Finset.sum_insert (by simp)]
        exact (hf k (by omega) hks).add (ih (by omega))
  have hfl : ∀ k ≤ n, IsFloat p emin (∑ i ∈ (Finset.range k).filter (fun i : Nat => (i : Int) ≠ iskip), op (data (i + offset))) :=
    fun k hk => isFloat_of_mult hp he (hmul k hk) (habs k hk)
  have hx : ∀ i < n, (i : Int) ≠ iskip → IsFloat p emin (op (data (i + offset))) := by
    intro i hi his
    refine isFloat_of_mult hp he (hf i hi his) (le_trans ?_ hb)
    exact Finset.single_le_sum (f := fun i => |op (data (i + offset))|) (fun i _ => abs_nonneg _)
      (Finset.mem_filter.mpr ⟨Finset.mem_range.mpr hi, his⟩)
  unfold sumNeumaierFl
  have hinv := forN_inv (n := n) (s := ((0 : ℝ), (0 : ℝ)))
    (body := fun (s : ℝ × ℝ) i =>
      if iskip ≥ 0 ∧ (i : Int) = iskip then s
      else
        let x := op (data (i + offset))
        let t := rnd (s.1 + x)
        if |s.1| ≥ |x| then (t, rnd (s.2 + rnd (rnd (s.1 - t) + x)))
        else (t, rnd (s.2 + rnd (rnd (x - t) + s.1))))
    (P := fun k s => k ≤ n → s.2 = 0 ∧
      s.1 = ∑ i ∈ (Finset.range k).filter (fun i : Nat => (i : Int) ≠ iskip), op (data (i + offset)))
    (fun _ => ⟨rfl, by simp⟩) ?_
  · obtain ⟨h1, h2⟩ := hinv le_rfl
    dsimp only
    rw [h1, h2, add_zero, h.exact (hfl n le_rfl)]
  · rintro m ⟨s, c⟩ hm hi hm1
    obtain ⟨h1, h2⟩ := hi (by omega)
    have hf1 := hfl (m + 1) hm1
    have hf0 := hfl m (by omega)
    dsimp only at h1 h2 ⊢
    rw [Finset.range_add_one, Finset.filter_insert] at hf1 ⊢
    by_cases hk : (m : Int) = iskip
    · rw [if_pos ⟨by omega, hk⟩, if_neg (by simpa using hk)]
      exact ⟨h1, h2⟩
    · rw [if_pos hk, Finset.sum_insert (by simp)] at hf1
      rw [if_neg (fun h => hk h.2), if_pos hk, Finset.sum_insert (by simp), h1, h2]
      rw [step_exact h hp hf0 (hx m hm hk), add_comm _ (op _), h.exact hf1, sub_self, add_zero, h.exact isFloat_zero]
      exact ⟨rfl, rfl⟩

end Rounding

end Verif
