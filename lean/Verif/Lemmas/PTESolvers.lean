import Verif.Model.PTESolvers
import Verif.Lemmas.MixUtils

namespace Verif.PTE

open Robust

set_option linter.unusedSectionVars false

variable {K : Type*} [Field K] [LinearOrder K] [IsStrictOrderedRing K]

/-- Where material `m ≠ ms` sits in the reduced system: slots `1..n-1`, in order, skipping `ms`. -/
def pos (ms m : Nat) : Nat := if m < ms then m + 1 else m

/-- Value of the running index when the loop reaches `m`. -/
def nextIdx (ms m : Nat) : Nat := if m ≤ ms then m + 1 else m

theorem nextIdx_succ_skip (ms : Nat) : nextIdx ms (ms + 1) = nextIdx ms ms := by
  simp [nextIdx]

theorem nextIdx_succ {ms m : Nat} (h : m ≠ ms) : nextIdx ms (m + 1) = nextIdx ms m + 1 := by
  unfold nextIdx; split_ifs <;> omega

theorem nextIdx_eq_pos {ms m : Nat} (h : m ≠ ms) : nextIdx ms m = pos ms m := by
  unfold nextIdx pos; split_ifs <;> omega

theorem pos_inj {ms m m' : Nat} (h : m ≠ ms) (h' : m' ≠ ms) (he : pos ms m = pos ms m') : m = m' := by
  unfold pos at he; split_ifs at he <;> omega

theorem pos_range {n ms m : Nat} (hms : ms < n) (hm : m < n) (h : m ≠ ms) : 1 ≤ pos ms m ∧ pos ms m < n := by
  unfold pos; split_ifs <;> omega

theorem sum_pos {n ms : Nat} (hms : ms < n) (f : Nat → K) :
    ∑ c ∈ Finset.range n, f c = f 0 + ∑ m ∈ (Finset.range n).filter (· ≠ ms), f (pos ms m) := by
  rw [sum_update (i := 0) (by omega) f f (fun _ _ _ => rfl)]
  congr 1
  refine Finset.sum_nbij' (fun c => if c ≤ ms then c - 1 else c) (pos ms) ?_ ?_ ?_ ?_ ?_
  · intro c hc
    simp only [Finset.mem_filter, Finset.mem_range] at hc ⊢
    split_ifs <;> omega
  · intro m hm
    simp only [Finset.mem_filter, Finset.mem_range] at hm ⊢
    have := pos_range hms hm.1 hm.2
    omega
  · intro c hc
    simp only [Finset.mem_filter, Finset.mem_range] at hc
    unfold pos; split_ifs <;> omega
  · intro m hm
    simp only [Finset.mem_filter, Finset.mem_range] at hm
    unfold pos; split_ifs <;> omega
  · intro c hc
    simp only [Finset.mem_filter, Finset.mem_range] at hc
    congr 1
    unfold pos; split_ifs <;> omega

/-- General form of the skipping store loop, at an arbitrary base address. -/
theorem skipLoop_spec (n ms off : Nat) (f : Nat → K) (arr : Nat → K) :
    let r := forN n (fun (s : Nat × (Nat → K)) m =>
      if m = ms then s else (s.1 + 1, Function.update s.2 (off + s.1) (f m))) (1, arr)
    r.1 = nextIdx ms n ∧ (∀ m, m < n → m ≠ ms → r.2 (off + pos ms m) = f m) ∧
    (∀ i, (∀ m, m < n → m ≠ ms → i ≠ off + pos ms m) → r.2 i = arr i) := by
  refine forN_inv (P := fun k (r : Nat × (Nat → K)) => r.1 = nextIdx ms k ∧
    (∀ m, m < k → m ≠ ms → r.2 (off + pos ms m) = f m) ∧
    (∀ i, (∀ m, m < k → m ≠ ms → i ≠ off + pos ms m) → r.2 i = arr i)) ?_ ?_
  · exact ⟨by simp [nextIdx], fun m h => absurd h (Nat.not_lt_zero _), fun _ _ => rfl⟩
  · rintro k ⟨idx, a⟩ hk ⟨h1, h2, h3⟩
    dsimp only at h1 h2 h3 ⊢
    by_cases hms : k = ms
    · subst hms
      rw [if_pos rfl]
      refine ⟨by rw [h1, nextIdx_succ_skip], fun m hm hne => h2 m (by omega) hne, fun i hi => ?_⟩
      exact h3 i fun m hm hne => hi m (by omega) hne
    · rw [if_neg hms]
      have hp : idx = pos ms k := by rw [h1, nextIdx_eq_pos hms]
      refine ⟨by rw [nextIdx_succ hms, ← h1], fun m hm hne => ?_, fun i hi => ?_⟩
      · dsimp only
        by_cases hmk : m = k
        · subst hmk; rw [hp, Function.update_self]
        · rw [Function.update_of_ne, h2 m (by omega) hne]
          intro he
          exact hmk (pos_inj hne hms (by omega))
      · dsimp only
        rw [Function.update_of_ne (hp ▸ hi k (by omega) hms)]
        exact h3 i fun m hm hne => hi m (by omega) hne

theorem skipFill_spec (n ms : Nat) (f : Nat → K) (arr : Nat → K) :
    (∀ m, m < n → m ≠ ms → skipFill n ms f arr (pos ms m) = f m) ∧
    (∀ i, (∀ m, m < n → m ≠ ms → i ≠ pos ms m) → skipFill n ms f arr i = arr i) := by
  have h := skipLoop_spec n ms 0 f arr
  simp only [zero_add] at h
  exact h.2

/-! ### Step limiting -/

/-- What a limiter leaves: a scale in `[0, old]` and the bound it enforces. -/
theorem lower_limit {σ : K} (hσ : 0 < σ) {c x d s : K} (hc : 0 ≤ c) (hx : 0 ≤ x)
    (h : s * d < -c * x) (hs0 : 0 ≤ s) :
    0 ≤ ratio σ (-c * x) d ∧ ratio σ (-c * x) d ≤ s ∧ -c * x ≤ ratio σ (-c * x) d * d := by
  have hcx : 0 ≤ c * x := mul_nonneg hc hx
  have hd : d < 0 := by
    by_contra hd
    have := mul_nonneg hs0 (not_lt.mp hd)
    linarith
  rw [ratio_neg_den _ hd]
  have hden : d - σ < 0 := by linarith
  refine ⟨div_nonneg_of_nonpos (by linarith) hden.le, ?_, ?_⟩
  · rw [div_le_iff_of_neg hden]; nlinarith
  · rw [div_mul_eq_mul_div, le_div_iff_of_neg hden]; nlinarith

theorem upper_limit {σ : K} (hσ : 0 < σ) {g d s : K} (hg : 0 ≤ g) (h : g < s * d) (hs0 : 0 ≤ s) :
    0 ≤ ratio σ g d ∧ ratio σ g d ≤ s ∧ ratio σ g d * d ≤ g := by
  have hd : 0 < d := by
    by_contra hd
    have := mul_nonpos_of_nonneg_of_nonpos hs0 (not_lt.mp hd)
    linarith
  rw [ratio_pos_den _ hd.le]
  have hden : 0 < d + σ := by linarith
  refine ⟨div_nonneg hg hden.le, ?_, ?_⟩
  · rw [div_le_iff₀ hden]; nlinarith
  · rw [div_mul_eq_mul_div, div_le_iff₀ hden]; nlinarith

/-- A lower bound `-b ≤ s*d` (`b ≥ 0`) survives shrinking the scale. -/
theorem lower_mono {s s' d b : K} (hb : 0 ≤ b) (h0 : 0 ≤ s') (hle : s' ≤ s) (h : -b ≤ s * d) :
    -b ≤ s' * d := by
  rcases le_or_gt 0 d with hd | hd
  · have := mul_nonneg h0 hd; linarith
  · have := mul_le_mul_of_nonpos_right hle hd.le; linarith

theorem upper_mono {s s' d b : K} (hb : 0 ≤ b) (h0 : 0 ≤ s') (hle : s' ≤ s) (h : s * d ≤ b) :
    s' * d ≤ b := by
  rcases le_or_gt 0 d with hd | hd
  · have := mul_le_mul_of_nonneg_right hle hd; linarith
  · have := mul_nonpos_of_nonneg_of_nonpos h0 hd.le; linarith

theorem ratio_smul (σ c a b : K) : c * ratio σ a b = ratio σ (c * a) b := by
  unfold ratio; rw [mul_div_assoc]

/-- `robust::ratio` shrinks: what it divides comes back no larger. -/
theorem abs_ratio_mul_le {σ : K} (hσ : 0 < σ) (a b : K) : |ratio σ a b| * |b| ≤ |a| := by
  by_cases hb : b = 0
  · simp [hb]
  · rw [ratio_formula _ hb hσ, abs_mul, abs_div]
    have h1 : 0 < |b| := abs_pos.mpr hb
    have h2 : 0 < |b| + σ := by positivity
    rw [abs_of_nonneg (show (0 : K) ≤ |b| / (|b| + σ) by positivity)]
    have : |a| / |b| * (|b| / (|b| + σ)) * |b| = |a| * (|b| / (|b| + σ)) := by field_simp
    rw [this]
    have h3 : |b| / (|b| + σ) ≤ 1 := by rw [div_le_one h2]; linarith
    nlinarith [abs_nonneg a]

theorem fixedScale1_spec {σ saf : K} (hσ : 0 < σ) (hsaf : 0 ≤ saf) {n : Nat} {vfrac dx : Nat → K}
    (hv : ∀ m, m < n → 0 ≤ vfrac m) :
    0 ≤ fixedScale1 σ saf n vfrac dx ∧ fixedScale1 σ saf n vfrac dx ≤ 1 ∧
    ∀ m, m < n → -(saf * vfrac m) ≤ fixedScale1 σ saf n vfrac dx * dx m := by
  unfold fixedScale1
  refine forN_inv (P := fun k s => 0 ≤ s ∧ s ≤ 1 ∧ ∀ m, m < k → -(saf * vfrac m) ≤ s * dx m) ?_ ?_
  · exact ⟨zero_le_one, le_rfl, fun m h => absurd h (Nat.not_lt_zero _)⟩
  · rintro k s hk ⟨h0, h1, h2⟩
    split_ifs with hc
    · obtain ⟨e0, e1, e2⟩ := lower_limit hσ hsaf (hv k hk) hc h0
      refine ⟨e0, e1.trans h1, fun m hm => ?_⟩
      rcases Nat.lt_succ_iff_lt_or_eq.mp hm with h | rfl
      · exact lower_mono (mul_nonneg hsaf (hv m (by omega))) e0 e1 (h2 m h)
      · linarith
    · refine ⟨h0, h1, fun m hm => ?_⟩
      rcases Nat.lt_succ_iff_lt_or_eq.mp hm with h | rfl
      · exact h2 m h
      · have := not_lt.mp hc; linarith

theorem fixedScale2_spec {σ : K} (hσ : 0 < σ) {n : Nat} {vfrac dx amax : Nat → K} {scale : K}
    (hs : 0 ≤ scale) :
    0 ≤ fixedScale2 σ n vfrac dx amax scale ∧ fixedScale2 σ n vfrac dx amax scale ≤ scale ∧
    ∀ m, m < n → vfrac m ≤ amax m →
      fixedScale2 σ n vfrac dx amax scale * dx m ≤ 1 / 2 * (amax m - vfrac m) := by
  unfold fixedScale2
  refine forN_inv (P := fun k s => 0 ≤ s ∧ s ≤ scale ∧ ∀ m, m < k → vfrac m ≤ amax m →
    s * dx m ≤ 1 / 2 * (amax m - vfrac m)) ?_ ?_
  · exact ⟨hs, le_rfl, fun m h => absurd h (Nat.not_lt_zero _)⟩
  · rintro k s hk ⟨h0, h1, h2⟩
    split_ifs with hu hc
    · refine ⟨h0, h1, fun m hm hvm => ?_⟩
      rcases Nat.lt_succ_iff_lt_or_eq.mp hm with h | rfl
      · exact h2 m h hvm
      · exact absurd hu (not_lt.mpr hvm)
    · have hg : 0 ≤ 1 / 2 * (amax k - vfrac k) := by
        have := not_lt.mp hu
        have : 0 ≤ amax k - vfrac k := by linarith
        positivity
      obtain ⟨e0, e1, e2⟩ := upper_limit hσ hg hc h0
      refine ⟨e0, e1.trans h1, fun m hm hvm => ?_⟩
      rcases Nat.lt_succ_iff_lt_or_eq.mp hm with h | rfl
      · refine upper_mono ?_ e0 e1 (h2 m h hvm)
        have : 0 ≤ amax m - vfrac m := by linarith
        positivity
      · exact e2
    · refine ⟨h0, h1, fun m hm hvm => ?_⟩
      rcases Nat.lt_succ_iff_lt_or_eq.mp hm with h | rfl
      · exact h2 m h hvm
      · exact not_lt.mp hc

theorem rhoTScale1_spec {σ saf : K} (hσ : 0 < σ) (hsaf : 0 ≤ saf) {n ms : Nat}
    {vfrac dx : Nat → K} (dskip : K) (hv : ∀ m, m < n → 0 ≤ vfrac m) :
    let s := (rhoTScale1 σ saf n ms vfrac dx dskip).1
    0 ≤ s ∧ s ≤ 1 ∧ ∀ m, m < n →
      -(saf * vfrac m) ≤ s * (if m = ms then dskip else dx (pos ms m)) := by
  unfold rhoTScale1
  have h := forN_inv (n := n) (s := ((1 : K), (1 : Nat)))
    (body := fun (s : K × Nat) m =>
      let mydx := if m = ms then dskip else dx s.2
      let idx := if m = ms then s.2 else s.2 + 1
      if s.1 * mydx < -saf * vfrac m then
        (min s.1 |saf * ratio σ (vfrac m) mydx|, idx)
      else (s.1, idx))
    (P := fun k s => s.2 = nextIdx ms k ∧ 0 ≤ s.1 ∧ s.1 ≤ 1 ∧ ∀ m, m < k →
      -(saf * vfrac m) ≤ s.1 * (if m = ms then dskip else dx (pos ms m))) ?_ ?_
  · exact h.2
  · exact ⟨by simp [nextIdx], zero_le_one, le_rfl, fun m h => absurd h (Nat.not_lt_zero _)⟩
  · rintro k ⟨s, idx⟩ hk ⟨hidx, h0, h1, h2⟩
    dsimp only at hidx h0 h1 h2 ⊢
    have hmy : (if k = ms then dskip else dx idx) = (if k = ms then dskip else dx (pos ms k)) := by
      split_ifs with hms
      · rfl
      · rw [hidx, nextIdx_eq_pos hms]
    have hnext : (if k = ms then idx else idx + 1) = nextIdx ms (k + 1) := by
      split_ifs with hms
      · subst hms; rw [nextIdx_succ_skip, hidx]
      · rw [nextIdx_succ hms, hidx]
    rw [hmy, hnext]
    generalize hd : (if k = ms then dskip else dx (pos ms k)) = d
    split_ifs with hc
    · obtain ⟨e0, e1, e2⟩ := lower_limit hσ hsaf (hv k hk) hc h0
      have habs : |saf * ratio σ (vfrac k) d| = ratio σ (-saf * vfrac k) d := by
        rw [ratio_smul, ← abs_neg, show -ratio σ (saf * vfrac k) d = ratio σ (-saf * vfrac k) d by
          unfold ratio; ring, abs_of_nonneg e0]
      rw [habs, min_eq_right e1]
      refine ⟨rfl, e0, e1.trans h1, fun m hm => ?_⟩
      rcases Nat.lt_succ_iff_lt_or_eq.mp hm with h | rfl
      · exact lower_mono (mul_nonneg hsaf (hv m (by omega))) e0 e1 (h2 m h)
      · dsimp only; rw [hd]; linarith
    · refine ⟨rfl, h0, h1, fun m hm => ?_⟩
      rcases Nat.lt_succ_iff_lt_or_eq.mp hm with h | rfl
      · exact h2 m h
      · dsimp only; rw [hd]; have := not_lt.mp hc; linarith

/-- Second limiter of RhoT: it never enlarges the scale; and as long as no material is already beyond
its maximum, the running index stays aligned and every material is limited. -/
theorem rhoTScale2_spec {σ : K} (hσ : 0 < σ) {n ms : Nat} {vfrac dx amax : Nat → K} (dskip : K)
    {scale : K} (hs : 0 ≤ scale) :
    let s := (rhoTScale2 σ n ms vfrac dx amax dskip scale).1
    0 ≤ s ∧ s ≤ scale ∧ ((∀ m, m < n → vfrac m ≤ amax m) → ∀ m, m < n →
      s * (if m = ms then dskip else dx (pos ms m)) ≤ 1 / 2 * (amax m - vfrac m)) := by
  unfold rhoTScale2
  have h := forN_inv (n := n) (s := (scale, (1 : Nat)))
    (body := fun (s : K × Nat) m =>
      if amax m < vfrac m then s
      else
        let mydx := if m = ms then dskip else dx s.2
        let idx := if m = ms then s.2 else s.2 + 1
        if s.1 * mydx > 1 / 2 * (amax m - vfrac m) then
          (min (ratio σ (1 / 2 * (amax m - vfrac m)) mydx) s.1, idx)
        else (s.1, idx))
    (P := fun k s => 0 ≤ s.1 ∧ s.1 ≤ scale ∧ ((∀ m, m < n → vfrac m ≤ amax m) →
      s.2 = nextIdx ms k ∧ ∀ m, m < k →
      s.1 * (if m = ms then dskip else dx (pos ms m)) ≤ 1 / 2 * (amax m - vfrac m))) ?_ ?_
  · exact ⟨h.1, h.2.1, fun ha => (h.2.2 ha).2⟩
  · exact ⟨hs, le_rfl, fun _ => ⟨by simp [nextIdx], fun m h => absurd h (Nat.not_lt_zero _)⟩⟩
  · rintro k ⟨s, idx⟩ hk ⟨h0, h1, h2⟩
    dsimp only at h0 h1 h2 ⊢
    by_cases hu : amax k < vfrac k
    · rw [if_pos hu]
      exact ⟨h0, h1, fun ha => absurd hu (not_lt.mpr (ha k hk))⟩
    · rw [if_neg hu]
      have hg : 0 ≤ 1 / 2 * (amax k - vfrac k) := by
        have := not_lt.mp hu
        have : 0 ≤ amax k - vfrac k := by linarith
        positivity
      have hal : (∀ m, m < n → vfrac m ≤ amax m) →
          (if k = ms then idx else idx + 1) = nextIdx ms (k + 1) ∧
          (if k = ms then dskip else dx (pos ms k)) = (if k = ms then dskip else dx idx) := by
        intro ha
        obtain ⟨hidx, -⟩ := h2 ha
        by_cases hms : k = ms
        · subst hms; simp [nextIdx_succ_skip, hidx]
        · simp [hms, nextIdx_succ hms, hidx, nextIdx_eq_pos hms]
      generalize hd : (if k = ms then dskip else dx idx) = d at hal ⊢
      by_cases hc : s * d > 1 / 2 * (amax k - vfrac k)
      · obtain ⟨e0, e1, e2⟩ := upper_limit hσ hg hc h0
        rw [if_pos hc, min_eq_left e1]
        refine ⟨e0, e1.trans h1, fun ha => ⟨(hal ha).1, ?_⟩⟩
        intro m hm
        rcases Nat.lt_succ_iff_lt_or_eq.mp hm with h | rfl
        · refine upper_mono ?_ e0 e1 ((h2 ha).2 m h)
          have := ha m (by omega)
          have : 0 ≤ amax m - vfrac m := by linarith
          positivity
        · dsimp only; rw [(hal ha).2]; exact e2
      · rw [if_neg hc]
        refine ⟨h0, h1, fun ha => ⟨(hal ha).1, ?_⟩⟩
        intro m hm
        rcases Nat.lt_succ_iff_lt_or_eq.mp hm with h | rfl
        · exact (h2 ha).2 m h
        · dsimp only; rw [(hal ha).2]; exact not_lt.mp hc

theorem tempScale_spec {σ : K} (hσ : 0 < σ) {T dT scale : K} (hT : 0 ≤ T) (hs : 0 ≤ scale) :
    0 ≤ tempScale σ T dT scale ∧ tempScale σ T dT scale ≤ scale ∧
    -(95 / 100 * T) ≤ tempScale σ T dT scale * dT := by
  unfold tempScale
  split_ifs with hc
  · obtain ⟨e0, e1, e2⟩ := lower_limit hσ (by norm_num : (0 : K) ≤ 95 / 100) hT hc hs
    rw [min_eq_right e1]
    exact ⟨e0, e1, by linarith⟩
  · exact ⟨hs, le_rfl, by have := not_lt.mp hc; linarith⟩

end Verif.PTE

namespace Verif.PTE

open Robust

variable {K : Type*} [Field K] [LinearOrder K] [IsStrictOrderedRing K]

theorem rhoTVfrac_spec {n ms : Nat} (hms : ms < n) (scale : K) (dx vtemp vfrac : Nat → K) :
    (∀ m, m < n → m ≠ ms → rhoTVfrac n ms scale dx vtemp vfrac m = vtemp m + scale * dx (pos ms m)) ∧
    rhoTVfrac n ms scale dx vtemp vfrac ms =
      1 - ∑ m ∈ (Finset.range n).filter (· ≠ ms), (vtemp m + scale * dx (pos ms m)) := by
  have h := forN_inv (n := n) (s := ((1 : Nat), vfrac))
    (body := fun (s : Nat × (Nat → K)) m =>
      if ms = m then s else (s.1 + 1, Function.update s.2 m (vtemp m + scale * dx s.1)))
    (P := fun k s => s.1 = nextIdx ms k ∧ ∀ m, m < k → m ≠ ms → s.2 m = vtemp m + scale * dx (pos ms m))
    ⟨by simp [nextIdx], fun m h => absurd h (Nat.not_lt_zero _)⟩ ?_
  · set v1 := (forN n (fun (s : Nat × (Nat → K)) m =>
      if ms = m then s else (s.1 + 1, Function.update s.2 m (vtemp m + scale * dx s.1))) (1, vfrac)).2
      with hv1
    have hv : ∀ m, m < n → m ≠ ms → v1 m = vtemp m + scale * dx (pos ms m) := h.2
    have e : rhoTVfrac n ms scale dx vtemp vfrac =
        Function.update (Function.update v1 ms (sumNeumaier v1 n 0 ms)) ms
          (1 - (Function.update v1 ms (sumNeumaier v1 n 0 ms)) ms) := rfl
    constructor
    · intro m hm hne
      rw [e, Function.update_of_ne hne, Function.update_of_ne hne, hv m hm hne]
    · rw [e, Function.update_self, Function.update_self, sumNeumaier_eq]
      congr 1
      have : (Finset.range n).filter (fun i : Nat => (i : Int) ≠ (ms : Int))
          = (Finset.range n).filter (· ≠ ms) := by
        ext i; simp
      rw [this]
      refine Finset.sum_congr rfl fun m hm => ?_
      simp only [Finset.mem_filter, Finset.mem_range] at hm
      simpa using hv m hm.1 hm.2
  · rintro k ⟨idx, a⟩ hk ⟨h1, h2⟩
    dsimp only at h1 h2 ⊢
    by_cases hk' : ms = k
    · subst hk'
      rw [if_pos rfl]
      exact ⟨by rw [nextIdx_succ_skip, h1], fun m hm hne => h2 m (by omega) hne⟩
    · rw [if_neg hk']
      refine ⟨by rw [nextIdx_succ (Ne.symm hk'), h1], fun m hm hne => ?_⟩
      dsimp only
      by_cases hmk : m = k
      · subst hmk; rw [Function.update_self, h1, nextIdx_eq_pos hne]
      · rw [Function.update_of_ne hmk]; exact h2 m (by omega) hne

end Verif.PTE
