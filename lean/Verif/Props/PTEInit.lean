import Verif.Model.PTEInit
import Verif.Lemmas.PTESolvers

/-! # C17 (ideal guess), C20, C23, C62: initial guesses of the PTE solvers -/

namespace Verif.PTE

open Robust

set_option linter.unusedSectionVars false

variable {K : Type*} [Field K] [LinearOrder K] [IsStrictOrderedRing K]

/-! ## C23 -/

theorem approxBisect_spec (U pow2 : K → K) (utot : K) :
    ∀ f (lo ulo hi uhi : K), lo ≤ hi → ulo = U (pow2 lo) → uhi = U (pow2 hi) → ulo ≤ utot → utot ≤ uhi →
      let r := approxBisect U pow2 utot f (lo, ulo, hi, uhi)
      lo ≤ r.1 ∧ r.1 ≤ r.2.2.1 ∧ r.2.2.1 ≤ hi ∧ r.2.1 = U (pow2 r.1) ∧ r.2.2.2 = U (pow2 r.2.2.1) ∧
      r.2.1 ≤ utot ∧ utot ≤ r.2.2.2 ∧ (r.2.2.1 - r.1 ≤ 1 / 100 ∨ r.2.2.1 - r.1 = (hi - lo) / 2 ^ f) := by
  intro f
  induction f with
  | zero =>
    intro lo ulo hi uhi h1 h2 h3 h4 h5
    exact ⟨le_rfl, h1, le_rfl, h2, h3, h4, h5, Or.inr (by simp [approxBisect])⟩
  | succ f ih =>
    intro lo ulo hi uhi h1 h2 h3 h4 h5
    dsimp only [approxBisect]
    by_cases c1 : hi - lo > 1 / 100
    · simp only [if_pos c1]
      by_cases c2 : U (pow2 (1 / 2 * (lo + hi))) < utot
      · simp only [if_pos c2]
        have := ih (1 / 2 * (lo + hi)) (U (pow2 (1 / 2 * (lo + hi)))) hi uhi (by linarith) rfl h3 c2.le h5
        dsimp only at this
        obtain ⟨q1, q2, q3, q4, q5, q6, q7, q8⟩ := this
        refine ⟨by linarith, q2, q3, q4, q5, q6, q7, ?_⟩
        rcases q8 with q8 | q8
        · exact Or.inl q8
        · right; rw [q8, pow_succ]; field_simp; ring
      · simp only [if_neg c2]
        have := ih lo ulo (1 / 2 * (lo + hi)) (U (pow2 (1 / 2 * (lo + hi)))) (by linarith) h2 rfl h4 (not_lt.mp c2)
        dsimp only at this
        obtain ⟨q1, q2, q3, q4, q5, q6, q7, q8⟩ := this
        refine ⟨q1, q2, by linarith, q4, q5, q6, q7, ?_⟩
        rcases q8 with q8 | q8
        · exact Or.inl q8
        · right; rw [q8, pow_succ]; field_simp; ring
    · simp only [if_neg c1]
      exact ⟨le_rfl, h1, le_rfl, h2, h3, h4, h5, Or.inl (not_lt.mp c1)⟩

/-- C23. `U T` is the total energy density at temperature `T` (mass-weighted material energies, an
arbitrary function). For any exponential/logarithm pair the result is in `[1e-9, 1e9]`, and either the
target is outside the energies at the ends of that window and the corresponding end is returned, or the
result lies between two temperatures of the window whose energies bracket the target and whose logarithms
differ by at most the larger of 0.01 and 2⁻¹⁰ of the window. -/
theorem C23_approx_temperature {σ : K} (hσ : 0 < σ) (E : MatEOS K) {lg pow2 : K → K} (hp : StrictMono pow2)
    (hinv : ∀ x, 0 < x → pow2 (lg x) = x) (n : Nat) (utot : K) (rho vfrac : Nat → K) (Tguess : K) :
    let tmin : K := 1 / 10 ^ 9
    let tmax : K := 10 ^ 9
    let U := fun T => ∑ m ∈ Finset.range n, rho m * vfrac m * E.eOf m (rho m) T
    let T := approxTemperature σ E lg pow2 n utot rho vfrac Tguess
    tmin ≤ T ∧ T ≤ tmax ∧ (utot < U tmin → T = tmin) ∧ (U tmin ≤ utot → U tmax < utot → T = tmax) ∧
    (U tmin ≤ utot → utot ≤ U tmax → ∃ Tlo Thi, tmin ≤ Tlo ∧ Tlo ≤ T ∧ T ≤ Thi ∧ Thi ≤ tmax ∧
      U Tlo ≤ utot ∧ utot ≤ U Thi ∧
      lg Thi - lg Tlo ≤ max (1 / 100) ((lg tmax - lg tmin) / 2 ^ 10)) := by
  intro tmin tmax U T
  have hU : (fun T => forN n (fun a m => a + rho m * vfrac m * E.eOf m (rho m) T) 0) = U := by
    funext T; rw [forN_add, zero_add]
  have hmin : 0 < tmin := by positivity
  have hmm : tmin < tmax := by
    change (1 : K) / 10 ^ 9 < 10 ^ 9
    norm_num
  have hmax : 0 < tmax := hmin.trans hmm
  have lgmono : ∀ {x y : K}, 0 < x → x ≤ y → lg x ≤ lg y := by
    intro x y hx hxy
    by_contra h
    have := hp (not_le.mp h)
    rw [hinv x hx, hinv y (hx.trans_le hxy)] at this
    exact absurd hxy (not_le.mpr this)
  have lginv : ∀ l, lg tmin ≤ l → lg (pow2 l) = l := by
    intro l hl
    have h0 : 0 < pow2 l := by
      have := hp.monotone hl
      rw [hinv _ hmin] at this
      exact hmin.trans_le this
    exact hp.injective (hinv _ h0)
  have hT : T = (if utot < U tmin then tmin
      else if utot > U tmax then tmax
      else
        let s := approxBisect U pow2 utot 10
          (if Tguess > tmin ∧ Tguess < tmax then
            if U Tguess < utot then (lg Tguess, U Tguess, lg tmax, U tmax)
            else (lg tmin, U tmin, lg Tguess, U Tguess)
          else (lg tmin, U tmin, lg tmax, U tmax))
        pow2 ((1 - ratio σ (utot - s.2.1) (s.2.2.2 - s.2.1)) * s.1
          + ratio σ (utot - s.2.1) (s.2.2.2 - s.2.1) * s.2.2.1)) := by
    change approxTemperature σ E lg pow2 n utot rho vfrac Tguess = _
    unfold approxTemperature
    rw [hU]
  by_cases c1 : utot < U tmin
  · rw [if_pos c1] at hT
    refine ⟨hT.ge, hT ▸ hmm.le, fun _ => hT, fun h => absurd c1 (not_lt.mpr h), fun h => absurd c1 (not_lt.mpr h)⟩
  · rw [if_neg c1] at hT
    by_cases c2 : utot > U tmax
    · rw [if_pos c2] at hT
      exact ⟨hT ▸ hmm.le, hT.le, fun h => absurd h c1, fun _ _ => hT, fun _ h => absurd c2 (not_lt.mpr h)⟩
    · rw [if_neg c2] at hT
      -- the starting bracket
      have key : ∃ lo ulo hi uhi : K, (if Tguess > tmin ∧ Tguess < tmax then
            if U Tguess < utot then (lg Tguess, U Tguess, lg tmax, U tmax)
            else (lg tmin, U tmin, lg Tguess, U Tguess)
          else (lg tmin, U tmin, lg tmax, U tmax)) = (lo, ulo, hi, uhi) ∧ lo ≤ hi ∧ ulo = U (pow2 lo) ∧
          uhi = U (pow2 hi) ∧ ulo ≤ utot ∧ utot ≤ uhi ∧ lg tmin ≤ lo ∧ hi ≤ lg tmax := by
        have hU1 : U tmin ≤ utot := not_lt.mp c1
        have hU2 : utot ≤ U tmax := not_lt.mp c2
        split_ifs with c3 c4
        · have hg : 0 < Tguess := hmin.trans c3.1
          exact ⟨_, _, _, _, rfl, lgmono hg c3.2.le, by rw [hinv _ hg], by rw [hinv _ hmax], c4.le, hU2,
            lgmono hmin c3.1.le, le_rfl⟩
        · have hg : 0 < Tguess := hmin.trans c3.1
          exact ⟨_, _, _, _, rfl, lgmono hmin c3.1.le, by rw [hinv _ hmin], by rw [hinv _ hg], hU1, not_lt.mp c4,
            le_rfl, lgmono hg c3.2.le⟩
        · exact ⟨_, _, _, _, rfl, lgmono hmin hmm.le, by rw [hinv _ hmin], by rw [hinv _ hmax], hU1, hU2,
            le_rfl, le_rfl⟩
      obtain ⟨lo, ulo, hi, uhi, k1, k2, k3, k4, k5, k6, k7, k8⟩ := key
      rw [k1] at hT
      have hb := approxBisect_spec U pow2 utot 10 lo ulo hi uhi k2 k3 k4 k5 k6
      set s := approxBisect U pow2 utot 10 (lo, ulo, hi, uhi) with hs
      dsimp only at hT hb
      obtain ⟨q1, q2, q3, q4, q5, q6, q7, q8⟩ := hb
      have ha : 0 ≤ ratio σ (utot - s.2.1) (s.2.2.2 - s.2.1) ∧ ratio σ (utot - s.2.1) (s.2.2.2 - s.2.1) ≤ 1 := by
        rw [ratio_pos_den _ (by linarith)]
        constructor
        · exact div_nonneg (by linarith) (by linarith)
        · rw [div_le_one (by linarith)]; linarith
      set α := ratio σ (utot - s.2.1) (s.2.2.2 - s.2.1) with hα
      have hlo : s.1 ≤ (1 - α) * s.1 + α * s.2.2.1 := by nlinarith [mul_nonneg ha.1 (sub_nonneg.mpr q2)]
      have hhi : (1 - α) * s.1 + α * s.2.2.1 ≤ s.2.2.1 := by
        nlinarith [mul_nonneg (sub_nonneg.mpr ha.2) (sub_nonneg.mpr q2)]
      have b1 : tmin ≤ pow2 s.1 := by
        have := hp.monotone (k7.trans q1)
        rwa [hinv _ hmin] at this
      have b2 : pow2 s.2.2.1 ≤ tmax := by
        have := hp.monotone (q3.trans k8)
        rwa [hinv _ hmax] at this
      have b3 : pow2 s.1 ≤ T := hT ▸ hp.monotone hlo
      have b4 : T ≤ pow2 s.2.2.1 := hT ▸ hp.monotone hhi
      refine ⟨b1.trans b3, b4.trans b2, fun h => absurd h c1, fun _ h => absurd h c2, fun _ _ =>
        ⟨pow2 s.1, pow2 s.2.2.1, b1, b3, b4, b2, q4 ▸ q6, q5 ▸ q7, ?_⟩⟩
      rw [lginv _ (k7.trans q1), lginv _ ((k7.trans q1).trans q2)]
      rcases q8 with q8 | q8
      · exact le_max_of_le_left q8
      · refine le_max_of_le_right ?_
        rw [q8]
        exact div_le_div_of_nonneg_right (by linarith) (by positivity)

/-! ## C20 -/

/-- C20: `SetVfracFromT` fails exactly when the per-material maxima cannot add up to the total volume. -/
theorem C20_fail_iff (σ : K) (n : Nat) (vt : K) (rhobar rhoPmin v : Nat → K) :
    (setVfracFromT σ n vt rhobar rhoPmin v).1 = true ↔
      ∑ m ∈ Finset.range n, min (9 / 10 * ratio σ (rhobar m) (rhoPmin m)) 1 < vt := by
  unfold setVfracFromT
  dsimp only
  rw [forN_add, zero_add]
  have : ∑ m ∈ Finset.range n, vfracMax σ rhobar rhoPmin m
      = ∑ m ∈ Finset.range n, min (9 / 10 * ratio σ (rhobar m) (rhoPmin m)) 1 := rfl
  rw [this]
  split_ifs with h <;> simp [h]

theorem normalize_apply (σ : K) {n : Nat} (vt : K) (v : Nat → K) {m : Nat} (hm : m < n) :
    normalizeVfrac σ n vt v m = v m * ratio σ vt (∑ i ∈ Finset.range n, v i) := by
  unfold normalizeVfrac
  rw [mapN_apply, if_pos hm, sumNeumaier_all]

theorem normalize_sum (σ : K) {n : Nat} (vt : K) (v : Nat → K) :
    ∑ m ∈ Finset.range n, normalizeVfrac σ n vt v m
      = (∑ i ∈ Finset.range n, v i) * ratio σ vt (∑ i ∈ Finset.range n, v i) := by
  rw [Finset.sum_congr rfl fun m hm => normalize_apply σ vt v (Finset.mem_range.mp hm), Finset.sum_mul]

/-- What one capping pass does. -/
theorem capPass_spec (n : Nat) (vmax v : Nat → K) :
    (∀ i, (capPass n vmax v).1 i = if i < n then min (vmax i) (v i) else v i) ∧
    (capPass n vmax v).2.1 = ∑ i ∈ Finset.range n, (v i - min (vmax i) (v i)) := by
  unfold capPass
  refine forN_inv (P := fun k (s : (Nat → K) × K × Nat) =>
    (∀ i, s.1 i = if i < k then min (vmax i) (v i) else v i) ∧
    s.2.1 = ∑ i ∈ Finset.range k, (v i - min (vmax i) (v i))) ⟨fun i => by simp, by simp⟩ ?_
  rintro k ⟨a, rem, unc⟩ hk ⟨h1, h2⟩
  dsimp only at h1 h2 ⊢
  have hak : a k = v k := by rw [h1 k, if_neg (lt_irrefl _)]
  refine ⟨fun i => ?_, ?_⟩
  · rw [Function.update_apply]
    by_cases hik : i = k
    · subst hik
      rw [if_pos rfl, if_pos (by omega), hak]; ring
    · rw [if_neg hik, h1 i]
      by_cases h : i < k
      · rw [if_pos h, if_pos (by omega)]
      · rw [if_neg h, if_neg (by omega)]
  · rw [h2, Finset.sum_range_succ, hak]

theorem waterFill_pos {σ : K} (hσ : 0 < σ) {n : Nat} {vmax : Nat → K} (hm : ∀ m, m < n → 0 < vmax m) :
    ∀ f (v : Nat → K), (∀ m, m < n → 0 < v m) → ∀ m, m < n → 0 < waterFill σ n vmax f v m := by
  intro f
  induction f with
  | zero => intro v hv; exact hv
  | succ f ih =>
    intro v hv
    dsimp only [waterFill]
    obtain ⟨c1, c2⟩ := capPass_spec n vmax v
    have hpos : ∀ m, m < n → 0 < (capPass n vmax v).1 m := by
      intro m hmn
      rw [c1 m, if_pos hmn]
      exact lt_min (hm m hmn) (hv m hmn)
    split_ifs
    · exact hpos
    · refine ih _ fun m hmn => ?_
      unfold spreadPass
      rw [mapN_apply, if_pos hmn]
      split_ifs
      · have : 0 ≤ ratio σ (capPass n vmax v).2.1 ((capPass n vmax v).2.2 : K) := by
          rw [ratio_pos_den _ (Nat.cast_nonneg _)]
          refine div_nonneg ?_ (by have : (0 : K) ≤ ((capPass n vmax v).2.2 : K) := Nat.cast_nonneg _
                                   linarith)
          rw [c2]
          exact Finset.sum_nonneg fun i _ => by linarith [min_le_right (vmax i) (v i)]
        have := hpos m hmn
        linarith
      · exact hpos m hmn

/-- C20: on success, for a positive total volume, positive material masses and positive minimum
densities, every volume fraction is positive and they sum to the total (up to the `robust::ratio`
factor `s/(s+SMALL)` of the last normalisation). -/
theorem C20_success_sum {σ : K} (hσ : 0 < σ) {n : Nat} (hn : 0 < n) {vt : K} (hvt : 0 < vt)
    {rhobar rhoPmin v : Nat → K} (hr : ∀ m, m < n → 0 < rhobar m) (hp : ∀ m, m < n → 0 ≤ rhoPmin m)
    (hok : (setVfracFromT σ n vt rhobar rhoPmin v).1 = false) :
    (∀ m, m < n → 0 < (setVfracFromT σ n vt rhobar rhoPmin v).2 m) ∧
    ∃ s, 0 < s ∧ ∑ m ∈ Finset.range n, (setVfracFromT σ n vt rhobar rhoPmin v).2 m = vt * (s / (s + σ)) := by
  revert hok
  unfold setVfracFromT
  dsimp only
  split_ifs with h
  · intro hok; simp at hok
  · intro _
    set vmax := vfracMax σ rhobar rhoPmin with hvm
    have hvmax : ∀ m, m < n → 0 < vmax m := by
      intro m hm
      rw [hvm]
      unfold vfracMax
      refine lt_min ?_ one_pos
      rw [ratio_pos_den _ (hp m hm)]
      have := hr m hm
      have := hp m hm
      positivity
    have sumpos : ∀ w : Nat → K, (∀ m, m < n → 0 < w m) → 0 < ∑ m ∈ Finset.range n, w m := fun w hw =>
      Finset.sum_pos (fun i hi => hw i (Finset.mem_range.mp hi)) ⟨0, Finset.mem_range.mpr hn⟩
    have normpos : ∀ w : Nat → K, (∀ m, m < n → 0 < w m) → ∀ m, m < n → 0 < normalizeVfrac σ n vt w m := by
      intro w hw m hm
      rw [normalize_apply σ vt w hm, ratio_pos_den _ (sumpos w hw).le]
      have := sumpos w hw
      have := hw m hm
      positivity
    have h1 : ∀ m, m < n → 0 < mapN n (fun m x => if x ≤ 0 then vmax m else x) v m := by
      intro m hm
      rw [mapN_apply, if_pos hm]
      split_ifs with hc
      · exact hvmax m hm
      · exact not_le.mp hc
    have h2 := waterFill_pos hσ hvmax n _ (normpos _ h1)
    refine ⟨normpos _ h2, _, sumpos _ h2, ?_⟩
    rw [normalize_sum, ratio_pos_den _ (sumpos _ h2).le]
    ring

theorem waterFill_capped {σ : K} {n : Nat} {vmax : Nat → K} :
    ∀ f (v : Nat → K), (∀ m, m < n → waterFill σ n vmax f v m ≤ vmax m) ∨
      ∃ w, waterFill σ n vmax f v = w ∧ (f = 0 ∨ ∃ u, minDv ≤ |(capPass n vmax u).2.1| ∧
        w = spreadPass σ n vmax (capPass n vmax u).2.1 (capPass n vmax u).2.2 (capPass n vmax u).1) := by
  intro f
  induction f with
  | zero => intro v; exact Or.inr ⟨v, rfl, Or.inl rfl⟩
  | succ f ih =>
    intro v
    dsimp only [waterFill]
    by_cases h : |(capPass n vmax v).2.1| < minDv
    · left
      intro m hm
      rw [if_pos h, (capPass_spec n vmax v).1 m, if_pos hm]
      exact min_le_left _ _
    · rw [if_neg h]
      rcases ih (spreadPass σ n vmax (capPass n vmax v).2.1 (capPass n vmax v).2.2 (capPass n vmax v).1) with
        q | ⟨w, q1, q2⟩
      · exact Or.inl q
      · refine Or.inr ⟨w, q1, Or.inr ?_⟩
        rcases q2 with rfl | q2
        · exact ⟨v, not_lt.mp h, by rw [← q1]; rfl⟩
        · exact q2

/-- C20 (what is missing: the final normalisation may raise a capped fraction, see `C20_violated`): if the
water-filling loop stops because less than `1e-12` of volume had to be moved, the final fractions are the
capped ones times one common factor `vt / (s + SMALL)`, where `s` is their sum; so when the capped
fractions still add up to `vt` no maximum is exceeded. -/
theorem C20_caps_partial {σ : K} (hσ : 0 < σ) {n : Nat} {vt : K} (hvt : 0 ≤ vt) {rhobar rhoPmin v : Nat → K}
    (hok : (setVfracFromT σ n vt rhobar rhoPmin v).1 = false) :
    let vmax := fun m => min (9 / 10 * ratio σ (rhobar m) (rhoPmin m)) 1
    (∃ w : Nat → K, (∀ m, m < n → w m ≤ vmax m) ∧
      (∀ m, m < n → (setVfracFromT σ n vt rhobar rhoPmin v).2 m
        = w m * ratio σ vt (∑ i ∈ Finset.range n, w i)) ∧
      (vt ≤ ∑ i ∈ Finset.range n, w i → (∀ m, m < n → 0 ≤ w m) →
        ∀ m, m < n → (setVfracFromT σ n vt rhobar rhoPmin v).2 m ≤ vmax m)) ∨
    (n = 0 ∨ ∃ u : Nat → K, minDv ≤ |(capPass n vmax u).2.1|) := by
  intro vmax
  revert hok
  unfold setVfracFromT
  dsimp only
  split_ifs with h
  · intro hok; simp at hok
  · intro _
    rcases waterFill_capped (σ := σ) (n := n) (vmax := vmax) n
      (normalizeVfrac σ n vt (mapN n (fun m x => if x ≤ 0 then vmax m else x) v)) with q | ⟨w, -, q⟩
    · left
      refine ⟨_, q, fun m hm => normalize_apply σ vt _ hm, fun hs hw m hm => ?_⟩
      have e := normalize_apply σ vt (waterFill σ n vmax n
        (normalizeVfrac σ n vt (mapN n (fun m x => if x ≤ 0 then vmax m else x) v))) hm
      refine e.le.trans ?_
      have hs0 := hvt.trans hs
      have hr : ratio σ vt (∑ i ∈ Finset.range n, waterFill σ n vmax n
        (normalizeVfrac σ n vt (mapN n (fun m x => if x ≤ 0 then vmax m else x) v)) i) ≤ 1 := by
        rw [ratio_pos_den _ hs0, div_le_one (by linarith)]
        linarith
      exact (mul_le_of_le_one_right (hw m hm) hr).trans (q m hm)
    · right
      rcases q with q | ⟨u, q, -⟩
      · exact Or.inl q
      · exact Or.inr ⟨u, q⟩

/-- C20 is violated: with three materials, guesses (0.8, 0.15, 0.05) and maxima (0.1, 0.2, 1), the routine
succeeds but the first volume fraction ends more than 10% above its maximum. -/
theorem C20_violated :
    let σ : ℚ := 1 / 10 ^ 300
    let rhobar : Nat → ℚ := fun _ => 1
    let rhoPmin : Nat → ℚ := fun m => if m = 0 then 9 else if m = 1 then 9 / 2 else 1 / 2
    let v : Nat → ℚ := fun m => if m = 0 then 8 / 10 else if m = 1 then 15 / 100 else 5 / 100
    let r := setVfracFromT σ 3 1 rhobar rhoPmin v
    r.1 = false ∧ r.2 0 > 11 / 10 * min (9 / 10 * ratio σ (rhobar 0) (rhoPmin 0)) 1 := by
  decide +kernel

/-! ## C62: the temperature guess -/

theorem forN_max_ge (f : Nat → K) (n : Nat) (T : K) :
    T ≤ forN n (fun T m => max (f m) T) T ∧ ∀ m, m < n → f m ≤ forN n (fun T m => max (f m) T) T := by
  refine forN_inv (P := fun k t => T ≤ t ∧ ∀ m, m < k → f m ≤ t)
    ⟨le_rfl, fun m h => absurd h (Nat.not_lt_zero _)⟩ ?_
  rintro k t _ ⟨h1, h2⟩
  refine ⟨h1.trans (le_max_right _ _), fun m hm => ?_⟩
  by_cases h : m = k
  · subst h; exact le_max_left _ _
  · exact (h2 m (by omega)).trans (le_max_right _ _)

theorem forN_or (f : Nat → Bool) (n : Nat) :
    forN n (fun b m => b || f m) false = false → ∀ m, m < n → f m = false := by
  induction n with
  | zero => intro _ m hm; omega
  | succ n ih =>
    rw [forN_succ]
    intro h m hm
    simp only [Bool.or_eq_false_iff] at h
    by_cases hmn : m = n
    · rw [hmn]; exact h.2
    · exact ih h.1 m (by omega)

theorem tguessPass_above {σ : K} {E : MatEOS K} {tmin : Nat → K} {n : Nat} {vt tlimit : K}
    {rhobar : Nat → K} {newton : Option K} {s : K × (Nat → K) × (Nat → K)} {c : K} (h0 : 0 < c)
    (hc : c ≤ s.1) (hl : c ≤ tlimit ∨ newton = none) :
    let r := tguessPass σ E tmin n vt tlimit rhobar newton s
    c ≤ r.2.1 ∧
    (r.1 = false → (∀ m, m < n → tmin m ≤ r.2.1 ∧ r.2.2.2 m = ratio σ (rhobar m) (r.2.2.1 m) ∧
      E.rhoPmin m r.2.1 ≤ r.2.2.2 m)) ∧
    (r.1 = true → c * 10 ≤ r.2.1) := by
  intro r
  set T1 : K := clipNewton tlimit newton s.1 with hT1
  have hT1s : c ≤ T1 := by
    rw [hT1]
    cases newton with
    | none => exact hc
    | some t =>
      rcases hl with hl | hl
      · exact le_min hl (hc.trans (le_max_left _ _))
      · simp at hl
  set T2 := forN n (fun T m => max (tmin m) T) T1 with hT2
  have hmax := forN_max_ge tmin n T1
  rw [← hT2] at hmax
  have hs2 : c ≤ T2 := hT1s.trans hmax.1
  set q := setVfracFromT σ n vt rhobar (fun m => E.rhoPmin m T2) s.2.1 with hq
  set rho := fill n (fun m => ratio σ (rhobar m) (q.2 m)) s.2.2 with hrho
  have hr : r = (if q.1 = true then (true, T2 * 10, q.2, s.2.2)
      else if forN n (fun b m => b || decide (rho m < E.rhoPmin m T2)) false = true
        then (true, T2 * 10, q.2, rho) else (false, T2, q.2, rho)) := rfl
  by_cases c1 : q.1 = true
  · rw [if_pos c1] at hr
    rw [hr]
    exact ⟨by dsimp only; linarith, fun h => by simp at h, fun _ => by dsimp only; linarith⟩
  · rw [if_neg c1] at hr
    by_cases c2 : forN n (fun b m => b || decide (rho m < E.rhoPmin m T2)) false = true
    · rw [if_pos c2] at hr
      rw [hr]
      exact ⟨by dsimp only; linarith, fun h => by simp at h, fun _ => by dsimp only; linarith⟩
    · rw [if_neg c2] at hr
      rw [hr]
      refine ⟨hs2, fun _ m hm => ⟨hmax.2 m hm, ?_, ?_⟩, fun h => by simp at h⟩
      · change rho m = ratio σ (rhobar m) (q.2 m)
        rw [hrho, fill_apply, if_pos hm]
      · have := forN_or _ n (by simpa using c2) m hm
        simpa using this

theorem tguessPass_spec {σ : K} {E : MatEOS K} {tmin : Nat → K} {n : Nat} {vt tlimit : K}
    {rhobar : Nat → K} {newton : Option K} {s : K × (Nat → K) × (Nat → K)} (h0 : 0 < s.1)
    (hl : s.1 ≤ tlimit ∨ newton = none) :
    let r := tguessPass σ E tmin n vt tlimit rhobar newton s
    s.1 ≤ r.2.1 ∧
    (r.1 = false → (∀ m, m < n → tmin m ≤ r.2.1 ∧ r.2.2.2 m = ratio σ (rhobar m) (r.2.2.1 m) ∧
      E.rhoPmin m r.2.1 ≤ r.2.2.2 m)) ∧
    (r.1 = true → s.1 * 10 ≤ r.2.1) := tguessPass_above h0 le_rfl hl

/-- C62: when `GetTguess` stops without complaint, the temperature it returns is at least the guess it
started from and every material's minimum temperature, every density is `rhobar/vfrac` for the volume
fractions it set, and no density is below the material's density of minimum pressure at the *returned*
temperature. (`iterate_t_guess` off; with it on, see `C62_temperature_guess_newton`.) -/
theorem C62_temperature_guess {σ : K} {E : MatEOS K} {tmin : Nat → K} {n : Nat} {vt tlimit : K}
    {rhobar : Nat → K} {s : K × (Nat → K) × (Nat → K)} (h0 : 0 < s.1) :
    let r := getTguess σ E tmin n vt tlimit rhobar (fun _ _ => none) s
    s.1 ≤ r.2.1 ∧
    (r.1 = false → (∀ m, m < n → tmin m ≤ r.2.1 ∧ r.2.2.2 m = ratio σ (rhobar m) (r.2.2.1 m) ∧
      E.rhoPmin m r.2.1 ≤ r.2.2.2 m)) ∧
    (r.1 = true → s.1 * 1000 ≤ r.2.1) := by
  intro r
  have p0 := tguessPass_spec (σ := σ) (E := E) (tmin := tmin) (n := n) (vt := vt) (tlimit := tlimit)
    (rhobar := rhobar) (newton := none) h0 (Or.inr rfl)
  set r0 := tguessPass σ E tmin n vt tlimit rhobar none s with hr0
  dsimp only at p0
  have p1 := tguessPass_spec (σ := σ) (E := E) (tmin := tmin) (n := n) (vt := vt) (tlimit := tlimit)
    (rhobar := rhobar) (newton := none) (s := r0.2) (lt_of_lt_of_le h0 p0.1) (Or.inr rfl)
  set r1 := tguessPass σ E tmin n vt tlimit rhobar none r0.2 with hr1
  dsimp only at p1
  have p2 := tguessPass_spec (σ := σ) (E := E) (tmin := tmin) (n := n) (vt := vt) (tlimit := tlimit)
    (rhobar := rhobar) (newton := none) (s := r1.2) (lt_of_lt_of_le h0 (p0.1.trans p1.1)) (Or.inr rfl)
  have hr : r = (if r0.1 = false then r0 else if r1.1 = false then r1
    else tguessPass σ E tmin n vt tlimit rhobar none r1.2) := rfl
  by_cases c0 : r0.1 = false
  · rw [if_pos c0] at hr
    rw [hr]
    exact ⟨p0.1, p0.2.1, fun h => by rw [c0] at h; simp at h⟩
  · rw [if_neg c0] at hr
    have c0' : r0.1 = true := by simpa using c0
    by_cases c1 : r1.1 = false
    · rw [if_pos c1] at hr
      rw [hr]
      exact ⟨p0.1.trans p1.1, p1.2.1, fun h => by rw [c1] at h; simp at h⟩
    · rw [if_neg c1] at hr
      have c1' : r1.1 = true := by simpa using c1
      rw [hr]
      refine ⟨p0.1.trans (p1.1.trans p2.1), p2.2.1, fun h => ?_⟩
      have a0 := p0.2.2 c0'
      have a1 := p1.2.2 c1'
      have a2 := p2.2.2 h
      linarith

/-- C62 with `iterate_t_guess`, for every sequence of Newton proposals (each clipped to `[T, temperature_limit]`, also when a failed
pass has pushed the guess beyond that limit): the same guarantee for a starting guess within `temperature_limit`, which is required of
it. -/
theorem C62_temperature_guess_newton {σ : K} {E : MatEOS K} {tmin : Nat → K} {n : Nat} {vt tlimit : K}
    {rhobar : Nat → K} {s : K × (Nat → K) × (Nat → K)} (newton : Nat → (K × (Nat → K) × (Nat → K)) → Option K)
    (h0 : 0 < s.1) (hl : s.1 ≤ tlimit) :
    let r := getTguess σ E tmin n vt tlimit rhobar newton s
    s.1 ≤ r.2.1 ∧
    (r.1 = false → (∀ m, m < n → tmin m ≤ r.2.1 ∧ r.2.2.2 m = ratio σ (rhobar m) (r.2.2.1 m) ∧
      E.rhoPmin m r.2.1 ≤ r.2.2.2 m)) ∧
    (r.1 = true → s.1 * 10 ≤ r.2.1) := by
  intro r
  have p0 := tguessPass_above (σ := σ) (E := E) (tmin := tmin) (n := n) (vt := vt) (tlimit := tlimit)
    (rhobar := rhobar) (newton := newton 0 s) h0 le_rfl (Or.inl hl)
  set r0 := tguessPass σ E tmin n vt tlimit rhobar (newton 0 s) s with hr0
  dsimp only at p0
  have p1 := tguessPass_above (σ := σ) (E := E) (tmin := tmin) (n := n) (vt := vt) (tlimit := tlimit)
    (rhobar := rhobar) (newton := newton 1 r0.2) (s := r0.2) h0 p0.1 (Or.inl hl)
  set r1 := tguessPass σ E tmin n vt tlimit rhobar (newton 1 r0.2) r0.2 with hr1
  dsimp only at p1
  have p2 := tguessPass_above (σ := σ) (E := E) (tmin := tmin) (n := n) (vt := vt) (tlimit := tlimit)
    (rhobar := rhobar) (newton := newton 2 r1.2) (s := r1.2) h0 p1.1 (Or.inl hl)
  have hr : r = (if r0.1 = false then r0 else if r1.1 = false then r1
    else tguessPass σ E tmin n vt tlimit rhobar (newton 2 r1.2) r1.2) := rfl
  by_cases c0 : r0.1 = false
  · rw [if_pos c0] at hr
    rw [hr]
    exact ⟨p0.1, p0.2.1, fun h => by rw [c0] at h; simp at h⟩
  · rw [if_neg c0] at hr
    by_cases c1 : r1.1 = false
    · rw [if_pos c1] at hr
      rw [hr]
      exact ⟨p1.1, p1.2.1, fun h => by rw [c1] at h; simp at h⟩
    · rw [if_neg c1] at hr
      rw [hr]
      exact p2

/-- Non-vacuity for C62 and C20: two equal materials with a positive minimum density are accepted. -/
example : let E : MatEOS ℚ := ⟨fun _ _ T => T, fun _ r T _ => r * T, fun _ _ e => e,
      fun _ p t => (p / t, t), fun _ _ => 1 / 4, fun _ => 0, fun _ _ => 10⟩
    (getTguess (1 / 10 ^ 300) E (fun _ => 1) 2 1 100 (fun _ => 1) (fun _ _ => none)
      (5, (fun _ => 1 / 2), fun _ => 2)).1 = false := by
  decide +kernel

/-! ## C17: the ideal-gas guess -/

theorem store_apply (o n : Nat) (f : Nat → K) (mem : Nat → K) (i : Nat) :
    store o n f mem i = if o ≤ i ∧ i < o + n then f (i - o) else mem i := by
  unfold store
  refine forN_inv (P := fun k (a : Nat → K) => ∀ i, a i = if o ≤ i ∧ i < o + k then f (i - o) else mem i)
    (fun i => by rw [if_neg (by omega)]) ?_ i
  intro k a _ h i
  rw [Function.update_apply, h i]
  by_cases hik : i = o + k
  · subst hik
    rw [if_pos rfl, if_pos (by omega)]
    congr 1; omega
  · rw [if_neg hik]
    by_cases hc : o ≤ i ∧ i < o + k
    · rw [if_pos hc, if_pos (by omega)]
    · rw [if_neg hc, if_neg (by omega)]

/-- Cells outside the working area `[0, 4n+N)` of `TryIdealPTE`. -/
theorem copyOut_spec (n N : Nat) (s : IdealState K) (hN : 4 * n + N ≤ offRes N) :
    let mem1 := forN n (fun a m =>
      Function.update (Function.update (Function.update (Function.update a
        (0 + m) (a (offU N + m))) (n + m) (s.press m)) (2 * n + m) (s.vfrac m)) (3 * n + m) (s.rho m)) s.mem
    (∀ i, 4 * n ≤ i → mem1 i = s.mem i) ∧
    ∀ m, m < n → mem1 m = s.mem (offU N + m) ∧ mem1 (n + m) = s.press m ∧ mem1 (2 * n + m) = s.vfrac m ∧
      mem1 (3 * n + m) = s.rho m := by
  have hU : 4 * n ≤ offU N := by unfold offU; omega
  refine forN_inv (P := fun k (a : Nat → K) => (∀ i, 4 * n ≤ i → a i = s.mem i) ∧
    ∀ m, m < k → a m = s.mem (offU N + m) ∧ a (n + m) = s.press m ∧ a (2 * n + m) = s.vfrac m ∧
      a (3 * n + m) = s.rho m) ⟨fun _ _ => rfl, fun m h => absurd h (Nat.not_lt_zero _)⟩ ?_
  rintro k a hk ⟨h1, h2⟩
  refine ⟨fun i hi => ?_, fun m hm => ?_⟩
  · simp only [Function.update_apply]
    rw [if_neg (by omega), if_neg (by omega), if_neg (by omega), if_neg (by omega), h1 i hi]
  · simp only [Function.update_apply]
    by_cases hmk : m = k
    · subst hmk
      refine ⟨?_, ?_, ?_, ?_⟩
      · rw [if_neg (by omega), if_neg (by omega), if_neg (by omega), if_pos (by omega), h1 _ (by omega)]
      · rw [if_neg (by omega), if_neg (by omega), if_pos (by omega)]
      · rw [if_neg (by omega), if_pos (by omega)]
      · rw [if_pos (by omega)]
    · obtain ⟨q1, q2, q3, q4⟩ := h2 m (by omega)
      refine ⟨?_, ?_, ?_, ?_⟩
      · rw [if_neg (by omega), if_neg (by omega), if_neg (by omega), if_neg (by omega), q1]
      · rw [if_neg (by omega), if_neg (by omega), if_neg (by omega), if_neg (by omega), q2]
      · rw [if_neg (by omega), if_neg (by omega), if_neg (by omega), if_neg (by omega), q3]
      · rw [if_neg (by omega), if_neg (by omega), if_neg (by omega), if_neg (by omega), q4]

theorem copyRes_spec (n N : Nat) (mem1 : Nat → K) (hN : 4 * n + N ≤ offRes N) :
    let c := forN N (fun (t : (Nat → K) × K) m =>
      let a := Function.update t.1 (4 * n + m) (t.1 (offRes N + m))
      (a, t.2 + a (4 * n + m) * a (4 * n + m))) (mem1, 0)
    (∀ i, (i < 4 * n ∨ 4 * n + N ≤ i) → c.1 i = mem1 i) ∧
    (∀ m, m < N → c.1 (4 * n + m) = mem1 (offRes N + m)) ∧
    c.2 = ∑ m ∈ Finset.range N, mem1 (offRes N + m) * mem1 (offRes N + m) := by
  refine forN_inv (s := (mem1, (0 : K))) (P := fun k (t : (Nat → K) × K) =>
    (∀ i, (i < 4 * n ∨ 4 * n + k ≤ i) → t.1 i = mem1 i) ∧
    (∀ m, m < k → t.1 (4 * n + m) = mem1 (offRes N + m)) ∧
    t.2 = ∑ m ∈ Finset.range k, mem1 (offRes N + m) * mem1 (offRes N + m))
    ⟨fun _ _ => rfl, fun m h => absurd h (Nat.not_lt_zero _), by simp⟩ ?_
  · rintro k ⟨a, x⟩ hk ⟨h1, h2, h3⟩
    dsimp only at h1 h2 h3 ⊢
    have e : a (offRes N + k) = mem1 (offRes N + k) := h1 _ (Or.inr (by omega))
    refine ⟨fun i hi => ?_, fun m hm => ?_, ?_⟩
    · rw [Function.update_of_ne (by omega), h1 i (by omega)]
    · by_cases hmk : m = k
      · subst hmk; rw [Function.update_self, e]
      · rw [Function.update_of_ne (by omega), h2 m (by omega)]
    · rw [Function.update_self, e, h3, Finset.sum_range_succ]

theorem idealVfrac_spec (σ : K) (E : MatEOS K) (n N : Nat) (Tnorm P T : K) (v0 : Nat → K) :
    ∀ f m (s : IdealState K), m + f = n → (∀ i, i < n → s.mem (2 * n + i) = v0 i) →
      (∀ i, m ≤ i → s.vfrac i = v0 i) →
      let r := idealVfrac σ E n N Tnorm P T f m s
      r.2.rho = s.rho ∧ r.2.sie = s.sie ∧ r.2.temp = s.temp ∧ r.2.press = s.press ∧ r.2.mem = s.mem ∧
      (∀ i, n ≤ i → r.2.vfrac i = v0 i) ∧ (r.1 = true → ∀ i, r.2.vfrac i = v0 i) := by
  intro f
  induction f with
  | zero =>
    intro m s hm hmem hv
    exact ⟨rfl, rfl, rfl, rfl, rfl, fun i hi => hv i (by omega), fun h => by simp [idealVfrac] at h⟩
  | succ f ih =>
    intro m s hm hmem hv
    dsimp only [idealVfrac]
    by_cases c : Tnorm * T < 0 ∨ ratio σ (s.mem (offRhobar N n + m)) (Function.update s.vfrac m
      (s.vfrac m * ratio σ (s.press m) (s.temp m * ratio σ P T)) m) < E.rhoPmin m (Tnorm * T)
    · rw [if_pos c]
      have hall : ∀ i, fill (m + 1) (fun i => s.mem (2 * n + i)) (Function.update s.vfrac m
          (s.vfrac m * ratio σ (s.press m) (s.temp m * ratio σ P T))) i = v0 i := by
        intro i
        rw [fill_apply]
        split_ifs with hi
        · exact hmem i (by omega)
        · rw [Function.update_of_ne (by omega), hv i (by omega)]
      exact ⟨rfl, rfl, rfl, rfl, rfl, fun i _ => hall i, fun _ => hall⟩
    · rw [if_neg c]
      exact ih (m + 1) { s with vfrac := _ } (by omega) hmem (fun i hi => by
        dsimp only
        rw [Function.update_of_ne (by omega), hv i (by omega)])

/-- A rescaling that was not abandoned. -/
theorem idealVfrac_accept (σ : K) (E : MatEOS K) (n N : Nat) (Tnorm P T : K) :
    ∀ f m (s : IdealState K), m + f = n → (idealVfrac σ E n N Tnorm P T f m s).1 = false →
      (∀ i, i < m → (idealVfrac σ E n N Tnorm P T f m s).2.vfrac i = s.vfrac i) ∧
      ∀ i, m ≤ i → i < n →
        (idealVfrac σ E n N Tnorm P T f m s).2.vfrac i = s.vfrac i * ratio σ (s.press i) (s.temp i * ratio σ P T) ∧
        0 ≤ Tnorm * T ∧
        E.rhoPmin i (Tnorm * T)
          ≤ ratio σ (s.mem (offRhobar N n + i)) (s.vfrac i * ratio σ (s.press i) (s.temp i * ratio σ P T)) := by
  intro f
  induction f with
  | zero => intro m s hm _; exact ⟨fun _ _ => rfl, fun i h1 h2 => absurd h2 (by omega)⟩
  | succ f ih =>
    intro m s hm hr
    dsimp only [idealVfrac] at hr ⊢
    by_cases c : Tnorm * T < 0 ∨ ratio σ (s.mem (offRhobar N n + m)) (Function.update s.vfrac m
      (s.vfrac m * ratio σ (s.press m) (s.temp m * ratio σ P T)) m) < E.rhoPmin m (Tnorm * T)
    · rw [if_pos c] at hr; exact absurd hr (by simp)
    · rw [if_neg c] at hr ⊢
      obtain ⟨h1, h2⟩ := ih (m + 1) _ (by omega) hr
      push Not at c
      rw [Function.update_self] at c
      refine ⟨fun i hi => ?_, fun i hi hin => ?_⟩
      · rw [h1 i (by omega)]; dsimp only; rw [Function.update_of_ne (by omega)]
      · by_cases him : i = m
        · subst him
          refine ⟨?_, c.1, c.2⟩
          rw [h1 i (by omega)]; dsimp only; rw [Function.update_self]
        · have := h2 i (by omega) hin
          dsimp only at this
          rw [Function.update_of_ne him] at this
          exact this

/-- C17: `TryIdealPTE` either leaves the caller's arrays, the residual, the energies and the average
densities exactly as they were (indices outside the materials included), although it used part of the
scratch for its own copies, or it leaves a state whose residual norm is not larger and in which every
temperature is the same, every density is `rhobar/vfrac` and energies and pressures are those of the
material models at that density and temperature; the volume fractions are then the old ones rescaled by the ideal-gas law,
no temperature is negative and no density is below the model's density of minimal pressure. The area it overwrites must end before the residual:
`4 nmat + neq <= neq² + 3 neq`, true for RhoU (`neq = 2 nmat`, see `C17_ideal_rhoU_room`). -/
theorem C17_ideal_guess (σ : K) (E : MatEOS K) {n N : Nat} (uscale Tnorm vt : K)
    (resid : (vfrac u press temp : Nat → K) → Nat → K) (s : IdealState K) (hN : 4 * n + N ≤ offRes N) :
    let s' := tryIdealPTE σ E n N uscale Tnorm vt resid s
    let T := (idealPTE σ n uscale Tnorm vt s).2
    (s'.rho = s.rho ∧ s'.vfrac = s.vfrac ∧ s'.sie = s.sie ∧ s'.temp = s.temp ∧ s'.press = s.press ∧
      ∀ i, offRes N ≤ i → s'.mem i = s.mem i) ∨
    ((∑ m ∈ Finset.range N, s'.mem (offRes N + m) * s'.mem (offRes N + m)
        ≤ ∑ m ∈ Finset.range N, s.mem (offRes N + m) * s.mem (offRes N + m)) ∧
      (∀ m, m < N → s'.mem (offRes N + m)
        = resid s'.vfrac (fun m => s'.mem (offU N + m)) s'.press s.temp m) ∧
      ∀ m, m < n → s'.temp m = T ∧ s'.mem (offRhobar N n + m) = s.mem (offRhobar N n + m) ∧
        s'.rho m = ratio σ (s.mem (offRhobar N n + m)) (s'.vfrac m) ∧
        s'.mem (offU N + m) = s.mem (offRhobar N n + m) * ratio σ (E.eOf m (s'.rho m) (Tnorm * T)) uscale ∧
        s'.press m = ratio σ (E.pOf m (s'.rho m) (Tnorm * T) (E.eOf m (s'.rho m) (Tnorm * T))) uscale ∧
        s'.sie m = uscale * ratio σ (s'.mem (offU N + m)) (s.mem (offRhobar N n + m)) ∧
        s'.vfrac m = s.vfrac m * ratio σ (s.press m) (s.temp m * ratio σ (idealPTE σ n uscale Tnorm vt s).1 T) ∧
        0 ≤ Tnorm * T ∧ E.rhoPmin m (Tnorm * T) ≤ s'.rho m) := by
  intro s' T
  have hUo : offU N = offRes N + N := rfl
  have hRo : offRhobar N n = offU N + n := rfl
  set mem1 := forN n (fun a m =>
      Function.update (Function.update (Function.update (Function.update a
        (0 + m) (a (offU N + m))) (n + m) (s.press m)) (2 * n + m) (s.vfrac m)) (3 * n + m) (s.rho m)) s.mem
    with hmem1
  obtain ⟨a1, a2⟩ := copyOut_spec n N s hN
  rw [← hmem1] at a1 a2
  set c := forN N (fun (t : (Nat → K) × K) m =>
      let a := Function.update t.1 (4 * n + m) (t.1 (offRes N + m))
      (a, t.2 + a (4 * n + m) * a (4 * n + m))) (mem1, 0) with hc
  obtain ⟨b1, b2, b3⟩ := copyRes_spec n N mem1 hN
  rw [← hc] at b1 b2 b3
  set P := (idealPTE σ n uscale Tnorm vt s).1 with hP
  have hi := idealVfrac_spec σ E n N Tnorm P T s.vfrac n 0 { s with mem := c.1 } (by omega)
    (fun i hi => by dsimp only; rw [b1 _ (Or.inl (by omega)), (a2 i hi).2.2.1]) (fun _ _ => rfl)
  set r := idealVfrac σ E n N Tnorm P T n 0 { s with mem := c.1 } with hr
  obtain ⟨i1, i2, i3, i4, i5, i6, i7⟩ := hi
  -- memory beyond the working area
  have hfar : ∀ i, offRes N ≤ i → c.1 i = s.mem i := fun i hi => by
    rw [b1 i (Or.inr (by omega)), a1 i (by omega)]
  by_cases hb : r.1 = true
  · left
    have hs' : s' = r.2 := by
      change tryIdealPTE σ E n N uscale Tnorm vt resid s = _
      unfold tryIdealPTE
      dsimp only
      rw [if_pos hb]
    rw [hs']
    refine ⟨i1, funext (i7 hb), i2, i3, i4, fun i hi => ?_⟩
    rw [i5]
    exact hfar i hi
  · set rho := fill n (fun m => ratio σ (r.2.mem (offRhobar N n + m)) (r.2.vfrac m)) r.2.rho with hrho
    set e := fun m => E.eOf m (rho m) (Tnorm * T) with he
    set mem3 := store (offU N) n (fun m => r.2.mem (offRhobar N n + m) * ratio σ (e m) uscale) r.2.mem with hm3
    set press := fill n (fun m => ratio σ (E.pOf m (rho m) (Tnorm * T) (e m)) uscale) r.2.press with hpr
    set mem4 := store (offRes N) N (resid r.2.vfrac (fun m => mem3 (offU N + m)) press r.2.temp) mem3 with hm4
    have hs' : s' = (if forN N (fun a m => a + mem4 (offRes N + m) * mem4 (offRes N + m)) 0 > c.2 then
      { r.2 with
        vfrac := fill n (fun m => mem4 (2 * n + m)) r.2.vfrac
        rho := fill n (fun m => mem4 (3 * n + m)) rho
        press := fill n (fun m => mem4 (n + m)) press
        mem := forN N (fun a m => Function.update a (offRes N + m) (a (4 * n + m)))
          (forN n (fun a m => Function.update a (offU N + m) (a (0 + m))) mem4) }
    else
      { r.2 with
        rho := rho, press := press, mem := mem4
        temp := fill n (fun _ => T) r.2.temp
        sie := fill n (fun m => uscale * ratio σ (mem4 (offU N + m)) (mem4 (offRhobar N n + m))) r.2.sie }) := by
      change tryIdealPTE σ E n N uscale Tnorm vt resid s = _
      unfold tryIdealPTE
      dsimp only
      rw [if_neg hb]
    have hrm : r.2.mem = c.1 := i5
    have m3 : ∀ i, (i < offU N ∨ offU N + n ≤ i) → mem3 i = c.1 i := by
      intro i hi
      rw [hm3, store_apply, if_neg (by omega), hrm]
    have m4 : ∀ i, (i < offRes N ∨ offRes N + N ≤ i) → mem4 i = mem3 i := by
      intro i hi
      rw [hm4, store_apply, if_neg (by omega)]
    by_cases hn : forN N (fun a m => a + mem4 (offRes N + m) * mem4 (offRes N + m)) 0 > c.2
    · left
      rw [if_pos hn] at hs'
      rw [hs']
      have low : ∀ i, i < offRes N → mem4 i = c.1 i := fun i hi => by
        rw [m4 i (Or.inl hi), m3 i (Or.inl (by omega))]
      refine ⟨?_, ?_, i2, i3, ?_, ?_⟩
      · funext i
        dsimp only
        rw [fill_apply]
        split_ifs with h
        · rw [low _ (by omega), b1 _ (Or.inl (by omega)), (a2 i h).2.2.2]
        · rw [hrho, fill_apply, if_neg h, i1]
      · funext i
        dsimp only
        rw [fill_apply]
        split_ifs with h
        · rw [low _ (by omega), b1 _ (Or.inl (by omega)), (a2 i h).2.2.1]
        · rw [i6 i (by omega)]
      · funext i
        dsimp only
        rw [fill_apply]
        split_ifs with h
        · rw [low _ (by omega), b1 _ (Or.inl (by omega)), (a2 i h).2.1]
        · rw [hpr, fill_apply, if_neg h, i4]
      · intro i hi
        dsimp only
        set mem5 := forN n (fun a m => Function.update a (offU N + m) (a (0 + m))) mem4 with hm5
        have h5 : (∀ i, (i < offU N ∨ offU N + n ≤ i) → mem5 i = mem4 i) ∧
            ∀ m, m < n → mem5 (offU N + m) = mem4 m := by
          refine forN_inv (P := fun k (a : Nat → K) => (∀ i, (i < offU N ∨ offU N + k ≤ i) → a i = mem4 i) ∧
            ∀ m, m < k → a (offU N + m) = mem4 m)
            ⟨fun _ _ => rfl, fun m h => absurd h (Nat.not_lt_zero _)⟩ ?_
          rintro k a hk ⟨h1, h2⟩
          refine ⟨fun i hi => by rw [Function.update_of_ne (by omega), h1 i (by omega)], fun m hm => ?_⟩
          by_cases hmk : m = k
          · subst hmk
            rw [Function.update_self, zero_add, h1 m (by omega)]
          · rw [Function.update_of_ne (by omega), h2 m (by omega)]
        have h6 : (∀ i, (i < offRes N ∨ offRes N + N ≤ i) →
              forN N (fun a m => Function.update a (offRes N + m) (a (4 * n + m))) mem5 i = mem5 i) ∧
            ∀ m, m < N → forN N (fun a m => Function.update a (offRes N + m) (a (4 * n + m))) mem5
              (offRes N + m) = mem5 (4 * n + m) := by
          refine forN_inv (P := fun k (a : Nat → K) => (∀ i, (i < offRes N ∨ offRes N + k ≤ i) → a i = mem5 i) ∧
            ∀ m, m < k → a (offRes N + m) = mem5 (4 * n + m))
            ⟨fun _ _ => rfl, fun m h => absurd h (Nat.not_lt_zero _)⟩ ?_
          rintro k a hk ⟨h1, h2⟩
          refine ⟨fun i hi => by rw [Function.update_of_ne (by omega), h1 i (by omega)], fun m hm => ?_⟩
          by_cases hmk : m = k
          · subst hmk
            rw [Function.update_self, h1 _ (by omega)]
          · rw [Function.update_of_ne (by omega), h2 m (by omega)]
        by_cases hres : i < offRes N + N
        · have := h6.2 (i - offRes N) (by omega)
          rw [show offRes N + (i - offRes N) = i by omega] at this
          rw [this, h5.1 _ (Or.inl (by omega)), low _ (by omega), b2 _ (by omega),
            a1 _ (by omega), show offRes N + (i - offRes N) = i by omega]
        · rw [h6.1 i (by omega)]
          by_cases hu : i < offU N + n
          · have := h5.2 (i - offU N) (by omega)
            rw [show offU N + (i - offU N) = i by omega] at this
            rw [this, low _ (by omega), b1 _ (Or.inl (by omega)), (a2 _ (by omega)).1,
              show offU N + (i - offU N) = i by omega]
          · rw [h5.1 i (by omega), m4 i (by omega), m3 i (by omega), hfar i hi]
    · right
      rw [if_neg hn] at hs'
      have hold : c.2 = ∑ m ∈ Finset.range N, s.mem (offRes N + m) * s.mem (offRes N + m) := by
        rw [b3]
        exact Finset.sum_congr rfl fun m _ => by rw [a1 _ (by omega)]
      rw [forN_add, zero_add, hold] at hn
      rw [hs']
      refine ⟨not_lt.mp hn, fun m hm => ?_, fun m hm => ?_⟩
      · dsimp only
        have hu : (fun m => mem4 (offU N + m)) = fun m => mem3 (offU N + m) := by
          funext k; rw [m4 _ (by omega)]
        rw [hu, hm4, store_apply, if_pos (by omega), Nat.add_sub_cancel_left, i3]
      · have hbar : mem4 (offRhobar N n + m) = s.mem (offRhobar N n + m) := by
          rw [m4 _ (by omega), m3 _ (by omega), hfar _ (by omega)]
        have hbar' : r.2.mem (offRhobar N n + m) = s.mem (offRhobar N n + m) := by
          rw [hrm, hfar _ (by omega)]
        have hrho' : rho m = ratio σ (s.mem (offRhobar N n + m)) (r.2.vfrac m) := by
          rw [hrho, fill_apply, if_pos hm, hbar']
        obtain ⟨k1, k2, k3⟩ := (idealVfrac_accept σ E n N Tnorm P T n 0 { s with mem := c.1 } (by omega)
          (by simpa using hb)).2 m (Nat.zero_le _) hm
        refine ⟨by dsimp only; rw [fill_apply, if_pos hm], hbar, hrho', ?_, ?_, ?_, k1, k2, ?_⟩
        · dsimp only
          rw [m4 _ (by omega), hm3, store_apply, if_pos (by omega), Nat.add_sub_cancel_left, hbar']
        · dsimp only
          rw [hpr, fill_apply, if_pos hm]
        · dsimp only
          rw [fill_apply, if_pos hm, hbar]
        · dsimp only
          rw [hrho', k1]
          dsimp only at k3
          rwa [hfar _ (by omega)] at k3

/-- For RhoU, the only solver that calls it, the working area of `TryIdealPTE` fits before the residual
for every number of materials. -/
theorem C17_ideal_rhoU_room (n : Nat) : 4 * n + 2 * n ≤ offRes (2 * n) := by
  unfold offRes
  rcases Nat.eq_zero_or_pos n with rfl | h
  · simp
  · nlinarith

end Verif.PTE
