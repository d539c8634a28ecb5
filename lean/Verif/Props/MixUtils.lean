import Verif.Lemmas.MixUtils

/-! # C12, C14, C15, C16, C21: closure helpers -/

namespace Verif.PTE

open Robust

set_option linter.unusedSectionVars false

variable {K : Type*} [Field K] [LinearOrder K] [IsStrictOrderedRing K]

/-- C12: in exact arithmetic the compensated sum is the sum of `op(data[i+offset])` over all `i < n`
other than the skipped index; a negative `iskip` skips nothing. -/
theorem C12_sum_neumaier (data : Nat → K) (n offset : Nat) (iskip : Int) (op : K → K) :
    sumNeumaier data n offset iskip op =
      ∑ i ∈ Finset.range n, if (i : Int) = iskip then 0 else op (data (i + offset)) := by
  rw [sumNeumaier_eq, Finset.sum_filter]
  refine Finset.sum_congr rfl fun i _ => ?_
  by_cases h : (i : Int) = iskip <;> simp [h]

example : sumNeumaier (fun i => (i : ℚ) + 1) 4 1 2 (fun x => x * x) = 2 * 2 + 3 * 3 + 5 * 5 := by
  rw [C12_sum_neumaier]; norm_num [Finset.sum_range_succ]

/-- C14: after `EnforceMassVolumesSum` the volume fractions sum to `tot_vol`; only one entry, one with
the largest volume fraction, is altered; and each material keeps its mass `rho*vfrac`, that entry up
to the factor `|v|/(|v|+SMALL)` of `robust::ratio`. -/
theorem C14_enforceMassVolumesSum {σ : K} (hσ : 0 < σ) {n : Nat} (hn : 0 < n) (totVol : K)
    (rho v : Nat → K) (hv : ∀ m, m < n → 0 < v m) (rho' v' : Nat → K)
    (hr : enforceMassVolumesSum σ n totVol rho v = (rho', v')) :
    ∑ m ∈ Finset.range n, v' m = totVol ∧
    ∃ i, i < n ∧ (∀ m, m < n → v m ≤ v i) ∧
      (∀ m, m ≠ i → v' m = v m ∧ rho' m = rho m) ∧
      rho' i * v' i = rho i * v i * (|v' i| / (|v' i| + σ)) := by
  have hs := argmaxV_spec hn (fun m hm => by linarith [hv m hm] : ∀ m, m < n → -1 < v m)
  unfold enforceMassVolumesSum at hr
  simp only [Prod.mk.injEq] at hr
  obtain ⟨rfl, rfl⟩ := hr
  set i := (argmaxV n v).1
  refine ⟨?_, i, hs.1, hs.2, ?_, ?_⟩
  · rw [sum_update hs.1 v _ (fun m _ h => Function.update_of_ne h _ _), Function.update_self,
      subOthers_eq]; ring
  · intro m h; exact ⟨Function.update_of_ne h _ _, Function.update_of_ne h _ _⟩
  · simp only [Function.update_self]
    set w := subOthers n i totVol v
    by_cases hw : w = 0
    · simp [hw]
    · rw [ratio_formula _ hw hσ]; field_simp

/-- C14: the relative mass error of the adjusted material is exactly `SMALL/(|v|+SMALL)`, hence zero
mass error is approached as `SMALL → 0`, and the total mass changes by at most `SMALL` times that
material's old mass over its new volume fraction. -/
theorem C14_mass_error {σ : K} (hσ : 0 < σ) {n : Nat} (hn : 0 < n) (totVol : K)
    (rho v : Nat → K) (hv : ∀ m, m < n → 0 < v m) (rho' v' : Nat → K)
    (hr : enforceMassVolumesSum σ n totVol rho v = (rho', v')) :
    ∃ i, i < n ∧ ∑ m ∈ Finset.range n, rho' m * v' m - ∑ m ∈ Finset.range n, rho m * v m
      = -(rho i * v i * (σ / (|v' i| + σ))) := by
  obtain ⟨_, i, hi, _, ho, hm⟩ := C14_enforceMassVolumesSum hσ hn totVol rho v hv rho' v' hr
  refine ⟨i, hi, ?_⟩
  rw [sum_update hi (fun m => rho m * v m) (fun m => rho' m * v' m)
      (fun m _ h => by rw [(ho m h).1, (ho m h).2]),
    sum_update hi (fun m => rho m * v m) (fun m => rho m * v m) (fun _ _ _ => rfl), hm]
  have : 0 < |v' i| + σ := by positivity
  field_simp; ring

example : enforceMassVolumesSum (1/10 : ℚ) 2 1 (fun _ => 3) (fun m => if m = 0 then 1/4 else 1/2)
    = (Function.update (fun _ => 3) 1 (3 * ratio (1/10) (1/2) (3/4)),
       Function.update (fun m => if m = 0 then 1/4 else 1/2) 1 (3/4)) := by
  norm_num [enforceMassVolumesSum, argmaxV, subOthers, forN]

/-- C15: after `EnforceEnergiesSum` only the material with the largest absolute energy contribution is
altered, and the energies sum to `tot_rho*tot_sie` up to that entry's `robust::ratio` factor. -/
theorem C15_enforceEnergiesSum {σ : K} (hσ : 0 < σ) {n : Nat} (totRho totSie : K)
    (rho v sie : Nat → K) (hne : ∃ m, m < n ∧ rho m * v m * sie m ≠ 0) :
    let sie' := enforceEnergiesSum σ n totRho totSie rho v sie
    ∃ i, i < n ∧ (∀ m, m < n → |rho m * v m * sie m| ≤ |rho i * v i * sie i|) ∧
      (∀ m, m ≠ i → sie' m = sie m) ∧
      ∑ m ∈ Finset.range n, rho m * v m * sie' m - totRho * totSie
        = -((totRho * totSie - ∑ m ∈ (Finset.range n).filter (· ≠ i), rho m * v m * sie m)
            * (σ / (|rho i * v i| + σ))) := by
  intro sie'
  have hs := argmaxAbs_spec hne
  set i := (argmaxAbs n (fun m => rho m * v m * sie m)).1 with hi
  have h1 : ∀ m, m ≠ i → sie' m = sie m := fun m h => Function.update_of_ne h _ _
  have h2 : sie' i = ratio σ (subOthers n i (totSie * totRho) fun m => rho m * v m * sie m)
      (rho i * v i) := Function.update_self ..
  have hri : rho i * v i ≠ 0 := by
    intro h0
    obtain ⟨m, hm, hmne⟩ := hne
    have := hs.2 m hm
    rw [h0, zero_mul, abs_zero] at this
    exact hmne (abs_nonpos_iff.mp this)
  refine ⟨i, hs.1, hs.2, h1, ?_⟩
  rw [sum_update hs.1 (fun m => rho m * v m * sie m) (fun m => rho m * v m * sie' m)
      (fun m _ h => by rw [h1 m h]), h2, subOthers_eq, ratio_formula _ hri hσ]
  generalize hr : rho i * v i = r at hri ⊢
  have : 0 < |r| + σ := by positivity
  field_simp; ring

example : ∃ m, m < 2 ∧ (fun _ => (3 : ℚ)) m * (fun _ => (1 / 2 : ℚ)) m * (fun m => (m : ℚ)) m ≠ 0 :=
  ⟨1, by norm_num, by norm_num⟩

theorem assign_end (st : Nat) (l : List Nat) : (assign st l).2 = st + l.sum := by
  induction l generalizing st with
  | nil => simp [assign]
  | cons a l ih => simp [assign, ih, add_assoc]

theorem assign_ge (st : Nat) (l : List Nat) : ∀ b ∈ (assign st l).1, st ≤ b.1 ∧ b.1 + b.2 ≤ st + l.sum := by
  induction l generalizing st with
  | nil => simp [assign]
  | cons a l ih =>
    intro b hb
    simp only [assign, List.mem_cons] at hb
    rcases hb with rfl | hb
    · simp
    · have := ih _ b hb; simp only [List.sum_cons]; omega

theorem assign_disjoint (st : Nat) (l : List Nat) :
    (assign st l).1.Pairwise fun b c => b.1 + b.2 ≤ c.1 := by
  induction l generalizing st with
  | nil => simp [assign]
  | cons a l ih =>
    simp only [assign, List.pairwise_cons]
    exact ⟨fun c hc => (assign_ge _ l c hc).1, ih _⟩

theorem assign_sizes (st : Nat) (l : List Nat) : (assign st l).1.map (·.2) = l := by
  induction l generalizing st with
  | nil => simp [assign]
  | cons a l ih => simp [assign, ih]

/-- C16: for every solver and every number of materials, the blocks handed out from a scratch pointer
at `st` come one after the other without overlap, have the requested sizes, start at `st`, and end
exactly `RequiredScratch(nmat)` reals after it. -/
theorem C16_scratch_layout (s : Solver) (n st : Nat) :
    (assign st (blocks s n)).1.Pairwise (fun b c => b.1 + b.2 ≤ c.1) ∧
    (assign st (blocks s n)).1.map (·.2) = blocks s n ∧
    (∀ b ∈ (assign st (blocks s n)).1, st ≤ b.1 ∧ b.1 + b.2 ≤ st + requiredScratch s n) ∧
    (assign st (blocks s n)).2 = st + requiredScratch s n ∧
    (∀ i, st ≤ i → i < st + requiredScratch s n →
      ∃ b ∈ (assign st (blocks s n)).1, b.1 ≤ i ∧ i < b.1 + b.2) := by
  have hsum : (blocks s n).sum = requiredScratch s n := by
    cases s <;> simp [blocks, baseBlocks, neqOf, requiredScratch] <;> ring
  refine ⟨assign_disjoint _ _, assign_sizes _ _, ?_, ?_, ?_⟩
  · intro b hb; rw [← hsum]; exact assign_ge _ _ b hb
  · rw [assign_end, hsum]
  · rw [← hsum]
    generalize blocks s n = l
    clear hsum
    induction l generalizing st with
    | nil => intro i h1 h2; simp at h2; omega
    | cons a l ih =>
      intro i h1 h2
      by_cases h : i < st + a
      · exact ⟨(st, a), by simp [assign], h1, h⟩
      · simp only [List.sum_cons] at h2
        obtain ⟨b, hb, hb2⟩ := ih (st + a) i (by omega) (by omega)
        exact ⟨b, by simp [assign, hb], hb2⟩

/-- C16: lambda slots of different materials in a cache never coincide, and all lie in
`[0, MAX_NUM_LAMBDAS*nmat)`, the size `CacheAccessor::Size(nmat)` reports. -/
theorem C16_cache_slots {L n m m' i i' : Nat} (hm : m < n) (hi : i < L) (hi' : i' < L) :
    cacheCells L m i < L * n ∧ (cacheCells L m i = cacheCells L m' i' → m = m' ∧ i = i') := by
  unfold cacheCells
  refine ⟨?_, fun h => ?_⟩
  · calc m * L + i < m * L + L := by omega
      _ = (m + 1) * L := by ring
      _ ≤ n * L := Nat.mul_le_mul_right _ hm
      _ = L * n := mul_comm _ _
  · have h1 : (m * L + i) % L = i := by rw [mul_comm, Nat.mul_add_mod, Nat.mod_eq_of_lt hi]
    have h2 : (m' * L + i') % L = i' := by rw [mul_comm, Nat.mul_add_mod, Nat.mod_eq_of_lt hi']
    have hii : i = i' := by rw [← h1, ← h2, h]
    subst hii
    exact ⟨Nat.eq_of_mul_eq_mul_right (by omega) (by omega : m * L = m' * L), rfl⟩

example : requiredScratch .rhoT 3 = 39 ∧ (assign 0 (blocks .rhoT 3)).1.length = 10 := by
  simp [requiredScratch, blocks, baseBlocks, neqOf, assign]

/-- C21: with one unknown, success means `a*x = b` up to the `robust::ratio` factor of the row scaled
to unit magnitude, i.e. `a*x*(1+SMALL) = b`; failure happens exactly for `a = 0`. -/
theorem C21_solve_one {σ : K} (hσ : 0 < σ) (qr : (Nat → K) → (Nat → K) → (Nat → K)) (a b : Nat → K) :
    (solveAxb σ qr 1 a b = none ↔ a 0 = 0) ∧
    ∀ x, solveAxb σ qr 1 a b = some x → a 0 * x 0 * (1 + σ) = b 0 := by
  have hmx : rowMax 1 a 0 = |a 0| := by simp [rowMax, forN]
  by_cases ha : a 0 = 0
  · simp [solveAxb, scaleRows, scaleRow, forN, hmx, ha]
  · have habs : |a 0| ≠ 0 := by simpa using ha
    refine ⟨by simp [solveAxb, scaleRows, scaleRow, forN, hmx, ha], fun x hx => ?_⟩
    simp only [solveAxb, scaleRows, scaleRow, forN, hmx, habs, if_false, if_true, zero_mul, zero_add,
      Function.update_self, Option.some.injEq] at hx
    subst hx
    have hq : a 0 / |a 0| ≠ 0 := div_ne_zero ha habs
    rw [Function.update_self, ratio_formula _ hq hσ, abs_div, abs_abs, div_self habs]
    have : (1 : K) + σ ≠ 0 := by positivity
    field_simp

/-- C21: with two unknowns, failure happens exactly when a row is zero; on success with a non-singular
matrix, `x` solves the caller's system with the right-hand side multiplied by `d/(d+SMALL)`, where `d`
is the magnitude of the determinant after each row is scaled to unit maximum. -/
theorem C21_solve_two {σ : K} (hσ : 0 < σ) (qr : (Nat → K) → (Nat → K) → (Nat → K)) (a b : Nat → K) :
    (solveAxb σ qr 2 a b = none ↔ (a 0 = 0 ∧ a 1 = 0) ∨ (a 2 = 0 ∧ a 3 = 0)) ∧
    ∀ x, solveAxb σ qr 2 a b = some x → a 0 * a 3 - a 1 * a 2 ≠ 0 →
      let d := |a 0 * a 3 - a 1 * a 2| / (max |a 0| |a 1| * max |a 2| |a 3|)
      a 0 * x 0 + a 1 * x 1 = b 0 * (d / (d + σ)) ∧ a 2 * x 0 + a 3 * x 1 = b 1 * (d / (d + σ)) := by
  have hz : ∀ x y : K, max |x| |y| = 0 ↔ x = 0 ∧ y = 0 := by
    intro x y
    constructor
    · intro h
      have h1 := le_max_left |x| |y|
      have h2 := le_max_right |x| |y|
      rw [h] at h1 h2
      exact ⟨abs_nonpos_iff.mp h1, abs_nonpos_iff.mp h2⟩
    · rintro ⟨rfl, rfl⟩; simp
  have hr0 : rowMax 2 a 0 = max |a 0| |a 1| := by
    simp only [rowMax, forN, zero_mul, zero_add, max_eq_left (abs_nonneg (a 0))]
    exact max_comm _ _
  by_cases h0 : max |a 0| |a 1| = 0
  · have := (hz _ _).1 h0
    simp [solveAxb, scaleRows, scaleRow, forN, hr0, h0, this.1, this.2]
  set m0 := max |a 0| |a 1| with hm0
  set a' : Nat → K := Function.update (Function.update a 0 (a 0 / m0)) 1 (a 1 / m0) with ha'
  have e0 : a' 0 = a 0 / m0 := by simp [ha']
  have e1 : a' 1 = a 1 / m0 := by simp [ha']
  have e2 : a' 2 = a 2 := by simp [ha']
  have e3 : a' 3 = a 3 := by simp [ha']
  have hr1 : rowMax 2 a' 1 = max |a 2| |a 3| := by
    simp only [rowMax, forN, one_mul, add_zero, max_eq_left (abs_nonneg (a' 2))]
    rw [show 2 + 1 = 3 from rfl, e2, e3]
    exact max_comm _ _
  have hs : scaleRows 2 a b = if max |a 2| |a 3| = 0 then none else
      some (Function.update (Function.update a' 2 (a 2 / max |a 2| |a 3|)) 3 (a 3 / max |a 2| |a 3|),
        Function.update (Function.update b 0 (b 0 / m0)) 1 (b 1 / max |a 2| |a 3|)) := by
    have st0 : scaleRow 2 (some (a, b)) 0 = some (a', Function.update b 0 (b 0 / m0)) := by
      simp [scaleRow, hr0, h0, forN, ha']
    have st1 : scaleRows 2 a b = scaleRow 2 (scaleRow 2 (some (a, b)) 0) 1 := rfl
    rw [st1, st0]
    simp [scaleRow, hr1, forN, e2, e3]
  by_cases h1 : max |a 2| |a 3| = 0
  · have := (hz _ _).1 h1
    simp [solveAxb, hs, h1, this.1, this.2]
  set m1 := max |a 2| |a 3| with hm1
  refine ⟨?_, ?_⟩
  · simp only [solveAxb, hs, h1, if_false]
    simp [← hz, ← hm0, ← hm1, h0, h1]
  · intro x hx hdet d
    have hm0p : 0 < m0 := lt_of_le_of_ne (le_trans (abs_nonneg _) (le_max_left _ _)) (Ne.symm h0)
    have hm1p : 0 < m1 := lt_of_le_of_ne (le_trans (abs_nonneg _) (le_max_left _ _)) (Ne.symm h1)
    simp only [solveAxb, hs, h1, if_false, if_true, Option.some.injEq, OfNat.ofNat_ne_one] at hx
    simp [e0, e1] at hx
    have hd0 : a 0 / m0 * (a 3 / m1) - a 1 / m0 * (a 2 / m1) = (a 0 * a 3 - a 1 * a 2) / (m0 * m1) := by
      field_simp
    have hd1 : a 0 / m0 * (a 3 / m1) - a 1 / m0 * (a 2 / m1) ≠ 0 := by
      rw [hd0]; exact div_ne_zero hdet (by positivity)
    have hd : |a 0 / m0 * (a 3 / m1) - a 1 / m0 * (a 2 / m1)| = d := by
      rw [hd0, abs_div, abs_of_pos (mul_pos hm0p hm1p)]
    have hdpos : 0 < d := by rw [← hd]; exact abs_pos.mpr hd1
    rw [ratio_formula _ hd1 hσ, ratio_formula _ hd1 hσ, hd, hd0] at hx
    set D := a 0 * a 3 - a 1 * a 2 with hD
    have hx0 : x 0 = (a 3 * b 0 - a 1 * b 1) / D * (d / (d + σ)) := by
      have : x 0 = (a 3 / m1 * (b 0 / m0) - a 1 / m0 * (b 1 / m1)) / (D / (m0 * m1)) * (d / (d + σ)) := by
        rw [← hx]; simp
      rw [this]; congr 1; field_simp
    have hx1 : x 1 = (a 0 * b 1 - a 2 * b 0) / D * (d / (d + σ)) := by
      have : x 1 = (a 0 / m0 * (b 1 / m1) - a 2 / m1 * (b 0 / m0)) / (D / (m0 * m1)) * (d / (d + σ)) := by
        rw [← hx]; simp
      rw [this]; congr 1; field_simp
    rw [hx0, hx1]
    generalize d / (d + σ) = f
    constructor
    · field_simp; rw [hD]; ring
    · field_simp; rw [hD]; ring

example : solveAxb (1 : ℚ) (fun _ b => b) 2 (fun i => if i = 1 ∨ i = 2 then 0 else 1) (fun _ => 3)
    = some (Function.update (Function.update
        (Function.update (Function.update (fun _ => 3) 0 3) 1 3) 0 (3 / 2)) 1 (3 / 2)) := by
  norm_num [solveAxb, scaleRows, scaleRow, rowMax, forN, ratio, sgn, Function.update]

end Verif.PTE
