import Verif.Lemmas.PTESolvers

/-! # C13, C22: trial steps and step limiters of the PTE solvers -/

namespace Verif.PTE

open Robust

set_option linter.unusedSectionVars false

variable {K : Type*} [Field K] [LinearOrder K] [IsStrictOrderedRing K]

/-! ## C13 -/

/-- C13 (what is missing: the total is always 1, not the `vfrac_total` given to the constructor, see
`C13_violated`): after every RhoT trial step, whatever the step, the volume fractions sum to exactly 1. -/
theorem C13_rhoT_sums_to_one_partial (σ : K) (E : MatEOS K) {n ms : Nat} (hms : ms < n)
    (uscale Tnorm : K) (rhobar dx : Nat → K) (Ttemp : K) (vtemp : Nat → K) (scale : K) (s : Mats K) :
    ∑ m ∈ Finset.range n,
      (rhoTTestUpdate σ E n ms uscale Tnorm rhobar dx Ttemp vtemp scale s).2.vfrac m = 1 := by
  have h := rhoTVfrac_spec hms scale dx vtemp s.vfrac
  have e : (rhoTTestUpdate σ E n ms uscale Tnorm rhobar dx Ttemp vtemp scale s).2.vfrac
      = rhoTVfrac n ms scale dx vtemp s.vfrac := rfl
  rw [e, sum_update hms (fun m => vtemp m + scale * dx (pos ms m)) _ h.1, h.2]
  ring

/-- C13 is violated for a mixture that occupies only part of the cell: with `vfrac_total = 1/2` and
fractions that do sum to 1/2, the trial step with `dx = 0` already changes the sum to 1. -/
theorem C13_violated (σ : K) (E : MatEOS K) :
    ∃ (vt : K) (n ms : Nat) (s : Mats K), ms < n ∧ 0 < vt ∧
      ∑ m ∈ Finset.range n, s.vfrac m = vt ∧
      ∑ m ∈ Finset.range n,
        (rhoTTestUpdate σ E n ms 1 1 s.rho (fun _ => 0) 1 s.vfrac 1 s).2.vfrac m ≠ vt := by
  refine ⟨1 / 2, 2, 0, ⟨fun _ => 1, fun _ => 1 / 4, fun _ => 1, fun _ => 1, fun _ => 1, fun _ => 1⟩,
    by norm_num, by norm_num, by norm_num [Finset.sum_range_succ], ?_⟩
  rw [C13_rhoT_sums_to_one_partial σ E (by norm_num : 0 < 2)]
  norm_num

/-- C13: a RhoT trial step keeps each material's mass: `rho*vfrac = rhobar` up to the `robust::ratio`
factor. -/
theorem C13_rhoT_masses {σ : K} (hσ : 0 < σ) (E : MatEOS K) {n ms : Nat}
    (uscale Tnorm : K) (rhobar dx : Nat → K) (Ttemp : K) (vtemp : Nat → K) (scale : K) (s : Mats K)
    {m : Nat} (hm : m < n) :
    let s' := (rhoTTestUpdate σ E n ms uscale Tnorm rhobar dx Ttemp vtemp scale s).2
    s'.rho m * s'.vfrac m = rhobar m * (|s'.vfrac m| / (|s'.vfrac m| + σ)) := by
  intro s'
  have e : s'.rho m = ratio σ (rhobar m) (s'.vfrac m) := by
    have : s'.rho = fill n (fun m => ratio σ (rhobar m) (s'.vfrac m)) s.rho := rfl
    rw [this, fill_apply, if_pos hm]
  rw [e]
  by_cases h0 : s'.vfrac m = 0
  · simp [h0]
  · rw [ratio_formula _ h0 hσ]; field_simp

/-- C13: for FixedT, FixedP and RhoU, whose step `dx` satisfies the volume row of the Newton system
(`∑ dx = vfrac_total - ∑ vfrac`), a trial step with line-search factor `t` leaves exactly `1 - t` of
the volume defect, so a full step gives volume fractions that sum to `vfrac_total`. -/
theorem C13_fixed_and_rhoU {σ : K} (E : MatEOS K) {n : Nat} (uscale T : K) (rhobar dx : Nat → K)
    (vt t : K) (utemp : Nat → K) (s : Mats K)
    (hrow : ∑ m ∈ Finset.range n, dx m = vt - ∑ m ∈ Finset.range n, s.vfrac m) :
    let d := ∑ m ∈ Finset.range n, s.vfrac m - vt
    ∑ m ∈ Finset.range n, (fixedTTestUpdate σ E n uscale T rhobar dx s.vfrac t s).vfrac m - vt = (1 - t) * d ∧
    ∑ m ∈ Finset.range n, (fixedPTestUpdate σ E n uscale T rhobar dx T s.vfrac t s).2.vfrac m - vt = (1 - t) * d ∧
    ∑ m ∈ Finset.range n, (rhoUTestUpdate σ E n uscale T rhobar dx s.vfrac utemp t s).vfrac m - vt = (1 - t) * d := by
  intro d
  have key : ∑ m ∈ Finset.range n, fill n (fun m => s.vfrac m + t * dx m) s.vfrac m - vt = (1 - t) * d := by
    have : ∑ m ∈ Finset.range n, fill n (fun m => s.vfrac m + t * dx m) s.vfrac m
        = ∑ m ∈ Finset.range n, (s.vfrac m + t * dx m) :=
      Finset.sum_congr rfl fun m hm => by rw [fill_apply, if_pos (Finset.mem_range.mp hm)]
    rw [this, Finset.sum_add_distrib, ← Finset.mul_sum, hrow]
    simp only [d]; ring
  exact ⟨key, key, key⟩

/-- C13: RhoU also treats the total energy this way, as its `ExactlySum` claims. -/
theorem C13_rhoU_energy {σ : K} (E : MatEOS K) {n : Nat} (uscale T : K) (rhobar dx vtemp : Nat → K)
    (utot t : K) (s : Mats K)
    (hrow : ∑ m ∈ Finset.range n, dx (n + m) = utot - ∑ m ∈ Finset.range n, s.u m) :
    ∑ m ∈ Finset.range n, (rhoUTestUpdate σ E n uscale T rhobar dx vtemp s.u t s).u m - utot
      = (1 - t) * (∑ m ∈ Finset.range n, s.u m - utot) := by
  have : ∑ m ∈ Finset.range n, (rhoUTestUpdate σ E n uscale T rhobar dx vtemp s.u t s).u m
      = ∑ m ∈ Finset.range n, (s.u m + t * dx (n + m)) :=
    Finset.sum_congr rfl fun m hm => by
      have : (rhoUTestUpdate σ E n uscale T rhobar dx vtemp s.u t s).u
        = fill n (fun m => s.u m + t * dx (n + m)) s.u := rfl
      rw [this, fill_apply, if_pos (Finset.mem_range.mp hm)]
  rw [this, Finset.sum_add_distrib, ← Finset.mul_sum, hrow]; ring

example : ∃ dx : Nat → ℚ, ∑ m ∈ Finset.range 2, dx m = 1 - ∑ m ∈ Finset.range 2, (fun _ => (1/4 : ℚ)) m :=
  ⟨fun _ => 1 / 4, by norm_num [Finset.sum_range_succ]⟩

/-! ## C22 -/

/-- From the two bounds on a scaled step to the bounds on any shorter step of a line search. -/
theorem convex_step {saf v a s d t : K} (hsaf : saf < 1) (hv : 0 < v)
    (ht0 : 0 ≤ t) (ht1 : t ≤ 1) (hl : -(saf * v) ≤ s * d) :
    0 < v + t * (s * d) ∧ (v ≤ a → s * d ≤ 1 / 2 * (a - v) → v + t * (s * d) ≤ a) := by
  refine ⟨?_, fun h1 h2 => ?_⟩
  · have h3 : -(saf * v) * t ≤ t * (s * d) := by nlinarith
    have h4 : saf * v * t < v := by
      rcases le_or_gt saf 0 with h | h
      · nlinarith [mul_nonneg (neg_nonneg.mpr h) (mul_nonneg hv.le ht0)]
      · calc saf * v * t ≤ saf * v * 1 := mul_le_mul_of_nonneg_left ht1 (by positivity)
          _ < v := by nlinarith
    linarith
  · have h3 : t * (s * d) ≤ t * (1 / 2 * (a - v)) := mul_le_mul_of_nonneg_left h2 ht0
    have h4 : t * (1 / 2 * (a - v)) ≤ 1 * (a - v) := by
      have h5 : 0 ≤ a - v := by linarith
      nlinarith
    linarith

/-- A volume fraction below `ratio(rhobar, rho_min)` means a density above `rho_min`. -/
theorem density_ok {σ rb v rmin : K} (hσ : 0 < σ) (hv : 0 < v) (hr : 0 ≤ rmin)
    (h : v ≤ ratio σ rb rmin) : rmin ≤ rb / v := by
  rw [ratio_pos_den _ hr] at h
  rw [le_div_iff₀ hv]
  rw [le_div_iff₀ (by linarith)] at h
  nlinarith

/-- C22, FixedT: whatever `dx`, after `ScaleDx` every trial step `t ∈ [0,1]` of the line search has
strictly positive volume fractions, and each material that was not below its minimum density stays at or
above it. The scale lies in `[0,1]`. -/
theorem C22_fixedT {σ saf : K} (hσ : 0 < σ) (hsaf0 : 0 ≤ saf) (hsaf1 : saf < 1) (E : MatEOS K) {n : Nat}
    (uscale T : K) (rhobar dx : Nat → K) (s : Mats K) (hv : ∀ m, m < n → 0 < s.vfrac m)
    (hrho : ∀ m, m < n → 0 ≤ E.rhoPmin m T) {t : K} (ht0 : 0 ≤ t) (ht1 : t ≤ 1) :
    let sc := fixedTScaleDx σ saf E n T rhobar s.vfrac dx
    let v' := (fixedTTestUpdate σ E n uscale T rhobar (fun i => sc * dx i) s.vfrac t s).vfrac
    0 ≤ sc ∧ sc ≤ 1 ∧ ∀ m, m < n → 0 < v' m ∧
      (s.vfrac m ≤ ratio σ (rhobar m) (E.rhoPmin m T) → E.rhoPmin m T ≤ rhobar m / v' m) := by
  intro sc v'
  obtain ⟨a0, a1, a2⟩ := fixedScale1_spec hσ hsaf0 (dx := dx) (fun m hm => (hv m hm).le)
  obtain ⟨b0, b1, b2⟩ := fixedScale2_spec hσ (n := n) (vfrac := s.vfrac) (dx := dx)
    (amax := fun m => ratio σ (rhobar m) (E.rhoPmin m T)) a0
  refine ⟨b0, b1.trans a1, fun m hm => ?_⟩
  have hl : -(saf * s.vfrac m) ≤ sc * dx m :=
    lower_mono (mul_nonneg hsaf0 (hv m hm).le) b0 b1 (a2 m hm)
  obtain ⟨c1, c2⟩ := convex_step (a := ratio σ (rhobar m) (E.rhoPmin m T)) hsaf1 (hv m hm) ht0 ht1 hl
  have hv' : v' m = s.vfrac m + t * (sc * dx m) := by
    have : v' = fill n (fun m => s.vfrac m + t * (sc * dx m)) s.vfrac := rfl
    rw [this, fill_apply, if_pos hm]
  rw [hv']
  exact ⟨c1, fun h => density_ok hσ c1 (hrho m hm) (c2 h (b2 m hm h))⟩

/-- C22, FixedP: as FixedT, with the minimum density taken at the old and the proposed temperature (`Tnew`, the
temperature reached by at least the step really taken), and the temperature stays positive. -/
theorem C22_fixedP {σ saf : K} (hσ : 0 < σ) (hsaf0 : 0 ≤ saf) (hsaf1 : saf < 1) (E : MatEOS K) {n : Nat}
    (uscale Tnorm Tequil : K) (hT : 0 < Tequil) (rhobar dx : Nat → K) (s : Mats K)
    (hv : ∀ m, m < n → 0 < s.vfrac m) (hrho : ∀ m T, 0 ≤ E.rhoPmin m T)
    {t : K} (ht0 : 0 ≤ t) (ht1 : t ≤ 1) :
    let sc := fixedPScaleDx σ saf E n Tnorm Tequil rhobar s.vfrac dx
    let r := fixedPTestUpdate σ E n uscale Tnorm rhobar (fun i => sc * dx i) Tequil s.vfrac t s
    0 ≤ sc ∧ sc ≤ 1 ∧ 0 < r.1 ∧ ∃ Tnew, (∃ s', sc ≤ s' ∧ s' ≤ 1 ∧ Tnew = Tequil + s' * dx n) ∧ ∀ m, m < n → 0 < r.2.vfrac m ∧
      (s.vfrac m ≤ ratio σ (rhobar m) (max (E.rhoPmin m (Tnorm * Tequil)) (E.rhoPmin m (Tnorm * Tnew))) →
        E.rhoPmin m (Tnorm * Tequil) ≤ rhobar m / r.2.vfrac m ∧
        E.rhoPmin m (Tnorm * Tnew) ≤ rhobar m / r.2.vfrac m) := by
  intro sc r
  set s1 := fixedScale1 σ saf n s.vfrac dx with hs1
  set Tnew := Tequil + s1 * dx n with hTnew
  set amax : Nat → K := fun m =>
    ratio σ (rhobar m) (max (E.rhoPmin m (Tnorm * Tequil)) (E.rhoPmin m (Tnorm * Tnew))) with hamax
  set s2 := fixedScale2 σ n s.vfrac dx amax s1 with hs2
  have hsc : sc = if s2 * dx n < -(95 / 100) * Tequil then ratio σ (-(95 / 100) * Tequil) (dx n) else s2 := by
    simp only [sc, fixedPScaleDx, hs2, hs1, fixedScale2, fixedScale1, hamax, hTnew, ratio_smul]
  obtain ⟨a0, a1, a2⟩ := fixedScale1_spec hσ hsaf0 (dx := dx) (fun m hm => (hv m hm).le)
  obtain ⟨b0, b1, b2⟩ := fixedScale2_spec hσ (n := n) (vfrac := s.vfrac) (dx := dx)
    (amax := amax) a0
  have hsc2 : 0 ≤ sc ∧ sc ≤ s2 ∧ -(95 / 100 * Tequil) ≤ sc * dx n := by
    rw [hsc]
    split_ifs with hc
    · obtain ⟨e0, e1, e2⟩ := lower_limit hσ (by norm_num : (0 : K) ≤ 95 / 100) hT.le hc b0
      exact ⟨e0, e1, by linarith⟩
    · exact ⟨b0, le_rfl, by have := not_lt.mp hc; linarith⟩
  obtain ⟨d0, d1, d2⟩ := hsc2
  refine ⟨d0, d1.trans (b1.trans a1), ?_, Tnew, ⟨s1, d1.trans b1, a1, rfl⟩, fun m hm => ?_⟩
  · exact (convex_step (a := 0) (by norm_num : (95 / 100 : K) < 1) hT ht0 ht1 d2).1
  · have hl : -(saf * s.vfrac m) ≤ sc * dx m :=
      lower_mono (mul_nonneg hsaf0 (hv m hm).le) d0 (d1.trans b1) (a2 m hm)
    obtain ⟨c1, c2⟩ := convex_step (a := amax m) hsaf1 (hv m hm) ht0 ht1 hl
    have hv' : r.2.vfrac m = s.vfrac m + t * (sc * dx m) := by
      have : r.2.vfrac = fill n (fun m => s.vfrac m + t * (sc * dx m)) s.vfrac := rfl
      rw [this, fill_apply, if_pos hm]
    rw [hv']
    refine ⟨c1, fun h => ?_⟩
    have hu : sc * dx m ≤ 1 / 2 * (amax m - s.vfrac m) := by
      refine upper_mono ?_ d0 d1 (b2 m hm h)
      have : 0 ≤ amax m - s.vfrac m := by have : s.vfrac m ≤ amax m := h; linarith
      positivity
    have := density_ok hσ c1 (le_max_of_le_left (hrho m _)) (c2 h hu)
    exact ⟨(le_max_left _ _).trans this, (le_max_right _ _).trans this⟩

/-- C22, FixedP: consequently, for materials whose minimum density varies monotonically with temperature, a material
that satisfied its minimum density at the old temperature and at the temperature of the unscaled part of the step still
does at the very temperature of the trial state. -/
theorem C22_fixedP_minimum_density {σ saf : K} (hσ : 0 < σ) (hsaf0 : 0 ≤ saf) (hsaf1 : saf < 1) (E : MatEOS K) {n : Nat}
    (uscale Tnorm Tequil : K) (hN : 0 ≤ Tnorm) (hT : 0 < Tequil) (rhobar dx : Nat → K) (s : Mats K)
    (hv : ∀ m, m < n → 0 < s.vfrac m) (hrho : ∀ m T, 0 ≤ E.rhoPmin m T)
    (hmono : ∀ m, Monotone (E.rhoPmin m) ∨ Antitone (E.rhoPmin m))
    {t : K} (ht0 : 0 ≤ t) (ht1 : t ≤ 1)
    (hmax : ∀ m s', m < n → 0 ≤ s' → s' ≤ 1 → s.vfrac m ≤ ratio σ (rhobar m)
      (max (E.rhoPmin m (Tnorm * Tequil)) (E.rhoPmin m (Tnorm * (Tequil + s' * dx n))))) :
    let sc := fixedPScaleDx σ saf E n Tnorm Tequil rhobar s.vfrac dx
    let r := fixedPTestUpdate σ E n uscale Tnorm rhobar (fun i => sc * dx i) Tequil s.vfrac t s
    ∀ m, m < n → E.rhoPmin m (Tnorm * r.1) ≤ rhobar m / r.2.vfrac m := by
  intro sc r m hm
  obtain ⟨h0, h1, -, Tnew, ⟨s', e1, e2, e3⟩, h2⟩ :=
    C22_fixedP hσ hsaf0 hsaf1 E (n := n) uscale Tnorm Tequil hT rhobar dx s hv hrho ht0 ht1
  obtain ⟨p1, p2⟩ := (h2 m hm).2 (by rw [e3]; exact hmax m s' hm (h0.trans e1) e2)
  have hr : r.1 = Tequil + t * (sc * dx n) := rfl
  have hts : t * sc ≤ s' := (mul_le_of_le_one_left h0 ht1).trans e1
  have hts0 : 0 ≤ t * sc := mul_nonneg ht0 h0
  -- the trial temperature lies between the two
  have hbet : (Tequil ≤ r.1 ∧ r.1 ≤ Tnew) ∨ (Tnew ≤ r.1 ∧ r.1 ≤ Tequil) := by
    rw [hr, e3]
    rcases le_total 0 (dx n) with hd | hd
    · exact Or.inl ⟨by nlinarith, by nlinarith [mul_le_mul_of_nonneg_right hts hd]⟩
    · exact Or.inr ⟨by nlinarith [mul_le_mul_of_nonpos_right hts hd], by nlinarith⟩
  have hmul : ∀ {a b : K}, a ≤ b → Tnorm * a ≤ Tnorm * b := fun h => mul_le_mul_of_nonneg_left h hN
  rcases hmono m with hm' | hm' <;> rcases hbet with ⟨b1, b2⟩ | ⟨b1, b2⟩
  · exact (hm' (hmul b2)).trans p2
  · exact (hm' (hmul b2)).trans p1
  · exact (hm' (hmul b1)).trans p1
  · exact (hm' (hmul b1)).trans p2

/-- Non-vacuity of the C22 hypotheses: two materials with equal volume fractions and a minimum density of `1/10`
falling with temperature, well below their densities of `2`. -/
example {σ : K} (hσ : 0 < σ) (hσ1 : σ < 1 / 1000) : ∃ (E : MatEOS K) (rhobar : Nat → K) (s : Mats K),
    (∀ m, m < 2 → 0 < s.vfrac m) ∧ ∑ m ∈ Finset.range 2, s.vfrac m = 1 ∧ (∀ m T, 0 ≤ E.rhoPmin m T) ∧
      (∀ m, Monotone (E.rhoPmin m) ∨ Antitone (E.rhoPmin m)) ∧
      (∀ m T T', m < 2 → s.vfrac m ≤ ratio σ (rhobar m) (max (E.rhoPmin m T) (E.rhoPmin m T'))) := by
  refine ⟨⟨fun _ _ _ => 0, fun _ _ _ _ => 0, fun _ _ _ => 0, fun _ _ _ => (1, 0),
    fun _ T => if T ≤ 1 then 1 / 10 else 0, fun _ => 0, fun _ _ => 3⟩, fun _ => 1,
    ⟨fun _ => 2, fun _ => 1 / 2, fun _ => 1, fun _ => 1, fun _ => 1, fun _ => 1⟩, fun m _ => by norm_num,
    by norm_num [Finset.sum_range_succ], fun m T => ?_, fun m => Or.inr fun T T' h => ?_, fun m T T' _ => ?_⟩
  · dsimp only; split_ifs <;> norm_num
  · dsimp only
    split_ifs with h1 h2
    · rfl
    · exact absurd (h.trans h1) h2
    · norm_num
    · rfl
  · dsimp only
    have h0 : ∀ T : K, 0 ≤ (if T ≤ 1 then (1 / 10 : K) else 0) ∧ (if T ≤ 1 then (1 / 10 : K) else 0) ≤ 1 / 10 := fun T => by
      split_ifs <;> norm_num
    have hm0 : 0 ≤ max (if T ≤ 1 then (1 / 10 : K) else 0) (if T' ≤ 1 then (1 / 10 : K) else 0) :=
      le_max_of_le_left (h0 T).1
    have hm1 := max_le (h0 T).2 (h0 T').2
    rw [ratio_pos_den _ hm0, le_div_iff₀ (by linarith)]
    linarith

/-- C22, RhoU: after `ScaleDx` every trial step keeps the volume fractions positive, the linearised
temperature change keeps each temperature above 9/10 of its value, and the scale lies in `[0,1]`. -/
theorem C22_rhoU {σ : K} (hσ : 0 < σ) (E : MatEOS K) {n : Nat} (uscale Tnorm : K) (d : DerivsU K)
    (rhobar dx utemp : Nat → K) (s : Mats K) (hv : ∀ m, m < n → 0 < s.vfrac m)
    (hT : ∀ m, m < n → 0 ≤ s.temp m) (hrho : ∀ m T, 0 ≤ E.rhoPmin m T)
    {t : K} (ht0 : 0 ≤ t) (ht1 : t ≤ 1) :
    let sc := rhoUScaleDx σ E n Tnorm d rhobar s.vfrac s.temp dx
    let v' := (rhoUTestUpdate σ E n uscale Tnorm rhobar (fun i => sc * dx i) s.vfrac utemp t s).vfrac
    0 ≤ sc ∧ sc ≤ 1 ∧ ∀ m, m < n → 0 < v' m ∧
      -(1 / 10 * s.temp m) ≤ sc * (d.dtdv m * dx m + d.dtde m * dx (m + n)) ∧
      ∃ Tnew, (∃ s', sc ≤ s' ∧ s' ≤ 1 ∧ Tnew = s.temp m + s' * (d.dtdv m * dx m + d.dtde m * dx (m + n))) ∧
        (s.vfrac m ≤ ratio σ (rhobar m)
          (max (E.rhoPmin m (Tnorm * s.temp m)) (E.rhoPmin m (Tnorm * Tnew))) →
        E.rhoPmin m (Tnorm * s.temp m) ≤ rhobar m / v' m ∧
        E.rhoPmin m (Tnorm * Tnew) ≤ rhobar m / v' m) := by
  intro sc v'
  have h := forN_inv (n := n) (s := (1 : K))
    (body := rhoUScaleStep σ E n Tnorm d rhobar s.vfrac s.temp dx)
    (P := fun k sc => 0 ≤ sc ∧ sc ≤ 1 ∧ ∀ m, m < k → -(1 / 10 * s.vfrac m) ≤ sc * dx m ∧
      -(1 / 10 * s.temp m) ≤ sc * (d.dtdv m * dx m + d.dtde m * dx (m + n)) ∧
      ∃ Tnew, (∃ s', sc ≤ s' ∧ s' ≤ 1 ∧ Tnew = s.temp m + s' * (d.dtdv m * dx m + d.dtde m * dx (m + n))) ∧
        (s.vfrac m ≤ ratio σ (rhobar m)
          (max (E.rhoPmin m (Tnorm * s.temp m)) (E.rhoPmin m (Tnorm * Tnew))) →
        sc * dx m ≤ 1 / 2 * (ratio σ (rhobar m)
          (max (E.rhoPmin m (Tnorm * s.temp m)) (E.rhoPmin m (Tnorm * Tnew))) - s.vfrac m)))
    ⟨zero_le_one, le_rfl, fun m h => absurd h (Nat.not_lt_zero _)⟩ ?_
  · obtain ⟨h0, h1, h2⟩ := h
    refine ⟨h0, h1, fun m hm => ?_⟩
    obtain ⟨e1, e2, Tnew, e4, e3⟩ := h2 m hm
    have hv' : v' m = s.vfrac m + t * (sc * dx m) := by
      have : v' = fill n (fun m => s.vfrac m + t * (sc * dx m)) s.vfrac := rfl
      rw [this, fill_apply, if_pos hm]
    obtain ⟨c1, c2⟩ := convex_step
      (a := ratio σ (rhobar m) (max (E.rhoPmin m (Tnorm * s.temp m)) (E.rhoPmin m (Tnorm * Tnew))))
      (by norm_num : (1 / 10 : K) < 1) (hv m hm) ht0 ht1 (show -(1 / 10 * s.vfrac m) ≤ sc * dx m from e1)
    rw [hv']
    refine ⟨c1, e2, Tnew, e4, fun h => ?_⟩
    have := density_ok hσ c1 (le_max_of_le_left (hrho m _)) (c2 h (e3 h))
    exact ⟨(le_max_left _ _).trans this, (le_max_right _ _).trans this⟩
  · rintro k sc hk ⟨h0, h1, h2⟩
    have hx : (0 : K) ≤ 1 / 10 := by norm_num
    set dt := d.dtdv k * dx k + d.dtde k * dx (k + n) with hdt
    -- first limiter
    set s1 := if sc * dx k < -(1 / 10) * s.vfrac k then -(1 / 10) * ratio σ (s.vfrac k) (dx k) else sc
      with hs1
    have p1 : 0 ≤ s1 ∧ s1 ≤ sc ∧ -(1 / 10 * s.vfrac k) ≤ s1 * dx k := by
      rw [hs1]
      split_ifs with hc
      · rw [ratio_smul]
        obtain ⟨e0, e1, e2⟩ := lower_limit hσ hx (hv k hk).le hc h0
        exact ⟨e0, e1, by linarith⟩
      · exact ⟨h0, le_rfl, by have := not_lt.mp hc; linarith⟩
    set s2 := if s1 * dt < -(1 / 10) * s.temp k then -(1 / 10) * ratio σ (s.temp k) dt else s1 with hs2
    have p2 : 0 ≤ s2 ∧ s2 ≤ s1 ∧ -(1 / 10 * s.temp k) ≤ s2 * dt := by
      rw [hs2]
      split_ifs with hc
      · rw [ratio_smul]
        obtain ⟨e0, e1, e2⟩ := lower_limit hσ hx (hT k hk) hc p1.1
        exact ⟨e0, e1, by linarith⟩
      · exact ⟨p1.1, le_rfl, by have := not_lt.mp hc; linarith⟩
    set Tn := s.temp k + s2 * dt with hTn
    set amax := ratio σ (rhobar k) (max (E.rhoPmin k (Tnorm * s.temp k)) (E.rhoPmin k (Tnorm * Tn)))
      with hamax
    have hstep : rhoUScaleStep σ E n Tnorm d rhobar s.vfrac s.temp dx sc k =
        if amax < s.vfrac k then s2
        else if s2 * dx k > 1 / 2 * (amax - s.vfrac k) then 1 / 2 * ratio σ (amax - s.vfrac k) (dx k)
        else s2 := rfl
    have p3 : ∃ s3, rhoUScaleStep σ E n Tnorm d rhobar s.vfrac s.temp dx sc k = s3 ∧ 0 ≤ s3 ∧ s3 ≤ s2 ∧
        (s.vfrac k ≤ amax → s3 * dx k ≤ 1 / 2 * (amax - s.vfrac k)) := by
      refine ⟨_, hstep, ?_⟩
      split_ifs with hu hc
      · exact ⟨p2.1, le_rfl, fun h => absurd hu (not_lt.mpr h)⟩
      · rw [ratio_smul]
        have hg : 0 ≤ 1 / 2 * (amax - s.vfrac k) := by
          have : 0 ≤ amax - s.vfrac k := by have := not_lt.mp hu; linarith
          positivity
        obtain ⟨e0, e1, e2⟩ := upper_limit hσ hg hc p2.1
        exact ⟨e0, e1, fun _ => e2⟩
      · exact ⟨p2.1, le_rfl, fun _ => not_lt.mp hc⟩
    obtain ⟨s3, he, q0, q1, q2⟩ := p3
    rw [he]
    have hle : s3 ≤ sc := q1.trans (p2.2.1.trans p1.2.1)
    refine ⟨q0, hle.trans h1, fun m hm => ?_⟩
    rcases Nat.lt_succ_iff_lt_or_eq.mp hm with h | rfl
    · obtain ⟨e1, e2, Tnew, ⟨s', f1, f2, f3⟩, e3⟩ := h2 m h
      refine ⟨lower_mono (mul_nonneg hx (hv m (by omega)).le) q0 hle e1,
        lower_mono (mul_nonneg hx (hT m (by omega))) q0 hle e2, Tnew, ⟨s', hle.trans f1, f2, f3⟩, fun hvm => ?_⟩
      refine upper_mono ?_ q0 hle (e3 hvm)
      have : 0 ≤ ratio σ (rhobar m)
          (max (E.rhoPmin m (Tnorm * s.temp m)) (E.rhoPmin m (Tnorm * Tnew))) - s.vfrac m := by linarith
      positivity
    · exact ⟨lower_mono (mul_nonneg hx (hv m hk).le) q0 (q1.trans p2.2.1) p1.2.2,
        lower_mono (mul_nonneg hx (hT m hk)) q0 q1 p2.2.2, Tn,
        ⟨s2, q1, p2.2.1.trans (p1.2.1.trans h1), hTn⟩, q2⟩

/-- C22, RhoT, for mixtures filling the cell (`∑ vfrac = 1`): after `ScaleDx` every trial step keeps all
volume fractions and the temperature positive; if no material is beyond its maximum volume fraction
beforehand, none goes beyond it. -/
theorem C22_rhoT_partial {σ saf : K} (hσ : 0 < σ) (hsaf0 : 0 ≤ saf) (hsaf1 : saf < 1) (E : MatEOS K)
    {n ms : Nat} (hms : ms < n) (uscale Tnorm Tequil : K) (hT : 0 < Tequil) (rhobar dx : Nat → K)
    (s : Mats K) (hv : ∀ m, m < n → 0 < s.vfrac m)
    (hsum : ∑ m ∈ Finset.range n, s.vfrac m = 1) {t : K} (ht0 : 0 ≤ t) (ht1 : t ≤ 1) :
    let sc := rhoTScaleDx σ saf E n ms Tnorm Tequil rhobar s.vfrac dx
    let r := rhoTTestUpdate σ E n ms uscale Tnorm rhobar (fun i => sc * dx i) Tequil s.vfrac t s
    0 ≤ sc ∧ sc ≤ 1 ∧ 0 < r.1 ∧ (∀ m, m < n → 0 < r.2.vfrac m) ∧
    ∃ Tnew, (∃ s', sc ≤ s' ∧ s' ≤ 1 ∧ Tnew = Tequil + s' * dx 0) ∧
      ((∀ m, m < n → s.vfrac m ≤ rhoTAmax σ E rhobar (Tnorm * Tequil) (Tnorm * Tnew) m) →
      ∀ m, m < n → r.2.vfrac m ≤ rhoTAmax σ E rhobar (Tnorm * Tequil) (Tnorm * Tnew) m) := by
  intro sc r
  set dskip := -sumNeumaier dx (n - 1) 1 with hds
  obtain ⟨a0, a1, a2⟩ := rhoTScale1_spec hσ hsaf0 (ms := ms) (dx := dx) dskip (fun m hm => (hv m hm).le)
  set s1 := (rhoTScale1 σ saf n ms s.vfrac dx dskip).1 with hs1
  set Tnew := Tequil + s1 * dx 0 with hTnew
  set amax := rhoTAmax σ E rhobar (Tnorm * Tequil) (Tnorm * Tnew) with hamax
  obtain ⟨b0, b1, b2⟩ := rhoTScale2_spec hσ (n := n) (ms := ms) (vfrac := s.vfrac) (dx := dx)
    (amax := amax) dskip a0
  set s2 := (rhoTScale2 σ n ms s.vfrac dx amax dskip s1).1 with hs2
  obtain ⟨d0, d1, d2⟩ := tempScale_spec hσ (dT := dx 0) hT.le b0
  have hsc : sc = tempScale σ Tequil (dx 0) s2 := rfl
  rw [← hsc] at d0 d1 d2
  -- the step of each material
  have hskip : dskip = -∑ m ∈ (Finset.range n).filter (· ≠ ms), dx (pos ms m) := by
    have h1 := sum_pos hms dx
    have h2 : ∑ c ∈ Finset.range n, dx c = dx 0 + ∑ i ∈ Finset.range (n - 1), dx (i + 1) := by
      obtain ⟨k, rfl⟩ : ∃ k, n = k + 1 := ⟨n - 1, by omega⟩
      rw [Finset.sum_range_succ']; simp [add_comm]
    have h3 : sumNeumaier dx (n - 1) 1 = ∑ i ∈ Finset.range (n - 1), dx (i + 1) := by
      rw [sumNeumaier_eq, Finset.filter_true_of_mem (fun i _ => by omega)]
      simp
    rw [hds, h3]
    have : ∑ i ∈ Finset.range (n - 1), dx (i + 1) = ∑ m ∈ (Finset.range n).filter (· ≠ ms), dx (pos ms m) := by
      linarith
    rw [this]
  have hvr := rhoTVfrac_spec hms t (fun i => sc * dx i) s.vfrac s.vfrac
  have hvm : ∀ m, m < n → r.2.vfrac m = s.vfrac m + t * (sc * (if m = ms then dskip else dx (pos ms m))) := by
    intro m hm
    have e : r.2.vfrac = rhoTVfrac n ms t (fun i => sc * dx i) s.vfrac s.vfrac := rfl
    rw [e]
    by_cases hmm : m = ms
    · subst hmm
      rw [hvr.2, if_pos rfl, Finset.sum_add_distrib]
      have h4 := sum_update hms s.vfrac s.vfrac (fun _ _ _ => rfl)
      rw [hsum] at h4
      have h5 : ∑ x ∈ (Finset.range n).filter (· ≠ m), t * (sc * dx (pos m x)) = t * (sc * (-dskip)) := by
        rw [hskip, neg_neg, Finset.mul_sum, Finset.mul_sum]
      rw [h5]
      linear_combination h4
    · rw [hvr.1 m hm hmm, if_neg hmm]
  refine ⟨d0, d1.trans (b1.trans a1), ?_, fun m hm => ?_, Tnew, ⟨s1, d1.trans b1, a1, rfl⟩, fun hall m hm => ?_⟩
  · exact (convex_step (a := 0) (by norm_num : (95 / 100 : K) < 1) hT ht0 ht1 d2).1
  · rw [hvm m hm]
    exact (convex_step (a := 0) hsaf1 (hv m hm) ht0 ht1
      (lower_mono (mul_nonneg hsaf0 (hv m hm).le) d0 (d1.trans b1) (a2 m hm))).1
  · rw [hvm m hm]
    refine (convex_step hsaf1 (hv m hm) ht0 ht1
      (lower_mono (mul_nonneg hsaf0 (hv m hm).le) d0 (d1.trans b1) (a2 m hm))).2 (hall m hm) ?_
    refine upper_mono ?_ d0 d1 (b2 hall m hm)
    have : 0 ≤ amax m - s.vfrac m := by have := hall m hm; linarith
    positivity

/-- C22, PT: after `ScaleDx` every trial step keeps the temperature positive and the pressure above each
material's minimum pressure (scaled), if it was above; the scale lies in `[0,1]`.
Missing: the maximum pressure, see `C22_pt_max_pressure_violated`. -/
theorem C22_pt_partial {σ : K} (hσ : 0 < σ) (E : MatEOS K) {n : Nat} (uscale Tnorm Pequil Tequil : K)
    (hT : 0 < Tequil) (rhobar dx : Nat → K) (s : Mats K) {t : K} (ht0 : 0 ≤ t) (ht1 : t ≤ 1) :
    let sc := ptScaleDx σ E n uscale Tnorm Pequil Tequil dx
    let r := ptTestUpdate σ E n uscale Tnorm rhobar (fun i => sc * dx i) Pequil Tequil t s
    0 ≤ sc ∧ sc ≤ 1 ∧ 0 < r.1.2 ∧
    ∀ m, m < n → ratio σ (E.pMin m) uscale < Pequil → ratio σ (E.pMin m) uscale < r.1.1 := by
  intro sc r
  set s0 := if 1 * dx 0 < -(95 / 100) * Tequil then ratio σ (-(95 / 100) * Tequil) (dx 0) else 1 with hs0
  have p0 : 0 ≤ s0 ∧ s0 ≤ 1 ∧ -(95 / 100 * Tequil) ≤ s0 * dx 0 := by
    rw [hs0]
    split_ifs with hc
    · obtain ⟨e0, e1, e2⟩ := lower_limit hσ (by norm_num : (0 : K) ≤ 95 / 100) hT.le hc zero_le_one
      exact ⟨e0, e1, by linarith⟩
    · exact ⟨zero_le_one, le_rfl, by have := not_lt.mp hc; linarith⟩
  set bounded := fun (pb delta : K) => ratio σ (ratio σ pb uscale - Pequil) delta with hb
  set s1 := forN n (fun s m => min |s| |95 / 100 * bounded (E.pMin m) (dx 1)|) s0 with hs1
  have p1 : 0 ≤ s1 ∧ s1 ≤ s0 ∧ ∀ m, m < n → s1 ≤ |95 / 100 * bounded (E.pMin m) (dx 1)| := by
    rw [hs1]
    refine forN_inv (P := fun k x => 0 ≤ x ∧ x ≤ s0 ∧ ∀ m, m < k →
      x ≤ |95 / 100 * bounded (E.pMin m) (dx 1)|)
      ⟨p0.1, le_rfl, fun m h => absurd h (Nat.not_lt_zero _)⟩ ?_
    rintro k x hk ⟨h0, h1, h2⟩
    refine ⟨le_min (abs_nonneg _) (abs_nonneg _), (min_le_left _ _).trans (by rwa [abs_of_nonneg h0]),
      fun m hm => ?_⟩
    rcases Nat.lt_succ_iff_lt_or_eq.mp hm with h | rfl
    · exact (min_le_left _ _).trans (by rw [abs_of_nonneg h0]; exact h2 m h)
    · exact min_le_right _ _
  have p2 : 0 ≤ sc ∧ sc ≤ s1 := by
    refine forN_inv (P := fun _ x => 0 ≤ x ∧ x ≤ s1) ⟨p1.1, le_rfl⟩ ?_
    rintro k x hk ⟨h0, h1⟩
    exact ⟨le_min (abs_nonneg _) (abs_nonneg _), (min_le_left _ _).trans (by rwa [abs_of_nonneg h0])⟩
  refine ⟨p2.1, p2.2.trans (p1.2.1.trans p0.2.1), ?_, fun m hm hlt => ?_⟩
  · have hl : -(95 / 100 * Tequil) ≤ sc * dx 0 :=
      lower_mono (by positivity) p2.1 (p2.2.trans p1.2.1) p0.2.2
    exact (convex_step (a := 0) (by norm_num : (95 / 100 : K) < 1) hT ht0 ht1 hl).1
  · have hrP : r.1.1 = Pequil + t * (sc * dx 1) := rfl
    rw [hrP]
    set g := Pequil - ratio σ (E.pMin m) uscale with hg
    have hgpos : 0 < g := by rw [hg]; linarith
    have hle : sc ≤ |95 / 100 * bounded (E.pMin m) (dx 1)| := p2.2.trans (p1.2.2 m hm)
    have habs : |sc * dx 1| ≤ 95 / 100 * g := by
      rw [abs_mul, abs_of_nonneg p2.1]
      calc sc * |dx 1| ≤ |95 / 100 * bounded (E.pMin m) (dx 1)| * |dx 1| :=
            mul_le_mul_of_nonneg_right hle (abs_nonneg _)
        _ = 95 / 100 * (|bounded (E.pMin m) (dx 1)| * |dx 1|) := by
            rw [abs_mul, abs_of_pos (by norm_num : (0 : K) < 95 / 100)]; ring
        _ ≤ 95 / 100 * |ratio σ (E.pMin m) uscale - Pequil| :=
            mul_le_mul_of_nonneg_left (abs_ratio_mul_le hσ _ _) (by norm_num)
        _ = 95 / 100 * g := by rw [abs_sub_comm, abs_of_pos hgpos]
    have hl : -(95 / 100 * g) ≤ sc * dx 1 := (abs_le.mp habs).1
    have := (convex_step (a := 0) (by norm_num : (95 / 100 : K) < 1) hgpos ht0 ht1 hl).1
    rw [hg] at this; linarith

/-- C22 is violated by PT for the maximum pressure: `ScaleDx` divides the distance to `Pmax` by the
temperature increment `dx[0]` instead of the pressure increment `dx[1]`
(`mixed_cell_models.hpp:1403`), so a full accepted step can overshoot `MaximumPressureAtTemperature`. -/
theorem C22_pt_max_pressure_violated {σ : K} (hσ : 0 < σ) (hσ1 : σ < 1 / 1000) :
    ∃ (E : MatEOS K) (dx : Nat → K) (Pequil : K) (s : Mats K),
      let sc := ptScaleDx σ E 1 1 1 Pequil 1 dx
      let r := ptTestUpdate σ E 1 1 1 (fun _ => 1) (fun i => sc * dx i) Pequil 1 1 s
      Pequil < ratio σ (E.pMaxAtT 0 r.1.2) 1 ∧ ratio σ (E.pMaxAtT 0 r.1.2) 1 < r.1.1 := by
  refine ⟨⟨fun _ _ _ => 0, fun _ _ _ _ => 0, fun _ _ _ => 0, fun _ _ _ => (1, 0), fun _ _ => 0,
    fun _ => -1000, fun _ _ => 3⟩, fun i => if i = 1 then 100 else 0, 1,
    ⟨fun _ => 1, fun _ => 1, fun _ => 1, fun _ => 1, fun _ => 1, fun _ => 1⟩, ?_⟩
  have hsc : ptScaleDx σ (⟨fun _ _ _ => 0, fun _ _ _ _ => 0, fun _ _ _ => 0, fun _ _ _ => (1, 0), fun _ _ => 0,
      fun _ => -1000, fun _ _ => 3⟩ : MatEOS K) 1 1 1 1 1 (fun i => if i = 1 then 100 else 0) = 1 := by
    have h1 : ratio σ (-1000 : K) 1 = -1000 / (1 + σ) := ratio_pos_den _ zero_le_one
    have h3 : ratio σ (3 : K) 1 = 3 / (1 + σ) := ratio_pos_den _ zero_le_one
    have h4 : ∀ x : K, ratio σ x 0 = x / σ := fun x => by rw [ratio_pos_den _ le_rfl, zero_add]
    have h5 : ∀ x : K, ratio σ x 100 = x / (100 + σ) := fun x => ratio_pos_den _ (by norm_num)
    have hp : (0 : K) < 1 + σ := by linarith
    have hA : (1 : K) ≤ |95 / 100 * ((-1000 / (1 + σ) - 1) / (100 + σ))| := by
      have e : (95 / 100 : K) * ((-1000 / (1 + σ) - 1) / (100 + σ))
          = -(95 / 100 * ((1000 / (1 + σ) + 1) / (100 + σ))) := by ring
      rw [e, abs_neg, abs_of_pos (by positivity)]
      have : (900 : K) ≤ 1000 / (1 + σ) := by rw [le_div_iff₀ hp]; linarith
      rw [← mul_div_assoc, le_div_iff₀ (by linarith)]; linarith
    have hB : (1 : K) ≤ |95 / 100 * ((3 / (1 + σ) - 1) / σ)| := by
      have : (2 : K) ≤ 3 / (1 + σ) := by rw [le_div_iff₀ hp]; linarith
      have h6 : (0 : K) < 3 / (1 + σ) - 1 := by linarith
      rw [abs_of_pos (by positivity), ← mul_div_assoc, le_div_iff₀ hσ]; linarith
    have hneg : ¬ ((1 : K) * 0 < -(95 / 100) * 1) := by norm_num
    simp only [ptScaleDx, forN, zero_ne_one, if_false, if_true, hneg, h1, h3, h4, h5, abs_one]
    rw [min_eq_left hA, abs_one, min_eq_left hB]
  dsimp only
  rw [hsc]
  have h3 : ratio σ (3 : K) 1 = 3 / (1 + σ) := ratio_pos_den _ zero_le_one
  have hp : (0 : K) < 1 + σ := by linarith
  simp only [ptTestUpdate, h3, if_true, zero_ne_one, if_false]
  constructor
  · rw [lt_div_iff₀ hp]; linarith
  · rw [div_lt_iff₀ hp]; nlinarith

/-- C22 is violated by RhoT when some material is already beyond its maximum: the `continue` skips
`dx[idx++]` (`mixed_cell_models.hpp:1131-1138`), the next material is then limited with the wrong entry of `dx`, and
a material that was within its maximum is pushed beyond it. -/
theorem C22_rhoT_violated {σ : K} (hσ : 0 < σ) (hσ1 : σ < 1 / 1000) :
    ∃ (E : MatEOS K) (rhobar dx : Nat → K) (s : Mats K) (m : Nat), m < 3 ∧
      (∀ m, m < 3 → 0 < s.vfrac m) ∧ ∑ m ∈ Finset.range 3, s.vfrac m = 1 ∧
      let sc := rhoTScaleDx σ (95 / 100) E 3 2 1 1 rhobar s.vfrac dx
      let r := rhoTTestUpdate σ E 3 2 1 1 rhobar (fun i => sc * dx i) 1 s.vfrac 1 s
      ∀ Tnew, s.vfrac m < rhoTAmax σ E rhobar 1 Tnew m ∧ rhoTAmax σ E rhobar 1 Tnew m < r.2.vfrac m := by
  refine ⟨⟨fun _ _ _ => 0, fun _ _ _ _ => 0, fun _ _ _ => 0, fun _ _ _ => (1, 0), fun _ _ => 1,
    fun _ => 0, fun _ _ => 3⟩, fun m => if m = 0 then 1 / 5 else if m = 1 then 35 / 100 else 2,
    fun i => if i = 2 then 1 / 5 else 0,
    ⟨fun _ => 1, fun m => if m = 2 then 2 / 5 else 3 / 10, fun _ => 1, fun _ => 1, fun _ => 1, fun _ => 1⟩,
    1, by norm_num, ?_, by norm_num [Finset.sum_range_succ], ?_⟩
  · intro m _; dsimp only; split_ifs <;> norm_num
  have hp : (0 : K) < 1 + σ := by linarith
  have hr : ∀ x : K, ratio σ x 1 = x / (1 + σ) := fun x => ratio_pos_den _ zero_le_one
  have m0 : (min 1 (1 / 5 / (1 + σ)) : K) < 3 / 10 := by
    refine (min_le_right _ _).trans_lt ?_
    rw [div_lt_iff₀ hp]; linarith
  have m1 : (3 / 10 : K) < min 1 (35 / 100 / (1 + σ)) := by
    refine lt_min (by norm_num) ?_
    rw [lt_div_iff₀ hp]; linarith
  have m1' : (min 1 (35 / 100 / (1 + σ)) : K) ≤ 35 / 100 := by
    refine (min_le_right _ _).trans ?_
    rw [div_le_iff₀ hp]; linarith
  have m2 : (min 1 (2 / (1 + σ)) : K) = 1 := by
    refine min_eq_left ?_
    rw [le_div_iff₀ hp]; linarith
  set E : MatEOS K := ⟨fun _ _ _ => 0, fun _ _ _ _ => 0, fun _ _ _ => 0, fun _ _ _ => (1, 0), fun _ _ => 1,
    fun _ => 0, fun _ _ => 3⟩ with hE
  set rhobar : Nat → K := fun m => if m = 0 then 1 / 5 else if m = 1 then 35 / 100 else 2 with hrb
  set dx : Nat → K := fun i => if i = 2 then 1 / 5 else 0 with hdx
  set v : Nat → K := fun m => if m = 2 then 2 / 5 else 3 / 10 with hv
  have hA : ∀ T0 T1, rhoTAmax σ E rhobar T0 T1 0 = min 1 (1 / 5 / (1 + σ)) := fun T0 T1 => by
    simp [rhoTAmax, hE, hrb, hr]
  have hB : ∀ T0 T1, rhoTAmax σ E rhobar T0 T1 1 = min 1 (35 / 100 / (1 + σ)) := fun T0 T1 => by
    simp [rhoTAmax, hE, hrb, hr]
  have hC : ∀ T0 T1, rhoTAmax σ E rhobar T0 T1 2 = 1 := fun T0 T1 => by
    simp [rhoTAmax, hE, hrb, hr, m2]
  have hds : -sumNeumaier dx (3 - 1) 1 = -(1 / 5) := by
    rw [sumNeumaier_eq, Finset.filter_true_of_mem (fun i _ => by omega)]
    norm_num [Finset.sum_range_succ, hdx]
  have hs1 : rhoTScale1 σ (95 / 100) 3 2 v dx (-(1 / 5)) = (1, 3) := by
    norm_num [rhoTScale1, forN, hv, hdx]
  have hsc : rhoTScaleDx σ (95 / 100) E 3 2 1 1 rhobar v dx = 1 := by
    have hs2 : ∀ T0 T1, (rhoTScale2 σ 3 2 v dx (rhoTAmax σ E rhobar T0 T1) (-(1 / 5)) 1) = (1, 2) := by
      intro T0 T1
      have c0 : rhoTAmax σ E rhobar T0 T1 0 < v 0 := by rw [hA]; simpa [hv] using m0
      have c1 : ¬ rhoTAmax σ E rhobar T0 T1 1 < v 1 := by rw [hB, not_lt]; simpa [hv] using m1.le
      have c2 : ¬ rhoTAmax σ E rhobar T0 T1 2 < v 2 := by rw [hC]; norm_num [hv]
      have c3 : ¬ ((1 : K) * dx 1 > 1 / 2 * (rhoTAmax σ E rhobar T0 T1 1 - v 1)) := by
        have := not_lt.mp c1
        simp only [gt_iff_lt, not_lt]
        have : (0 : K) ≤ rhoTAmax σ E rhobar T0 T1 1 - v 1 := by linarith
        have hz : dx 1 = 0 := by simp [hdx]
        rw [hz]; simp only [mul_zero]; positivity
      have c4 : ¬ ((1 : K) * -(1 / 5) > 1 / 2 * (rhoTAmax σ E rhobar T0 T1 2 - v 2)) := by
        rw [hC]; norm_num [hv]
      have n1 : ¬ ((1 : Nat) = 2) := by norm_num
      simp only [rhoTScale2, forN, c0, if_true, c1, if_false, n1, c3, c2, c4]
    simp only [rhoTScaleDx, hds, hs1, hs2]
    norm_num [tempScale, hdx]
  intro sc r Tnew
  have hsc' : sc = 1 := hsc
  have hrv : r.2.vfrac 1 = 1 / 2 := by
    have e : r.2.vfrac = rhoTVfrac 3 2 1 (fun i => sc * dx i) v v := rfl
    rw [e, (rhoTVfrac_spec (by norm_num : 2 < 3) 1 _ v v).1 1 (by norm_num) (by norm_num), hsc']
    norm_num [hv, hdx, pos]
  rw [hrv, hB]
  exact ⟨by simpa [hv] using m1, by linarith⟩

end Verif.PTE
