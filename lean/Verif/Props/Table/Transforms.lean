import Verif.Model.Table.Transforms
import Verif.Props.Math.FastLog
import Mathlib.Tactic.FieldSimp
import Mathlib.Tactic.Linarith

set_option linter.unusedSectionVars false

/-! # C59, C82: log-space conversion, energy transforms, the density of minimum pressure -/

namespace Verif.Spiner

variable {K : Type*} [Field K] [LinearOrder K] [IsStrictOrderedRing K]

/-! ## C59: log-space conversion -/

/-- C59: with an exponential that inverts the logarithm on positive numbers, going to log space and back returns the
input plus `EPS`, for every input at or above minus the offset; inputs below are raised to minus the offset. -/
theorem C59_log_roundtrip (lg pw : K → K) (hinv : ∀ x, 0 < x → pw (lg x) = x) (ε x off : K) (hε : 0 < ε) :
    fromLog pw (toLog lg ε x off) off = max x (-off) + ε := by
  have h : 0 ≤ max x (-off) + off := by have := le_max_right x (-off); linarith
  unfold fromLog toLog
  rw [abs_of_nonneg h, hinv _ (by linarith)]; ring

/-- C59: conversion to log space is strictly increasing above minus the offset, and constant below it. -/
theorem C59_log_monotone (lg : K → K) (hlg : StrictMonoOn lg (Set.Ioi 0)) (ε off : K) (hε : 0 < ε) :
    StrictMonoOn (fun x => toLog lg ε x off) (Set.Ici (-off)) ∧
    ∀ x, x ≤ -off → toLog lg ε x off = lg ε := by
  constructor
  · intro x hx y hy hxy
    have hx' : -off ≤ x := hx
    have hy' : -off ≤ y := hy
    have h1 : 0 ≤ x + off := by linarith
    have h2 : 0 ≤ y + off := by linarith
    show toLog lg ε x off < toLog lg ε y off
    unfold toLog
    rw [max_eq_left hx', max_eq_left hy', abs_of_nonneg h1, abs_of_nonneg h2]
    exact hlg (show 0 < x + off + ε by linarith) (show 0 < y + off + ε by linarith) (by linarith)
  · intro x hx
    unfold toLog; rw [max_eq_right hx]; simp

/-- The portable fast logarithm and exponential of either order meet the hypotheses above. -/
example (ε x off : ℝ) (hε : 0 < ε) (hx : -off ≤ x) :
    fromLog FastLog.pow2O2 (toLog FastLog.lgO2 ε x off) off = x + ε := by
  rw [C59_log_roundtrip _ _ FastLog.C57_inverse.2.2.1 _ _ _ hε, max_eq_left hx]

/-! ## C59: energy transforms -/

theorem minC_pos : (0 : K) < minC := by unfold minC; positivity

theorem floorAt_pos (x : K) : 0 < floorAt x := by
  unfold floorAt; split_ifs with h
  · exact lt_trans minC_pos h
  · exact minC_pos

/-- The transform and its inverse, given the original energy, cancel. -/
def Inverts (t : Transform K) (e rho : K) : Prop := t.inv (t.fwd e rho) rho e = e

/-- C59: no transform, the cold-curve shift and the temperature scaling invert exactly for every state and every
table. -/
theorem C59_exact_transforms (d : TData K) (e rho : K) :
    Inverts (nullT : Transform K) e rho ∧ Inverts (shiftT d) e rho ∧ Inverts (scaleT d) e rho := by
  refine ⟨rfl, ?_, ?_⟩
  · simp [Inverts, shiftT]
  · have : TAt d rho ≠ 0 := (floorAt_pos _).ne'
    simp only [Inverts, scaleT]; field_simp

/-- The two clamps cancel exactly when the reciprocal heat capacity lies in `[1e-8, 1e8]`. -/
theorem clamps_cancel_iff (i : K) : floorAt i * floorAt (1 / i) = 1 ↔ minC ≤ i ∧ i ≤ 1 / minC := by
  have hm := minC_pos (K := K)
  have hm1 : (minC : K) < 1 := by unfold minC; norm_num
  constructor
  · intro h
    rcases le_or_gt i 0 with h0 | h0
    · exfalso
      have h1 : 1 / i ≤ 0 := one_div_nonpos.2 h0
      unfold floorAt at h
      rw [if_neg (by linarith), if_neg (by linarith)] at h
      nlinarith
    · constructor
      · by_contra hc
        push Not at hc
        have h1 : 1 < 1 / i := by rw [lt_div_iff₀ h0]; linarith
        unfold floorAt at h
        rw [if_neg (by linarith), if_pos (by linarith), mul_one_div, div_eq_one_iff_eq h0.ne'] at h
        linarith
      · by_contra hc
        push Not at hc
        have hi : 1 < 1 / (minC : K) := by rw [lt_div_iff₀ hm]; linarith
        have h1 : 1 / i < minC := by
          rw [div_lt_iff₀ h0]; rw [div_lt_iff₀ hm] at hc; linarith
        unfold floorAt at h
        rw [if_pos (by linarith), if_neg (by linarith)] at h
        rw [div_lt_iff₀ hm] at hc
        linarith
  · rintro ⟨h1, h2⟩
    have h0 : 0 < i := lt_of_lt_of_le hm h1
    have h3 : minC ≤ 1 / i := by
      rw [le_div_iff₀ h0]; rw [le_div_iff₀ hm] at h2; linarith
    have a : floorAt i = i := by
      unfold floorAt; split_ifs with h
      · rfl
      · exact le_antisymm h1 (not_lt.1 h)
    have b : floorAt (1 / i) = 1 / i := by
      unfold floorAt; split_ifs with h
      · rfl
      · exact le_antisymm h3 (not_lt.1 h)
    rw [a, b]; field_simp

/-- C59: dividing by the heat capacity inverts, at a non-zero energy, exactly when the tabulated `dT/dE` lies in
`[1e-8, 1e8]`: outside, the two separate clamps do not cancel. -/
theorem C59_divide_by_cv_iff (d : TData K) (e rho : K) (he : e ≠ 0) :
    Inverts (divT d) e rho ↔ minC ≤ iCvAt d rho e ∧ iCvAt d rho e ≤ 1 / minC := by
  rw [← clamps_cancel_iff]
  simp only [Inverts, divT]
  constructor
  · intro h
    have : e * (floorAt (iCvAt d rho e) * floorAt (1 / iCvAt d rho e)) = e * 1 := by rw [← mul_assoc, h, mul_one]
    exact mul_left_cancel₀ he this
  · intro h; rw [mul_assoc, h, mul_one]

/-- C59: the same for the shifted transform, away from the cold curve. -/
theorem C59_shift_divide_iff (d : TData K) (e rho : K) (he : e ≠ eCold d rho) :
    Inverts (shiftDivT d) e rho ↔ minC ≤ iCvAt d rho e ∧ iCvAt d rho e ≤ 1 / minC := by
  have hs : e - eCold d rho ≠ 0 := sub_ne_zero.2 he
  rw [← clamps_cancel_iff]
  simp only [Inverts, shiftDivT]
  constructor
  · intro h
    have : (e - eCold d rho) * (floorAt (iCvAt d rho e) * floorAt (1 / iCvAt d rho e)) = (e - eCold d rho) * 1 := by
      rw [← mul_assoc, mul_one]; linear_combination h
    exact mul_left_cancel₀ hs this
  · intro h
    rw [mul_assoc, h]; ring

/-- C59: and for all three together. -/
theorem C59_all_iff (d : TData K) (e rho : K) (he : e ≠ eCold d rho) :
    Inverts (allT d) e rho ↔ minC ≤ iCvAt d rho (e - eCold d rho) ∧ iCvAt d rho (e - eCold d rho) ≤ 1 / minC := by
  have hs : e - eCold d rho ≠ 0 := sub_ne_zero.2 he
  have hT : TAt d rho ≠ 0 := (floorAt_pos _).ne'
  rw [← clamps_cancel_iff]
  simp only [Inverts, allT]
  rw [div_mul_cancel₀ _ (pow_ne_zero 3 hT)]
  constructor
  · intro h
    have : (e - eCold d rho) * (floorAt (iCvAt d rho (e - eCold d rho)) *
        floorAt (1 / iCvAt d rho (e - eCold d rho))) = (e - eCold d rho) * 1 := by
      rw [← mul_assoc, mul_one]; linear_combination h
    exact mul_left_cancel₀ hs this
  · intro h
    rw [mul_assoc, h]; ring

/-- C59 violated: a table with `dT/dE = 1e-9` (heat capacity `1e9`, erg/g/K units easily reach `1e7`) loses a factor of
ten in the round trip. -/
theorem C59_clamp_loses_energy_violated :
    ∃ d : TData ℚ, ∀ e rho : ℚ, e ≠ 0 → (divT d).inv ((divT d).fwd e rho) rho e = 10 * e := by
  refine ⟨⟨id, 0, 0, 0, fun _ => 0, fun _ => 0, fun _ _ => 1 / 10 ^ 9⟩, fun e rho _ => ?_⟩
  simp only [divT, iCvAt, floorAt, minC]
  norm_num
  ring

/-! ## C82: the density of minimum pressure -/

/-- Loop invariant of the search over densities. -/
structure PMinInv (dv : K → K → K) (dome : Bool) (thresh big : K) (P rho : Nat → K) (n : Nat) (s : PMinSt K) : Prop where
  le : ∀ j < n, s.p ≤ P j
  lebig : s.p ≤ big
  attained : s.p = big ∨ ∃ j < n, j ≤ s.j ∧ s.p = P j ∧ ∀ k < j, s.p < P k
  arg : dome = false → s.p = big ∧ s.j = 0 ∨ s.j < n ∧ s.p = P s.j ∧ ∀ k < s.j, s.p < P k
  jlt : s.j = 0 ∨ s.j < n
  slopes : dome = true → ∀ j, s.j < j → j < n → 1 < j → thresh ≤ dv (P j - P (j - 2)) (rho j - rho (j - 2))

theorem pminInv (dv : K → K → K) (dome : Bool) (thresh big : K) (P rho : Nat → K) (NR : Nat) :
    PMinInv dv dome thresh big P rho NR (pminLoop dv dome thresh big P rho NR) := by
  unfold pminLoop
  refine forN_inv (fun n s => PMinInv dv dome thresh big P rho n s) ?_ ?_
  · exact ⟨by simp, le_rfl, Or.inl rfl, fun _ => Or.inl ⟨rfl, rfl⟩, Or.inl rfl, by simp⟩
  · intro n s _ h
    have key : PMinInv dv dome thresh big P rho (n + 1) (pminStep dv dome thresh P rho n s) := by
      unfold pminStep
      by_cases hp : P n < s.p
      · simp only [hp, if_true]
        have base : PMinInv dv dome thresh big P rho (n + 1) (⟨P n, n⟩ : PMinSt K) :=
          ⟨fun j hj => by
              rcases Nat.lt_succ_iff_lt_or_eq.1 hj with h1 | rfl
              · exact (lt_of_lt_of_le hp (h.le j h1)).le
              · exact le_rfl,
            le_trans hp.le h.lebig,
            Or.inr ⟨n, by omega, le_rfl, rfl, fun k hk => lt_of_lt_of_le hp (h.le k hk)⟩,
            fun _ => Or.inr ⟨by simp, rfl, fun k hk => lt_of_lt_of_le hp (h.le k hk)⟩,
            Or.inr (by simp), fun _ j h1 h2 => by simp only at h1; omega⟩
        split_ifs <;> exact base
      · simp only [hp, if_false]
        split_ifs with hg
        · obtain ⟨g1, g2, g3⟩ := hg
          refine ⟨fun j hj => ?_, h.lebig, ?_, fun hd => by simp [g2] at hd, Or.inr (by simp),
            fun _ j h1 h2 => by simp only at h1; omega⟩
          · rcases Nat.lt_succ_iff_lt_or_eq.1 hj with h1 | rfl
            · exact h.le j h1
            · exact not_lt.1 hp
          · rcases h.attained with h1 | ⟨j, h1, h2, h3, h4⟩
            · exact Or.inl h1
            · exact Or.inr ⟨j, by omega, by simp only; omega, h3, h4⟩
        · refine ⟨fun j hj => ?_, h.lebig, ?_, fun hd => ?_, ?_, fun hd j h1 h2 h3 => ?_⟩
          · rcases Nat.lt_succ_iff_lt_or_eq.1 hj with h1 | rfl
            · exact h.le j h1
            · exact not_lt.1 hp
          · rcases h.attained with h1 | ⟨j, h1, h2, h3, h4⟩
            · exact Or.inl h1
            · exact Or.inr ⟨j, by omega, h2, h3, h4⟩
          · rcases h.arg hd with h1 | ⟨h1, h2⟩
            · exact Or.inl h1
            · exact Or.inr ⟨by omega, h2⟩
          · rcases h.jlt with h1 | h1
            · exact Or.inl h1
            · exact Or.inr (by omega)
          · rcases Nat.lt_succ_iff_lt_or_eq.1 h2 with h4 | rfl
            · exact h.slopes hd j h1 h4 h3
            · by_contra hc
              exact hg ⟨h3, hd, not_le.1 hc⟩
    exact key

theorem forN_min (n : Nat) (f : Nat → K) (b : K) :
    (∀ i < n, forN n (fun m i => min (f i) m) b ≤ f i) ∧ forN n (fun m i => min (f i) m) b ≤ b ∧
    (forN n (fun m i => min (f i) m) b = b ∨ ∃ i < n, forN n (fun m i => min (f i) m) b = f i) := by
  induction n with
  | zero => simp
  | succ n ih =>
    obtain ⟨h1, h2, h3⟩ := ih
    rw [forN_succ]
    refine ⟨fun i hi => ?_, le_trans (min_le_right _ _) h2, ?_⟩
    · rcases Nat.lt_succ_iff_lt_or_eq.1 hi with h | rfl
      · exact le_trans (min_le_right _ _) (h1 i h)
      · exact min_le_left _ _
    · rcases min_choice (f n) (forN n (fun m i => min (f i) m) b) with h | h
      · rw [h]; exact Or.inr ⟨n, by omega, rfl⟩
      · rw [h]
        rcases h3 with h4 | ⟨i, hi, h4⟩
        · exact Or.inl h4
        · exact Or.inr ⟨i, by omega, h4⟩

/-- C82: the minimum pressure returned bounds every table entry from below, at every density and temperature, in both
modes; without the vapour-dome option it is never positive. -/
theorem C82_pmin_is_lower_bound (dv : K → K → K) (dome : Bool) (thresh big : K) (P : Nat → Nat → K) (rho : Nat → K)
    (NT NR : Nat) :
    (∀ i < NT, ∀ j < NR, (setRhoPMin dv dome thresh big P rho NT NR).1 ≤ P j i) ∧
    (dome = false → 0 < NT → (setRhoPMin dv dome thresh big P rho NT NR).1 ≤ 0) := by
  have hm := forN_min NT (fun i => (pminAtT dv dome thresh big (fun j => P j i) rho NR).1) big
  constructor
  · intro i hi j hj
    refine le_trans (hm.1 i hi) ?_
    have h := (pminInv dv dome thresh big (fun j => P j i) rho NR).le j hj
    unfold pminAtT; simp only
    split_ifs with hc
    · exact le_trans hc.1.le h
    · exact h
  · intro hd hN
    refine le_trans (hm.1 0 hN) ?_
    unfold pminAtT; simp only
    split_ifs with hc
    · exact le_rfl
    · by_contra hp
      exact hc ⟨not_le.1 hp, hd⟩

/-- C82: without the vapour-dome option, at each temperature the stored density is the lowest density at which the
pressure is minimal when that pressure is not positive, and zero when all pressures are positive. -/
theorem C82_density_of_minimum (dv : K → K → K) (thresh big : K) (P : Nat → Nat → K) (rho : Nat → K)
    (NT NR i : Nat) (hNR : 0 < NR) (hbig : ∀ j < NR, P j i < big) :
    let r := (setRhoPMin dv false thresh big P rho NT NR).2 i
    ((∀ j < NR, 0 < P j i) → r = 0) ∧
    ((∃ j < NR, P j i ≤ 0) → ∃ j < NR, r = rho j ∧ (∀ k < NR, P j i ≤ P k i) ∧ (∀ k < j, P j i < P k i)) := by
  have h := pminInv dv false thresh big (fun j => P j i) rho NR
  have hs : (setRhoPMin dv false thresh big P rho NT NR).2 i =
      (pminAtT dv false thresh big (fun j => P j i) rho NR).2 := rfl
  intro r
  have hne : (pminLoop dv false thresh big (fun j => P j i) rho NR).p ≠ big := by
    intro he
    have h1 := h.le 0 hNR
    have h2 := hbig 0 hNR
    rw [he] at h1
    exact absurd h2 (not_lt.2 h1)
  constructor
  · intro hp
    have : 0 < (pminLoop dv false thresh big (fun j => P j i) rho NR).p := by
      rcases h.attained with h1 | ⟨j, h1, _, h3, _⟩
      · exact absurd h1 hne
      · rw [h3]; exact hp j h1
    show (setRhoPMin dv false thresh big P rho NT NR).2 i = 0
    rw [hs]; unfold pminAtT; simp [this]
  · rintro ⟨j, hj, hp⟩
    have hle : (pminLoop dv false thresh big (fun j => P j i) rho NR).p ≤ 0 := le_trans (h.le j hj) hp
    rcases h.arg rfl with h1 | ⟨h1, h2, h3⟩
    · exact absurd h1.1 hne
    · refine ⟨_, h1, ?_, fun k hk => ?_, fun k hk => ?_⟩
      · show (setRhoPMin dv false thresh big P rho NT NR).2 i = _
        rw [hs]; unfold pminAtT; simp [not_lt.2 hle]
      · rw [← h2]; exact h.le k hk
      · rw [← h2]; exact h3 k hk

/-- The sweep: nothing decreases, and entries become the running maximum from the right. -/
theorem domeSweep_spec (NT : Nat) (r : Nat → K) :
    (∀ i, r i ≤ domeSweep NT r i) ∧ (∀ i, i + 1 < NT → domeSweep NT r (i + 1) ≤ domeSweep NT r i) ∧
    (∀ i, ∃ k, i ≤ k ∧ (k < NT ∨ k = i) ∧ domeSweep NT r i = r k) := by
  have inv : ∀ n, n ≤ NT - 1 → ∀ q : Nat → K,
      q = forN n (fun r k => let i := NT - 2 - k
        if r i < r (i + 1) then Function.update r i (r (i + 1)) else r) r →
      (∀ i, r i ≤ q i) ∧ (∀ i, i + 1 < NT → NT - 1 - n ≤ i → q (i + 1) ≤ q i) ∧
      (∀ i, i + 1 + n < NT → q i = r i) ∧ (∀ i, ∃ k, i ≤ k ∧ (k < NT ∨ k = i) ∧ q i = r k) := by
    intro n
    induction n with
    | zero =>
      intro _ q hq
      subst hq
      exact ⟨fun i => le_rfl, fun i h1 h2 => by omega, fun i _ => rfl, fun i => ⟨i, le_rfl, Or.inr rfl, rfl⟩⟩
    | succ n ih =>
      intro hn q hq
      obtain ⟨a, b, c, d⟩ := ih (by omega) _ rfl
      rw [forN_succ] at hq
      generalize forN n (fun r k => let i := NT - 2 - k
        if r i < r (i + 1) then Function.update r i (r (i + 1)) else r) r = p at *
      simp only at hq
      split_ifs at hq with hc
      · subst hq
        refine ⟨fun i => ?_, fun i h1 h2 => ?_, fun i h1 => ?_, fun i => ?_⟩
        · by_cases hi : i = NT - 2 - n
          · subst hi; simp only [Function.update_self]; exact le_trans (a _) hc.le
          · rw [Function.update_of_ne hi]; exact a i
        · by_cases hi : i = NT - 2 - n
          · subst hi
            rw [Function.update_self, Function.update_of_ne (by omega)]
          · rw [Function.update_of_ne hi]
            by_cases hi' : i + 1 = NT - 2 - n
            · omega
            · rw [Function.update_of_ne hi']; exact b i h1 (by omega)
        · rw [Function.update_of_ne (by omega)]; exact c i (by omega)
        · by_cases hi : i = NT - 2 - n
          · subst hi
            obtain ⟨k, k1, k2, k3⟩ := d (NT - 2 - n + 1)
            exact ⟨k, by omega, by omega, by rw [Function.update_self]; exact k3⟩
          · rw [Function.update_of_ne hi]; exact d i
      · subst hq
        refine ⟨a, fun i h1 h2 => ?_, fun i h1 => c i (by omega), d⟩
        by_cases hi : i = NT - 2 - n
        · subst hi; exact not_lt.1 hc
        · exact b i h1 (by omega)
  obtain ⟨a, b, _, d⟩ := inv (NT - 1) le_rfl (domeSweep NT r) rfl
  exact ⟨a, fun i h => b i h (by omega), d⟩

/-- C82: with the vapour-dome option, the stored density never increases with temperature; and above it the pressure
has no two-point slope below the threshold, at every density of the grid beyond. -/
theorem C82_vapour_dome (dv : K → K → K) (thresh big : K) (P : Nat → Nat → K) (rho : Nat → K)
    (NT NR : Nat) (hrho : StrictMono rho) :
    let r := (setRhoPMin dv true thresh big P rho NT NR).2
    (∀ i, i + 1 < NT → r (i + 1) ≤ r i) ∧
    (∀ i < NT, ∀ j < NR, 1 < j → r i < rho j →
      thresh ≤ dv (P j i - P (j - 2) i) (rho j - rho (j - 2))) := by
  intro r
  obtain ⟨h1, h2, _⟩ := domeSweep_spec NT (fun i => (pminAtT dv true thresh big (fun j => P j i) rho NR).2)
  refine ⟨h2, fun i hi j hj h1j hlt => ?_⟩
  have h3 : rho (pminLoop dv true thresh big (fun j => P j i) rho NR).j < rho j := by
    refine lt_of_le_of_lt ?_ hlt
    have := h1 i
    simpa [pminAtT, r, setRhoPMin] using this
  exact (pminInv dv true thresh big (fun j => P j i) rho NR).slopes rfl j (hrho.lt_iff_lt.1 h3) hj h1j

/-- A table that exercises both branches: pressures `3, -1, 2` at the first temperature, all positive at the second. -/
example : (setRhoPMin (fun a b : ℚ => a / b) false 0 1000 (fun j i => if i = 0 then (if j = 1 then -1 else 2) else 5)
    (fun j => j) 2 3).1 = -1 ∧
    (setRhoPMin (fun a b : ℚ => a / b) false 0 1000 (fun j i => if i = 0 then (if j = 1 then -1 else 2) else 5)
    (fun j => j) 2 3).2 0 = 1 := by decide +kernel

end Verif.Spiner
