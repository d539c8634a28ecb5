import Verif.Model.Examples
import Verif.Props.RootFind
import Verif.Props.PTEDriver
import Mathlib.Tactic.Ring
import Mathlib.Tactic.Linarith
import Mathlib.Tactic.FieldSimp
import Mathlib.Tactic.NormNum

/-! # C143: the example programs -/

namespace Verif.Examples

open RootFind Robust

variable {K : Type*} [Field K] [LinearOrder K]

/-! ## eos_grid -/

theorem row_apply {K : Type*} (b n : Nat) (f : Nat → K) (m : Nat → K) (x : Nat) :
    forN n (fun m i => Function.update m (b + i) (f i)) m x = if b ≤ x ∧ x < b + n then f (x - b) else m x := by
  induction n with
  | zero => simp
  | succ n ih =>
    rw [forN_succ, Function.update_apply, ih]
    by_cases h : x = b + n
    · subst h; simp
    · rw [if_neg h]
      by_cases h2 : b ≤ x ∧ x < b + n
      · rw [if_pos h2, if_pos (by omega)]
      · rw [if_neg h2, if_neg (by omega)]

theorem deviceGrid_apply (nrho nT : Nat) (P : K → K → K) (rhos Ts mem : Nat → K) (x : Nat) :
    deviceGrid nrho nT P rhos Ts mem x
      = if x < nrho * nT then P (rhos (x / nT)) (Ts (x % nT)) else mem x := by
  unfold deviceGrid
  induction nrho with
  | zero => simp
  | succ n ih =>
    rw [forN_succ, row_apply (n * nT) nT (fun i => P (rhos n) (Ts i)), ih]
    have e : (n + 1) * nT = n * nT + nT := by ring
    by_cases h : n * nT ≤ x ∧ x < n * nT + nT
    · rw [if_pos h, if_pos (by omega)]
      have hd : x / nT = n := by
        rw [Nat.div_eq_of_lt_le] <;> [exact h.1; (rw [e]; exact h.2)]
      have hm : x % nT = x - n * nT := by
        have := Nat.div_add_mod x nT
        rw [hd, mul_comm] at this; omega
      rw [hd, hm]
    · rw [if_neg h]
      by_cases h2 : x < n * nT
      · rw [if_pos h2, if_pos (by omega)]
      · rw [if_neg h2, if_neg (by omega)]

/-- C143: the device loop of `eos_grid` fills entry `(j, i)` of the table with the pressure at density `j` and temperature `i`, and
writes nothing outside the table. -/
theorem C143_grid_device (nrho nT : Nat) (P : K → K → K) (rhos Ts mem : Nat → K) :
    (∀ j i, j < nrho → i < nT → deviceGrid nrho nT P rhos Ts mem (j * nT + i) = P (rhos j) (Ts i)) ∧
    (∀ x, nrho * nT ≤ x → deviceGrid nrho nT P rhos Ts mem x = mem x) := by
  refine ⟨fun j i hj hi => ?_, fun x hx => ?_⟩
  · rw [deviceGrid_apply]
    have hlt : j * nT + i < nrho * nT := by
      have : (j + 1) * nT ≤ nrho * nT := Nat.mul_le_mul_right _ hj
      have e : (j + 1) * nT = j * nT + nT := by ring
      omega
    rw [if_pos hlt]
    have hp : 0 < nT := by omega
    rw [Nat.mul_comm j nT, Nat.mul_add_div hp, Nat.div_eq_of_lt hi, Nat.mul_add_mod, Nat.mod_eq_of_lt hi, add_zero]
  · rw [deviceGrid_apply, if_neg (by omega)]

/-- C143: the grid points run from the requested least to the requested greatest value, equally spaced in the logarithm. -/
theorem C143_grid_points (lo hi : ℝ) {n : Nat} (hn : 2 ≤ n) :
    gridPoint lo hi n 0 = (10 : ℝ) ^ lo ∧ gridPoint lo hi n (n - 1) = (10 : ℝ) ^ hi ∧
    ∀ i, gridPoint lo hi n (i + 1) = gridPoint lo hi n i * (10 : ℝ) ^ ((hi - lo) / (n - 1 : ℝ)) := by
  have h1 : (0 : ℝ) < (n : ℝ) - 1 := by
    have : (2 : ℝ) ≤ n := by exact_mod_cast hn
    linarith
  refine ⟨?_, ?_, fun i => ?_⟩
  · simp [gridPoint, Bounds.Grid.x]
  · unfold gridPoint Bounds.Grid.x
    congr 1
    push_cast [Nat.cast_sub (show 1 ≤ n by omega)]
    field_simp
    ring
  · unfold gridPoint Bounds.Grid.x
    rw [← Real.rpow_add (by norm_num)]
    congr 1
    push_cast
    ring

/-- C143: with as many densities as temperatures the host loop of `eos_grid` repeats the device loop and the table saved is right. -/
theorem C143_grid_saved_square (n : Nat) (P : K → K → K) (rhos Ts mem : Nat → K) {j i : Nat} (hj : j < n) (hi : i < n) :
    savedGrid n n P rhos Ts mem (j * n + i) = P (rhos j) (Ts i) :=
  (C143_grid_device n n P rhos Ts _).1 j i hj hi

theorem mem_hostAccesses {nrho nT : Nat} {a : Nat × Nat × Nat} :
    a ∈ hostAccesses nrho nT ↔ ∃ j i, j < nT ∧ i < nrho ∧ a = (j, i, j * nT + i) := by
  unfold hostAccesses
  simp only [List.mem_flatMap, List.mem_range, List.mem_map]
  constructor
  · rintro ⟨j, hj, i, hi, rfl⟩; exact ⟨j, i, hj, hi, rfl⟩
  · rintro ⟨j, i, hj, hi, rfl⟩; exact ⟨j, hj, i, hi, rfl⟩

/-- C143: every access of the host loop is inside its array exactly when there are as many densities as temperatures (the loop
limits are exchanged). -/
theorem C143_grid_host_in_range_iff {nrho nT : Nat} (hr : 0 < nrho) (ht : 0 < nT) :
    (∀ a ∈ hostAccesses nrho nT, a.1 < nrho ∧ a.2.1 < nT ∧ a.2.2 < nrho * nT) ↔ nrho = nT := by
  constructor
  · intro h
    have h1 := h (nT - 1, nrho - 1, (nT - 1) * nT + (nrho - 1)) (mem_hostAccesses.mpr ⟨_, _, by omega, by omega, rfl⟩)
    simp only at h1
    omega
  · rintro rfl a ha
    obtain ⟨j, i, hj, hi, rfl⟩ := mem_hostAccesses.mp ha
    refine ⟨hj, hi, ?_⟩
    have : (j + 1) * nrho ≤ nrho * nrho := Nat.mul_le_mul_right _ hj
    have e : (j + 1) * nrho = j * nrho + nrho := by ring
    simp only
    omega

/-- C143 is violated for a table with more temperatures than densities: the host loop writes behind the end of the table. -/
theorem C143_grid_overrun_violated {nrho nT : Nat} (hr : 0 < nrho) (h : nrho < nT) :
    ∃ a ∈ hostAccesses nrho nT, nrho * nT ≤ a.2.2 :=
  ⟨(nrho, 0, nrho * nT + 0), mem_hostAccesses.mpr ⟨nrho, 0, h, hr, rfl⟩, by simp⟩

theorem hostGrid_last (nrho nT : Nat) (P : K → K → K) (rhos Ts mem : Nat → K) {x : Nat} (ht : 0 < nT)
    (hx : (nT - 1) * nT ≤ x) (hx' : x < (nT - 1) * nT + nrho) :
    hostGrid nrho nT P rhos Ts mem x = P (rhos (nT - 1)) (Ts (x - (nT - 1) * nT)) := by
  obtain ⟨p, rfl⟩ : ∃ p, nT = p + 1 := ⟨nT - 1, by omega⟩
  simp only [Nat.add_sub_cancel] at hx hx' ⊢
  unfold hostGrid
  rw [forN_succ, row_apply (p * (p + 1)) nrho (fun i => P (rhos p) (Ts i)), if_pos ⟨hx, hx'⟩]

/-- C143 is violated for a table with more densities than temperatures: what is saved for density number `nT` and the lowest
temperature is the pressure at the density before it and at whatever memory holds behind the temperatures. -/
theorem C143_grid_saved_violated {nrho nT : Nat} (ht : 0 < nT) (h : nT < nrho) (P : K → K → K) (rhos Ts mem : Nat → K) :
    savedGrid nrho nT P rhos Ts mem (nT * nT + 0) = P (rhos (nT - 1)) (Ts nT) := by
  unfold savedGrid
  have e : nT * nT = (nT - 1) * nT + nT := by
    obtain ⟨p, rfl⟩ : ∃ p, nT = p + 1 := ⟨nT - 1, by omega⟩
    simp only [Nat.add_sub_cancel]; ring
  rw [hostGrid_last nrho nT P rhos Ts _ ht (by omega) (by omega)]
  congr 2
  omega

example : ∃ (P : ℚ → ℚ → ℚ) (rhos Ts : Nat → ℚ), (∀ x, 2 ≤ x → Ts x = 0) ∧
    savedGrid 3 2 P rhos Ts (fun _ => 0) (2 * 2 + 0) ≠ P (rhos 2) (Ts 0) := by
  refine ⟨fun r T => r * T, fun i => (i : ℚ) + 1, fun i => if i < 2 then 1 else 0, fun x hx => by simp; omega, ?_⟩
  rw [C143_grid_saved_violated (by norm_num) (by norm_num)]
  norm_num

/-! ## map_pt_space -/

/-- C143: a line of `map_pt_space` is either marked as failed (all entries `-1`), or: its temperature is in the search
interval, is the centre of an interval inside it over which the mixture's energy passes the requested total, and pressures and residuals are those
at that temperature. When the total energy is attained between the end temperatures, the search always ends. -/
theorem C143_map_row [IsStrictOrderedRing K] {σ : K} (e1 e2 p1 p2 : K → K → K) (rb1 rb2 sietot Tmin Tmax α : K)
    (h1 : Tmin ≤ 1500) (h2 : 1500 ≤ Tmax)
    (hbr : let f := fun T => rb1 * e1 (ratio σ rb1 α) T + rb2 * e2 (ratio σ rb2 (1 - α)) T - (rb1 + rb2) * sietot
      f Tmin * f Tmax ≤ 0) :
    ∃ r, mapRow σ e1 e2 p1 p2 rb1 rb2 sietot Tmin Tmax α = some r ∧ (r = failedRow ∨
      let utot := (rb1 + rb2) * sietot
      let rho1 := ratio σ rb1 α
      let rho2 := ratio σ rb2 (1 - α)
      (Tmin ≤ r.T ∧ r.T ≤ Tmax) ∧
      (∃ l h, Tmin ≤ l ∧ l ≤ h ∧ h ≤ Tmax ∧ r.T = (l + h) / 2 ∧
        (rb1 * e1 rho1 l + rb2 * e2 rho2 l - utot) * (rb1 * e1 rho1 h + rb2 * e2 rho2 h - utot) ≤ 0) ∧
      r.p1 = p1 rho1 r.T ∧ r.p2 = p2 rho2 r.T ∧ r.resV = 0 ∧
      r.resE = ratio σ (rb1 * e1 rho1 r.T + rb2 * e2 rho2 r.T - utot) utot ∧
      r.resP = ratio σ (r.p2 - r.p1) utot) := by
  obtain ⟨st, xroot, s, hs, hx, ha, hxa, hxb, hb, hsign, _, _⟩ :=
    C08_regulaFalsi_keeps_bracket (mixEnergy σ e1 e2 rb1 rb2 α) ((rb1 + rb2) * sietot) 1500 Tmin Tmax
      (1 / 10 ^ 16) (1 / 10 ^ 16) (by positivity) (by positivity) h1 h2 (Or.inl hbr)
  unfold mapRow
  simp only [hs]
  cases st with
  | fail => exact ⟨failedRow, rfl, Or.inl rfl⟩
  | success =>
    refine ⟨_, rfl, Or.inr ⟨⟨ha.trans hxa, hxb.trans hb⟩, ⟨s.a, s.b, ha, hxa.trans hxb, hb, hx, hsign⟩, rfl, rfl, ?_, rfl, rfl⟩⟩
    ring

theorem maxWalked_const (c : K) (n : Nat) : maxWalked (fun _ => c) n = c := by
  unfold maxWalked
  induction n with
  | zero => rfl
  | succ n ih => rw [forN_succ, ih, max_self]

/-- C143: the temperatures found are all within the grid drawn for the map. -/
theorem C143_map_range (Ts : Nat → K) (n : Nat) {i : Nat} (hi : i ≤ n) : Ts i ≤ maxWalked Ts n := by
  unfold maxWalked
  induction n with
  | zero => simp [show i = 0 by omega]
  | succ n ih =>
    rw [forN_succ]
    rcases Nat.lt_or_ge i (n + 1) with h | h
    · exact (ih (by omega)).trans (le_max_left _ _)
    · rw [show i = n + 1 by omega]; exact le_max_right _ _

/-- C143 is violated if the search fails for every volume fraction: the map of residuals is then drawn for temperatures from the
materials' minimum down to the mark `-1`. -/
theorem C143_map_all_failed_violated (Tmin : ℝ) (nv : Nat) (hn : 0 < nv) :
    Bounds.Grid.x ⟨Tmin, maxWalked (fun _ => (failedRow (K := ℝ)).T) (nv - 1), ((nv + 1 : Nat) : ℤ)⟩ (nv : ℤ) = -1 := by
  rw [maxWalked_const]
  unfold Bounds.Grid.x failedRow
  have : (nv : ℝ) ≠ 0 := by exact_mod_cast hn.ne'
  push_cast
  rw [add_sub_cancel_right]
  field_simp
  ring

/-! ## pte_2mat -/

/-- C143: for positive guesses `pte_2mat` starts the solver from volume fractions that are positive and sum to one, and from densities
with which each material has the mass given on the command line. -/
theorem C143_pte_start [IsStrictOrderedRing K] (rb1 rb2 : K) {a1 a2 : K} (h1 : 0 < a1) (h2 : 0 < a2) :
    let s := start2 rb1 rb2 a1 a2
    0 < s.1.1 ∧ 0 < s.1.2 ∧ s.1.1 + s.1.2 = 1 ∧ s.2.1 * s.1.1 = rb1 ∧ s.2.2 * s.1.2 = rb2 ∧ s.1.1 * a2 = s.1.2 * a1 := by
  have hs : 0 < a1 + a2 := add_pos h1 h2
  have n1 := h1.ne'
  have n2 := h2.ne'
  have n3 := hs.ne'
  refine ⟨div_pos h1 hs, div_pos h2 hs, ?_, ?_, ?_, ?_⟩ <;> simp only [start2] <;> field_simp

/-- C143: with the tolerances of `pte_2mat` the convergence test means: the two pressures agree to one part in `10^10` of the mean
pressure and the energies add up to the total to `10^-10` of it; and the relaxed test asks for the same. -/
theorem C143_pte_tolerances (vfrac u press res : Nat → ℝ) :
    (PTE.rhoTCheck tol2mat 2 vfrac press (PTE.rhoTResidual 2 0 1 u press res) →
      |u 0 + u 1 - 1| < 1 / 10 ^ 10 ∧
      |press 1 - press 0| < 1 / 10 ^ 10 * |vfrac 0 * press 0 + vfrac 1 * press 1|) ∧
    ∀ r, PTE.rhoTCheck suff2mat 2 vfrac press r ↔ PTE.rhoTCheck tol2mat 2 vfrac press r := by
  refine ⟨fun h => ?_, fun r => Iff.rfl⟩
  obtain ⟨h1, h2⟩ := PTE.C18_rhoT_meaning tol2mat (by norm_num) 1 vfrac u press res h
  have h3 := h2 1 (by norm_num) (by norm_num)
  simp only [Finset.sum_range_succ, Finset.sum_range_zero, zero_add, tol2mat] at h1 h3
  refine ⟨h1, ?_⟩
  rwa [max_eq_left (by positivity)] at h3

/-! ## get_sound_speed_press -/

/-- C143: the two ways of `get_sound_speed_press` give the same arrays for every EOS whose `FillEos` agrees with its single
queries: pressure and `sqrt(bulk modulus / density)` of each cell, at the energy per mass of that cell; nothing behind the last cell is written. -/
theorem C143_sound_speed (σ : ℝ) (P B : ℝ → ℝ → ℝ) (fillEos : ℝ → ℝ → ℝ × ℝ)
    (hf : ∀ r e, fillEos r e = (P r e, B r e)) (n : Nat) (rho uu p cs : Nat → ℝ) :
    fillCalls σ fillEos n rho uu p cs = singleCalls σ P B n rho uu p cs ∧
    ∀ i, (i < n → (singleCalls σ P B n rho uu p cs).1 i = P (rho i) (ratio σ (uu i) (rho i)) ∧
        (singleCalls σ P B n rho uu p cs).2 i = Real.sqrt (ratio σ (B (rho i) (ratio σ (uu i) (rho i))) (rho i))) ∧
      (n ≤ i → (singleCalls σ P B n rho uu p cs).1 i = p i ∧ (singleCalls σ P B n rho uu p cs).2 i = cs i) := by
  constructor
  · unfold fillCalls singleCalls
    congr 1
    funext s i
    simp only [hf, Function.update_self, Function.update_idem]
  · intro i
    induction n with
    | zero => exact ⟨by omega, fun _ => ⟨rfl, rfl⟩⟩
    | succ n ih =>
      obtain ⟨a, b⟩ := ih
      unfold singleCalls at a b ⊢
      rw [forN_succ]
      simp only [Function.update_apply]
      refine ⟨fun h => ?_, fun h => ?_⟩
      · by_cases he : i = n
        · subst he; simp
        · rw [if_neg he, if_neg he]; exact a (by omega)
      · rw [if_neg (by omega), if_neg (by omega)]; exact b (by omega)

/-- Non-vacuity: an ideal gas with `gamma = 8/5`, one cell of density 2 and energy density 5: pressure 3. -/
example : (fillCalls 0 (fun r e => (3 / 5 * r * e, 24 / 25 * r * e)) 1 (fun _ => 2) (fun _ => 5) (fun _ => 0) (fun _ => 0)).1 0 = 3 := by
  have h := C143_sound_speed 0 (fun r e => 3 / 5 * r * e) (fun r e => 24 / 25 * r * e) (fun r e => (3 / 5 * r * e, 24 / 25 * r * e))
    (fun _ _ => rfl) 1 (fun _ => 2) (fun _ => 5) (fun _ => 0) (fun _ => 0)
  rw [h.1, ((h.2 0).1 (by norm_num)).1]
  norm_num [ratio]

/-! ## Command lines -/

/-- C143: `get_sesame_state` and `get_spiner_bounds` never read an argument that is not there, and reject no command line that has all
arguments they read. -/
theorem C143_arguments_present (argc : Nat) :
    (cliState.need ≤ argc ↔ cliState.top < argc) ∧ (cliBounds.need ≤ argc ↔ cliBounds.top < argc) := by
  constructor <;> simp only [cliState, cliBounds] <;> omega

/-- C143 is violated: `pte_2mat`, `map_pt_space` and `eos_grid` accept command lines that lack the arguments of the EOS, and then read
past the end of the argument list. -/
theorem C143_arguments_missing_violated (argc : Nat) :
    ((cliPte2mat.need ≤ argc ∧ argc ≤ cliPte2mat.top) ↔ argc = 8 ∨ argc = 9 ∨ argc = 10) ∧
    ((cliMap.need ≤ argc ∧ argc ≤ cliMap.top) ↔ argc = 6 ∨ argc = 7 ∨ argc = 8) ∧
    ((cliGrid.need ≤ argc ∧ argc ≤ cliGrid.top) ↔ argc = 8 ∨ argc = 9) := by
  simp only [cliPte2mat, cliMap, cliGrid]
  omega

end Verif.Examples
