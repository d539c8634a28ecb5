import Verif.Model.DebugChecks
import Mathlib.Tactic.Linarith
import Mathlib.Tactic.NormNum
import Mathlib.Tactic.Positivity
import Mathlib.Tactic.FieldSimp

/-! # C127: the debug checks of the C interface -/

set_option linter.unusedSectionVars false

namespace Verif.Debug

/-- A usable number: zero, or finite, not subnormal, and small enough that `10^10` times it does not overflow. -/
def Usable (v : Dbl) : Prop := ∃ x : ℚ, v = .fin x ∧ (x = 0 ∨ (1 / 2 ^ 1022 ≤ |x| ∧ |10 ^ 10 * x| < 2 ^ 1024 - 2 ^ 970))

/-- Finite and positive, or `+∞`. -/
def Positive (v : Dbl) : Prop := v = .inf false ∨ ∃ x : ℚ, v = .fin x ∧ 0 < x

/-- Rounding keeps normal numbers normal: it is monotone and leaves the smallest normal numbers alone. -/
structure Rounds (rnd : ℚ → ℚ) : Prop where
  mono : Monotone rnd
  pos : rnd (1 / 2 ^ 1022) = 1 / 2 ^ 1022
  neg : rnd (-(1 / 2 ^ 1022)) = -(1 / 2 ^ 1022)

theorem minNormal_pos : 0 < minNormal := by unfold minNormal; positivity

theorem Rounds.pos' {rnd : ℚ → ℚ} (h : Rounds rnd) : rnd minNormal = minNormal := h.pos

theorem Rounds.neg' {rnd : ℚ → ℚ} (h : Rounds rnd) : rnd (-minNormal) = -minNormal := h.neg

theorem Rounds.keeps {rnd : ℚ → ℚ} (h : Rounds rnd) {y : ℚ} (hy : minNormal ≤ |y|) : minNormal ≤ |rnd y| := by
  rcases le_abs.1 hy with hy | hy
  · exact le_abs.2 (.inl (h.pos' ▸ h.mono hy))
  · refine le_abs.2 (.inr ?_)
    have := h.mono (show y ≤ -minNormal by linarith)
    rw [h.neg'] at this
    linarith

/-- C127: `bad_value` flags exactly NaN, the infinities, non-zero subnormal numbers, and numbers within `10^10` of overflow. -/
theorem C127_bad_value {rnd : ℚ → ℚ} (h : Rounds rnd) (v : Dbl) : badValue rnd v = true ↔ ¬ Usable v := by
  have key : isNormalOrZero rnd v = true ↔ Usable v := by
    cases v with
    | nan => simp [isNormalOrZero, timesFactor, isNormal, Usable]
    | inf n => simp [isNormalOrZero, timesFactor, isNormal, Usable]
    | fin x =>
      simp only [isNormalOrZero, timesFactor, Usable, Dbl.fin.injEq, Bool.or_eq_true, decide_eq_true_eq, Bool.and_eq_true,
        exists_eq_left']
      refine or_congr_right ?_
      rw [← overflow, ← minNormal]
      by_cases ho : overflow ≤ |10 ^ 10 * x|
      · rw [if_pos ho]
        simp only [isNormal, Bool.false_eq_true, false_and, false_iff, not_and, not_lt]
        exact fun _ => ho
      · simp only [ho, if_false, isNormal, decide_eq_true_eq, not_le.1 ho, and_true]
        refine ⟨fun h => h.2, fun hx => ⟨h.keeps ?_, hx⟩⟩
        rw [abs_mul]
        have : (1 : ℚ) ≤ |10 ^ 10| := by norm_num
        nlinarith [abs_nonneg x]
  rw [← key, badValue, violates]
  cases isNormalOrZero rnd v <;> simp

/-- C127: `non_positive_value` flags exactly what is not positive, NaN included. -/
theorem C127_non_positive_value (v : Dbl) : nonPositiveValue v = true ↔ ¬ Positive v := by
  cases v with
  | nan => simp [nonPositiveValue, violates, isStrictlyPositive, Positive]
  | inf n => cases n <;> simp [nonPositiveValue, violates, isStrictlyPositive, Positive]
  | fin x => simp [nonPositiveValue, violates, isStrictlyPositive, Positive]

/-- C127 is violated: `negative_value` says that zero is negative; it is the same test as `non_positive_value`. -/
theorem C127_negative_value_violated : negativeValue (.fin 0) = true ∧ ∀ v, negativeValue v = nonPositiveValue v := by
  exact ⟨by decide +kernel, fun _ => rfl⟩

theorem forN_any (n : Nat) (f : Bool → Nat → Bool) (p : Nat → Prop)
    (hf : ∀ any m, f any m = true ↔ any = true ∨ p m) : forN n f false = true ↔ ∃ m < n, p m := by
  induction n with
  | zero => simp [forN]
  | succ n ih =>
    rw [forN, hf, ih]
    constructor
    · rintro (⟨m, hm, h⟩ | h)
      · exact ⟨m, by omega, h⟩
      · exact ⟨n, by omega, h⟩
    · rintro ⟨m, hm, h⟩
      rcases Nat.lt_succ_iff_lt_or_eq.1 hm with hm | rfl
      · exact .inl ⟨m, hm, h⟩
      · exact .inr h

/-- C127: a debug build stops on input exactly when some mass fraction (after normalisation), the pressure, the energy or the
specific volume is unusable. -/
theorem C127_input {rnd : ℚ → ℚ} (h : Rounds rnd) (nmat : Nat) (c : CellIn) :
    checkInput rnd nmat c = false ↔
      (∀ m < nmat, Usable (c.fracMass m)) ∧ Usable c.press ∧ Usable c.sie ∧ Usable c.spvol := by
  have h1 : ∀ v, badValue rnd v = false ↔ Usable v := fun v => by
    have := C127_bad_value h v
    cases hb : badValue rnd v <;> simp_all
  have h2 : forN nmat (fun any m => any || badValue rnd (c.fracMass m)) false = false ↔ ∀ m < nmat, Usable (c.fracMass m) := by
    rw [← Bool.not_eq_true, forN_any nmat _ (fun m => ¬ Usable (c.fracMass m))
      (fun any m => by rw [Bool.or_eq_true, C127_bad_value h])]
    push Not
    rfl
  simp only [checkInput, Bool.or_eq_false_iff, h1, h2, and_assoc]

/-- What a debug build requires of the material at a position of the PTE list. -/
structure MaterialOk (doBmod doCv doDpde : Bool) (c : CellOut) (mp : Nat) : Prop where
  mass : Usable (c.fracMass mp) ∧ Positive (c.fracMass mp)
  energy : Usable (c.fracIe mp)
  volume : Usable (c.fracVol mp) ∧ Positive (c.fracVol mp)
  bmod : doBmod = true → Usable (c.fracBmod mp) ∧ Positive (c.fracBmod mp)
  cv : doCv = true → Usable (c.fracCv mp) ∧ Positive (c.fracCv mp)
  dpde : doDpde = true → Usable (c.fracDpde mp) ∧ Positive (c.fracDpde mp)

theorem checkMaterial_iff {rnd : ℚ → ℚ} (h : Rounds rnd) (b cv d : Bool) (c : CellOut) (any : Bool) (mp : Nat) :
    checkMaterial rnd b cv d c any mp = true ↔ any = true ∨ ¬ MaterialOk b cv d c mp := by
  have h1 : ∀ v, badValue rnd v = false ↔ Usable v := fun v => by
    have := C127_bad_value h v
    cases hb : badValue rnd v <;> simp_all
  have h2 : ∀ v, nonPositiveValue v = false ↔ Positive v := fun v => by
    have := C127_non_positive_value v
    cases hb : nonPositiveValue v <;> simp_all
  have h3 : ∀ v, negativeValue v = false ↔ Positive v := h2
  have hf : checkMaterial rnd b cv d c any mp = false ↔ any = false ∧ MaterialOk b cv d c mp := by
    have hm : MaterialOk b cv d c mp ↔ (Usable (c.fracMass mp) ∧ Positive (c.fracMass mp)) ∧ Usable (c.fracIe mp) ∧
        (Usable (c.fracVol mp) ∧ Positive (c.fracVol mp)) ∧
        (b = true → Usable (c.fracBmod mp) ∧ Positive (c.fracBmod mp)) ∧
        (cv = true → Usable (c.fracCv mp) ∧ Positive (c.fracCv mp)) ∧
        (d = true → Usable (c.fracDpde mp) ∧ Positive (c.fracDpde mp)) :=
      ⟨fun ⟨a1, a2, a3, a4, a5, a6⟩ => ⟨a1, a2, a3, a4, a5, a6⟩, fun ⟨a1, a2, a3, a4, a5, a6⟩ => ⟨a1, a2, a3, a4, a5, a6⟩⟩
    rw [hm]
    cases b <;> cases cv <;> cases d <;>
      simp only [checkMaterial, Bool.false_eq_true, if_false, if_true, Bool.or_eq_false_iff, h1, h2, h3, true_imp_iff,
        false_imp_iff, and_true] <;> tauto
  cases hc : checkMaterial rnd b cv d c any mp
  · have := hf.1 hc
    simp [this.1, this.2]
  · simp only [true_iff]
    by_contra hn
    push Not at hn
    have := hf.2 ⟨by simpa using hn.1, hn.2⟩
    simp [this] at hc

/-- C127: a debug build lets a result through exactly when every participating material has usable, positive mass fraction and
volume, usable energy, and (where requested) usable positive bulk modulus, heat capacity and Gruneisen parameter, and the
cell has usable pressure and energy and usable positive temperature, bulk modulus, heat capacity and Gruneisen
parameter. -/
theorem C127_output {rnd : ℚ → ℚ} (h : Rounds rnd) (npte : Nat) (b cv d : Bool) (c : CellOut) :
    checkOutput rnd npte b cv d c = false ↔
      (∀ mp < npte, MaterialOk b cv d c mp) ∧ Usable c.press ∧ (Usable c.temp ∧ Positive c.temp) ∧ Usable c.sie ∧
      (Usable c.bmod ∧ Positive c.bmod) ∧ (Usable c.cv ∧ Positive c.cv) ∧ (Usable c.dpde ∧ Positive c.dpde) := by
  have h1 : ∀ v, badValue rnd v = false ↔ Usable v := fun v => by
    have := C127_bad_value h v
    cases hb : badValue rnd v <;> simp_all
  have h2 : ∀ v, nonPositiveValue v = false ↔ Positive v := fun v => by
    have := C127_non_positive_value v
    cases hb : nonPositiveValue v <;> simp_all
  have h3 : ∀ v, negativeValue v = false ↔ Positive v := h2
  have h4 : forN npte (checkMaterial rnd b cv d c) false = false ↔ ∀ mp < npte, MaterialOk b cv d c mp := by
    rw [← Bool.not_eq_true, forN_any npte _ (fun m => ¬ MaterialOk b cv d c m) (checkMaterial_iff h b cv d c)]
    push Not
    rfl
  simp only [checkOutput, Bool.or_eq_false_iff, h1, h2, h3, h4]
  tauto

/-- An ordinary value. -/
theorem usable_of {x : ℚ} (h1 : 1 ≤ x) (h2 : x ≤ 10 ^ 100) : Usable (.fin x) := by
  refine ⟨x, rfl, .inr ⟨?_, ?_⟩⟩
  · rw [abs_of_pos (by linarith)]
    exact le_trans ((div_le_one (by positivity)).2 (one_le_pow₀ (by norm_num))) h1
  · rw [abs_of_pos (by linarith)]
    have h3 : (10 : ℚ) ^ 10 * x ≤ 10 ^ 110 := by nlinarith
    have h4 : (10 : ℚ) ^ 110 < 2 ^ 970 := by
      calc (10 : ℚ) ^ 110 < 2 ^ 200 * 2 ^ 200 := by norm_num
        _ = 2 ^ 400 := by rw [← pow_add]
        _ ≤ 2 ^ 970 := pow_le_pow_right₀ (by norm_num) (by norm_num)
    have h5 : (2 : ℚ) ^ 970 * 2 ≤ 2 ^ 1024 := by
      rw [← pow_succ]
      exact pow_le_pow_right₀ (by norm_num) (by norm_num)
    have h6 : (0 : ℚ) < 2 ^ 970 := by positivity
    generalize (2 : ℚ) ^ 970 = A at *
    generalize (2 : ℚ) ^ 1024 = B at *
    linarith

/-- C127: rounding to the nearest double, here no rounding at all, meets the hypothesis; and a cell of ordinary values
passes. -/
example : Rounds id ∧ checkOutput id 2 true true true
    ⟨fun _ => .fin 1, fun _ => .fin 10, fun _ => .fin 3, fun _ => .fin 4, fun _ => .fin 5, fun _ => .fin 6,
     .fin 7, .fin 300, .fin 9, .fin 10, .fin 11, .fin 12⟩ = false := by
  have hr : Rounds id := ⟨monotone_id, rfl, rfl⟩
  refine ⟨hr, (C127_output hr 2 true true true _).2 ⟨fun mp _ => ⟨⟨?_, ?_⟩, ?_, ⟨?_, ?_⟩, fun _ => ⟨?_, ?_⟩, fun _ => ⟨?_, ?_⟩,
    fun _ => ⟨?_, ?_⟩⟩, ?_, ⟨?_, ?_⟩, ?_, ⟨?_, ?_⟩, ⟨?_, ?_⟩, ⟨?_, ?_⟩⟩⟩
  all_goals first | exact usable_of (by norm_num) (by norm_num) | exact .inr ⟨_, rfl, by norm_num⟩

/-- C127 is violated: a legitimate cold state stops a debug build, whatever the other values: temperature zero, or the zero heat
capacity a table gives on its cold curve, or a zero Gruneisen parameter, requested per material. -/
theorem C127_cold_state_violated {rnd : ℚ → ℚ} (h : Rounds rnd) (npte : Nat) (b cv d : Bool) (c : CellOut)
    (hc : c.temp = .fin 0 ∨ (cv = true ∧ ∃ mp < npte, c.fracCv mp = .fin 0) ∨
      (d = true ∧ ∃ mp < npte, c.fracDpde mp = .fin 0)) : checkOutput rnd npte b cv d c = true := by
  have h0 : ¬ Positive (.fin 0) := by simp [Positive]
  by_contra hn
  obtain ⟨hm, -, ht, -⟩ := (C127_output h npte b cv d c).1 (by simpa using hn)
  rcases hc with hc | ⟨hf, mp, hmp, hz⟩ | ⟨hf, mp, hmp, hz⟩
  · exact h0 (hc ▸ ht.2)
  · exact h0 (hz ▸ ((hm mp hmp).cv hf).2)
  · exact h0 (hz ▸ ((hm mp hmp).dpde hf).2)

end Verif.Debug
