import Verif.Lemmas.IeeeFinite
import Verif.Props.IeeeIdeal
import Verif.Lemmas.IeeeMono

/-! # C147: the PTE iteration on machine numbers -/

namespace Verif

open Ieee PTE Classical Rounding

/-! ## What a passed test vouches for -/

namespace Ieee

variable {rnd : ℝ → ℝ} {Ω : ℝ}

theorem sumNeumaier_fin {v : Nat → Ext} {n : Nat} (h : IsFin (sumNeumaierE rnd Ω v n)) : ∀ m, m < n → IsFin (v m) := by
  intro m hm
  exact IsFin.of_sumNeumaierE (op := id) (offset := 0) h m hm

/-- Filling consecutive entries. -/
theorem forN_update_lt (f : Nat → Ext) (base : Nat) (r : Nat → Ext) : ∀ n i, i < base →
    forN n (fun r m => Function.update r (base + m) (f m)) r i = r i := by
  intro n
  induction n with
  | zero => intros; rfl
  | succ n ih =>
    intro i hi
    rw [forN_succ, Function.update_of_ne (by omega)]
    exact ih i hi

theorem forN_update_ge (f : Nat → Ext) (base : Nat) (r : Nat → Ext) : ∀ n i, i < n →
    forN n (fun r m => Function.update r (base + m) (f m)) r (base + i) = f i := by
  intro n
  induction n with
  | zero => intro i h; omega
  | succ n ih =>
    intro i hi
    rw [forN_succ]
    by_cases h : i = n
    · subst h; rw [Function.update_self]
    · rw [Function.update_of_ne (by omega)]; exact ih i (by omega)

theorem forN_update_hi (f : Nat → Ext) (base : Nat) (r : Nat → Ext) : ∀ n i, base + n ≤ i →
    forN n (fun r m => Function.update r (base + m) (f m)) r i = r i := by
  intro n
  induction n with
  | zero => intros; rfl
  | succ n ih =>
    intro i hi
    rw [forN_succ, Function.update_of_ne (by omega)]
    exact ih i (by omega)

/-- The slots of the RhoT residual: entry 0 untouched, entry `m + 1` for materials before the left-out one, `m` after it. -/
theorem skipFillE (f : Nat → Ext) (ms : Nat) (r : Nat → Ext) : ∀ n,
    let s := forN n (fun (s : Nat × (Nat → Ext)) m => if m = ms then s else (s.1 + 1, Function.update s.2 s.1 (f m))) (1, r)
    s.1 = (if ms < n then n else n + 1) ∧ s.2 0 = r 0 ∧
      ∀ m, m < n → m ≠ ms → s.2 (if m < ms then m + 1 else m) = f m := by
  intro n
  induction n with
  | zero => exact ⟨by simp, rfl, fun m h => by omega⟩
  | succ n ih =>
    dsimp only at ih ⊢
    rw [forN_succ]
    obtain ⟨h1, h2, h3⟩ := ih
    by_cases hn : n = ms
    · rw [if_pos hn]
      refine ⟨?_, h2, fun m hm hne => h3 m (by omega) hne⟩
      rw [h1]
      subst hn
      rw [if_neg (by omega), if_pos (by omega)]
    · rw [if_neg hn]
      refine ⟨?_, ?_, ?_⟩
      · dsimp only; rw [h1]; split_ifs <;> omega
      · dsimp only
        rw [Function.update_of_ne, h2]
        rw [h1]; split_ifs <;> omega
      · intro m hm hne
        dsimp only
        by_cases hmn : m = n
        · subst hmn
          have : (if m < ms then m + 1 else m) = (forN m (fun (s : Nat × (Nat → Ext)) m =>
              if m = ms then s else (s.1 + 1, Function.update s.2 s.1 (f m))) (1, r)).1 := by
            rw [h1]; split_ifs <;> omega
          rw [this, Function.update_self]
        · rw [Function.update_of_ne, h3 m (by omega) hne]
          rw [h1]; split_ifs <;> omega

end Ieee

variable {rnd : ℝ → ℝ} {Ω : ℝ}

/-- C147, RhoT: a test that passes, with any tolerances, means that every energy is a finite number and, with two or more
materials, that every pressure is. -/
theorem C147_rhoT_check_finite (rnd : ℝ → ℝ) (Ω : ℝ) (t : TolE) {n ms : Nat} (hms : ms < n) (utot : Ext)
    (vfrac u press res : Nat → Ext) (h : rhoTCheckE rnd Ω t n vfrac press (rhoTResidualE rnd Ω n ms utot u press res)) :
    (∀ m, m < n → IsFin (u m)) ∧ (2 ≤ n → ∀ m, m < n → IsFin (press m)) := by
  obtain ⟨h1, h2⟩ := h
  obtain ⟨-, s2, s3⟩ := skipFillE (fun m => sub rnd Ω (press ms) (press m)) ms
    (Function.update res 0 (sub rnd Ω utot (sumNeumaierE rnd Ω u n))) n
  have hu : IsFin (rhoTResidualE rnd Ω n ms utot u press res 0) := isFin_of_abs_lt h2
  unfold rhoTResidualE at hu
  rw [s2, Function.update_self] at hu
  refine ⟨sumNeumaier_fin hu.of_sub.2, fun hn => ?_⟩
  have hr := IsFin.of_sumNeumaierE (isFin_of_smallE_sqrt h1)
  have hd : ∀ m, m < n → m ≠ ms → IsFin (sub rnd Ω (press ms) (press m)) := by
    intro m hm hne
    rw [← s3 m hm hne]
    by_cases hc : m < ms
    · rw [if_pos hc]
      exact isFin_of_sq (hr m (by omega))
    · rw [if_neg hc]
      have := isFin_of_sq (hr (m - 1) (by omega))
      rwa [Nat.sub_add_cancel (by omega)] at this
  intro m hm
  by_cases hne : m = ms
  · subst hne
    by_cases h0 : m = 0
    · exact (hd 1 (by omega) (by omega)).of_sub.1
    · exact (hd 0 (by omega) (by omega)).of_sub.1
  · exact (hd m hm hne).of_sub.2

/-- C147, PT: a test that passes means that every volume fraction and every energy is a finite number. -/
theorem C147_pt_check_finite (rnd : ℝ → ℝ) (Ω : ℝ) (t : TolE) {n : Nat} (vt utot : Ext) (vfrac u res : Nat → Ext)
    (h : ptCheckE t (ptResidualE rnd Ω n vt utot vfrac u res)) : ∀ m, m < n → IsFin (vfrac m) ∧ IsFin (u m) := by
  obtain ⟨h1, h2⟩ := h
  have hv := isFin_of_abs_lt h1
  have hu := isFin_of_abs_lt h2
  unfold ptResidualE at hv hu
  rw [Function.update_of_ne (by omega), Function.update_self] at hv
  rw [Function.update_self] at hu
  exact fun m hm => ⟨sumNeumaier_fin hv.of_sub.2 m hm, sumNeumaier_fin hu.of_sub.2 m hm⟩

/-- C147, FixedT: a test that passes means that every volume fraction is a finite number and, with two or more materials, that
every pressure is. -/
theorem C147_fixedT_check_finite (rnd : ℝ → ℝ) (Ω : ℝ) (t : TolE) {n : Nat} (vt : Ext) (vfrac press res : Nat → Ext)
    (h : fixedTCheckE rnd Ω t n vfrac press (fixedTResidualE rnd Ω n vt vfrac press res)) :
    (∀ m, m < n → IsFin (vfrac m)) ∧ (2 ≤ n → ∀ m, m < n → IsFin (press m)) := by
  obtain ⟨h1, h2⟩ := h
  have hv := isFin_of_abs_lt h2
  unfold fixedTResidualE at hv
  rw [forN_update_lt _ 1 _ _ 0 (by omega), Function.update_self] at hv
  refine ⟨sumNeumaier_fin hv.of_sub.2, fun hn => ?_⟩
  have hr := (isFin_of_smallE_sqrt h1).of_accE.2
  have hd : ∀ m, m + 1 < n → IsFin (sub rnd Ω (press m) (press (m + 1))) := by
    intro m hm
    have := isFin_of_sq (hr (1 + m) (by omega) (by omega))
    unfold fixedTResidualE at this
    rwa [forN_update_ge (fun m => sub rnd Ω (press m) (press (m + 1))) 1 _ _ m (by omega)] at this
  intro m hm
  by_cases hl : m + 1 < n
  · exact (hd m hl).of_sub.1
  · have := (hd (m - 1) (by omega)).of_sub.2
    rwa [Nat.sub_add_cancel (by omega)] at this

/-- C147, FixedP: a test that passes means that every volume fraction and every pressure is a finite number (the energy scale is
not negative: `mixed_cell_models.hpp:1760` makes it at least `1e-14`). -/
theorem C147_fixedP_check_finite (rnd : ℝ → ℝ) (Ω : ℝ) (t : TolE) {n : Nat} (vt P uscale : Ext) (hu : ¬ lt uscale (.fin 0))
    (vfrac press res : Nat → Ext)
    (h : fixedPCheckE rnd Ω t n uscale (fixedPResidualE rnd Ω n vt P uscale vfrac press res)) :
    ∀ m, m < n → IsFin (vfrac m) ∧ IsFin (press m) := by
  obtain ⟨h1, h2⟩ := h
  have hv := isFin_of_abs_lt h2
  unfold fixedPResidualE at hv
  rw [Function.update_self] at hv
  set S := forN n (fun a m => add rnd Ω a (sqE rnd Ω (fixedPResidualE rnd Ω n vt P uscale vfrac press res m))) (.fin 0) with hS
  have hfin : IsFin S := by
    by_contra hf
    have hs : sqrtE rnd S = .nan ∨ sqrtE rnd S = .inf false := by
      rcases hS' : S with _ | b | x
      · exact Or.inl rfl
      · cases b
        · exact Or.inr rfl
        · exact Or.inl rfl
      · exact absurd ⟨x, hS'⟩ hf
    have hm : mul rnd Ω (sqrtE rnd S) uscale = .nan ∨ mul rnd Ω (sqrtE rnd S) uscale = .inf false := by
      rcases hs with hs | hs <;> rw [hs]
      · left; cases uscale <;> rfl
      · rcases uscale with _ | b | y
        · exact Or.inl rfl
        · cases b
          · exact Or.inr rfl
          · exact absurd (show lt (.inf true) (.fin 0) from rfl) hu
        · have hy : ¬ y < 0 := hu
          simp only [mul]
          by_cases h0 : y = 0
          · rw [if_pos h0]; exact Or.inl rfl
          · rw [if_neg h0, decide_eq_false hy]; exact Or.inr rfl
    have hb : ∀ x y : Ext, (x = .nan ∨ x = .inf false) → ¬ lt x y := by
      rintro x y (rfl | rfl)
      · intro h; cases y <;> exact h.elim
      · intro h; rcases y with _ | b | b <;> simp [lt] at h
    exact h1.elim (hb _ _ hm) (hb _ _ hm)
  have hr := hfin.of_forN_add.2
  intro m hm
  refine ⟨sumNeumaier_fin hv.of_sub.2 m hm, ?_⟩
  have := isFin_of_sq (hr m hm)
  unfold fixedPResidualE at this
  rw [Function.update_of_ne (by omega)] at this
  have e := forN_update_ge (fun m => sub rnd Ω (ratio rnd Ω P uscale) (press m)) 0 res n m hm
  simp only [Nat.zero_add] at e
  rw [e] at this
  exact this.of_sub.2

/-- C147, RhoU: with two or more materials a test that passes means that every pressure and every temperature is a finite number.
Volume fractions and energies are not looked at (`C147_rhoU_check_nan_violated`). -/
theorem C147_rhoU_check_finite_partial (rnd : ℝ → ℝ) (Ω : ℝ) (t : TolE) {n : Nat} (hn : 2 ≤ n) (rhoTotal vt utot : Ext)
    (rhobar vfrac u press temp res : Nat → Ext)
    (h : rhoUCheckE rnd Ω t n rhoTotal rhobar vfrac press temp (rhoUResidualE rnd Ω n vt utot vfrac u press temp res)) :
    ∀ m, m < n → IsFin (press m) ∧ IsFin (temp m) := by
  obtain ⟨h1, h2⟩ := h
  have hp := (isFin_of_smallE_sqrt h1).of_accE.2
  have ht : ∀ m, 1 ≤ m → m < n → IsFin (sqE rnd Ω (rhoUResidualE rnd Ω n vt utot vfrac u press temp res (m + n))) := by
    rcases h2 with h2 | h2
    · exact (isFin_of_sqrt_lt h2).of_sqrt.of_accE.2
    · exact (isFin_of_sqrt_lt h2).of_sqrt.of_accE.2
  have dp : ∀ m, m + 1 < n → IsFin (sub rnd Ω (press (m + 1)) (press m)) := by
    intro m hm
    have := isFin_of_sq (hp (m + 1) (by omega) hm)
    unfold rhoUResidualE at this
    rw [show m + 1 + 1 = 2 + m by omega, forN_update_lt _ (n + 1) _ _ (2 + m) (by omega),
      forN_update_ge (fun m => sub rnd Ω (press (m + 1)) (press m)) 2 _ _ m (by omega)] at this
    exact this
  have dt : ∀ m, m + 1 < n → IsFin (sub rnd Ω (temp (1 + m)) (temp m)) := by
    intro m hm
    have := isFin_of_sq (ht (m + 1) (by omega) hm)
    unfold rhoUResidualE at this
    rw [show m + 1 + n = n + 1 + m by omega,
      forN_update_ge (fun k => sub rnd Ω (temp (1 + k)) (temp k)) (n + 1) _ _ m (by omega)] at this
    exact this
  intro m hm
  by_cases hl : m + 1 < n
  · exact ⟨(dp m hl).of_sub.2, (dt m hl).of_sub.2⟩
  · have a := (dp (m - 1) (by omega)).of_sub.1
    have b := (dt (m - 1) (by omega)).of_sub.1
    rw [Nat.sub_add_cancel (by omega)] at a
    rw [Nat.add_comm, Nat.sub_add_cancel (by omega)] at b
    exact ⟨a, b⟩

/-- C147 is violated for RhoU: the test with the default tolerances passes with every volume fraction and every energy NaN, as long
as pressures and temperatures agree. -/
theorem C147_rhoU_check_nan_violated (h : ToNearest 53 (-1074) rnd) (n : Nat) (p T : ℝ) (rhoTotal vt utot : Ext) (rhobar res : Nat → Ext) :
    rhoUCheckE rnd maxDouble (tolE tolDefault) n rhoTotal rhobar (fun _ => .nan) (fun _ => .fin p) (fun _ => .fin T)
      (rhoUResidualE rnd maxDouble n vt utot (fun _ => .nan) (fun _ => .nan) (fun _ => .fin p) (fun _ => .fin T) res) := by
  have z : ∀ x : ℝ, sub rnd maxDouble (.fin x) (.fin x) = .fin 0 := by
    intro x
    simp only [sub, neg, add]
    rw [show x + -x = 0 by ring, Ieee.ofReal_fin (by rw [rnd_zero h, abs_zero]; exact maxDouble_pos.le), rnd_zero h]
  have hz : ofReal rnd maxDouble 0 = .fin 0 := by
    rw [Ieee.ofReal_fin (by rw [rnd_zero h, abs_zero]; exact maxDouble_pos.le), rnd_zero h]
  have sq0 : sqE rnd maxDouble (.fin 0) = .fin 0 := by simp only [sqE, mul]; rw [mul_zero]; exact hz
  have sqrt0 : sqrtE rnd (.fin 0) = .fin 0 := by
    simp only [sqrtE]; rw [if_neg (lt_irrefl 0), Real.sqrt_zero, rnd_zero h]
  have acc0 : ∀ (n : Nat) (term : Nat → Ext), (∀ m, 1 ≤ m → m < n → term m = .fin 0) →
      accE rnd maxDouble n (.fin 0) term = .fin 0 := by
    intro n term ht
    unfold accE
    have : ∀ k, k ≤ n - 1 → forN k (fun a m => add rnd maxDouble a (term (m + 1))) (.fin 0) = .fin 0 := by
      intro k
      induction k with
      | zero => intro _; rfl
      | succ k ih =>
        intro hk
        rw [forN_succ, ih (by omega), ht (k + 1) (by omega) (by omega)]
        simp only [add]; rw [add_zero]; exact hz
    exact this _ le_rfl
  have rp : ∀ m, 1 ≤ m → m < n → rhoUResidualE rnd maxDouble n vt utot (fun _ => .nan) (fun _ => .nan) (fun _ => .fin p)
      (fun _ => .fin T) res (m + 1) = .fin 0 := by
    intro m h1 h2
    unfold rhoUResidualE
    dsimp only
    rw [show m + 1 = 2 + (m - 1) by omega, forN_update_lt _ (n + 1) _ _ (2 + (m - 1)) (by omega),
      forN_update_ge (fun _ => sub rnd maxDouble (.fin p) (.fin p)) 2 _ _ (m - 1) (by omega), z]
  have rt : ∀ m, 1 ≤ m → m < n → rhoUResidualE rnd maxDouble n vt utot (fun _ => .nan) (fun _ => .nan) (fun _ => .fin p)
      (fun _ => .fin T) res (m + n) = .fin 0 := by
    intro m h1 h2
    unfold rhoUResidualE
    dsimp only
    rw [show m + n = n + 1 + (m - 1) by omega,
      forN_update_ge (fun _ => sub rnd maxDouble (.fin T) (.fin T)) (n + 1) _ _ (m - 1) (by omega), z]
  unfold rhoUCheckE
  dsimp only
  rw [acc0 n _ (fun m h1 h2 => by rw [rp m h1 h2, sq0]), acc0 n _ (fun m h1 h2 => by rw [rt m h1 h2, sq0]), sqrt0]
  refine ⟨Or.inr ?_, Or.inr ?_⟩
  · show (0 : ℝ) < tolDefault.absP
    norm_num [tolDefault]
  · show (0 : ℝ) < tolDefault.absT
    norm_num [tolDefault]

/-- C147 is violated for one material: RhoT and FixedT do not look at its pressure at all, which may be NaN. -/
theorem C147_single_material_nan_violated (h : ToNearest 53 (-1074) rnd) (res : Nat → Ext) :
    rhoTCheckE rnd maxDouble (tolE tolDefault) 1 (fun _ => .fin 1) (fun _ => .nan)
      (rhoTResidualE rnd maxDouble 1 0 (.fin 1) (fun _ => .fin 1) (fun _ => .nan) res) ∧
    fixedTCheckE rnd maxDouble (tolE tolDefault) 1 (fun _ => .fin 1) (fun _ => .nan)
      (fixedTResidualE rnd maxDouble 1 (.fin 1) (fun _ => .fin 1) (fun _ => .nan) res) := by
  have hz : ofReal rnd maxDouble 0 = .fin 0 := by
    rw [Ieee.ofReal_fin (by rw [rnd_zero h, abs_zero]; exact maxDouble_pos.le), rnd_zero h]
  have f1 : IsFloat 53 (-1074) 1 := ⟨1, 0, by norm_num, by norm_num, by norm_num⟩
  have h1 : ofReal rnd maxDouble 1 = .fin 1 := by
    have e : rnd 1 = 1 := h.exact f1
    rw [Ieee.ofReal_fin (by rw [e, abs_one]; exact le_trans (by norm_num) maxDouble_large), e]
  have s1 : sumNeumaierE rnd maxDouble (fun _ => .fin 1) 1 = .fin 1 := by
    unfold sumNeumaierE
    rw [forN_succ, forN_zero]
    dsimp only [id]
    have a1 : add rnd maxDouble (.fin 0) (.fin 1) = .fin 1 := by simp only [add]; rw [zero_add]; exact h1
    have a2 : add rnd maxDouble (.fin 1) (.fin 0) = .fin 1 := by simp only [add]; rw [add_zero]; exact h1
    have a3 : sub rnd maxDouble (.fin 1) (.fin 1) = .fin 0 := by
      simp only [sub, neg, add]; rw [show (1 : ℝ) + -1 = 0 by ring]; exact hz
    have a4 : add rnd maxDouble (.fin 0) (.fin 0) = .fin 0 := by simp only [add]; rw [zero_add]; exact hz
    rw [if_neg (by rintro ⟨h, -⟩; omega), if_neg (show ¬ le (absE (.fin 1)) (absE (.fin 0)) from by simp [le, absE])]
    dsimp only
    rw [a1, a3, a4, a4, a2]
  have d : sub rnd maxDouble (.fin 1) (.fin 1) = .fin 0 := by
    simp only [sub, neg, add]; rw [show (1 : ℝ) + -1 = 0 by ring]; exact hz
  have sq : sqrtE rnd (.fin 0) = .fin 0 := by
    simp only [sqrtE]; rw [if_neg (lt_irrefl 0), Real.sqrt_zero, rnd_zero h]
  have a4 : add rnd maxDouble (.fin 0) (.fin 0) = .fin 0 := by simp only [add]; rw [zero_add]; exact hz
  constructor
  · refine ⟨Or.inr ?_, ?_⟩
    · have : sumNeumaierE rnd maxDouble (rhoTResidualE rnd maxDouble 1 0 (.fin 1) (fun _ => .fin 1) (fun _ => .nan) res) (1 - 1) 1 (-1)
          (sqE rnd maxDouble) = .fin 0 := a4
      rw [this, sq]
      show (0 : ℝ) < tolDefault.absP
      norm_num [tolDefault]
    · have : rhoTResidualE rnd maxDouble 1 0 (.fin 1) (fun _ => .fin 1) (fun _ => .nan) res 0 = .fin 0 := by
        unfold rhoTResidualE
        rw [forN_succ, forN_zero, if_pos rfl]
        dsimp only
        rw [Function.update_self, s1, d]
      rw [this]
      show |(0 : ℝ)| < tolDefault.relE
      norm_num [tolDefault]
  · refine ⟨Or.inr ?_, ?_⟩
    · have : accE rnd maxDouble 1 (.fin 0) (fun m => sqE rnd maxDouble
          (fixedTResidualE rnd maxDouble 1 (.fin 1) (fun _ => .fin 1) (fun _ => .nan) res m)) = .fin 0 := rfl
      rw [this, sq]
      show (0 : ℝ) < tolDefault.absP
      norm_num [tolDefault]
    · have : fixedTResidualE rnd maxDouble 1 (.fin 1) (fun _ => .fin 1) (fun _ => .nan) res 0 = .fin 0 := by
        unfold fixedTResidualE
        rw [show 1 - 1 = 0 from rfl, forN_zero, Function.update_self, s1, d]
      rw [this]
      show |(0 : ℝ)| < tolDefault.relV
      norm_num [tolDefault]

/-! ## The residual norm -/

/-- C147: the residual norm of `ResidualNorm` is NaN as soon as one residual is not finite or its square overflows: the compensated
sum turns an overflow into NaN. -/
theorem C147_norm_nan (rnd : ℝ → ℝ) (Ω : ℝ) (residual : Nat → Ext) {n i : Nat} (hi : i < n)
    (h : ¬ IsFin (mul rnd Ω (residual i) (residual i))) : residualNormE rnd Ω residual n = .nan := by
  unfold residualNormE
  rw [sumNeumaierE_nan (i := i) hi h]
  rfl

/-- For `double`, a residual of `2^600` is enough. -/
example (h : ToNearest 53 (-1074) rnd) : ¬ IsFin (mul rnd maxDouble (.fin (2 ^ 600)) (.fin (2 ^ 600))) := by
  have hb : maxDouble < 2 ^ 1200 := by
    unfold maxDouble
    have e : (2 : ℝ) ^ 1200 = 2 ^ 229 * 2 ^ 971 := by rw [← pow_add]
    rw [e]
    exact mul_lt_mul_of_pos_right (by norm_num) (by positivity)
  have : (2 : ℝ) ^ 1200 ≤ rnd (2 ^ 600 * 2 ^ 600) :=
    rnd_ge h ⟨1, 1200, by norm_num, by norm_num, by rw [Int.cast_one, one_mul]; exact_mod_cast (zpow_natCast (2 : ℝ) 1200).symm⟩
      (by rw [← pow_add])
  simp only [mul, ofReal]
  rw [if_pos (lt_of_lt_of_le hb (le_trans this (le_abs_self _)))]
  exact not_isFin_inf _

end Verif
