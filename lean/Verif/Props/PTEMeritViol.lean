import Verif.Props.PTEMerit
import Verif.Props.PTEFullViol

/-! # C136: what zero merit means, the stale residual of `PTESolverRhoT`, and the pressure `GetTguess` samples at -/

set_option linter.unusedSectionVars false

namespace Verif.PTE

open Robust

/-- The RhoT merit is zero exactly when the energies add up and all pressures agree. -/
theorem C136_zero_rhoT {n k : Nat} (hk : k < n) (ut : ℝ) (u p : Nat → ℝ) :
    meritUP n k ut u p = 0 ↔ ∑ m ∈ Finset.range n, u m = ut ∧ ∀ i j, i < n → j < n → p i = p j := by
  have hs : 0 ≤ ∑ m ∈ Finset.range n, (p k - p m) ^ 2 := Finset.sum_nonneg fun _ _ => sq_nonneg _
  unfold meritUP
  constructor
  · intro h
    have h1 : (ut - ∑ m ∈ Finset.range n, u m) ^ 2 = 0 := by nlinarith [sq_nonneg (ut - ∑ m ∈ Finset.range n, u m)]
    have h2 : ∑ m ∈ Finset.range n, (p k - p m) ^ 2 = 0 := by nlinarith
    rw [Finset.sum_eq_zero_iff_of_nonneg fun _ _ => sq_nonneg _] at h2
    have h3 : ∀ i, i < n → p i = p k := fun i hi => by
      have := h2 i (by simpa using hi)
      rw [sq_eq_zero_iff] at this
      linarith
    exact ⟨by rw [sq_eq_zero_iff] at h1; linarith, fun i j hi hj => by rw [h3 i hi, h3 j hj]⟩
  · rintro ⟨h1, h2⟩
    rw [h1, Finset.sum_eq_zero fun m hm => by rw [h2 k m hk (by simpa using hm), sub_self, sq, mul_zero]]
    ring

theorem chain_eq {n : Nat} {p : Nat → ℝ} (h : ∀ m, m + 1 < n → p (m + 1) = p m) : ∀ i j, i < n → j < n → p i = p j := by
  have h0 : ∀ i, i < n → p i = p 0 := by
    intro i
    induction i with
    | zero => intro _; rfl
    | succ i ih => intro hi; rw [h i hi, ih (by omega)]
  exact fun i j hi hj => by rw [h0 i hi, h0 j hj]

/-- The RhoU merit is zero exactly when the volumes fill the cell, the energies add up, and all pressures and temperatures
agree. -/
theorem C136_zero_rhoU {n : Nat} (vt ut : ℝ) (v u p t : Nat → ℝ) :
    meritAll n vt ut v u p t = 0 ↔ ∑ m ∈ Finset.range n, v m = vt ∧ ∑ m ∈ Finset.range n, u m = ut ∧
      (∀ i j, i < n → j < n → p i = p j) ∧ ∀ i j, i < n → j < n → t i = t j := by
  have hs : 0 ≤ ∑ m ∈ Finset.range (n - 1), (p (m + 1) - p m) ^ 2 := Finset.sum_nonneg fun _ _ => sq_nonneg _
  have ht : 0 ≤ ∑ m ∈ Finset.range (n - 1), (t (m + 1) - t m) ^ 2 := Finset.sum_nonneg fun _ _ => sq_nonneg _
  have ha := sq_nonneg (vt - ∑ m ∈ Finset.range n, v m)
  have hb := sq_nonneg (ut - ∑ m ∈ Finset.range n, u m)
  unfold meritAll
  constructor
  · intro h
    have h1 : (vt - ∑ m ∈ Finset.range n, v m) ^ 2 = 0 := by linarith
    have h2 : (ut - ∑ m ∈ Finset.range n, u m) ^ 2 = 0 := by linarith
    have h3 : ∑ m ∈ Finset.range (n - 1), (p (m + 1) - p m) ^ 2 = 0 := by linarith
    have h4 : ∑ m ∈ Finset.range (n - 1), (t (m + 1) - t m) ^ 2 = 0 := by linarith
    rw [Finset.sum_eq_zero_iff_of_nonneg fun _ _ => sq_nonneg _] at h3 h4
    rw [sq_eq_zero_iff] at h1 h2
    refine ⟨by linarith, by linarith, chain_eq fun m hm => ?_, chain_eq fun m hm => ?_⟩
    · have := h3 m (by simp; omega)
      rw [sq_eq_zero_iff] at this
      linarith
    · have := h4 m (by simp; omega)
      rw [sq_eq_zero_iff] at this
      linarith
  · rintro ⟨h1, h2, h3, h4⟩
    rw [h1, h2, Finset.sum_eq_zero fun m hm => by
        have := Finset.mem_range.1 hm
        rw [h3 (m + 1) m (by omega) (by omega), sub_self, sq, mul_zero],
      Finset.sum_eq_zero fun m hm => by
        have := Finset.mem_range.1 hm
        rw [h4 (m + 1) m (by omega) (by omega), sub_self, sq, mul_zero]]
    ring

example : meritAll 2 (1 : ℝ) 3 (fun _ => 1 / 2) (fun m => (m : ℝ) + 1) (fun _ => 7) (fun _ => 1) = 0 :=
  (C136_zero_rhoU 1 3 _ _ _ _).2 ⟨by norm_num [Finset.sum_range_succ], by norm_num [Finset.sum_range_succ], by simp, by simp⟩

/-! ## The stale residual -/

/-- Three materials of unit specific energy that are in tension at every density below 4. -/
noncomputable def stiff : MatEOS ℝ where
  eOf := fun _ _ _ => 1
  pOf := fun _ _ _ _ => 0
  tOf := fun _ _ _ => 1
  rhoEOfPT := fun _ _ _ => (4, 1)
  rhoPmin := fun _ _ => 4
  pMin := fun _ => 0
  pMaxAtT := fun _ _ => 10 ^ 20

/-- Densities 2, 1/2, 1; volume fractions 1/4, 1/2, 1/4; pressures 0, 1e-8, 3e-8. -/
noncomputable def stiffGuess (x : PS ℝ) : PS ℝ :=
  { x with
    a := ⟨fun m => if m = 0 then 2 else if m = 1 then 1 / 2 else 1, fun m => if m = 1 then 1 / 2 else 1 / 4, fun _ => 0,
      fun _ => 0, fun m => if m = 0 then 0 else if m = 1 then 1 / 10 ^ 8 else 3 / 10 ^ 8, fun _ => 0⟩ }

theorem stiff_rb (x : PS ℝ) {m : Nat} (hm : m < 3) : (initRhoBar 3 (stiffGuess x)).rhobar m = if m = 0 then 1 / 2 else 1 / 4 := by
  rw [rhobar_eq _ hm]
  have : m = 0 ∨ m = 1 ∨ m = 2 := by omega
  rcases this with rfl | rfl | rfl <;> norm_num [stiffGuess]

theorem stiff_pass {σ : ℝ} (hσ : 0 < σ) (x : PS ℝ) (T : Nat → ℝ) (tl : ℝ) (nw : Option ℝ) (s : ℝ × (Nat → ℝ) × (Nat → ℝ))
    (hv : ∀ m, m < 3 → 0 < s.2.1 m) :
    (tguessPass σ stiff T 3 1 tl (initRhoBar 3 (stiffGuess x)).rhobar nw s).1 = true ∧
    (tguessPass σ stiff T 3 1 tl (initRhoBar 3 (stiffGuess x)).rhobar nw s).2.2 = s.2 := by
  have hf : ∀ T2, (setVfracFromT σ 3 1 (initRhoBar 3 (stiffGuess x)).rhobar (fun m => stiff.rhoPmin m T2) s.2.1).1 = true := by
    intro T2
    unfold setVfracFromT
    dsimp only
    have hm : ∀ m, m < 3 → vfracMax σ (initRhoBar 3 (stiffGuess x)).rhobar (fun m => stiff.rhoPmin m T2) m ≤ 9 / 10 * (1 / 8) := by
      intro m hm
      refine (min_le_left _ _).trans ?_
      rw [stiff_rb x hm]
      change 9 / 10 * ratio σ _ (4 : ℝ) ≤ _
      rw [ratio_pos_den _ (by norm_num)]
      refine mul_le_mul_of_nonneg_left ?_ (by norm_num)
      rw [div_le_iff₀ (by linarith)]
      split_ifs <;> nlinarith
    rw [if_pos]
    simp only [forN_succ, forN_zero]
    linarith [hm 0 (by norm_num), hm 1 (by norm_num), hm 2 (by norm_num)]
  unfold tguessPass
  dsimp only
  rw [if_pos (hf _), setVfracFromT_fail hv (hf _)]
  exact ⟨rfl, rfl⟩

theorem stiff_guess {σ : ℝ} (hσ : 0 < σ) (x : PS ℝ) (T : Nat → ℝ) (tl : ℝ)
    (nw : Nat → (ℝ × (Nat → ℝ) × (Nat → ℝ)) → Option ℝ) (s : ℝ × (Nat → ℝ) × (Nat → ℝ)) (hv : ∀ m, m < 3 → 0 < s.2.1 m) :
    (getTguess σ stiff T 3 1 tl (initRhoBar 3 (stiffGuess x)).rhobar nw s).2.2 = s.2 := by
  unfold getTguess
  dsimp only
  obtain ⟨a1, a2⟩ := stiff_pass hσ x T tl (nw 0 s) s hv
  set s1 := (tguessPass σ stiff T 3 1 tl (initRhoBar 3 (stiffGuess x)).rhobar (nw 0 s) s).2
  obtain ⟨b1, b2⟩ := stiff_pass hσ x T tl (nw 1 s1) s1 (by rw [a2]; exact hv)
  set s2 := (tguessPass σ stiff T 3 1 tl (initRhoBar 3 (stiffGuess x)).rhobar (nw 1 s1) s1).2
  obtain ⟨d1, d2⟩ := stiff_pass hσ x T tl (nw 2 s2) s2 (by rw [b2, a2]; exact hv)
  rw [a1, b1, if_neg (by decide), if_neg (by decide), d2, b2, a2]

/-- `pteSolver_first` with the residual. -/
theorem pteSolver_first_err {S : Type*} {σ : ℝ} {Y : Sys S ℝ} {dp : DriverParams ℝ} {s0 : S}
    (h : 0 < Y.nmat * dp.maxIterPerMat) (hc : (Y.check (Y.init s0).1).1 = true) : (pteSolver σ Y dp s0).err = (Y.init s0).2 := by
  unfold pteSolver
  dsimp only
  obtain ⟨k, hk⟩ := Nat.exists_eq_succ_of_ne_zero h.ne'
  rw [hk]
  simp only [driverLoop, driverBody, hc, if_true]

/-- C136 is violated by RhoT with default parameters: `Fixup` picks the material of largest volume, recomputes the residual
with pressures compared with that material's and does not recompute the norm.  Here the residual reported is twice that of the
returned state. -/
theorem C136_rhoT_stale_violated {σ : ℝ} (hσ : 0 < σ) (qr : (Nat → ℝ) → (Nat → ℝ) → Nat → ℝ) (x : PS ℝ) :
    let s0 := stiffGuess x
    let r := pteSolver σ (rhoTSys σ stiff twoIdealI defaultSolver MixTols.fresh qr 3 1 1) defaultParams s0
    let U := energyScale 3 1 s0
    let M := fun k => meritUP 3 k (ratio σ (totalEnergy 3 1 s0) U) (fun m => r.s.a.u m / U) (fun m => r.s.a.press m / U)
    r.converged = true ∧ r.s.ms = 1 ∧ 0 < M 1 ∧ r.err = 2 * M 1 := by
  intro s0 r U M
  set Y := rhoTSys σ stiff twoIdealI defaultSolver MixTols.fresh qr 3 1 1 with hY
  set b := initBase σ stiff twoIdealI defaultSolver 3 1 1 s0 with hb
  obtain ⟨c1, c2⟩ := initBase_scale σ stiff twoIdealI defaultSolver 3 1 1 s0
  have hTE : totalEnergy 3 1 s0 = 1 := by
    unfold totalEnergy
    norm_num [Finset.sum_range_succ, s0, stiffGuess]
  have hU : U = 1 := by
    change max |totalEnergy 3 1 s0| (1 / 10 ^ 14) = 1
    rw [hTE]; norm_num
  have hbU : b.uscale = 1 := c1.trans hU
  have hbt : b.utot = 1 / (1 + σ) := by
    rw [show b.utot = _ from c2, hTE, show energyScale 3 1 s0 = 1 from hU, ratio_pos_den _ zero_le_one]
  have hv0 : ∀ m, m < 3 → 0 < s0.a.vfrac m := fun m _ => by
    change 0 < if m = 1 then (1 : ℝ) / 2 else 1 / 4
    split_ifs <;> norm_num
  have hrb : ∀ m, m < 3 → b.rhobar m = if m = 0 then 1 / 2 else 1 / 4 := fun m hm => stiff_rb x hm
  have hrt : b.rhoTotal = 1 := by
    change (initRhoBar 3 s0).rhoTotal = 1
    rw [initRhoBar_total]
    norm_num [Finset.sum_range_succ, s0, stiffGuess]
  -- volume fractions and densities are the caller's
  have hga : b.a.vfrac = s0.a.vfrac := congrArg Prod.fst (stiff_guess hσ x _ _ _ _ hv0)
  have hpr : ∀ m, m < 3 → b.a.press m = s0.a.press m / (1 + σ) := fun m hm => by
    change fill 3 _ _ m = _
    rw [fill_apply, if_pos hm]
    unfold startPress
    rw [if_pos ⟨rfl, rfl⟩]
    change ratio σ (s0.a.press m) b.uscale = _
    rw [hbU, ratio_pos_den _ zero_le_one]
  have hu : ∀ m, m < 3 → b.a.u m = (if m = 0 then 1 / 2 else 1 / 4) / (1 + σ) := fun m hm => by
    change fill 3 _ _ m = _
    rw [fill_apply, if_pos hm]
    change 1 * ratio σ (b.rhobar m) b.uscale = _
    rw [hbU, ratio_pos_den _ zero_le_one, hrb m hm, one_mul]
  have hp1 : (0 : ℝ) < 1 + σ := by linarith
  have hms0 : (Y.init s0).1.ms = 0 := by
    change (if (0 : Int) ≤ -1 then (defaultSolver (K := ℝ)).exclude.toNat else argmaxPos 3 (fun m => ratio σ (b.rhobar m) b.rhoTotal)) = 0
    rw [if_neg (by norm_num), hrt]
    simp only [argmaxPos, forN_succ, forN_zero, hrb 0 (by norm_num), hrb 1 (by norm_num), hrb 2 (by norm_num),
      ratio_pos_den _ (zero_le_one (α := ℝ))]
    have h1 : (0 : ℝ) < 1 / 2 / (1 + σ) := by positivity
    have h2 : ¬ (1 / 4 / (1 + σ) > 1 / 2 / (1 + σ)) := by
      rw [gt_iff_lt, div_lt_div_iff_of_pos_right hp1]; norm_num
    simp only [if_true, gt_iff_lt, h1, one_ne_zero, if_false, OfNat.ofNat_ne_zero] at h2 ⊢
    rw [if_neg h2, if_neg h2]
  have hia : (Y.init s0).1.a = b.a := rfl
  have hres : (Y.init s0).1.residual = rhoTResidual 3 (Y.init s0).1.ms b.utot b.a.u b.a.press b.residual := rfl
  rw [hms0] at hres
  obtain ⟨r1, r2⟩ := rhoTResidual_rows (n := 3) (ms := 0) (by norm_num) b.utot b.a.u b.a.press b.residual
  rw [← hres] at r1 r2
  have q0 : s0.a.press 0 = 0 := rfl
  have q1 : s0.a.press 1 = 1 / 10 ^ 8 := rfl
  have q2 : s0.a.press 2 = 3 / 10 ^ 8 := rfl
  have hr0 : (Y.init s0).1.residual 0 = 0 := by
    rw [r1, hbt, Finset.sum_range_succ, Finset.sum_range_succ, Finset.sum_range_one, hu 0 (by norm_num), hu 1 (by norm_num),
      hu 2 (by norm_num)]
    norm_num
    field_simp
    norm_num
  have hr1 : (Y.init s0).1.residual 1 = -(1 / 10 ^ 8 / (1 + σ)) := by
    have := r2 1 (by norm_num) (by norm_num)
    rw [show pos 0 1 = 1 from rfl] at this
    rw [this, hpr 0 (by norm_num), hpr 1 (by norm_num), q0, q1]
    ring
  have hr2 : (Y.init s0).1.residual 2 = -(3 / 10 ^ 8 / (1 + σ)) := by
    have := r2 2 (by norm_num) (by norm_num)
    rw [show pos 0 2 = 2 from rfl] at this
    rw [this, hpr 0 (by norm_num), hpr 2 (by norm_num), q0, q2]
    ring
  set w := 1 / 10 ^ 8 / (1 + σ) with hw
  have hw0 : 0 < w := by positivity
  have hw1 : w ≤ 1 / 10 ^ 8 := div_le_self (by norm_num) (by linarith)
  have hw3 : 3 / 10 ^ 8 / (1 + σ) = 3 * w := by rw [hw]; ring
  rw [hw3] at hr2
  have hck : (Y.check (Y.init s0).1).1 = true := by
    simp only [hY, rhoTSys]
    refine (@decide_eq_true_iff _ (Classical.propDecidable _)).2 ?_
    refine ⟨Or.inr ?_, ?_⟩
    · change Real.sqrt (sumNeumaier (Y.init s0).1.residual 2 1 (-1) (fun x => x * x)) < 1 / 10 ^ 6
      rw [sumNeumaier_eq, Finset.filter_true_of_mem (fun i _ => by omega), Finset.sum_range_succ, Finset.sum_range_one,
        hr1, hr2, Real.sqrt_lt' (by norm_num)]
      nlinarith
    · change |(Y.init s0).1.residual 0| < 1 / 10 ^ 6
      rw [hr0]; norm_num
  have hmx : 0 < Y.nmat * (defaultParams (K := ℝ)).maxIterPerMat := by
    change 0 < 3 * 128
    norm_num
  obtain ⟨f1, -, -, f4⟩ := pteSolver_first (σ := σ) hmx hck
  have f5 := pteSolver_first_err (σ := σ) hmx hck
  have hms1 : r.s.ms = 1 := by
    rw [show r.s = _ from f4]
    change (rhoTFixup defaultSolver 3 (Y.init s0).1).ms = 1
    unfold rhoTFixup
    rw [if_pos (by norm_num [defaultSolver])]
    change argmaxPos 3 b.a.vfrac = 1
    rw [hga]
    change argmaxPos 3 (fun m => if m = 1 then (1 : ℝ) / 2 else 1 / 4) = 1
    norm_num [argmaxPos, forN_succ, forN_zero]
  have hrp : ∀ m, m < 3 → r.s.a.press m / U = s0.a.press m / (1 + σ) := fun m hm => by
    rw [show r.s = _ from f4, hU, div_one]
    change mapN 3 (fun _ x => x * b.uscale) b.a.press m = _
    rw [mapN_apply, if_pos hm, hbU, mul_one, hpr m hm]
  have hru : ∀ m, m < 3 → r.s.a.u m / U = b.a.u m := fun m hm => by
    rw [show r.s = _ from f4, hU, div_one]
    change mapN 3 (fun _ x => x * b.uscale) b.a.u m = _
    rw [mapN_apply, if_pos hm, hbU, mul_one]
  have hM1 : M 1 = 5 / 2 * w ^ 2 := by
    change meritUP 3 1 (ratio σ (totalEnergy 3 1 s0) U) (fun m => r.s.a.u m / U) (fun m => r.s.a.press m / U) = _
    rw [meritUP_congr (n := 3) (by norm_num) hru hrp]
    have e : ratio σ (totalEnergy 3 1 s0) U = b.utot := c2.symm
    rw [e]
    unfold meritUP
    rw [← r1, hr0, Finset.sum_range_succ, Finset.sum_range_succ, Finset.sum_range_one]
    simp only [q0, q1, q2, hw3, ← hw]
    ring
  have herr : r.err = 5 * w ^ 2 := by
    rw [show r.err = _ from f5]
    change residualNorm 3 (Y.init s0).1.residual = _
    rw [residualNorm_eq, Finset.sum_range_succ, Finset.sum_range_succ, Finset.sum_range_one, hr0, hr1, hr2]
    ring
  refine ⟨f1, hms1, ?_, ?_⟩
  · rw [hM1]; positivity
  · rw [herr, hM1]; ring

/-! ## The pressure at which `GetTguess` samples the energy -/

/-- `GetTguess` for an EOS that takes pressure as an input: energy and specific heat are taken at the EOS' state at temperature
`T` and a pressure inside the EOS' range, the caller's pressure when that is usable and inside, the nearer end of the range when it
is outside, the middle of the range when it is unusable. -/
theorem C17_tguess_pressure (E : MatEOS ℝ) (I : InitEOS ℝ) {m : Nat} (hp : I.prefersP m = true) (rho P T : ℝ)
    (hr : E.pMin m ≤ E.pMaxAtT m T) :
    ∃ Q, E.pMin m ≤ Q ∧ Q ≤ E.pMaxAtT m T ∧ sieCv E I m rho P T =
        ((E.rhoEOfPT m Q T).2, I.cvRE m (E.rhoEOfPT m Q T).1 (E.rhoEOfPT m Q T).2) ∧
      (I.bad P = true → Q - E.pMin m = E.pMaxAtT m T - Q) ∧
      (I.bad P = false → (E.pMin m ≤ P → P ≤ E.pMaxAtT m T → Q = P) ∧ (P < E.pMin m → Q = E.pMin m) ∧
        (E.pMaxAtT m T < P → Q = E.pMaxAtT m T)) := by
  unfold sieCv
  rw [if_pos hp]
  dsimp only
  refine ⟨_, ?_, ?_, rfl, fun hb => ?_, fun hb => ?_⟩
  · split_ifs
    · linarith
    · exact le_max_left _ _
  · split_ifs
    · linarith
    · exact max_le hr (min_le_left _ _)
  · rw [if_pos hb]; ring
  · rw [if_neg (by rw [hb]; decide)]
    refine ⟨fun h1 h2 => ?_, fun h1 => ?_, fun h1 => ?_⟩
    · rw [min_eq_right h2, max_eq_right h1]
    · rw [min_eq_right (h1.le.trans hr), max_eq_left h1.le]
    · rw [min_eq_left h1.le, max_eq_right hr]

example : (sieCv (twoIdeal 0) twoIdealI 0 1 5 300).1 = 300 := by
  obtain ⟨Q, -, -, h, -, -⟩ := C17_tguess_pressure (twoIdeal 0) twoIdealI (m := 0) rfl 1 5 300 (by norm_num [twoIdeal])
  rw [h]; norm_num [twoIdeal]

end Verif.PTE
