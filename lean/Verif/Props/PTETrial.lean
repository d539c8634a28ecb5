import Verif.Spec.PTE
import Verif.Model.PTEDerivs
import Verif.Model.PTEInit
import Verif.Lemmas.PTESolvers
import Verif.Props.PTEInit
import Mathlib.Analysis.Calculus.Deriv.MeanValue

/-! # C83: trial steps leave real material states; C19: the finite differences approximate the
derivatives of the materials' equations of state; C20: one pass of the volume redistribution; C17: the
ideal-gas guess solves the ideal-gas problem.  Exact arithmetic with `robust::SMALL = 0`. -/

namespace Verif.PTE

open Robust

set_option linter.unusedSectionVars false

section field
variable {K : Type*} [Field K] [LinearOrder K] [IsStrictOrderedRing K]

theorem ratio_exact (a b : K) : ratio 0 a b = a / b := by simp [ratio]

/-! ## C83 -/

theorem stateFromVT_state (E : MatEOS K) {n : Nat} {uscale T Tsc : K} (hu : uscale ≠ 0) {rhobar v : Nat → K}
    (s : Mats K) {m : Nat} (hm : m < n) (hr : rhobar m ≠ 0) (hv : v m ≠ 0) :
    MatState E rhobar uscale T (stateFromVT 0 E n uscale T Tsc rhobar v s) m := by
  constructor <;> simp only [stateFromVT, fill_apply, if_pos hm, ratio_exact] <;>
    first | field_simp | (rw [mul_div_cancel_left₀ _ hr]) 

/-- C83, RhoT: after every trial step, each material whose volume fraction is not zero is in the state
its EOS gives at the new common temperature. -/
theorem C83_rhoT (E : MatEOS K) {n ms : Nat} {uscale : K} (hu : uscale ≠ 0) (Tnorm : K)
    {rhobar : Nat → K} (dx : Nat → K) (Ttemp : K) (vtemp : Nat → K) (scale : K) (s : Mats K) {m : Nat}
    (hm : m < n) (hr : rhobar m ≠ 0) :
    let r := rhoTTestUpdate 0 E n ms uscale Tnorm rhobar dx Ttemp vtemp scale s
    r.1 = Ttemp + scale * dx 0 ∧ r.2.temp m = r.1 ∧
    (r.2.vfrac m ≠ 0 → MatState E rhobar uscale (Tnorm * r.1) r.2 m) := by
  refine ⟨rfl, ?_, fun h => stateFromVT_state E hu s hm hr h⟩
  simp [rhoTTestUpdate, stateFromVT, fill_apply, hm]

/-- C83, FixedT: the same at the fixed temperature, with the volume fractions moved along `dx`. -/
theorem C83_fixedT (E : MatEOS K) {n : Nat} {uscale : K} (hu : uscale ≠ 0) (T : K)
    {rhobar : Nat → K} (dx vtemp : Nat → K) (scale : K) (s : Mats K) {m : Nat}
    (hm : m < n) (hr : rhobar m ≠ 0) :
    let r := fixedTTestUpdate 0 E n uscale T rhobar dx vtemp scale s
    r.vfrac m = vtemp m + scale * dx m ∧ (r.vfrac m ≠ 0 → MatState E rhobar uscale T r m) := by
  refine ⟨by simp [fixedTTestUpdate, stateFromVT, fill_apply, hm], fun h => ?_⟩
  have := stateFromVT_state E (T := T) (Tsc := T) hu (rhobar := rhobar)
    (v := fill n (fun m => vtemp m + scale * dx m) s.vfrac) s hm hr h
  exact ⟨this.mass, this.energy, this.pressure, this.density⟩

/-- C83, FixedP: the same at the new common temperature. -/
theorem C83_fixedP (E : MatEOS K) {n : Nat} {uscale : K} (hu : uscale ≠ 0) (Tnorm : K)
    {rhobar : Nat → K} (dx : Nat → K) (Ttemp : K) (vtemp : Nat → K) (scale : K) (s : Mats K) {m : Nat}
    (hm : m < n) (hr : rhobar m ≠ 0) :
    let r := fixedPTestUpdate 0 E n uscale Tnorm rhobar dx Ttemp vtemp scale s
    r.1 = Ttemp + scale * dx n ∧ r.2.temp m = r.1 ∧ r.2.vfrac m = vtemp m + scale * dx m ∧
    (r.2.vfrac m ≠ 0 → MatState E rhobar uscale (Tnorm * r.1) r.2 m) := by
  refine ⟨rfl, ?_, ?_, fun h => stateFromVT_state E hu s hm hr h⟩
  · simp [fixedPTestUpdate, stateFromVT, fill_apply, hm]
  · simp [fixedPTestUpdate, stateFromVT, fill_apply, hm]

/-- C83, RhoU: each material's energy is moved along `dx`, and its temperature and pressure are those its
EOS gives at the new density and energy (the temperature is per material in this solver). -/
theorem C83_rhoU (E : MatEOS K) {n : Nat} {uscale Tnorm : K} (hu : uscale ≠ 0) (hT : Tnorm ≠ 0)
    {rhobar : Nat → K} (dx vtemp utemp : Nat → K) (scale : K) (s : Mats K) {m : Nat}
    (hm : m < n) (hr : rhobar m ≠ 0) :
    let r := rhoUTestUpdate 0 E n uscale Tnorm rhobar dx vtemp utemp scale s
    r.vfrac m = vtemp m + scale * dx m ∧ r.u m = utemp m + scale * dx (n + m) ∧
    r.u m * uscale = rhobar m * r.sie m ∧ r.temp m * Tnorm = E.tOf m (r.rho m) (r.sie m) ∧
    r.press m * uscale = E.pOf m (r.rho m) (Tnorm * r.temp m) (r.sie m) ∧
    (r.vfrac m ≠ 0 → r.rho m * r.vfrac m = rhobar m) := by
  simp only [rhoUTestUpdate, fill_apply, if_pos hm, ratio_exact]
  refine ⟨trivial, trivial, by field_simp, by field_simp, by field_simp, fun h => by field_simp⟩

/-- C83, PT: density and energy are those the EOS gives at the new pressure and temperature, the volume
fraction keeps the material's mass. -/
theorem C83_pt (E : MatEOS K) {n : Nat} {uscale : K} (hu : uscale ≠ 0) (Tnorm : K)
    (rhobar dx : Nat → K) (Ptemp Ttemp scale : K) (s : Mats K) {m : Nat} (hm : m < n) :
    let r := ptTestUpdate 0 E n uscale Tnorm rhobar dx Ptemp Ttemp scale s
    r.1 = (Ptemp + scale * dx 1, Ttemp + scale * dx 0) ∧ r.2.press m = r.1.1 ∧ r.2.temp m = r.1.2 ∧
    (r.2.rho m, r.2.sie m) = E.rhoEOfPT m (r.1.1 * uscale) (r.1.2 * Tnorm) ∧
    r.2.u m * uscale = rhobar m * r.2.sie m ∧ (r.2.rho m ≠ 0 → r.2.rho m * r.2.vfrac m = rhobar m) := by
  simp only [ptTestUpdate, fill_apply, if_pos hm, ratio_exact]
  refine ⟨trivial, trivial, trivial, trivial, by field_simp, fun h => by field_simp⟩

/-- The hypotheses of C83 are met: two ideal gases, a step that leaves both volume fractions positive. -/
example : ∃ (E : MatEOS ℚ) (s : Mats ℚ) (dx : Nat → ℚ),
    let r := rhoTTestUpdate 0 E 2 0 2 3 (fun _ => 1) dx 1 s.vfrac 1 s
    r.2.vfrac 0 ≠ 0 ∧ r.2.vfrac 1 ≠ 0 ∧ r.2.vfrac 0 ≠ s.vfrac 0 := by
  refine ⟨⟨fun _ _ T => T, fun _ r _ e => r * e / 2, fun _ _ e => e, fun _ P T => (P / T, T), fun _ _ => 0,
    fun _ => 0, fun _ _ => 10⟩, ⟨fun _ => 2, fun _ => 1 / 2, fun _ => 1, fun _ => 1, fun _ => 1, fun _ => 1⟩,
    fun i => if i = 1 then 1 / 4 else 0, ?_⟩
  decide +kernel

/-! ## C20: one pass of the redistribution -/

theorem capPass_count (n : Nat) (vmax v : Nat → K) :
    (capPass n vmax v).2.2 + ((Finset.range n).filter fun i => minDv < v i - min (vmax i) (v i)).card = n := by
  unfold capPass
  refine (forN_inv (P := fun k (s : (Nat → K) × K × Nat) =>
    s.2.2 + ((Finset.range k).filter fun i => minDv < v i - min (vmax i) (v i)).card = n ∧
    ∀ i, k ≤ i → s.1 i = v i) ⟨by simp, fun _ _ => rfl⟩ ?_).1
  rintro k ⟨a, rem, unc⟩ hk ⟨h1, h2⟩
  dsimp only at h1 h2 ⊢
  have hc : ((Finset.range k).filter fun i => minDv < v i - min (vmax i) (v i)).card ≤ k :=
    (Finset.card_filter_le _ _).trans (by simp)
  refine ⟨?_, fun i hi => ?_⟩
  · rw [Finset.range_add_one, Finset.filter_insert, h2 k le_rfl]
    by_cases hd : minDv < v k - min (vmax k) (v k)
    · rw [if_pos hd, if_pos hd, Finset.card_insert_of_notMem (by simp)]; omega
    · rw [if_neg hd, if_neg hd]; exact h1
  · rw [Function.update_apply, if_neg (by omega), h2 i (by omega)]

/-- C20: one pass of the redistribution loop. A material above its cap is set to the cap; a material
further than `min_dv` below its cap receives one share of the excess, the excess being divided by the
number of materials that were not cut back by more than `min_dv`; if those are exactly the receivers, no
volume is lost. -/
theorem C20_redistribution_pass (n : Nat) (vmax v : Nat → K) :
    let c := capPass n vmax v
    let w := spreadPass 0 n vmax c.2.1 c.2.2 c.1
    let cut := (Finset.range n).filter fun i => minDv < v i - min (vmax i) (v i)
    let recv := (Finset.range n).filter fun i => minDv < vmax i - min (vmax i) (v i)
    let excess := ∑ i ∈ Finset.range n, (v i - min (vmax i) (v i))
    (∀ m, m < n → vmax m ≤ v m → w m = vmax m) ∧
    (∀ m, m < n → minDv < vmax m - v m → w m = v m + excess / (n - cut.card : ℕ)) ∧
    (recv.card = n - cut.card → recv.Nonempty → ∑ m ∈ Finset.range n, w m = ∑ m ∈ Finset.range n, v m) := by
  intro c w cut recv excess
  obtain ⟨c1, c2⟩ := capPass_spec n vmax v
  have c3 := capPass_count n vmax v
  have hmin : (0 : K) < minDv := by unfold minDv; positivity
  have hcnt : c.2.2 = n - cut.card := by
    change c.2.2 + cut.card = n at c3
    omega
  have hw : ∀ m, m < n → w m = if minDv < vmax m - min (vmax m) (v m) then
      min (vmax m) (v m) + excess / (n - cut.card : ℕ) else min (vmax m) (v m) := by
    intro m hm
    change spreadPass 0 n vmax (capPass n vmax v).2.1 c.2.2 (capPass n vmax v).1 m = _
    rw [hcnt, c2]
    unfold spreadPass
    rw [mapN_apply, if_pos hm, c1 m, if_pos hm, ratio_exact]
  refine ⟨fun m hm h => ?_, fun m hm h => ?_, fun hcard hne => ?_⟩
  · rw [hw m hm, min_eq_left h, sub_self, if_neg (not_lt.2 hmin.le)]
  · have h' : min (vmax m) (v m) = v m := min_eq_right (by linarith)
    rw [hw m hm, h', if_pos h]
  · rw [Finset.sum_congr rfl fun m hm => hw m (Finset.mem_range.1 hm)]
    have : ∀ m, (if minDv < vmax m - min (vmax m) (v m) then
        min (vmax m) (v m) + excess / (n - cut.card : ℕ) else min (vmax m) (v m))
        = min (vmax m) (v m) + if minDv < vmax m - min (vmax m) (v m) then excess / (n - cut.card : ℕ) else 0 := by
      intro m; split_ifs <;> simp
    simp only [this]
    rw [Finset.sum_add_distrib, ← Finset.sum_filter, Finset.sum_const, hcard.symm, nsmul_eq_mul]
    have hpos : ((recv.card : ℕ) : K) ≠ 0 := by
      have := Finset.card_pos.2 hne
      exact_mod_cast this.ne'
    change ∑ m ∈ Finset.range n, min (vmax m) (v m) + (recv.card : K) * (excess / (recv.card : K)) = _
    rw [mul_div_cancel₀ _ hpos]
    simp only [excess, Finset.sum_sub_distrib]; ring

/-- Two materials, one over its cap: the other receives the excess. -/
example : ∃ vmax v : Nat → ℚ,
    let recv := (Finset.range 2).filter fun i => minDv < vmax i - min (vmax i) (v i)
    let cut := (Finset.range 2).filter fun i => minDv < v i - min (vmax i) (v i)
    recv.card = 2 - cut.card ∧ recv.Nonempty ∧ ¬ v 0 ≤ vmax 0 := by
  refine ⟨fun i => if i = 0 then 1 / 4 else 1, fun _ => 1 / 2, ?_⟩
  decide +kernel

/-! ## C17: the ideal-gas guess -/

theorem forN_add_sum (f : Nat → K) (n : Nat) : forN n (fun a m => a + f m) 0 = ∑ m ∈ Finset.range n, f m := by
  induction n with
  | zero => rfl
  | succ n ih => rw [forN_succ, ih, Finset.sum_range_succ]

/-- C17: the pressure and temperature `GetIdealPTE` returns are the equilibrium of ideal gases with the
heat capacities `sie/T` and the products `P v/T` of the current states: at the common temperature the
gases' total energy density is `uscale` (the scaled total is 1), and the volumes
`v_m (P_m/T_m) / (P/T)` at which each gas has the common pressure fill the cell. -/
theorem C17_ideal_equilibrium {n : Nat} {uscale Tnorm vt : K} (hu : uscale ≠ 0) (hT : Tnorm ≠ 0) (hv : vt ≠ 0)
    (s : IdealState K) (htot : ∑ m ∈ Finset.range n, s.rho m * s.vfrac m * (s.sie m / s.temp m) ≠ 0) :
    let P := (idealPTE 0 n uscale Tnorm vt s).1
    let T := (idealPTE 0 n uscale Tnorm vt s).2
    ∑ m ∈ Finset.range n, s.rho m * s.vfrac m * (s.sie m / s.temp m) * T = uscale ∧
    (P ≠ 0 → ∑ m ∈ Finset.range n, s.vfrac m * (s.press m / s.temp m) / (P / T) = vt) := by
  intro P T
  have hTe : T = uscale / (∑ m ∈ Finset.range n, s.rho m * s.vfrac m * (s.sie m / s.temp m)) := by
    change (idealPTE 0 n uscale Tnorm vt s).2 = _
    simp only [idealPTE, forN_add_sum, ratio_exact]
    field_simp
  have hT0 : T ≠ 0 := by rw [hTe]; exact div_ne_zero hu htot
  have hP : P = T * (∑ m ∈ Finset.range n, s.vfrac m * (s.press m / s.temp m)) / vt := by
    change (idealPTE 0 n uscale Tnorm vt s).1 = _
    simp only [idealPTE, forN_add_sum, ratio_exact]
    rw [show T = uscale / ((∑ m ∈ Finset.range n, s.rho m * s.vfrac m * (s.sie m / s.temp m)) / Tnorm) / Tnorm
      by rw [hTe]; field_simp]
    field_simp
  refine ⟨?_, fun hP0 => ?_⟩
  · rw [← Finset.sum_mul, hTe]; exact mul_div_cancel₀ _ htot
  · have hA : (∑ m ∈ Finset.range n, s.vfrac m * (s.press m / s.temp m)) ≠ 0 := by
      intro h; apply hP0; rw [hP, h]; simp
    simp only [div_eq_mul_inv _ (P / T)]
    rw [← Finset.sum_mul, hP]
    generalize (∑ m ∈ Finset.range n, s.vfrac m * (s.press m / s.temp m)) = A at hA ⊢
    field_simp

/-- The hypotheses of `C17_ideal_equilibrium` are met. -/
example : ∃ s : IdealState ℚ,
    (∑ m ∈ Finset.range 2, s.rho m * s.vfrac m * (s.sie m / s.temp m) ≠ 0) ∧
    (idealPTE 0 2 (2 : ℚ) 3 1 s).1 ≠ 0 := by
  refine ⟨⟨fun _ => 1, fun _ => 1 / 2, fun i => 1 + i, fun i => 1 + i, fun _ => 1, fun _ => 0⟩, ?_⟩
  decide +kernel

end field

/-! ## C19: the finite differences -/

theorem slopeNear {f : ℝ → ℝ} {x h : ℝ} (hh : h ≠ 0) (hf : ∀ y ∈ Set.uIcc x (x + h), DifferentiableAt ℝ f y) :
    SlopeNear f x h ((f (x + h) - f x) / h) := by
  rcases lt_or_gt_of_ne hh with h0 | h0
  · have hlt : x + h < x := by linarith
    have hI : Set.uIcc x (x + h) = Set.Icc (x + h) x := by rw [Set.uIcc_comm, Set.uIcc_of_le hlt.le]
    rw [hI] at hf
    obtain ⟨c, hc, he⟩ := exists_deriv_eq_slope f hlt
      (fun y hy => (hf y hy).continuousAt.continuousWithinAt)
      (fun y hy => (hf y (Set.Ioo_subset_Icc_self hy)).differentiableWithinAt)
    refine ⟨c, by rw [hI]; exact Set.Ioo_subset_Icc_self hc, ?_⟩
    rw [he, ← neg_div_neg_eq]; congr 1 <;> ring
  · have hlt : x < x + h := by linarith
    have hI : Set.uIcc x (x + h) = Set.Icc x (x + h) := Set.uIcc_of_le hlt.le
    rw [hI] at hf
    obtain ⟨c, hc, he⟩ := exists_deriv_eq_slope f hlt
      (fun y hy => (hf y hy).continuousAt.continuousWithinAt)
      (fun y hy => (hf y (Set.Ioo_subset_Icc_self hy)).differentiableWithinAt)
    refine ⟨c, by rw [hI]; exact Set.Ioo_subset_Icc_self hc, ?_⟩
    rw [he]; congr 1; ring

theorem vPert_ne {eps v : ℝ} (he : eps ≠ 0) (hv : v ≠ 0) : vPert eps v ≠ 0 := by
  unfold vPert; split_ifs <;> simp [he, hv]

/-- A material's pressure (in units of `uscale`) as a function of its volume fraction at temperature `T`. -/
noncomputable def pOfV (E : MatEOS ℝ) (rhobar : Nat → ℝ) (uscale T : ℝ) (m : Nat) (v : ℝ) : ℝ :=
  E.pOf m (rhobar m / v) T (E.eOf m (rhobar m / v) T) / uscale
/-- Its energy density as a function of its volume fraction. -/
noncomputable def uOfV (E : MatEOS ℝ) (rhobar : Nat → ℝ) (uscale T : ℝ) (m : Nat) (v : ℝ) : ℝ :=
  rhobar m * E.eOf m (rhobar m / v) T / uscale
/-- Its pressure as a function of the scaled temperature at density `r`. -/
noncomputable def pOfT (E : MatEOS ℝ) (uscale Tnorm r : ℝ) (m : Nat) (t : ℝ) : ℝ :=
  E.pOf m r (Tnorm * t) (E.eOf m r (Tnorm * t)) / uscale
/-- Its energy density as a function of the scaled temperature. -/
noncomputable def uOfT (E : MatEOS ℝ) (rhobar : Nat → ℝ) (uscale Tnorm r : ℝ) (m : Nat) (t : ℝ) : ℝ :=
  rhobar m * E.eOf m r (Tnorm * t) / uscale

section uses
variable {E : MatEOS ℝ} {rhobar : Nat → ℝ} {uscale : ℝ} {T : ℝ} {s : Mats ℝ} {m : Nat}

theorem MatState.rho_eq (h : MatState E rhobar uscale T s m) (hv : s.vfrac m ≠ 0) :
    s.rho m = rhobar m / s.vfrac m := by rw [← h.mass]; field_simp

theorem MatState.press_v (h : MatState E rhobar uscale T s m) (hu : uscale ≠ 0) (hv : s.vfrac m ≠ 0) :
    s.press m = pOfV E rhobar uscale T m (s.vfrac m) := by
  unfold pOfV
  rw [← h.rho_eq hv, ← h.energy, ← h.pressure]; field_simp

theorem MatState.u_v (h : MatState E rhobar uscale T s m) (hu : uscale ≠ 0) (hv : s.vfrac m ≠ 0) :
    s.u m = uOfV E rhobar uscale T m (s.vfrac m) := by
  unfold uOfV
  rw [← h.rho_eq hv, ← h.energy, ← h.density]; field_simp

theorem MatState.press_T {Tnorm Teq : ℝ} (h : MatState E rhobar uscale (Tnorm * Teq) s m) (hu : uscale ≠ 0) :
    s.press m = pOfT E uscale Tnorm (s.rho m) m Teq := by
  unfold pOfT
  rw [← h.energy, ← h.pressure]; field_simp

theorem MatState.u_T {Tnorm Teq : ℝ} (h : MatState E rhobar uscale (Tnorm * Teq) s m) (hu : uscale ≠ 0) :
    s.u m = uOfT E rhobar uscale Tnorm (s.rho m) m Teq := by
  unfold uOfT
  rw [← h.energy, ← h.density]; field_simp

end uses

/-- C19, the derivatives RhoT puts into its matrix: for materials in EOS states at the common
temperature, each is a derivative of the material's own pressure or energy density, taken within the
perturbation of the current state, `dpdv` being cut off at `-|pte_max_dpdv|`; the first entry of the
matrix is the sum over the materials of temperature derivatives of their energy densities. -/
theorem C19_rhoT_differences (E : MatEOS ℝ) {n : Nat} {eps pmx uscale Tnorm Teq : ℝ} (he : eps ≠ 0)
    (hu : uscale ≠ 0) (hT : Teq ≠ 0) {rhobar : Nat → ℝ} {s : Mats ℝ}
    (hs : ∀ m, m < n → MatState E rhobar uscale (Tnorm * Teq) s m) (hv : ∀ m, m < n → s.vfrac m ≠ 0)
    (dpv : ∀ m, m < n → ∀ y ∈ Set.uIcc (s.vfrac m) (s.vfrac m + vPert eps (s.vfrac m)),
        DifferentiableAt ℝ (pOfV E rhobar uscale (Tnorm * Teq) m) y)
    (duv : ∀ m, m < n → ∀ y ∈ Set.uIcc (s.vfrac m) (s.vfrac m + vPert eps (s.vfrac m)),
        DifferentiableAt ℝ (uOfV E rhobar uscale (Tnorm * Teq) m) y)
    (dpt : ∀ m, m < n → ∀ y ∈ Set.uIcc Teq (Teq + Teq * eps),
        DifferentiableAt ℝ (pOfT E uscale Tnorm (s.rho m) m) y)
    (dut : ∀ m, m < n → ∀ y ∈ Set.uIcc Teq (Teq + Teq * eps),
        DifferentiableAt ℝ (uOfT E rhobar uscale Tnorm (s.rho m) m) y) :
    let d := rhoTDerivs 0 E n eps pmx uscale Tnorm Teq rhobar s
    (∀ m, m < n → ∃ q, SlopeNear (pOfV E rhobar uscale (Tnorm * Teq) m) (s.vfrac m) (vPert eps (s.vfrac m)) q ∧
      d.dpdv m = min q (-|pmx|)) ∧
    (∀ m, m < n → SlopeNear (uOfV E rhobar uscale (Tnorm * Teq) m) (s.vfrac m) (vPert eps (s.vfrac m)) (d.dedv m)) ∧
    (∀ m, m < n → SlopeNear (pOfT E uscale Tnorm (s.rho m) m) Teq (Teq * eps) (d.dpdT m)) ∧
    ∃ q : Nat → ℝ, (∀ m, m < n → SlopeNear (uOfT E rhobar uscale Tnorm (s.rho m) m) Teq (Teq * eps) (q m)) ∧
      d.dedTsum = ∑ m ∈ Finset.range n, q m := by
  intro d
  have hdT : Teq * eps ≠ 0 := mul_ne_zero hT he
  refine ⟨fun m hm => ⟨_, slopeNear (vPert_ne he (hv m hm)) (dpv m hm), ?_⟩, fun m hm => ?_, fun m hm => ?_,
    fun m => (uOfT E rhobar uscale Tnorm (s.rho m) m (Teq + Teq * eps) -
      uOfT E rhobar uscale Tnorm (s.rho m) m Teq) / (Teq * eps), fun m hm => slopeNear hdT (dut m hm), ?_⟩
  · change min _ _ = _
    rw [(hs m hm).press_v hu (hv m hm)]
    simp only [ratio_exact, pOfV, vPert]
  · have := slopeNear (vPert_ne he (hv m hm)) (duv m hm)
    convert this using 1
    change ratio 0 _ _ = _
    rw [(hs m hm).u_v hu (hv m hm)]
    simp only [ratio_exact, uOfV, vPert, mul_div_assoc]
  · have := slopeNear hdT (dpt m hm)
    convert this using 1
    change ratio 0 _ _ = _
    rw [(hs m hm).press_T hu]
    simp only [ratio_exact, pOfT]
  · change forN n _ 0 = _
    rw [forN_add_sum]
    refine Finset.sum_congr rfl fun m hm => ?_
    rw [(hs m (Finset.mem_range.1 hm)).u_T hu]
    simp only [ratio_exact, uOfT, mul_div_assoc]

/-- The ideal gas `e = T`, `P = rho e`. -/
noncomputable def idealE : MatEOS ℝ :=
  ⟨fun _ _ T => T, fun _ r _ e => r * e, fun _ _ e => e, fun _ P T => (P / T, T), fun _ _ => 0, fun _ => 0,
    fun _ _ => 1⟩

/-- A state of two ideal gases at `T = 1` with volume fractions 1/4. -/
noncomputable def idealS : Mats ℝ :=
  ⟨fun _ => 4, fun _ => 1 / 4, fun _ => 1, fun _ => 1, fun _ => 4, fun _ => 1⟩

/-- The hypotheses of `C19_rhoT_differences` are met by two ideal gases. -/
example : let d := rhoTDerivs 0 idealE 2 (1 / 10) 0 1 1 1 (fun _ => 1) idealS
    ∀ m, m < 2 → SlopeNear (pOfT idealE 1 1 4 m) 1 (1 * (1 / 10)) (d.dpdT m) := by
  refine (C19_rhoT_differences idealE (n := 2) (eps := 1 / 10) (pmx := 0) (uscale := 1) (Tnorm := 1) (Teq := 1)
    (rhobar := fun _ => 1) (s := idealS) (by norm_num) one_ne_zero one_ne_zero (fun m _ => ?_) (fun m _ => ?_)
    (fun m _ y hy => ?_) (fun m _ y hy => ?_) (fun m _ y hy => ?_) (fun m _ y hy => ?_)).2.2.1
  · constructor <;> simp [idealE, idealS]
  · simp [idealS]
  · have hy0 : y ≠ 0 := by
      have : (0 : ℝ) < y := by
        have := hy.1
        simp only [idealS, vPert] at this
        norm_num at this
        linarith
      exact this.ne'
    unfold pOfV idealE
    fun_prop (disch := exact hy0)
  · unfold uOfV idealE; fun_prop
  · unfold pOfT idealE; fun_prop
  · unfold uOfT idealE; fun_prop

/-- C19, FixedT. -/
theorem C19_fixedT_differences (E : MatEOS ℝ) {eps pmx uscale T : ℝ} (he : eps ≠ 0)
    (hu : uscale ≠ 0) {rhobar : Nat → ℝ} {s : Mats ℝ} {m : Nat}
    (hs : MatState E rhobar uscale T s m) (hv : s.vfrac m ≠ 0)
    (dpv : ∀ y ∈ Set.uIcc (s.vfrac m) (s.vfrac m + vPert eps (s.vfrac m)),
        DifferentiableAt ℝ (pOfV E rhobar uscale T m) y) :
    ∃ q, SlopeNear (pOfV E rhobar uscale T m) (s.vfrac m) (vPert eps (s.vfrac m)) q ∧
      fixedTDpdv 0 E eps pmx uscale T rhobar s m = min q (-|pmx|) := by
  refine ⟨_, slopeNear (vPert_ne he hv) dpv, ?_⟩
  simp only [fixedTDpdv]
  rw [hs.press_v hu hv]
  simp only [ratio_exact, pOfV]

/-- C19, FixedP. -/
theorem C19_fixedP_differences (E : MatEOS ℝ) {eps pmx uscale Tnorm Teq : ℝ} (he : eps ≠ 0)
    (hu : uscale ≠ 0) (hT : Teq ≠ 0) {rhobar : Nat → ℝ} {s : Mats ℝ} {m : Nat}
    (hs : MatState E rhobar uscale (Tnorm * Teq) s m) (hv : s.vfrac m ≠ 0)
    (dpv : ∀ y ∈ Set.uIcc (s.vfrac m) (s.vfrac m + vPert eps (s.vfrac m)),
        DifferentiableAt ℝ (pOfV E rhobar uscale (Tnorm * Teq) m) y)
    (dpt : ∀ y ∈ Set.uIcc Teq (Teq + Teq * eps), DifferentiableAt ℝ (pOfT E uscale Tnorm (s.rho m) m) y) :
    let d := fixedPDerivs 0 E eps pmx uscale Tnorm Teq rhobar s m
    (∃ q, SlopeNear (pOfV E rhobar uscale (Tnorm * Teq) m) (s.vfrac m) (vPert eps (s.vfrac m)) q ∧
      d.1 = min q (-|pmx|)) ∧
    SlopeNear (pOfT E uscale Tnorm (s.rho m) m) Teq (Teq * eps) d.2 := by
  refine ⟨⟨_, slopeNear (vPert_ne he hv) dpv, ?_⟩, ?_⟩
  · simp only [fixedPDerivs]
    rw [hs.press_v hu hv]
    simp only [ratio_exact, pOfV]
  · have := slopeNear (mul_ne_zero hT he) dpt
    convert this using 1
    simp only [fixedPDerivs]
    rw [hs.press_T hu]
    simp only [ratio_exact, pOfT]

/-- C19, RhoU: derivatives with respect to the volume fraction at fixed energy and with respect to the
energy density at fixed volume of the pressure and temperature the EOS gives at `(rho, e)`. `dtde` is
replaced by `derivative_eps` on the cold curve, where it is smaller than `min_dtde`. -/
theorem C19_rhoU_differences (E : MatEOS ℝ) {eps pmx minDtde uscale Tnorm : ℝ} (he : eps ≠ 0)
    (hu : uscale ≠ 0) (hTn : Tnorm ≠ 0) {rhobar : Nat → ℝ} {s : Mats ℝ} {m : Nat} (hv : s.vfrac m ≠ 0)
    (hr : rhobar m ≠ 0) (hu0 : s.u m ≠ 0)
    (hmass : s.rho m * s.vfrac m = rhobar m) (hsie : s.u m * uscale = rhobar m * s.sie m)
    (htemp : s.temp m * Tnorm = E.tOf m (s.rho m) (s.sie m))
    (hpress : s.press m * uscale = E.pOf m (s.rho m) (Tnorm * s.temp m) (s.sie m)) :
    let tv := fun v => E.tOf m (rhobar m / v) (s.sie m) / Tnorm
    let pv := fun v => E.pOf m (rhobar m / v) (Tnorm * tv v) (s.sie m) / uscale
    let te := fun u => E.tOf m (s.rho m) (uscale * (u / rhobar m)) / Tnorm
    let pe := fun u => E.pOf m (s.rho m) (Tnorm * te u) (uscale * (u / rhobar m)) / uscale
    let dv := vPert eps (s.vfrac m)
    let de := |s.u m| * eps
    let d := rhoUDerivs 0 E eps pmx minDtde uscale Tnorm rhobar s
    (∀ y ∈ Set.uIcc (s.vfrac m) (s.vfrac m + dv), DifferentiableAt ℝ tv y ∧ DifferentiableAt ℝ pv y) →
    (∀ y ∈ Set.uIcc (s.u m) (s.u m + de), DifferentiableAt ℝ te y ∧ DifferentiableAt ℝ pe y) →
    (∃ q, SlopeNear pv (s.vfrac m) dv q ∧ d.dpdv m = min q (-|pmx|)) ∧
    SlopeNear tv (s.vfrac m) dv (d.dtdv m) ∧ SlopeNear pe (s.u m) de (d.dpde m) ∧
    (∃ q, SlopeNear te (s.u m) de q ∧ d.dtde m = if |q| < minDtde then eps else q) := by
  intro tv pv te pe dv de d h1 h2
  have hrho : s.rho m = rhobar m / s.vfrac m := by rw [← hmass]; field_simp
  have hdv : dv ≠ 0 := vPert_ne he hv
  have hde : de ≠ 0 := mul_ne_zero (abs_ne_zero.2 hu0) he
  have hsie' : uscale * (s.u m / rhobar m) = s.sie m := by
    rw [← mul_div_assoc, mul_comm, hsie, mul_div_cancel_left₀ _ hr]
  have ht1 : s.temp m = tv (s.vfrac m) := by
    change _ = E.tOf m (rhobar m / s.vfrac m) (s.sie m) / Tnorm
    rw [← hrho, ← htemp]; field_simp
  have hp1 : s.press m = pv (s.vfrac m) := by
    change _ = E.pOf m (rhobar m / s.vfrac m) (Tnorm * tv (s.vfrac m)) (s.sie m) / uscale
    rw [← hrho, ← ht1, ← hpress]; field_simp
  have ht2 : s.temp m = te (s.u m) := by
    change _ = E.tOf m (s.rho m) (uscale * (s.u m / rhobar m)) / Tnorm
    rw [hsie', ← htemp]; field_simp
  have hp2 : s.press m = pe (s.u m) := by
    change _ = E.pOf m (s.rho m) (Tnorm * te (s.u m)) (uscale * (s.u m / rhobar m)) / uscale
    rw [← ht2, hsie', ← hpress]; field_simp
  refine ⟨⟨_, slopeNear hdv fun y hy => (h1 y hy).2, ?_⟩, ?_, ?_, _, slopeNear hde fun y hy => (h2 y hy).1, ?_⟩
  · change min _ _ = _
    rw [hp1]; simp only [ratio_exact, pv, tv, dv]
  · have := slopeNear hdv fun y hy => (h1 y hy).1
    convert this using 1
    change ratio 0 _ _ = _
    rw [ht1]; simp only [ratio_exact, tv, dv]
  · have := slopeNear hde fun y hy => (h2 y hy).2
    convert this using 1
    change ratio 0 _ _ = _
    rw [hp2]; simp only [ratio_exact, pe, te, de]
  · change (if |ratio 0 (_ - s.temp m) _| < minDtde then eps else ratio 0 (_ - s.temp m) _) = _
    rw [ht2]; simp only [ratio_exact, te, de]

/-- C19, PT: at `(P, T)` with densities and energies the EOS gives there, the four entries of the matrix
are sums over the materials of derivatives, within the perturbation, of the density and energy the EOS
gives as functions of pressure or temperature. (`rhobar/rho^2` times the density derivative is minus the
derivative of the volume fraction.) -/
theorem C19_pt_differences (E : MatEOS ℝ) {n : Nat} {eps uscale Tnorm P T : ℝ} (he : eps ≠ 0)
    (hu : uscale ≠ 0) (hP : P ≠ 0) (hT : T ≠ 0) {rhobar : Nat → ℝ} {s : Mats ℝ} (jac : Nat → ℝ)
    (hs : ∀ m, m < n → (s.rho m, s.sie m) = E.rhoEOfPT m (uscale * P) (Tnorm * T))
    (hd : ∀ m, m < n → s.u m * uscale = rhobar m * s.sie m) :
    let rP := fun m p => (E.rhoEOfPT m (uscale * p) (Tnorm * T)).1
    let eP := fun m p => rhobar m * (E.rhoEOfPT m (uscale * p) (Tnorm * T)).2 / uscale
    let rT := fun m t => (E.rhoEOfPT m (uscale * P) (Tnorm * t)).1
    let eT := fun m t => rhobar m * (E.rhoEOfPT m (uscale * P) (Tnorm * t)).2 / uscale
    let J := ptJacobianOf 0 E n eps uscale Tnorm P T rhobar s jac
    (∀ m, m < n → ∀ y ∈ Set.uIcc P (P + -P * eps), DifferentiableAt ℝ (rP m) y ∧ DifferentiableAt ℝ (eP m) y) →
    (∀ m, m < n → ∀ y ∈ Set.uIcc T (T + T * eps), DifferentiableAt ℝ (rT m) y ∧ DifferentiableAt ℝ (eT m) y) →
    ∃ qrT qrP qeT qeP : Nat → ℝ,
      (∀ m, m < n → SlopeNear (rT m) T (T * eps) (qrT m) ∧ SlopeNear (rP m) P (-P * eps) (qrP m) ∧
        SlopeNear (eT m) T (T * eps) (qeT m) ∧ SlopeNear (eP m) P (-P * eps) (qeP m)) ∧
      J 0 = -∑ m ∈ Finset.range n, rhobar m / s.rho m ^ 2 * qrT m ∧
      J 1 = -∑ m ∈ Finset.range n, rhobar m / s.rho m ^ 2 * qrP m ∧
      J 2 = ∑ m ∈ Finset.range n, qeT m ∧ J 3 = ∑ m ∈ Finset.range n, qeP m := by
  intro rP eP rT eT J h1 h2
  have hdp : -P * eps ≠ 0 := mul_ne_zero (neg_ne_zero.2 hP) he
  have hdT : T * eps ≠ 0 := mul_ne_zero hT he
  have hr : ∀ m, m < n → s.rho m = (E.rhoEOfPT m (uscale * P) (Tnorm * T)).1 := fun m hm => by
    rw [← hs m hm]
  have he' : ∀ m, m < n → s.u m = rhobar m * (E.rhoEOfPT m (uscale * P) (Tnorm * T)).2 / uscale := fun m hm => by
    rw [← hs m hm, ← hd m hm]; field_simp
  refine ⟨fun m => (rT m (T + T * eps) - rT m T) / (T * eps), fun m => (rP m (P + -P * eps) - rP m P) / (-P * eps),
    fun m => (eT m (T + T * eps) - eT m T) / (T * eps), fun m => (eP m (P + -P * eps) - eP m P) / (-P * eps),
    fun m hm => ⟨slopeNear hdT fun y hy => (h2 m hm y hy).1, slopeNear hdp fun y hy => (h1 m hm y hy).1,
      slopeNear hdT fun y hy => (h2 m hm y hy).2, slopeNear hdp fun y hy => (h1 m hm y hy).2⟩, ?_, ?_, ?_, ?_⟩
  · change ptJacobianOf 0 E n eps uscale Tnorm P T rhobar s jac 0 = _
    simp only [ptJacobianOf, ptJacobian, forN_add_sum, Function.update_apply]
    norm_num
    refine Finset.sum_congr rfl fun m hm => ?_
    simp only [ptTerms, ratio_exact, rT]
    rw [← hr m (Finset.mem_range.1 hm), sq]
  · change ptJacobianOf 0 E n eps uscale Tnorm P T rhobar s jac 1 = _
    simp only [ptJacobianOf, ptJacobian, forN_add_sum, Function.update_apply]
    norm_num
    refine Finset.sum_congr rfl fun m hm => ?_
    simp only [ptTerms, ratio_exact, rP]
    rw [← hr m (Finset.mem_range.1 hm), sq]
    simp only [neg_mul]
  · change ptJacobianOf 0 E n eps uscale Tnorm P T rhobar s jac 2 = _
    simp only [ptJacobianOf, ptJacobian, forN_add_sum, Function.update_apply]
    norm_num
    refine Finset.sum_congr rfl fun m hm => ?_
    simp only [ptTerms, ratio_exact, eT]
    rw [he' m (Finset.mem_range.1 hm)]
  · change ptJacobianOf 0 E n eps uscale Tnorm P T rhobar s jac 3 = _
    simp only [ptJacobianOf, ptJacobian, forN_add_sum, Function.update_apply]
    norm_num
    refine Finset.sum_congr rfl fun m hm => ?_
    simp only [ptTerms, ratio_exact, eP]
    rw [he' m (Finset.mem_range.1 hm)]
    simp only [neg_mul]

/-- C19 fails for PT at zero pressure: the pressure perturbation is then zero, so the pressure column of
the matrix is zero whatever the equations of state, and the matrix is singular. -/
theorem C19_pt_zero_pressure_violated {K : Type*} [Field K] [LinearOrder K] [IsStrictOrderedRing K] {σ : K}
    (E : MatEOS K) {n : Nat} (eps : K) {uscale Tnorm T : K} {rhobar : Nat → K} {s : Mats K} (jac : Nat → K)
    (hs : ∀ m, m < n → s.rho m = (E.rhoEOfPT m 0 (Tnorm * T)).1)
    (hd : ∀ m, m < n → ratio σ (rhobar m * (E.rhoEOfPT m 0 (Tnorm * T)).2) uscale = s.u m) :
    let J := ptJacobianOf σ E n eps uscale Tnorm 0 T rhobar s jac
    J 1 = 0 ∧ J 3 = 0 ∧ J 0 * J 3 - J 1 * J 2 = 0 := by
  intro J
  have h1 : J 1 = 0 := by
    change ptJacobianOf σ E n eps uscale Tnorm 0 T rhobar s jac 1 = _
    simp only [ptJacobianOf, ptJacobian, forN_add_sum, Function.update_apply]
    norm_num
    refine Finset.sum_eq_zero fun m hm => ?_
    simp only [ptTerms]
    norm_num
    rw [hs m (Finset.mem_range.1 hm)]; simp [ratio]
  have h3 : J 3 = 0 := by
    change ptJacobianOf σ E n eps uscale Tnorm 0 T rhobar s jac 3 = _
    simp only [ptJacobianOf, ptJacobian, forN_add_sum, Function.update_apply]
    norm_num
    refine Finset.sum_eq_zero fun m hm => ?_
    simp only [ptTerms]
    norm_num
    rw [hd m (Finset.mem_range.1 hm)]; simp [ratio]
  exact ⟨h1, h3, by rw [h1, h3]; ring⟩

end Verif.PTE
