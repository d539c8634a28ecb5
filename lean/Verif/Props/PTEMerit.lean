import Verif.Lemmas.PTEMerit

/-! # C136: the residual `PTESolver` reports is that of the state it returns

`SolverStatus::residual` against the merit functions of `Spec/PTEMerit`, evaluated on the arrays the solver hands back.  Energies
and pressures enter in units of the solver's energy scale `U`; the solver's energy array `u` is its scratch array. -/

set_option linter.unusedSectionVars false

namespace Verif.PTE

open Robust

/-- The total energy density of the caller's state. -/
noncomputable def totalEnergy (n : Nat) (sieTot : ℝ) (s : PS ℝ) : ℝ := (∑ m ∈ Finset.range n, s.a.rho m * s.a.vfrac m) * sieTot

/-- The energy scale of RhoT, PT and RhoU. -/
noncomputable def energyScale (n : Nat) (sieTot : ℝ) (s : PS ℝ) : ℝ := max |totalEnergy n sieTot s| (1 / 10 ^ 14)

theorem energyScale_pos (n : Nat) (sieTot : ℝ) (s : PS ℝ) : 0 < energyScale n sieTot s :=
  lt_of_lt_of_le (by norm_num) (le_max_right _ _)

theorem initRhoBar_total (n : Nat) (s0 : PS ℝ) :
    (initRhoBar n s0).rhoTotal = ∑ m ∈ Finset.range n, s0.a.rho m * s0.a.vfrac m := by
  change sumNeumaier (initRhoBar n s0).rhobar n = _
  rw [sumNeumaier_all]
  exact Finset.sum_congr rfl fun m hm => rhobar_eq s0 (by simpa using hm)

theorem initBase_scale (σ : ℝ) (E : MatEOS ℝ) (I : InitEOS ℝ) (p : SolverParams ℝ) (n : Nat) (vt sieTot : ℝ) (s0 : PS ℝ) :
    (initBase σ E I p n vt sieTot s0).uscale = energyScale n sieTot s0 ∧
    (initBase σ E I p n vt sieTot s0).utot = ratio σ (totalEnergy n sieTot s0) (energyScale n sieTot s0) := by
  have e := initRhoBar_total n s0
  unfold energyScale totalEnergy
  rw [← e]
  exact ⟨rfl, rfl⟩

theorem unscale {n : Nat} {f : Nat → ℝ} {U : ℝ} (hU : U ≠ 0) {m : Nat} (hm : m < n) :
    mapN n (fun _ x => x * U) f m / U = f m := by
  rw [mapN_apply, if_pos hm, mul_div_cancel_right₀ _ hU]

/-- `Solve` leaves everything but `dx` alone. -/
theorem solveMember_eq (σ : ℝ) (qr : (Nat → ℝ) → (Nat → ℝ) → Nat → ℝ) (N : Nat) (s : PS ℝ) :
    ∃ x, (solveMember σ qr N s).1 = { s with dx := x } := by
  unfold solveMember
  split
  · exact ⟨s.dx, rfl⟩
  · exact ⟨_, rfl⟩

section congr
variable {n : Nat}

theorem meritVU_congr {vt ut : ℝ} {v u u' : Nat → ℝ} (h : ∀ m, m < n → u m = u' m) :
    meritVU n vt ut v u = meritVU n vt ut v u' := by
  unfold meritVU; rw [Finset.sum_congr rfl fun m hm => h m (by simpa using hm)]

theorem meritUP_congr {k : Nat} (hk : k < n) {ut : ℝ} {u u' p p' : Nat → ℝ} (h : ∀ m, m < n → u m = u' m)
    (h' : ∀ m, m < n → p m = p' m) : meritUP n k ut u p = meritUP n k ut u' p' := by
  unfold meritUP
  rw [Finset.sum_congr rfl fun m hm => h m (by simpa using hm),
    Finset.sum_congr (f := fun m => (p k - p m) ^ 2) rfl fun m hm => by rw [h' m (by simpa using hm), h' k hk]]

theorem meritVP_congr {vt : ℝ} {v p p' : Nat → ℝ} (h : ∀ m, m < n → p m = p' m) : meritVP n vt v p = meritVP n vt v p' := by
  unfold meritVP
  rw [Finset.sum_congr (f := fun m => (p m - p (m + 1)) ^ 2) rfl fun m hm => by
    have := Finset.mem_range.1 hm
    rw [h m (by omega), h (m + 1) (by omega)]]

theorem meritVPfix_congr {vt P : ℝ} {v p p' : Nat → ℝ} (h : ∀ m, m < n → p m = p' m) :
    meritVPfix n vt P v p = meritVPfix n vt P v p' := by
  unfold meritVPfix
  rw [Finset.sum_congr (f := fun m => (P - p m) ^ 2) rfl fun m hm => by rw [h m (by simpa using hm)]]

theorem meritAll_congr {vt ut : ℝ} {v u u' p p' t t' : Nat → ℝ} (h : ∀ m, m < n → u m = u' m) (h1 : ∀ m, m < n → p m = p' m)
    (h2 : ∀ m, m + 1 < n → t (m + 1) - t m = t' (m + 1) - t' m) : meritAll n vt ut v u p t = meritAll n vt ut v u' p' t' := by
  unfold meritAll
  rw [Finset.sum_congr rfl fun m hm => h m (by simpa using hm),
    Finset.sum_congr (f := fun m => (p (m + 1) - p m) ^ 2) rfl fun m hm => by
      have := Finset.mem_range.1 hm
      rw [h1 m (by omega), h1 (m + 1) (by omega)],
    Finset.sum_congr (f := fun m => (t (m + 1) - t m) ^ 2) rfl fun m hm => by
      have := Finset.mem_range.1 hm
      rw [h2 m (by omega)]]

end congr

variable {σ : ℝ} {E : MatEOS ℝ} {n : Nat}

/-! ## PT -/

/-- C136, `PTESolverPT`: for every input, equations of state, linear solver and parameters (at least one line-search pass), the
residual reported is the merit of the returned volume fractions and energies. -/
theorem C136_pt (I : InitEOS ℝ) (p : SolverParams ℝ) (t : MixTols) (qr : (Nat → ℝ) → (Nat → ℝ) → Nat → ℝ) (vt sieTot : ℝ)
    (dp : DriverParams ℝ) (hl : 1 ≤ dp.lineMax) (s0 : PS ℝ) :
    let r := pteSolver σ (ptSys σ E I p t qr n vt sieTot) dp s0
    let U := energyScale n sieTot s0
    r.err = meritVU n vt (ratio σ (totalEnergy n sieTot s0) U) r.s.a.vfrac (fun m => r.s.a.u m / U) := by
  intro r U
  have hU : U ≠ 0 := (energyScale_pos n sieTot s0).ne'
  obtain ⟨b1, b2⟩ := initBase_scale σ E I p n vt sieTot s0
  set ut := ratio σ (totalEnergy n sieTot s0) U with hut
  let R : PS ℝ → ℝ → Prop := fun s e => s.uscale = U ∧ s.utot = ut ∧ e = meritVU n vt ut s.a.vfrac s.a.u
  have hR : Reports (ptSys σ E I p t qr n vt sieTot) R := by
    refine ⟨fun s e h => h, fun s e h => ?_, fun s e h => h, fun s e t c h => ?_, fun s e h => h⟩
    · obtain ⟨x, hx⟩ := solveMember_eq σ qr 2 s
      change R (solveMember σ qr 2 s).1 e
      rw [hx]; exact h
    · have hh : (if c = true then { s with Ttemp := s.Tequil, Ptemp := s.Pequil } else s).uscale = U ∧
          (if c = true then { s with Ttemp := s.Tequil, Ptemp := s.Pequil } else s).utot = ut := by
        split_ifs <;> exact ⟨h.1, h.2.1⟩
      refine ⟨hh.1, hh.2, ?_⟩
      change residualNorm 2 (ptResidual n vt _ _ _ _) = _
      rw [norm_pt]
      change meritVU n vt (if c = true then { s with Ttemp := s.Tequil, Ptemp := s.Pequil } else s).utot _ _ = _
      rw [hh.2]
      rfl
  obtain ⟨s, ⟨h1, -, h3⟩, hs⟩ := pteSolver_reports (σ := σ) hR hl (s0 := s0) ⟨b1, b2, by
    change residualNorm 2 (ptResidual n vt _ _ _ _) = _
    rw [norm_pt]
    change meritVU n vt (initBase σ E I p n vt sieTot s0).utot _ _ = _
    rw [b2]
    rfl⟩
  change r.err = _ at h3
  change r.s = ptFinalize n s at hs
  rw [h3, hs]
  refine meritVU_congr fun m hm => ?_
  change _ = mapN n (fun _ x => x * s.uscale) s.a.u m / U
  rw [h1, unscale hU hm]

/-! ## RhoT -/

theorem rhoT_test_members (s : PS ℝ) (t : ℝ) (c : Bool) :
    let s' := (rhoTTest σ E n s t c).1
    s'.ms = s.ms ∧ s'.uscale = s.uscale ∧ s'.utot = s.utot ∧
    (s.ms < n → (rhoTTest σ E n s t c).2 = meritUP n s.ms s.utot s'.a.u s'.a.press) := by
  cases c <;> exact ⟨rfl, rfl, rfl, fun hms => by
    change residualNorm n (rhoTResidual n s.ms s.utot _ _ _) = _
    rw [norm_rhoT hms]
    rfl⟩

/-- C136, `PTESolverRhoT` told which material to leave out of the unknowns: the residual reported is the merit of the returned
energies and pressures, the pressures compared with that material's. -/
theorem C136_rhoT_exclude (I : InitEOS ℝ) {p : SolverParams ℝ} {k : Nat} (hk : k < n) (hx : p.exclude = k) (t : MixTols)
    (qr : (Nat → ℝ) → (Nat → ℝ) → Nat → ℝ) (vt sieTot : ℝ) (dp : DriverParams ℝ) (hl : 1 ≤ dp.lineMax) (s0 : PS ℝ) :
    let r := pteSolver σ (rhoTSys σ E I p t qr n vt sieTot) dp s0
    let U := energyScale n sieTot s0
    r.s.ms = k ∧ r.err = meritUP n k (ratio σ (totalEnergy n sieTot s0) U) (fun m => r.s.a.u m / U) (fun m => r.s.a.press m / U) := by
  intro r U
  have hU : U ≠ 0 := (energyScale_pos n sieTot s0).ne'
  obtain ⟨b1, b2⟩ := initBase_scale σ E I p n vt sieTot s0
  set ut := ratio σ (totalEnergy n sieTot s0) U with hut
  have hx0 : ¬ p.exclude < 0 := by rw [hx]; omega
  have hx1 : 0 ≤ p.exclude := by omega
  let R : PS ℝ → ℝ → Prop := fun s e => s.ms = k ∧ s.uscale = U ∧ s.utot = ut ∧ e = meritUP n k ut s.a.u s.a.press
  have hR : Reports (rhoTSys σ E I p t qr n vt sieTot) R := by
    refine ⟨fun s e h => h, fun s e h => ?_, fun s e h => h, fun s e t c h => ?_, fun s e h => ?_⟩
    · obtain ⟨x, hx⟩ := solveMember_eq σ qr n s
      change R (solveMember σ qr n s).1 e
      rw [hx]; exact h
    · obtain ⟨a1, a2, a3, a4⟩ := rhoT_test_members (σ := σ) (E := E) (n := n) s t c
      obtain ⟨h1, h2, h3, -⟩ := h
      refine ⟨a1.trans h1, a2.trans h2, a3.trans h3, ?_⟩
      have := a4 (by rw [h1]; exact hk)
      rw [h1, h3] at this
      exact this
    · change R (rhoTFixup p n s) e
      unfold rhoTFixup
      rw [if_neg hx0]; exact h
  have hms : (rhoTInit σ E I p n vt sieTot s0).1.ms = k := by
    change (if 0 ≤ p.exclude then p.exclude.toNat else _) = k
    rw [if_pos hx1, hx]; rfl
  obtain ⟨s, ⟨h0, h1, -, h3⟩, hs⟩ := pteSolver_reports (σ := σ) hR hl (s0 := s0) ⟨hms, b1, b2, by
    change residualNorm n (rhoTResidual n (rhoTInit σ E I p n vt sieTot s0).1.ms (initBase σ E I p n vt sieTot s0).utot _ _ _) = _
    rw [hms, b2, norm_rhoT hk]
    rfl⟩
  change r.err = _ at h3
  change r.s = finalizeBase n s at hs
  rw [h3, hs]
  refine ⟨h0, meritUP_congr hk (fun m hm => ?_) (fun m hm => ?_)⟩
  · change _ = mapN n (fun _ x => x * s.uscale) s.a.u m / U
    rw [h1, unscale hU hm]
  · change _ = mapN n (fun _ x => x * s.uscale) s.a.press m / U
    rw [h1, unscale hU hm]

/-- Changing the reference material changes the merit by at most a factor twice the number of materials. -/
theorem meritUP_le {j k : Nat} (hj : j < n) (hk : k < n) (ut : ℝ) (u p : Nat → ℝ) :
    meritUP n j ut u p ≤ 2 * n * meritUP n k ut u p := by
  unfold meritUP
  set A := (ut - ∑ m ∈ Finset.range n, u m) ^ 2 with hA
  have hA0 : 0 ≤ A := sq_nonneg _
  set S := ∑ m ∈ Finset.range n, (p k - p m) ^ 2 with hS
  have hS0 : 0 ≤ S := Finset.sum_nonneg fun _ _ => sq_nonneg _
  have hn1 : (1 : ℝ) ≤ n := by exact_mod_cast (by omega : 1 ≤ n)
  have hbound : ∑ m ∈ Finset.range n, (p j - p m) ^ 2 ≤ 2 * n * S := by
    by_cases hjk : j = k
    · rw [hjk]; nlinarith
    · -- split off the two materials
      have h1 : ∀ m ∈ Finset.range n, (p j - p m) ^ 2 ≤ 2 * (p k - p j) ^ 2 + 2 * (p k - p m) ^ 2 := fun m _ => by
        nlinarith [sq_nonneg ((p k - p j) + (p k - p m))]
      have h3 : ∑ m ∈ Finset.range n, (p j - p m) ^ 2 = ∑ m ∈ (Finset.range n).erase j, (p j - p m) ^ 2 := by
        rw [← Finset.add_sum_erase _ _ (Finset.mem_range.2 hj)]; simp
      have h4 : S = (p k - p j) ^ 2 + ∑ m ∈ (Finset.range n).erase j, (p k - p m) ^ 2 := by
        rw [hS, ← Finset.add_sum_erase _ _ (Finset.mem_range.2 hj)]
      have h5 : ∑ m ∈ (Finset.range n).erase j, (p j - p m) ^ 2
          ≤ ∑ m ∈ (Finset.range n).erase j, (2 * (p k - p j) ^ 2 + 2 * (p k - p m) ^ 2) :=
        Finset.sum_le_sum fun m hm => h1 m (Finset.mem_of_mem_erase hm)
      rw [Finset.sum_add_distrib, Finset.sum_const, ← Finset.mul_sum, Finset.card_erase_of_mem (Finset.mem_range.2 hj),
        Finset.card_range, nsmul_eq_mul, Nat.cast_sub (by omega), Nat.cast_one] at h5
      have h6 : 0 ≤ ∑ m ∈ (Finset.range n).erase j, (p k - p m) ^ 2 := Finset.sum_nonneg fun _ _ => sq_nonneg _
      rw [h3]
      rw [h4]
      nlinarith [sq_nonneg (p k - p j)]
  nlinarith

/-- C136, `PTESolverRhoT` choosing the left-out material itself: the residual reported is the merit of the returned state with
pressures compared with those of some material, so it is right up to a factor `2 n` for every choice of that material, and it is
zero exactly when the returned pressures agree and the energies add up. -/
theorem C136_rhoT_partial (I : InitEOS ℝ) {p : SolverParams ℝ} (hn : 0 < n) (hx : p.exclude < 0) (t : MixTols)
    (qr : (Nat → ℝ) → (Nat → ℝ) → Nat → ℝ) (vt sieTot : ℝ) (dp : DriverParams ℝ) (hl : 1 ≤ dp.lineMax) (s0 : PS ℝ) :
    let r := pteSolver σ (rhoTSys σ E I p t qr n vt sieTot) dp s0
    let U := energyScale n sieTot s0
    let M := fun k => meritUP n k (ratio σ (totalEnergy n sieTot s0) U) (fun m => r.s.a.u m / U) (fun m => r.s.a.press m / U)
    r.s.ms < n ∧ (∃ k, k < n ∧ r.err = M k) ∧ ∀ k, k < n → M k ≤ 2 * n * r.err ∧ r.err ≤ 2 * n * M k := by
  intro r U M
  have hU : U ≠ 0 := (energyScale_pos n sieTot s0).ne'
  obtain ⟨b1, b2⟩ := initBase_scale σ E I p n vt sieTot s0
  set ut := ratio σ (totalEnergy n sieTot s0) U with hut
  let R : PS ℝ → ℝ → Prop := fun s e =>
    s.ms < n ∧ s.uscale = U ∧ s.utot = ut ∧ ∃ k, k < n ∧ e = meritUP n k ut s.a.u s.a.press
  have hR : Reports (rhoTSys σ E I p t qr n vt sieTot) R := by
    refine ⟨fun s e h => h, fun s e h => ?_, fun s e h => h, fun s e t c h => ?_, fun s e h => ?_⟩
    · obtain ⟨x, hx⟩ := solveMember_eq σ qr n s
      change R (solveMember σ qr n s).1 e
      rw [hx]; exact h
    · obtain ⟨a1, a2, a3, a4⟩ := rhoT_test_members (σ := σ) (E := E) (n := n) s t c
      obtain ⟨h1, h2, h3, -⟩ := h
      refine ⟨a1.trans_lt h1, a2.trans h2, a3.trans h3, s.ms, h1, ?_⟩
      have := a4 h1
      rw [h3] at this
      exact this
    · change R (rhoTFixup p n s) e
      unfold rhoTFixup
      rw [if_pos hx]
      exact ⟨argmaxPos_lt hn _, h.2⟩
  have hms : (rhoTInit σ E I p n vt sieTot s0).1.ms < n := by
    change (if 0 ≤ p.exclude then p.exclude.toNat else _) < n
    rw [if_neg (by omega)]
    exact argmaxPos_lt hn _
  obtain ⟨s, ⟨h0, h1, -, k, hk, h3⟩, hs⟩ := pteSolver_reports (σ := σ) hR hl (s0 := s0) ⟨hms, b1, b2, _, hms, by
    change residualNorm n (rhoTResidual n (rhoTInit σ E I p n vt sieTot s0).1.ms (initBase σ E I p n vt sieTot s0).utot _ _ _) = _
    rw [b2, norm_rhoT hms]
    rfl⟩
  change r.err = _ at h3
  change r.s = finalizeBase n s at hs
  have hM : ∀ j, j < n → M j = meritUP n j ut s.a.u s.a.press := fun j hj => by
    change meritUP n j ut (fun m => r.s.a.u m / U) (fun m => r.s.a.press m / U) = _
    rw [hs]
    refine meritUP_congr hj (fun m hm => ?_) (fun m hm => ?_)
    · change mapN n (fun _ x => x * s.uscale) s.a.u m / U = _
      rw [h1, unscale hU hm]
    · change mapN n (fun _ x => x * s.uscale) s.a.press m / U = _
      rw [h1, unscale hU hm]
  refine ⟨by rw [hs]; exact h0, ⟨k, hk, by rw [hM k hk, h3]⟩, fun j hj => ?_⟩
  rw [hM j hj, h3]
  exact ⟨meritUP_le hj hk _ _ _, meritUP_le hk hj _ _ _⟩

/-! ## FixedT -/

/-- C136, `PTESolverFixedT`: the residual reported is the merit of the returned volume fractions and pressures. -/
theorem C136_fixedT (p : SolverParams ℝ) (t : MixTols) (qr : (Nat → ℝ) → (Nat → ℝ) → Nat → ℝ) (hn : 0 < n) (vt : ℝ)
    (dp : DriverParams ℝ) (hl : 1 ≤ dp.lineMax) (s0 : PS ℝ) :
    let r := pteSolver σ (fixedTSys σ E p t qr n vt) dp s0
    0 < r.s.uscale ∧ r.err = meritVP n vt r.s.a.vfrac (fun m => r.s.a.press m / r.s.uscale) := by
  intro r
  let R : PS ℝ → ℝ → Prop := fun s e => 0 < s.uscale ∧ e = meritVP n vt s.a.vfrac s.a.press
  have hR : Reports (fixedTSys σ E p t qr n vt) R := by
    refine ⟨fun s e h => h, fun s e h => ?_, fun s e h => h, fun s e t c h => ?_, fun s e h => h⟩
    · obtain ⟨x, hx⟩ := solveMember_eq σ qr n s
      change R (solveMember σ qr n s).1 e
      rw [hx]; exact h
    · have hh : (if c = true then { s with vtemp := fill n s.a.vfrac s.vtemp } else s).uscale = s.uscale := by
        split_ifs <;> rfl
      refine ⟨hh.trans_gt h.1, ?_⟩
      change residualNorm n (fixedTResidual n vt _ _ _) = _
      rw [norm_fixedT hn]
      rfl
  obtain ⟨s, ⟨h1, h3⟩, hs⟩ := pteSolver_reports (σ := σ) hR hl (s0 := s0)
    ⟨lt_of_lt_of_le (by norm_num) (le_max_right _ _), by
      change residualNorm n (fixedTResidual n vt _ _ _) = _
      rw [norm_fixedT hn]
      rfl⟩
  change r.err = _ at h3
  change r.s = finalizeBase n s at hs
  rw [h3, hs]
  refine ⟨h1, meritVP_congr fun m hm => ?_⟩
  change _ = mapN n (fun _ x => x * s.uscale) s.a.press m / s.uscale
  rw [unscale h1.ne' hm]

/-! ## FixedP -/

theorem fixedP_test_members (vt : ℝ) (s : PS ℝ) (t : ℝ) (c : Bool) :
    let s' := (fixedPTest σ E n vt s t c).1
    s'.uscale = s.uscale ∧ s'.Pequil = s.Pequil ∧
    (fixedPTest σ E n vt s t c).2 = meritVPfix n vt (ratio σ s.Pequil s.uscale) s'.a.vfrac s'.a.press := by
  cases c <;> exact ⟨rfl, rfl, by
    change residualNorm (n + 1) (fixedPResidual σ n vt s.Pequil s.uscale _ _ _) = _
    rw [norm_fixedP]
    rfl⟩

/-- C136, `PTESolverFixedP`: the residual reported is the merit of the returned volume fractions and pressures, compared with
the pressure asked for. -/
theorem C136_fixedP (I : InitEOS ℝ) (p : SolverParams ℝ) (t : MixTols) (qr : (Nat → ℝ) → (Nat → ℝ) → Nat → ℝ) (vt P : ℝ)
    (dp : DriverParams ℝ) (hl : 1 ≤ dp.lineMax) (s0 : PS ℝ) :
    let r := pteSolver σ (fixedPSys σ E I p t qr n vt) dp (fixedPCtor P s0)
    let U := max |P| (1 / 10 ^ 14)
    r.err = meritVPfix n vt (ratio σ P U) r.s.a.vfrac (fun m => r.s.a.press m / U) := by
  intro r U
  have hU : U ≠ 0 := (lt_of_lt_of_le (by norm_num) (le_max_right _ _) : (0 : ℝ) < U).ne'
  let R : PS ℝ → ℝ → Prop := fun s e => s.uscale = U ∧ s.Pequil = P ∧ e = meritVPfix n vt (ratio σ P U) s.a.vfrac s.a.press
  have hR : Reports (fixedPSys σ E I p t qr n vt) R := by
    refine ⟨fun s e h => h, fun s e h => ?_, fun s e h => h, fun s e t c h => ?_, fun s e h => h⟩
    · obtain ⟨x, hx⟩ := solveMember_eq σ qr (n + 1) s
      change R (solveMember σ qr (n + 1) s).1 e
      rw [hx]; exact h
    · obtain ⟨a1, a2, a3⟩ := fixedP_test_members (σ := σ) (E := E) (n := n) vt s t c
      refine ⟨a1.trans h.1, a2.trans h.2.1, ?_⟩
      rw [h.1, h.2.1] at a3
      exact a3
  obtain ⟨s, ⟨h1, -, h3⟩, hs⟩ := pteSolver_reports (σ := σ) hR hl (s0 := fixedPCtor P s0) ⟨rfl, rfl, by
    change residualNorm (n + 1) (fixedPResidual σ n vt P U _ _ _) = _
    rw [norm_fixedP]
    rfl⟩
  change r.err = _ at h3
  change r.s = finalizeBase n s at hs
  rw [h3, hs]
  refine meritVPfix_congr fun m hm => ?_
  change _ = mapN n (fun _ x => x * s.uscale) s.a.press m / U
  rw [h1, unscale hU hm]

/-! ## RhoU -/

/-- `Init` returns the merit of the state it leaves, whether or not `TryIdealPTE` replaced the guess. -/
theorem rhoU_init_merit (I : InitEOS ℝ) (p : SolverParams ℝ) (hn : 0 < n) (vt sieTot : ℝ) (s0 : PS ℝ) :
    let r := rhoUInit σ E I p n vt sieTot s0
    let b := initBase σ E I p n vt sieTot s0
    r.1.uscale = b.uscale ∧ r.1.utot = b.utot ∧ r.1.Tnorm = b.Tnorm ∧
    r.2 = meritAll n vt b.utot r.1.a.vfrac r.1.a.u r.1.a.press r.1.a.temp := by
  intro r b
  refine ⟨rfl, rfl, rfl, ?_⟩
  set b1 := rhoUResid n vt b with hb1
  set resid := fun v u pr t => rhoUResidual n vt b1.utot v u pr t b1.residual with hresid
  set t' := tryIdealPTE σ E n (2 * n) b1.uscale b1.Tnorm vt resid (toIdeal (2 * n) n b1) with ht'
  have hg := C17_ideal_guess σ E b1.uscale b1.Tnorm vt resid (toIdeal (2 * n) n b1) (C17_ideal_rhoU_room n)
  obtain ⟨m1, m2, -⟩ := toIdeal_mem n b1
  have hUo : offU (2 * n) = offRes (2 * n) + 2 * n := rfl
  have e2 : r.2 = residualNorm (2 * n) r.1.residual := rfl
  have hT0 : ∀ m, m < n → (toIdeal (2 * n) n b1).temp m = 1 := fun m hm => by
    change fill n _ _ m = 1
    rw [fill_apply, if_pos hm]
  have key : ∀ q : Nat → ℝ, (∀ i, i < 2 * n → r.1.residual i = q i) → r.2 = residualNorm (2 * n) q := fun q hq => by
    rw [e2, residualNorm_eq, residualNorm_eq, Finset.sum_congr rfl fun i hi => by rw [hq i (by simpa using hi)]]
  rcases hg with ⟨g1, g2, g3, g4, g5, g6⟩ | ⟨-, g2, g3⟩
  · rw [← ht'] at g1 g2 g3 g4 g5 g6
    rw [key (rhoUResidual n vt b.utot b.a.vfrac b.a.u b.a.press b.a.temp b.residual) fun i hi => by
      change t'.mem (offRes (2 * n) + i) = _
      rw [g6 _ (by omega), m1 i hi]; rfl, norm_rhoU hn]
    change _ = meritAll n vt b.utot t'.vfrac (fun i => t'.mem (offU (2 * n) + i)) t'.press t'.temp
    rw [g2, g4, g5]
    refine meritAll_congr (fun m hm => ?_) (fun _ _ => rfl) (fun _ _ => rfl)
    change _ = t'.mem (offU (2 * n) + m)
    rw [g6 _ (by omega), m2 m hm]; rfl
  · rw [← ht'] at g2 g3
    rw [key _ fun i hi => g2 i hi, hresid]
    dsimp only
    rw [norm_rhoU hn]
    change _ = meritAll n vt b.utot t'.vfrac (fun i => t'.mem (offU (2 * n) + i)) t'.press t'.temp
    refine meritAll_congr (fun m hm => rfl) (fun _ _ => rfl) (fun m hm => ?_)
    rw [hT0 m (by omega), hT0 (m + 1) (by omega), (g3 m (by omega)).1, (g3 (m + 1) (by omega)).1, sub_self, sub_self]

/-- C136, `PTESolverRhoU`: for densities and volume fractions that are positive and do not overfill the cell, the residual
reported is the merit of the returned state, temperatures in units of the solver's temperature scale. -/
theorem C136_rhoU (hσ : 0 < σ) (I : InitEOS ℝ) {p : SolverParams ℝ} (htl : 0 < p.tlimit) (htd : 0 < p.tdefault) (t : MixTols)
    (qr : (Nat → ℝ) → (Nat → ℝ) → Nat → ℝ) (hn : 0 < n) {vt : ℝ} (hvt : 0 < vt) (sieTot : ℝ)
    (hp : ∀ m T, m < n → 0 ≤ E.rhoPmin m T) (dp : DriverParams ℝ) (hl : 1 ≤ dp.lineMax) {s0 : PS ℝ} (h : InputOk n vt s0) :
    let r := pteSolver σ (rhoUSys σ E I p t qr n vt sieTot) dp s0
    let U := energyScale n sieTot s0
    0 < r.s.Tnorm ∧ r.err = meritAll n vt (ratio σ (totalEnergy n sieTot s0) U) r.s.a.vfrac (fun m => r.s.a.u m / U)
      (fun m => r.s.a.press m / U) (fun m => r.s.a.temp m / r.s.Tnorm) := by
  intro r U
  have hU : U ≠ 0 := (energyScale_pos n sieTot s0).ne'
  obtain ⟨b1, b2⟩ := initBase_scale σ E I p n vt sieTot s0
  have hTn := (initBase_ok (E := E) hσ I htl htd hn hvt sieTot hp h).2.2.2.2.1
  set Tn := (initBase σ E I p n vt sieTot s0).Tnorm with hTnd
  set ut := ratio σ (totalEnergy n sieTot s0) U with hut
  let R : PS ℝ → ℝ → Prop := fun s e => s.uscale = U ∧ s.utot = ut ∧ s.Tnorm = Tn ∧
    e = meritAll n vt ut s.a.vfrac s.a.u s.a.press s.a.temp
  have hR : Reports (rhoUSys σ E I p t qr n vt sieTot) R := by
    refine ⟨fun s e h => h, fun s e h => ?_, fun s e h => h, fun s e t c h => ?_, fun s e h => h⟩
    · obtain ⟨x, hx⟩ := solveMember_eq σ qr (2 * n) s
      change R (solveMember σ qr (2 * n) s).1 e
      rw [hx]; exact h
    · set s1 := (if c = true then { s with vtemp := fill n s.a.vfrac s.vtemp, utemp := fill n s.a.u s.utemp } else s) with hs1
      have hh : s1.uscale = U ∧ s1.utot = ut ∧ s1.Tnorm = Tn := by
        rw [hs1]; split_ifs <;> exact ⟨h.1, h.2.1, h.2.2.1⟩
      refine ⟨hh.1, hh.2.1, hh.2.2, ?_⟩
      change residualNorm (2 * n) (rhoUResidual n vt s1.utot _ _ _ _ _) = _
      rw [norm_rhoU hn, hh.2.1]
      rfl
  obtain ⟨i1, i2, i3, i4⟩ := rhoU_init_merit (σ := σ) (E := E) I p hn vt sieTot s0
  obtain ⟨s, ⟨h1, -, h2, h3⟩, hs⟩ := pteSolver_reports (σ := σ) hR hl (s0 := s0) ⟨i1.trans b1, i2.trans b2, i3, by
    change (rhoUInit σ E I p n vt sieTot s0).2 = _
    rw [i4, b2]
    rfl⟩
  change r.err = _ at h3
  change r.s = finalizeBase n s at hs
  rw [h3, hs]
  refine ⟨hTn.trans_eq h2.symm, meritAll_congr (fun m hm => ?_) (fun m hm => ?_) (fun m hm => ?_)⟩
  · change _ = mapN n (fun _ x => x * s.uscale) s.a.u m / U
    rw [h1, unscale hU hm]
  · change _ = mapN n (fun _ x => x * s.uscale) s.a.press m / U
    rw [h1, unscale hU hm]
  · change _ = mapN n (fun _ x => x * s.Tnorm) s.a.temp (m + 1) / s.Tnorm - mapN n (fun _ x => x * s.Tnorm) s.a.temp m / s.Tnorm
    have : s.Tnorm ≠ 0 := by rw [h2]; exact hTn.ne'
    rw [unscale this hm, unscale this (by omega)]

end Verif.PTE
