import Verif.Lemmas.PTEJacobian

/-! # C19: the matrix each PTE solver assembles is minus the derivative of its residual

For each solver the material pressures, energies, temperatures and volumes are replaced by their first
order changes along a step `dx`, using the derivative arrays the solver computed, and the residual of the
changed state is shown to be `residual - J dx`, row by row, for every number of materials.  So a step with
`J dx = residual` (what `Solve` returns, C21) makes every linearised equation hold exactly. -/

namespace Verif.PTE

open Robust

set_option linter.unusedSectionVars false

variable {K : Type*} [Field K] [LinearOrder K] [IsStrictOrderedRing K]

/-- The rows of `PTESolverRhoT::Residual`. -/
theorem rhoTResidual_rows {n ms : Nat} (hms : ms < n) (utot : K) (u press res : Nat → K) :
    rhoTResidual n ms utot u press res 0 = utot - ∑ m ∈ Finset.range n, u m ∧
    ∀ m, m < n → m ≠ ms → rhoTResidual n ms utot u press res (pos ms m) = press ms - press m := by
  have h := skipFill_spec n ms (fun m => press ms - press m)
    (Function.update res 0 (utot - sumNeumaier u n))
  refine ⟨?_, fun m hm hne => h.1 m hm hne⟩
  unfold rhoTResidual
  rw [h.2 0 (fun m hm hne => by have := pos_range hms hm hne; omega), Function.update_self,
    sumNeumaier_all]

/-- Every row of the reduced system is row 0 or the row of some material other than `ms`. -/
theorem row_cases {n ms r : Nat} (hms : ms < n) (hr : r < n) :
    r = 0 ∨ ∃ m, m < n ∧ m ≠ ms ∧ r = pos ms m := by
  by_cases h0 : r = 0
  · exact Or.inl h0
  · right
    refine ⟨if r ≤ ms then r - 1 else r, ?_, ?_, ?_⟩ <;> (try unfold pos) <;> split_ifs <;> omega

/-- C19, `PTESolverRhoT`. `v` are the current volume fractions (summing to 1) and `δ m` is the change
of volume fraction of material `m` that `TestUpdate` applies for the full step; `dx 0` is the change of
temperature. -/
theorem C19_rhoT {n ms : Nat} (hms : ms < n) (d : Derivs K) (dedT : Nat → K)
    (hsum : d.dedTsum = ∑ m ∈ Finset.range n, dedT m)
    (dx p u v : Nat → K) (hv : ∑ m ∈ Finset.range n, v m = 1) (utot : K) (jac res vf : Nat → K) :
    let δ := fun m => rhoTVfrac n ms 1 dx v vf m - v m
    let p' := fun m => p m + d.dpdv m * δ m + d.dpdT m * dx 0
    let u' := fun m => u m + d.dedv m * δ m + dedT m * dx 0
    ∀ r, r < n → rhoTResidual n ms utot u' p' res r = rhoTResidual n ms utot u p res r
      - ∑ c ∈ Finset.range n, rhoTJacobian n ms d jac (r * n + c) * dx c := by
  intro δ p' u' r hr
  obtain ⟨j1, j2, j3, j4⟩ := rhoTJacobian_entries hms d jac
  obtain ⟨v1, v2⟩ := rhoTVfrac_spec hms 1 dx v vf
  have hδ : ∀ m, m < n → m ≠ ms → δ m = dx (pos ms m) := by
    intro m hm hne
    change rhoTVfrac n ms 1 dx v vf m - v m = _
    rw [v1 m hm hne]; ring
  have hδs : δ ms = -∑ m ∈ (Finset.range n).filter (· ≠ ms), dx (pos ms m) := by
    change rhoTVfrac n ms 1 dx v vf ms - v ms = _
    rw [v2, Finset.sum_add_distrib]
    have := sum_update hms v v (fun _ _ _ => rfl)
    rw [hv] at this
    simp only [one_mul]
    linarith
  have r1 := rhoTResidual_rows hms utot u p res
  have r2 := rhoTResidual_rows hms utot u' p' res
  rw [sum_pos hms]
  rcases row_cases hms hr with rfl | ⟨m, hm, hne, rfl⟩
  · rw [r1.1, r2.1]
    simp only [zero_mul, zero_add]
    rw [j1, hsum]
    have e1 : ∑ m ∈ (Finset.range n).filter (· ≠ ms), rhoTJacobian n ms d jac (pos ms m) * dx (pos ms m)
        = ∑ m ∈ (Finset.range n).filter (· ≠ ms), d.dedv m * dx (pos ms m) + d.dedv ms * δ ms := by
      rw [hδs, mul_neg, Finset.mul_sum, ← sub_eq_add_neg, ← Finset.sum_sub_distrib]
      refine Finset.sum_congr rfl fun m hm => ?_
      simp only [Finset.mem_filter, Finset.mem_range] at hm
      rw [j2 m hm.1 hm.2]; ring
    have e2 : ∑ m ∈ Finset.range n, d.dedv m * δ m
        = d.dedv ms * δ ms + ∑ m ∈ (Finset.range n).filter (· ≠ ms), d.dedv m * dx (pos ms m) := by
      rw [sum_update hms (fun m => d.dedv m * dx (pos ms m)) (fun m => d.dedv m * δ m)
        (fun m hm hne => by rw [hδ m hm hne])]
    have e3 : ∑ m ∈ Finset.range n, u' m = ∑ m ∈ Finset.range n, u m
        + ∑ m ∈ Finset.range n, d.dedv m * δ m + (∑ m ∈ Finset.range n, dedT m) * dx 0 := by
      rw [Finset.sum_mul, ← Finset.sum_add_distrib, ← Finset.sum_add_distrib]
    rw [e1, e3, e2]; ring
  · rw [r1.2 m hm hne, r2.2 m hm hne]
    simp only [add_zero]
    rw [j3 m hm hne]
    have e1 : ∑ mm ∈ (Finset.range n).filter (· ≠ ms),
          rhoTJacobian n ms d jac (pos ms m * n + pos ms mm) * dx (pos ms mm)
        = d.dpdv m * dx (pos ms m) - d.dpdv ms * δ ms := by
      have e : ∀ mm ∈ (Finset.range n).filter (· ≠ ms),
          rhoTJacobian n ms d jac (pos ms m * n + pos ms mm) * dx (pos ms mm)
          = (if mm = m then d.dpdv m * dx (pos ms m) else 0) + d.dpdv ms * dx (pos ms mm) := by
        intro mm hmm
        simp only [Finset.mem_filter, Finset.mem_range] at hmm
        rw [j4 m mm hm hne hmm.1 hmm.2]
        split_ifs with h
        · subst h; ring
        · ring
      rw [Finset.sum_congr rfl e, Finset.sum_add_distrib, Finset.sum_ite_eq', if_pos (by simp [hm, hne]),
        ← Finset.mul_sum, hδs]
      ring
    rw [e1]
    change p ms + d.dpdv ms * δ ms + d.dpdT ms * dx 0 - (p m + d.dpdv m * δ m + d.dpdT m * dx 0) = _
    rw [hδ m hm hne]; ring

/-- C19, `PTESolverRhoT`, Newton step: if `J dx = residual`, the linearised pressures are all equal and
the linearised energies sum to the total. -/
theorem C19_rhoT_newton {n ms : Nat} (hms : ms < n) (d : Derivs K) (dedT : Nat → K)
    (hsum : d.dedTsum = ∑ m ∈ Finset.range n, dedT m)
    (dx p u v : Nat → K) (hv : ∑ m ∈ Finset.range n, v m = 1) (utot : K) (jac res vf : Nat → K)
    (hsolve : ∀ r, r < n → ∑ c ∈ Finset.range n, rhoTJacobian n ms d jac (r * n + c) * dx c
      = rhoTResidual n ms utot u p res r) :
    let δ := fun m => rhoTVfrac n ms 1 dx v vf m - v m
    let p' := fun m => p m + d.dpdv m * δ m + d.dpdT m * dx 0
    let u' := fun m => u m + d.dedv m * δ m + dedT m * dx 0
    (∀ m m', m < n → m' < n → p' m = p' m') ∧ ∑ m ∈ Finset.range n, u' m = utot := by
  intro δ p' u'
  have h := C19_rhoT hms d dedT hsum dx p u v hv utot jac res vf
  have z : ∀ r, r < n → rhoTResidual n ms utot u' p' res r = 0 := by
    intro r hr
    have := h r hr
    dsimp only at this
    rw [this, hsolve r hr, sub_self]
  have r2 := rhoTResidual_rows hms utot u' p' res
  have hp : ∀ m, m < n → p' m = p' ms := by
    intro m hm
    by_cases hne : m = ms
    · rw [hne]
    · have := r2.2 m hm hne
      rw [z _ (pos_range hms hm hne).2] at this
      linarith
  refine ⟨fun m m' hm hm' => by rw [hp m hm, hp m' hm'], ?_⟩
  have := r2.1
  rw [z 0 (by omega)] at this
  linarith

/-- C19, `PTESolverPT`: unknowns `dx 0 = δT`, `dx 1 = δP`. The volume fraction of a material is
`rhobar/rho`, whose first-order change is `-(rhobar/rho²) δrho`; `c m` stands for `rhobar/rho²` of
material `m` and `rT`, `rP`, `uT`, `uP` for the four finite-difference derivatives. -/
theorem C19_pt {n : Nat} (c rT rP uT uP v u dx : Nat → K) (vt utot : K) (jac res : Nat → K) :
    let v' := fun m => v m - c m * (rT m * dx 0 + rP m * dx 1)
    let u' := fun m => u m + uT m * dx 0 + uP m * dx 1
    let J := ptJacobian (∑ m ∈ Finset.range n, c m * rT m) (∑ m ∈ Finset.range n, c m * rP m)
      (∑ m ∈ Finset.range n, uT m) (∑ m ∈ Finset.range n, uP m) jac
    ∀ r, r < 2 → ptResidual n vt utot v' u' res r = ptResidual n vt utot v u res r
      - ∑ k ∈ Finset.range 2, J (r * 2 + k) * dx k := by
  intro v' u' J r hr
  have e1 : ∑ m ∈ Finset.range n, v' m = ∑ m ∈ Finset.range n, v m
      - (∑ m ∈ Finset.range n, c m * rT m) * dx 0 - (∑ m ∈ Finset.range n, c m * rP m) * dx 1 := by
    rw [Finset.sum_mul, Finset.sum_mul, ← Finset.sum_sub_distrib, ← Finset.sum_sub_distrib]
    exact Finset.sum_congr rfl fun m _ => by change v m - c m * (rT m * dx 0 + rP m * dx 1) = _; ring
  have e2 : ∑ m ∈ Finset.range n, u' m = ∑ m ∈ Finset.range n, u m
      + (∑ m ∈ Finset.range n, uT m) * dx 0 + (∑ m ∈ Finset.range n, uP m) * dx 1 := by
    rw [Finset.sum_mul, Finset.sum_mul, ← Finset.sum_add_distrib, ← Finset.sum_add_distrib]
  have hrc : r = 0 ∨ r = 1 := by omega
  rcases hrc with rfl | rfl <;>
    simp [ptResidual, J, ptJacobian, Finset.sum_range_succ, Function.update_apply, sumNeumaier_all, e1, e2] <;>
    ring

/-- Rows of `PTESolverFixedT::Residual`. -/
theorem fixedTResidual_rows (n : Nat) (vt : K) (vfrac press res : Nat → K) :
    fixedTResidual n vt vfrac press res 0 = vt - ∑ m ∈ Finset.range n, vfrac m ∧
    ∀ m, m + 1 < n → fixedTResidual n vt vfrac press res (m + 1) = press m - press (m + 1) := by
  have h := forN_inv (n := n - 1) (s := Function.update res 0 (vt - sumNeumaier vfrac n))
    (body := fun r m => Function.update r (1 + m) (press m - press (m + 1)))
    (P := fun k s => s 0 = vt - sumNeumaier vfrac n ∧ ∀ m, m < k → s (m + 1) = press m - press (m + 1))
    ⟨Function.update_self .., fun m h => absurd h (Nat.not_lt_zero _)⟩ ?_
  · exact ⟨by rw [← sumNeumaier_all]; exact h.1, fun m hm => h.2 m (by omega)⟩
  · rintro k s hk ⟨h1, h2⟩
    refine ⟨by rw [Function.update_of_ne (by omega), h1], fun m hm => ?_⟩
    by_cases hmk : m = k
    · subst hmk; rw [add_comm 1 m, Function.update_self]
    · rw [Function.update_of_ne (by omega), h2 m (by omega)]

/-- C19, `PTESolverFixedT`: unknowns are the volume fractions. -/
theorem C19_fixedT {n : Nat} (dpdv v p dx : Nat → K) (vt : K) (jac res : Nat → K) :
    ∀ r, r < n → fixedTResidual n vt (fun m => v m + dx m) (fun m => p m + dpdv m * dx m) res r
      = fixedTResidual n vt v p res r
        - ∑ c ∈ Finset.range n, fixedTJacobian n dpdv jac (r * n + c) * dx c := by
  intro r hr
  have r1 := fixedTResidual_rows n vt v p res
  have r2 := fixedTResidual_rows n vt (fun m => v m + dx m) (fun m => p m + dpdv m * dx m) res
  rw [Finset.sum_congr rfl fun c hc => by
    rw [fixedTJacobian_entries dpdv jac hr (Finset.mem_range.mp hc)]]
  rcases r with _ | m
  · rw [r1.1, r2.1]
    simp [Finset.sum_add_distrib]; ring
  · rw [r1.2 m hr, r2.2 m hr]
    have e : ∀ c ∈ Finset.range n,
        (if m + 1 = 0 then 1 else if c + 1 = m + 1 then -dpdv c else if c = m + 1 then dpdv c else 0) * dx c
        = (if c = m then -dpdv m * dx m else 0) + (if c = m + 1 then dpdv (m + 1) * dx (m + 1) else 0) := by
      intro c _
      have h0 : ¬ (m + 1 = 0) := by omega
      rw [if_neg h0]
      by_cases h1 : c = m
      · subst h1; simp
      · by_cases h2 : c = m + 1
        · subst h2; simp
        · have h3 : ¬ (c + 1 = m + 1) := by omega
          simp [h1, h2]
    rw [Finset.sum_congr rfl e, Finset.sum_add_distrib, Finset.sum_ite_eq', Finset.sum_ite_eq',
      if_pos (Finset.mem_range.mpr (by omega)), if_pos (Finset.mem_range.mpr hr)]
    ring

/-- C19, `PTESolverFixedP`: unknowns are the `n` volume fractions and the temperature `dx n`. -/
theorem C19_fixedP (σ : K) {n : Nat} (dpdv dpdT v p dx : Nat → K) (vt P uscale : K) (jac res : Nat → K) :
    ∀ r, r < n + 1 →
      fixedPResidual σ n vt P uscale (fun m => v m + dx m)
        (fun m => p m + dpdv m * dx m + dpdT m * dx n) res r
      = fixedPResidual σ n vt P uscale v p res r
        - ∑ c ∈ Finset.range (n + 1), fixedPJacobian n dpdv dpdT jac (r * (n + 1) + c) * dx c := by
  intro r hr
  rw [Finset.sum_congr rfl fun c hc => by
    rw [fixedPJacobian_entries dpdv dpdT jac hr (Finset.mem_range.mp hc)]]
  unfold fixedPResidual
  rw [Finset.sum_range_succ]
  by_cases h : r = n
  · subst h
    have e : ∀ c ∈ Finset.range r,
        (if r = r then (if c = r then (0 : K) else 1)
          else if c = r then dpdT r else if c = r then dpdv r else 0) * dx c = dx c := by
      intro c hc
      rw [if_pos rfl, if_neg (Finset.mem_range.mp hc).ne, one_mul]
    rw [Finset.sum_congr rfl e]
    simp [sumNeumaier_all, Finset.sum_add_distrib]; ring
  · have hrn : r < n := by omega
    have e : ∀ c ∈ Finset.range n,
        (if r = n then (if c = n then (0 : K) else 1)
          else if c = n then dpdT r else if c = r then dpdv r else 0) * dx c
        = if c = r then dpdv r * dx r else 0 := by
      intro c hc
      rw [if_neg h, if_neg (Finset.mem_range.mp hc).ne]
      split_ifs with h1
      · subst h1; rfl
      · ring
    rw [Finset.sum_congr rfl e, Finset.sum_ite_eq', if_pos (Finset.mem_range.mpr hrn)]
    simp [h, Function.update_of_ne h, fill_apply, hrn]; ring

/-- Rows of `PTESolverRhoU::Residual`. -/
theorem rhoUResidual_rows {n : Nat} (hn : 1 ≤ n) (vt utot : K) (vfrac u press temp res : Nat → K) :
    rhoUResidual n vt utot vfrac u press temp res 0 = vt - ∑ m ∈ Finset.range n, vfrac m ∧
    rhoUResidual n vt utot vfrac u press temp res 1 = utot - ∑ m ∈ Finset.range n, u m ∧
    (∀ m, m + 1 < n → rhoUResidual n vt utot vfrac u press temp res (2 + m) = press (m + 1) - press m) ∧
    (∀ m, m + 1 < n → rhoUResidual n vt utot vfrac u press temp res (n + 1 + m) = temp (m + 1) - temp m) := by
  have h1 := forN_inv (n := n - 1)
    (s := Function.update (Function.update res 0 (vt - sumNeumaier vfrac n)) 1 (utot - sumNeumaier u n))
    (body := fun r m => Function.update r (2 + m) (press (m + 1) - press m))
    (P := fun k s => s 0 = vt - sumNeumaier vfrac n ∧ s 1 = utot - sumNeumaier u n ∧
      ∀ m, m < k → s (2 + m) = press (m + 1) - press m)
    ⟨by simp, by simp, fun m h => absurd h (Nat.not_lt_zero _)⟩ ?_
  · set r1 := forN (n - 1) (fun r m => Function.update r (2 + m) (press (m + 1) - press m))
      (Function.update (Function.update res 0 (vt - sumNeumaier vfrac n)) 1 (utot - sumNeumaier u n)) with hr1
    have h2 := forN_inv (n := 2 * n - (n + 1)) (s := r1)
      (body := fun r k => Function.update r (n + 1 + k) (temp (1 + k) - temp k))
      (P := fun k s => (∀ i, i < n + 1 → s i = r1 i) ∧
        ∀ m, m < k → s (n + 1 + m) = temp (m + 1) - temp m)
      ⟨fun _ _ => rfl, fun m h => absurd h (Nat.not_lt_zero _)⟩ ?_
    · obtain ⟨q1, q2⟩ := h2
      refine ⟨?_, ?_, fun m hm => ?_, fun m hm => q2 m (by omega)⟩
      · rw [← sumNeumaier_all]; exact (q1 0 (by omega)).trans h1.1
      · rw [← sumNeumaier_all]; exact (q1 1 (by omega)).trans h1.2.1
      · exact (q1 (2 + m) (by omega)).trans (h1.2.2 m (by omega))
    · rintro k s hk ⟨q1, q2⟩
      refine ⟨fun i hi => by rw [Function.update_of_ne (by omega), q1 i hi], fun m hm => ?_⟩
      by_cases hmk : m = k
      · subst hmk; rw [Function.update_self, add_comm 1 m]
      · rw [Function.update_of_ne (by omega), q2 m (by omega)]
  · rintro k s hk ⟨q0, q1, q2⟩
    refine ⟨by rw [Function.update_of_ne (by omega), q0], by rw [Function.update_of_ne (by omega), q1],
      fun m hm => ?_⟩
    by_cases hmk : m = k
    · subst hmk; rw [Function.update_self]
    · rw [Function.update_of_ne (by omega), q2 m (by omega)]

/-- Row sum of one block of the RhoU matrix. -/
theorem colU_press {n : Nat} (a b x : Nat → K) {m : Nat} (hm : m + 1 < n) :
    ∑ c ∈ Finset.range n, colU n (a c) (b c) c (2 + m) * x c = a m * x m - a (m + 1) * x (m + 1) := by
  have e : ∀ c ∈ Finset.range n, colU n (a c) (b c) c (2 + m) * x c
      = (if c = m then a m * x m else 0) + (if c = m + 1 then -(a (m + 1) * x (m + 1)) else 0) := by
    intro c hc
    have := Finset.mem_range.mp hc
    by_cases h1 : c = m
    · subst h1
      simp [colU, hm]
    · by_cases h2 : c = m + 1
      · subst h2
        have : colU n (a (m + 1)) (b (m + 1)) (m + 1) (2 + m) = -a (m + 1) := by
          unfold colU
          rw [if_neg (by omega), if_pos (by omega)]
        rw [this]; simp
      · have : colU n (a c) (b c) c (2 + m) = 0 := by
          unfold colU
          rw [if_neg (by omega), if_neg (by omega), if_neg (by omega), if_neg (by omega)]
        rw [this]; simp [h1, h2]
  rw [Finset.sum_congr rfl e, Finset.sum_add_distrib, Finset.sum_ite_eq', Finset.sum_ite_eq',
    if_pos (Finset.mem_range.mpr (by omega)), if_pos (Finset.mem_range.mpr hm)]
  ring

theorem colU_temp {n : Nat} (a b x : Nat → K) {m : Nat} (hm : m + 1 < n) :
    ∑ c ∈ Finset.range n, colU n (a c) (b c) c (n + 1 + m) * x c = b m * x m - b (m + 1) * x (m + 1) := by
  have e : ∀ c ∈ Finset.range n, colU n (a c) (b c) c (n + 1 + m) * x c
      = (if c = m then b m * x m else 0) + (if c = m + 1 then -(b (m + 1) * x (m + 1)) else 0) := by
    intro c hc
    have := Finset.mem_range.mp hc
    by_cases h1 : c = m
    · subst h1
      have : colU n (a c) (b c) c (n + 1 + c) = b c := by
        unfold colU
        rw [if_neg (by omega), if_neg (by omega), if_pos (by omega)]
      rw [this]; simp
    · by_cases h2 : c = m + 1
      · subst h2
        have : colU n (a (m + 1)) (b (m + 1)) (m + 1) (n + 1 + m) = -b (m + 1) := by
          unfold colU
          rw [if_neg (by omega), if_neg (by omega), if_neg (by omega), if_pos (by omega)]
        rw [this]; simp
      · have : colU n (a c) (b c) c (n + 1 + m) = 0 := by
          unfold colU
          rw [if_neg (by omega), if_neg (by omega), if_neg (by omega), if_neg (by omega)]
        rw [this]; simp [h1, h2]
  rw [Finset.sum_congr rfl e, Finset.sum_add_distrib, Finset.sum_ite_eq', Finset.sum_ite_eq',
    if_pos (Finset.mem_range.mpr (by omega)), if_pos (Finset.mem_range.mpr hm)]
  ring

/-- C19, `PTESolverRhoU` with at least two materials: unknowns are the `n` volume fractions `dx m` and
the `n` energy densities `dx (n+m)`. (With one material the stores fall outside the block; `CheckPTE`
then accepts the initial state, so the matrix is never formed.) -/
theorem C19_rhoU {n : Nat} (hn : 2 ≤ n) (d : DerivsU K) (v u p t dx : Nat → K) (vt utot : K)
    (jac res : Nat → K) :
    ∀ r, r < 2 * n →
      rhoUResidual n vt utot (fun m => v m + dx m) (fun m => u m + dx (n + m))
        (fun m => p m + d.dpdv m * dx m + d.dpde m * dx (n + m))
        (fun m => t m + d.dtdv m * dx m + d.dtde m * dx (n + m)) res r
      = rhoUResidual n vt utot v u p t res r
        - ∑ c ∈ Finset.range (2 * n), rhoUJacobian n d jac (r * (2 * n) + c) * dx c := by
  intro r hr
  obtain ⟨q0, q1, q2, q3⟩ := rhoUResidual_rows (by omega : 1 ≤ n) vt utot v u p t res
  obtain ⟨w0, w1, w2, w3⟩ := rhoUResidual_rows (by omega : 1 ≤ n) vt utot (fun m => v m + dx m)
    (fun m => u m + dx (n + m)) (fun m => p m + d.dpdv m * dx m + d.dpde m * dx (n + m))
    (fun m => t m + d.dtdv m * dx m + d.dtde m * dx (n + m)) res
  have hJ := rhoUJacobian_entries hn d jac r
  rw [two_mul n, Finset.sum_range_add, ← two_mul n]
  rw [Finset.sum_congr rfl fun c hc => by rw [(hJ c hr (Finset.mem_range.mp hc)).1],
    Finset.sum_congr (s₁ := Finset.range n) (f := fun c => rhoUJacobian n d jac (r * (2 * n) + (n + c)) * _) rfl
      fun c hc => by rw [(hJ c hr (Finset.mem_range.mp hc)).2]]
  have hrc : r = 0 ∨ r = 1 ∨ (∃ m, m + 1 < n ∧ r = 2 + m) ∨ ∃ m, m + 1 < n ∧ r = n + 1 + m := by
    rcases Nat.lt_or_ge r (n + 1) with h | h
    · rcases r with _ | _ | m
      · exact Or.inl rfl
      · exact Or.inr (Or.inl rfl)
      · exact Or.inr (Or.inr (Or.inl ⟨m, by omega, by omega⟩))
    · exact Or.inr (Or.inr (Or.inr ⟨r - (n + 1), by omega, by omega⟩))
  rcases hrc with rfl | rfl | ⟨m, hm, rfl⟩ | ⟨m, hm, rfl⟩
  · rw [q0, w0]; simp [Finset.sum_add_distrib]; ring
  · rw [q1, w1]; simp [Finset.sum_add_distrib]; ring
  · rw [q2 m hm, w2 m hm]
    have z0 : ¬ (2 + m = 0) := by omega
    have z1 : ¬ (2 + m = 1) := by omega
    simp only [if_neg z0, if_neg z1]
    rw [colU_press _ _ _ hm, colU_press _ _ (fun c => dx (n + c)) hm]
    ring
  · rw [q3 m hm, w3 m hm]
    have z0 : ¬ (n + 1 + m = 0) := by omega
    have z1 : ¬ (n + 1 + m = 1) := by omega
    simp only [if_neg z0, if_neg z1]
    rw [colU_temp _ _ _ hm, colU_temp _ _ (fun c => dx (n + c)) hm]
    ring

/-- A concrete three-material RhoT system meets the hypotheses of `C19_rhoT`, and its matrix is not
trivial. -/
example : ∃ (d : Derivs ℚ) (dedT v : Nat → ℚ), d.dedTsum = ∑ m ∈ Finset.range 3, dedT m ∧
    ∑ m ∈ Finset.range 3, v m = 1 ∧ rhoTJacobian 3 1 d (fun _ => 7) 4 = -3 :=
  ⟨⟨fun m => -(m + 1), fun m => m, fun _ => 1, 6⟩, fun m => m + 1, fun _ => 1 / 3,
    by norm_num [Finset.sum_range_succ], by norm_num [Finset.sum_range_succ], by
      norm_num [rhoTJacobian, forN, skipFill, fill, Function.update_apply]⟩

end Verif.PTE
