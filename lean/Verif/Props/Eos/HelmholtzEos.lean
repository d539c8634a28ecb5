import Verif.Props.Eos.Helmholtz
import Verif.Props.RootFind
import Mathlib.Analysis.SpecialFunctions.Log.Base

set_option linter.unusedSectionVars false

/-! # C77, C80, C81: electrons, the temperature inversion and the combined Helmholtz EOS -/

namespace Verif.Helm

open Verif.Hermite Verif.Robust Verif.Spec Filter Topology

/-! ## Electrons -/

/-- The electron arrays as reported at `(rho, T, abar, zbar)`. -/
noncomputable def eleAt (tb : Tables) (c : Consts) (r T a z : ℝ) : Five :=
  let d := dens 0 c r a z
  electrons 0 tb r (log10 T) d.ye d.ytot d.De d.lDe

/-- A state in the interior of cell `(j, i)` and inside the table.  `idxT`, `idxRho` (Spiner's index functions) are
constant near an interior point of a cell. -/
structure Inside (tb : Tables) (j i : Nat) (r T a z : ℝ) : Prop where
  idxT : ∀ᶠ x in 𝓝 (log10 T), tb.idxT x = j
  idxRho : ∀ᶠ x in 𝓝 (log10 (r * (z / a))), tb.idxRho x = i
  hT : tb.T j < T
  hD : tb.rho i < r * (z / a)
  r1 : tb.rhoMin < r
  r2 : r < tb.rhoMax
  D1 : tb.rhoMin < r * (z / a)
  D2 : r * (z / a) < tb.rhoMax
  l1 : tb.lRhoMin < log10 (r * (z / a))
  l2 : log10 (r * (z / a)) < tb.lRhoMax
  r0 : 0 < r
  T0 : 0 < T
  a0 : 0 < a
  z0 : 0 < z

theorem pow10_log10 {T : ℝ} (hT : 0 < T) : pow10 (log10 T) = T := by
  have h10 : Real.log 10 ≠ 0 := (Real.log_pos (by norm_num)).ne'
  unfold pow10 log10 Real.logb
  rw [mul_div_cancel₀ _ h10, Real.exp_log hT]

theorem log10_pow10 (x : ℝ) : log10 (pow10 x) = x := by
  have h10 : Real.log 10 ≠ 0 := (Real.log_pos (by norm_num)).ne'
  unfold pow10 log10 Real.logb
  rw [Real.log_exp]; field_simp

theorem clampTo_eq {lo hi x : ℝ} (h1 : lo < x) (h2 : x < hi) : clampTo lo hi x = x := by
  unfold clampTo; rw [max_eq_right h1.le, min_eq_right h2.le]

/-- Near an interior state, along any continuous variation of the four inputs, the code evaluates cell `(j, i)`. -/
theorem eleAt_local {tb : Tables} {c : Consts} {j i : Nat} {r T a z : ℝ} (h : Inside tb j i r T a z)
    {fr fT fa fz : ℝ → ℝ} {x : ℝ} (hr : ContinuousAt fr x) (hT : ContinuousAt fT x) (ha : ContinuousAt fa x)
    (hz : ContinuousAt fz x) (er : fr x = r) (eT : fT x = T) (ea : fa x = a) (ez : fz x = z) :
    ∀ᶠ y in 𝓝 x, eleAt tb c (fr y) (fT y) (fa y) (fz y) =
      electronsCell 0 tb j i (fr y) (fT y) (fz y / fa y) (fa y)⁻¹ (fr y * (fz y / fa y)) := by
  have ha0 : fa x ≠ 0 := by rw [ea]; exact h.a0.ne'
  have hD : ContinuousAt (fun y => fr y * (fz y / fa y)) x := hr.mul (hz.div ha ha0)
  have eD : fr x * (fz x / fa x) = r * (z / a) := by rw [er, ez, ea]
  have hDpos : 0 < r * (z / a) := mul_pos h.r0 (div_pos h.z0 h.a0)
  have hlT : ContinuousAt (fun y => log10 (fT y)) x :=
    (Real.continuousAt_log (by rw [eT]; exact h.T0.ne')).comp hT |>.div_const _
  have hlD : ContinuousAt (fun y => log10 (fr y * (fz y / fa y))) x := by
    have := (Real.continuousAt_log (x := fr x * (fz x / fa x)) (by rw [eD]; exact hDpos.ne')).comp
      (f := fun y => fr y * (fz y / fa y)) hD
    exact this.div_const _
  have k1 : ∀ᶠ y in 𝓝 x, tb.idxT (log10 (fT y)) = j := by
    exact hlT.eventually (p := fun v => tb.idxT v = j) (by simpa only [eT] using h.idxT)
  have k2 : ∀ᶠ y in 𝓝 x, tb.idxRho (log10 (fr y * (fz y / fa y))) = i := by
    exact hlD.eventually (p := fun v => tb.idxRho v = i) (by simpa only [eD] using h.idxRho)
  have k3 : ∀ᶠ y in 𝓝 x, tb.rhoMin < fr y := hr.eventually (lt_mem_nhds (by rw [er]; exact h.r1))
  have k4 : ∀ᶠ y in 𝓝 x, fr y < tb.rhoMax := hr.eventually (gt_mem_nhds (by rw [er]; exact h.r2))
  have k5 : ∀ᶠ y in 𝓝 x, tb.rhoMin < fr y * (fz y / fa y) :=
    hD.eventually (lt_mem_nhds (by simpa only [eD] using h.D1))
  have k6 : ∀ᶠ y in 𝓝 x, fr y * (fz y / fa y) < tb.rhoMax :=
    hD.eventually (gt_mem_nhds (by simpa only [eD] using h.D2))
  have k7 : ∀ᶠ y in 𝓝 x, tb.lRhoMin < log10 (fr y * (fz y / fa y)) :=
    hlD.eventually (lt_mem_nhds (by simpa only [eD] using h.l1))
  have k8 : ∀ᶠ y in 𝓝 x, log10 (fr y * (fz y / fa y)) < tb.lRhoMax :=
    hlD.eventually (gt_mem_nhds (by simpa only [eD] using h.l2))
  have k9 : ∀ᶠ y in 𝓝 x, 0 < fT y := hT.eventually (lt_mem_nhds (by rw [eT]; exact h.T0))
  filter_upwards [k1, k2, k3, k4, k5, k6, k7, k8, k9] with y a1 a2 a3 a4 a5 a6 a7 a8 a9
  have e1 : fz y * (1 / fa y) = fz y / fa y := by ring
  simp only [eleAt, dens, ratio0, electrons, e1]
  rw [a1, clampTo_eq a7 a8, a2, clampTo_eq a3 a4, clampTo_eq a5 a6, pow10_log10 a9, one_div]

theorem eleAt_here {tb : Tables} {c : Consts} {j i : Nat} {r T a z : ℝ} (h : Inside tb j i r T a z) :
    eleAt tb c r T a z = electronsCell 0 tb j i r T (z / a) a⁻¹ (r * (z / a)) :=
  (eleAt_local (c := c) h (fr := fun _ => r) (fT := fun _ => T) (fa := fun _ => a) (fz := fun _ => z) (x := 0)
    continuousAt_const continuousAt_const continuousAt_const continuousAt_const rfl rfl rfl rfl).self_of_nhds

/-- Derivatives along a variation of the electron density and fraction at fixed temperature. -/
theorem cell_curve {tb : Tables} (hg : Grid tb) {j i : Nat} {T : ℝ} (hT : tb.T j < T) {D Y : ℝ → ℝ} {D' Y' x : ℝ}
    (hD : HasDerivAt D D' x) (hY : HasDerivAt Y Y' x) (hDx : tb.rho i < D x) :
    HasDerivAt (fun y => -dfT 0 tb j i T (D y) * Y y)
      (-(dfDT 0 tb j i T (D x) * D') * Y x + -dfT 0 tb j i T (D x) * Y') x ∧
    HasDerivAt (fun y => Y y * freeEn 0 tb j i T (D y) + T * (-dfT 0 tb j i T (D y) * Y y))
      (Y' * freeEn 0 tb j i T (D x) + Y x * (dfD 0 tb j i T (D x) * D') +
        T * (-(dfDT 0 tb j i T (D x) * D') * Y x + -dfT 0 tb j i T (D x) * Y')) x := by
  obtain ⟨_, _, h3, _, h5⟩ := C58_reported_derivatives tb hg j i T (D x) hT hDx
  have hs := ((h5.comp x hD).neg).fun_mul hY
  exact ⟨hs, (hY.fun_mul (h3.comp x hD)).fun_add (hs.const_mul T)⟩

/-- C77: inside every cell of every table, the derivatives reported for the electron energy, entropy and chemical
potential are their derivatives, in all four variables; so is the temperature derivative of the pressure; and the
electron arrays obey the first law and the Maxwell relation. -/
theorem C77_electrons (tb : Tables) (c : Consts) (hg : Grid tb) (j i : Nat) (r T a z : ℝ)
    (h : Inside tb j i r T a z) :
    Jet (fun r T a z => (eleAt tb c r T a z).e) r T a z ∧ Jet (fun r T a z => (eleAt tb c r T a z).s) r T a z ∧
    Jet (fun r T a z => (eleAt tb c r T a z).eta) r T a z ∧
    HasDerivAt (fun t => (eleAt tb c r t a z).p.val) (eleAt tb c r T a z).p.ddt T ∧
    Laws (eleAt tb c r T a z).p (eleAt tb c r T a z).e (eleAt tb c r T a z).s r T := by
  have ha0 := h.a0.ne'
  have hr0 := h.r0.ne'
  have here := eleAt_here (c := c) h
  have locR := eleAt_local (c := c) h (fr := fun y => y) (fT := fun _ => T) (fa := fun _ => a) (fz := fun _ => z)
    (x := r) continuousAt_id continuousAt_const continuousAt_const continuousAt_const rfl rfl rfl rfl
  have locT := eleAt_local (c := c) h (fr := fun _ => r) (fT := fun y => y) (fa := fun _ => a) (fz := fun _ => z)
    (x := T) continuousAt_const continuousAt_id continuousAt_const continuousAt_const rfl rfl rfl rfl
  have locA := eleAt_local (c := c) h (fr := fun _ => r) (fT := fun _ => T) (fa := fun y => y) (fz := fun _ => z)
    (x := a) continuousAt_const continuousAt_const continuousAt_id continuousAt_const rfl rfl rfl rfl
  have locZ := eleAt_local (c := c) h (fr := fun _ => r) (fT := fun _ => T) (fa := fun _ => a) (fz := fun y => y)
    (x := z) continuousAt_const continuousAt_const continuousAt_const continuousAt_id rfl rfl rfl rfl
  obtain ⟨d1, d2, d3, d4, d5⟩ := C58_reported_derivatives tb hg j i T (r * (z / a)) h.hT h.hD
  obtain ⟨q1, q2⟩ := C58_reported_derivatives_cubic tb hg tb.ef tb.eft tb.efd tb.efdt j i T (r * (z / a)) h.hT h.hD
  have DR : HasDerivAt (fun y => y * (z / a)) (z / a) r := by
    simpa using (hasDerivAt_id r).mul_const (z / a)
  have YR : HasDerivAt (fun _ : ℝ => z / a) 0 r := hasDerivAt_const r (z / a)
  have YA : HasDerivAt (fun y => z / y) (-(z / a) * a⁻¹) a := by
    have := (hasDerivAt_inv ha0).const_mul z
    exact HasDerivAt.change this (fun _ => by rw [div_eq_mul_inv]) (by field_simp)
  have DA : HasDerivAt (fun y => r * (z / y)) (-(r * (z / a)) * a⁻¹) a :=
    HasDerivAt.change (YA.const_mul r) (fun _ => rfl) (by ring)
  have YZ : HasDerivAt (fun y => y / a) a⁻¹ z :=
    HasDerivAt.change ((hasDerivAt_id z).div_const a) (fun _ => rfl) (by simp)
  have DZ : HasDerivAt (fun y => r * (y / a)) (r * a⁻¹) z := YZ.const_mul r
  obtain ⟨sR, eR⟩ := cell_curve hg h.hT DR YR (i := i) h.hD
  obtain ⟨sA, eA⟩ := cell_curve hg h.hT DA YA (i := i) h.hD
  obtain ⟨sZ, eZ⟩ := cell_curve hg h.hT DZ YZ (i := i) h.hD
  have fin : ∀ {f g : ℝ → ℝ} {f' g' x : ℝ}, HasDerivAt f f' x → (∀ᶠ y in 𝓝 x, g y = f y) → f' = g' →
      HasDerivAt g g' x := fun hf he h' => h' ▸ hf.congr_of_eventuallyEq he
  refine ⟨⟨?_, ?_, ?_, ?_⟩, ⟨?_, ?_, ?_, ?_⟩, ⟨?_, ?_, ?_, ?_⟩, ?_, ⟨?_, ?_, ?_⟩⟩
  · refine fin eR (locR.mono fun y hy => by rw [hy]; rfl) ?_
    simp only [here, electronsCell]; ring
  · refine fin ((d1.const_mul (z / a)).fun_add ((hasDerivAt_id T).fun_mul ((d2.neg).mul_const (z / a))))
      (locT.mono fun y hy => by rw [hy]; rfl) ?_
    simp only [here, electronsCell, id, Pi.neg_apply]; ring
  · refine fin eA (locA.mono fun y hy => by rw [hy]; rfl) ?_
    simp only [here, electronsCell]; ring
  · refine fin eZ (locZ.mono fun y hy => by rw [hy]; rfl) ?_
    simp only [here, electronsCell]; ring
  · refine fin sR (locR.mono fun y hy => by rw [hy]; rfl) ?_
    simp only [here, electronsCell]; ring
  · refine fin ((d2.neg).mul_const (z / a)) (locT.mono fun y hy => by rw [hy]; rfl) ?_
    simp only [here, electronsCell]
  · refine fin sA (locA.mono fun y hy => by rw [hy]; rfl) ?_
    simp only [here, electronsCell]; ring
  · refine fin sZ (locZ.mono fun y hy => by rw [hy]; rfl) ?_
    simp only [here, electronsCell]; ring
  · refine fin (q2.comp r DR) (locR.mono fun y hy => by rw [hy]; rfl) ?_
    simp only [here, electronsCell]; ring
  · refine fin q1 (locT.mono fun y hy => by rw [hy]; rfl) ?_
    simp only [here, electronsCell]
  · refine fin (q2.comp a DA) (locA.mono fun y hy => by rw [hy]; rfl) ?_
    simp only [here, electronsCell]; ring
  · refine fin (q2.comp z DZ) (locZ.mono fun y hy => by rw [hy]; rfl) ?_
    simp only [here, electronsCell]; ring
  · refine fin (d4.const_mul (r * (z / a) * (r * (z / a)))) (locT.mono fun y hy => by rw [hy]; rfl) ?_
    simp only [here, electronsCell]
  · simp only [here, electronsCell]
  · simp only [here, electronsCell]; field_simp; ring
  · simp only [here, electronsCell]; field_simp

/-- C77: the density and composition derivatives reported for the electron pressure come from a second table
(`dpdf`); they are the derivatives of the reported pressure whenever that table agrees with the free-energy table
at the state, i.e. holds `D^2 F_DD + 2 D F_D`, and the floor at zero is not active. -/
theorem C77_electron_pressure (tb : Tables) (c : Consts) (hg : Grid tb) (j i : Nat) (r T a z Fdd : ℝ)
    (h : Inside tb j i r T a z)
    (hF : HasDerivAt (fun d => dfD 0 tb j i T d) Fdd (r * (z / a)))
    (hp : cub 0 tb tb.dpdf tb.dpdft tb.dpdfd tb.dpdfdt j i T (r * (z / a)) =
      (r * (z / a)) ^ 2 * Fdd + 2 * (r * (z / a)) * dfD 0 tb j i T (r * (z / a)))
    (hp0 : 0 ≤ cub 0 tb tb.dpdf tb.dpdft tb.dpdfd tb.dpdfdt j i T (r * (z / a))) :
    Jet (fun r T a z => (eleAt tb c r T a z).p) r T a z := by
  have ha0 := h.a0.ne'
  have hr0 := h.r0.ne'
  have hz0 := h.z0.ne'
  have here := eleAt_here (c := c) h
  have locR := eleAt_local (c := c) h (fr := fun y => y) (fT := fun _ => T) (fa := fun _ => a) (fz := fun _ => z)
    (x := r) continuousAt_id continuousAt_const continuousAt_const continuousAt_const rfl rfl rfl rfl
  have locA := eleAt_local (c := c) h (fr := fun _ => r) (fT := fun _ => T) (fa := fun y => y) (fz := fun _ => z)
    (x := a) continuousAt_const continuousAt_const continuousAt_id continuousAt_const rfl rfl rfl rfl
  have locZ := eleAt_local (c := c) h (fr := fun _ => r) (fT := fun _ => T) (fa := fun _ => a) (fz := fun y => y)
    (x := z) continuousAt_const continuousAt_const continuousAt_const continuousAt_id rfl rfl rfl rfl
  have DR : HasDerivAt (fun y => y * (z / a)) (z / a) r := by
    simpa using (hasDerivAt_id r).mul_const (z / a)
  have DA : HasDerivAt (fun y => r * (z / y)) (-(r * (z / a)) * a⁻¹) a := by
    have := ((hasDerivAt_inv ha0).const_mul z).const_mul r
    exact HasDerivAt.change this (fun _ => by rw [div_eq_mul_inv]) (by field_simp)
  have DZ : HasDerivAt (fun y => r * (y / a)) (r * a⁻¹) z :=
    HasDerivAt.change (((hasDerivAt_id z).div_const a).const_mul r) (fun _ => rfl) (by simp)
  have P : ∀ {D : ℝ → ℝ} {D' x : ℝ}, HasDerivAt D D' x → D x = r * (z / a) →
      HasDerivAt (fun y => D y * D y * dfD 0 tb j i T (D y))
        ((2 * (r * (z / a)) * dfD 0 tb j i T (r * (z / a)) + (r * (z / a)) ^ 2 * Fdd) * D') x := by
    intro D D' x hD hx
    have hF' : HasDerivAt (fun d => dfD 0 tb j i T d) Fdd (D x) := by rw [hx]; exact hF
    refine HasDerivAt.change ((hD.fun_mul hD).fun_mul (hF'.comp x hD)) (fun _ => rfl) ?_
    simp only [hx, Function.comp]; ring
  have fin : ∀ {f g : ℝ → ℝ} {f' g' x : ℝ}, HasDerivAt f f' x → (∀ᶠ y in 𝓝 x, g y = f y) → f' = g' →
      HasDerivAt g g' x := fun hf he h' => h' ▸ hf.congr_of_eventuallyEq he
  have hmax : max 0 (z / a * cub 0 tb tb.dpdf tb.dpdft tb.dpdfd tb.dpdfdt j i T (r * (z / a))) =
      z / a * ((r * (z / a)) ^ 2 * Fdd + 2 * (r * (z / a)) * dfD 0 tb j i T (r * (z / a))) := by
    rw [max_eq_right (mul_nonneg (div_pos h.z0 h.a0).le hp0), hp]
  refine ⟨?_, (C77_electrons tb c hg j i r T a z h).2.2.2.1, ?_, ?_⟩
  · refine fin (P DR rfl) (locR.mono fun y hy => by rw [hy]; rfl) ?_
    simp only [here, electronsCell, hmax]; ring
  · refine fin (P DA rfl) (locA.mono fun y hy => by rw [hy]; rfl) ?_
    simp only [here, electronsCell, hmax]; field_simp; ring
  · refine fin (P DZ rfl) (locZ.mono fun y hy => by rw [hy]; rfl) ?_
    simp only [here, electronsCell, hmax]; field_simp; ring

/-! ## C80: temperature from density and energy -/

/-- C80 violated: when the caller's lambda has a log-temperature entry, the temperature returned by
`TemperatureFromDensityInternalEnergy` is the entry that was already there: the result of the root find is
overwritten, and the answer does not depend on the energy. -/
theorem C80_inversion_returns_cached_value_violated (σ : ℝ) (m : Model) (rho u v : ℝ) (l : Lam)
    (hl : l.lT = some v) (e : ℝ) : tempFromRhoSie σ m rho e u l = pow10 v := by
  simp [tempFromRhoSie, lTFromRhoSie, safeGet, hl]

/-- C80: this is why the round trip of the unit test passes: after the energy query at `T` has stored `T` in the
lambda, the inversion of any energy whatsoever returns `T`. -/
theorem C80_roundtrip_is_vacuous_violated (σ : ℝ) (m : Model) (rho u v T : ℝ) (hT : 0 < T) (l : Lam)
    (hl : l.lT = some v) (anyEnergy : ℝ) : tempFromRhoSie σ m rho anyEnergy u (lamAfterRT l T) = T := by
  rw [C80_inversion_returns_cached_value_violated σ m rho u (log10 T) _ (by simp [lamAfterRT, hl]),
    pow10_log10 hT]

/-- The bracket of the temperature search. -/
theorem pow10_mono {x y : ℝ} (h : x ≤ y) : pow10 x ≤ pow10 y :=
  Real.exp_le_exp.2 (mul_le_mul_of_nonneg_left h (Real.log_pos (by norm_num)).le)

/-- C80 (what holds): with a lambda that has no log-temperature entry, when Newton-Raphson converges the returned
temperature is inside the table and its energy matches the requested one to 1e-10. -/
theorem C80_without_cache_partial (σ : ℝ) (m : Model) (rho e u : ℝ) (l : Lam) (hl : l.lT = none)
    (hb : m.tb.lTMin ≤ m.tb.lTMax) (h8 : m.tb.lTMin ≤ 8 ∧ 8 ≤ m.tb.lTMax)
    (ho : m.opt.degenerate = true) (hn : m.opt.newton = true) (x : ℝ)
    (hx : RootFind.newtonRaphson (fun a b => a / b)
      (fun T => ((getE σ m rho T l.abar l.zbar (dens σ m.c rho l.abar l.zbar)).val,
        (getE σ m rho T l.abar l.zbar (dens σ m.c rho l.abar l.zbar)).ddt)) e
      (pow10 (lTGuess σ m rho e (ratio σ 1 l.abar * rho * m.c.NA) (l.zbar * (ratio σ 1 l.abar * rho * m.c.NA)) u l))
      (pow10 m.tb.lTMin) (pow10 m.tb.lTMax) (1 / 10 ^ 10) true = (.success, x)) :
    let T := tempFromRhoSie σ m rho e u l
    |(getE σ m rho T l.abar l.zbar (dens σ m.c rho l.abar l.zbar)).val - e| < |1 / 10 ^ 10 * e| ∧
    pow10 m.tb.lTMin ≤ T ∧ T ≤ pow10 m.tb.lTMax := by
  have hguess : m.tb.lTMin ≤ lTGuess σ m rho e (ratio σ 1 l.abar * rho * m.c.NA)
      (l.zbar * (ratio σ 1 l.abar * rho * m.c.NA)) u l ∧
      lTGuess σ m rho e (ratio σ 1 l.abar * rho * m.c.NA)
        (l.zbar * (ratio σ 1 l.abar * rho * m.c.NA)) u l ≤ m.tb.lTMax := by
    unfold lTGuess; simp only
    split_ifs with h1 h2
    · exact h1
    · exact h2
    · exact h8
  obtain ⟨c1, c2, c3⟩ := RootFind.C10_newton_success _ _ e _ _ _ _ (pow10_mono hb)
    ⟨pow10_mono hguess.1, pow10_mono hguess.2⟩ x hx
  have hx' : RootFind.newtonRaphson (fun a b => a / b)
      (fun T => ((getE σ m rho T l.abar l.zbar (dens σ m.c rho l.abar l.zbar)).val,
        (getE σ m rho T l.abar l.zbar (dens σ m.c rho l.abar l.zbar)).ddt)) e
      (pow10 (lTGuess σ m rho e (ratio σ 1 l.abar * rho * m.c.NA) (l.zbar * (ratio σ 1 l.abar * rho * m.c.NA)) u l))
      (pow10 m.tb.lTMin) (pow10 m.tb.lTMax) (1 / 10 ^ 10) false = (.success, x) := by
    unfold RootFind.newtonRaphson at hx ⊢
    simp only at hx ⊢
    revert hx
    generalize RootFind.nrLoop (K := ℝ) _ _ _ _ _ _ 100 _ = q
    rcases q with ⟨q1, _ | (_ | _)⟩ <;> simp
  have hxpos : 0 < x := lt_of_lt_of_le (Real.exp_pos _) c2
  have hT : tempFromRhoSie σ m rho e u l = x := by
    have hs : solveT σ m rho e l.abar l.zbar (ratio σ 1 l.abar * rho * m.c.NA)
        (l.zbar * (ratio σ 1 l.abar * rho * m.c.NA)) (pow10 (lTGuess σ m rho e (ratio σ 1 l.abar * rho * m.c.NA)
        (l.zbar * (ratio σ 1 l.abar * rho * m.c.NA)) u l)) = x := by
      have hnr : nrT σ m rho e l.abar l.zbar (pow10 (lTGuess σ m rho e (ratio σ 1 l.abar * rho * m.c.NA)
        (l.zbar * (ratio σ 1 l.abar * rho * m.c.NA)) u l)) = some x := by
        unfold nrT; simp only [hx']; simp
      unfold solveT; simp [ho, hn, hnr]
    have l1 : m.tb.lTMin ≤ log10 x := by
      rw [← log10_pow10 m.tb.lTMin]
      exact div_le_div_of_nonneg_right (Real.log_le_log (Real.exp_pos _) c2) (Real.log_pos (by norm_num)).le
    have l2 : log10 x ≤ m.tb.lTMax := by
      rw [← log10_pow10 m.tb.lTMax]
      exact div_le_div_of_nonneg_right (Real.log_le_log hxpos c3) (Real.log_pos (by norm_num)).le
    unfold tempFromRhoSie lTFromRhoSie
    simp only [hs, safeGet, hl, Option.getD_none, not_lt.2 l1, if_false, not_lt.2 l2]
    exact pow10_log10 hxpos
  simp only [hT]
  exact ⟨c1, c2, c3⟩

/-! ## C81: the combined EOS -/

/-- The energy-only evaluation used by the root finders agrees with the full evaluation. -/
theorem C81_only_e_agrees (σ : ℝ) (m : Model) (rho T abar zbar : ℝ) (d : Dens) :
    (getE σ m rho T abar zbar d).val = (getRT σ m rho T abar zbar d).e.val ∧
    (getE σ m rho T abar zbar d).ddt = (getRT σ m rho T abar zbar d).e.ddt := by
  unfold getE getRT
  cases m.opt.gas <;> cases m.opt.degenerate <;>
    simp [add5, electrons, electronsE, electronsCell, zero5]
  · constructor <;> ring

/-- C81: the reported bulk modulus is `rho dP/drho|_T + T (dP/dT)^2 / (rho cv)` floored at `EPS`, and the Grüneisen
parameter is `(dP/dT)/(rho cv)`, in terms of the reported derivatives, for every combination of options. -/
theorem C81_bulk_modulus_and_gruneisen (ε : ℝ) (m : Model) (l : Lam) (r T : ℝ) (hr : 0 < r) (hT : 0 < T)
    (hp : (atRT 0 ε m l r T).p ≠ 0) (hcv : (atRT 0 ε m l r T).cv ≠ 0) :
    let g := getRT 0 m r T l.abar l.zbar (dens 0 m.c r l.abar l.zbar)
    (atRT 0 ε m l r T).bmod = max ε (r * g.p.ddr + T * g.p.ddt ^ 2 / (r * (atRT 0 ε m l r T).cv)) ∧
    (atRT 0 ε m l r T).grun = g.p.ddt / (r * (atRT 0 ε m l r T).cv) := by
  intro g
  have hp' : g.p.val ≠ 0 := hp
  have hcv' : g.e.ddt ≠ 0 := hcv
  have hr0 := hr.ne'
  have hT0 := hT.ne'
  constructor
  · show max ε (g.p.val * gamma1 0 r T g.p g.e) = max ε (r * g.p.ddr + T * g.p.ddt ^ 2 / (r * g.e.ddt))
    congr 1
    simp only [gamma1, ratio0]; field_simp; ring
  · show gamma3 0 r T g.p g.e - 1 = g.p.ddt / (r * g.e.ddt)
    simp only [gamma3, ratio0]; field_simp; ring

theorem Jet.add {f g : ℝ → ℝ → ℝ → ℝ → D5} {r T a z : ℝ} (hf : Jet f r T a z) (hg : Jet g r T a z) :
    Jet (fun r T a z => add5 (f r T a z) (g r T a z)) r T a z :=
  ⟨hf.ddr.fun_add hg.ddr, hf.ddt.fun_add hg.ddt, hf.dda.fun_add hg.dda, hf.ddz.fun_add hg.ddz⟩

theorem Jet.zero5 (r T a z : ℝ) : Jet (fun _ _ _ _ => zero5) r T a z :=
  ⟨hasDerivAt_const _ _, hasDerivAt_const _ _, hasDerivAt_const _ _, hasDerivAt_const _ _⟩

/-- C81: without Coulomb corrections, with degenerate electrons, radiation on or off: the reported energy
derivatives are the derivatives of `InternalEnergyFromDensityTemperature` in density, temperature and composition;
in particular the reported heat capacity is `de/dT` at constant density. -/
theorem C81_heat_capacity_partial (m : Model) (ε : ℝ) (hg : Grid m.tb) (hc : m.opt.coul = false)
    (hgas : m.opt.gas = true) (hd : m.opt.degenerate = true) (j i : Nat) (r T a z : ℝ)
    (h : Inside m.tb j i r T a z) :
    Jet (fun r T a z => (getRT 0 m r T a z (dens 0 m.c r a z)).e) r T a z ∧
    HasDerivAt (fun t => (atRT 0 ε m ⟨a, z, none⟩ r t).e) (atRT 0 ε m ⟨a, z, none⟩ r T).cv T := by
  have key : Jet (fun r T a z => (getRT 0 m r T a z (dens 0 m.c r a z)).e) r T a z := by
    have hfun : (fun r T a z => (getRT 0 m r T a z (dens 0 m.c r a z)).e) =
        fun r T a z => add5 (add5 (add5 (if m.opt.rad then radE m.A r T a z else zero5) (ionAt m.c r T a z).e)
          (eleAt m.tb m.c r T a z).e) zero5 := by
      funext r T a z
      have hi := ionPart_eq m hd r T a z
      unfold getRT
      simp only [hc, hgas, hd, hi, eleAt]
      cases m.opt.rad <;> simp [radE]
    rw [hfun]
    refine Jet.add (Jet.add (Jet.add ?_ (C77_ions m.c r T a z h.r0 h.T0 h.a0).2.1)
      (C77_electrons m.tb m.c hg j i r T a z h).1) (Jet.zero5 r T a z)
    cases m.opt.rad
    · exact Jet.zero5 r T a z
    · exact (C77_radiation m.A r T a z h.r0 h.T0).2.1
  exact ⟨key, key.ddt⟩

/-- C81: in the same configuration the energy and pressure satisfy the first law
`de/drho|_T = (P - T dP/dT)/rho^2`, with `dP/dT` the true temperature derivative of the pressure. -/
theorem C81_first_law_partial (m : Model) (hg : Grid m.tb) (hc : m.opt.coul = false)
    (hgas : m.opt.gas = true) (hd : m.opt.degenerate = true) (j i : Nat) (r T a z : ℝ)
    (h : Inside m.tb j i r T a z) :
    let g := fun r T => getRT 0 m r T a z (dens 0 m.c r a z)
    HasDerivAt (fun t => (g r t).p.val) (g r T).p.ddt T ∧
    HasDerivAt (fun x => (g x T).e.val) (((g r T).p.val - T * (g r T).p.ddt) / r ^ 2) r := by
  intro g
  have hg' : ∀ r T, g r T = ⟨add5 (add5 (add5 (if m.opt.rad then rad 0 m.A r T else ⟨zero5, zero5, zero5⟩).p
      (ionAt m.c r T a z).p) (eleAt m.tb m.c r T a z).p) zero5,
      add5 (add5 (add5 (if m.opt.rad then rad 0 m.A r T else ⟨zero5, zero5, zero5⟩).e
      (ionAt m.c r T a z).e) (eleAt m.tb m.c r T a z).e) zero5,
      add5 (add5 (add5 (if m.opt.rad then rad 0 m.A r T else ⟨zero5, zero5, zero5⟩).s
      (ionAt m.c r T a z).s) (eleAt m.tb m.c r T a z).s) zero5,
      (eleAt m.tb m.c r T a z).eta, (eleAt m.tb m.c r T a z).xne⟩ := by
    intro r T
    have hi := ionPart_eq m hd r T a z
    simp only [g]; unfold getRT
    simp only [hc, hgas, hd, hi, eleAt]
    simp
  obtain ⟨ijp, ije, il⟩ := C77_ions m.c r T a z h.r0 h.T0 h.a0
  obtain ⟨eje, _, _, ept, el⟩ := C77_electrons m.tb m.c hg j i r T a z h
  obtain ⟨rjp, rje, _, rl⟩ := C77_radiation m.A r T a z h.r0 h.T0
  constructor
  · have h0 : HasDerivAt (fun t => (if m.opt.rad then rad 0 m.A r t else ⟨zero5, zero5, zero5⟩).p.val)
        (if m.opt.rad then rad 0 m.A r T else ⟨zero5, zero5, zero5⟩).p.ddt T := by
      cases m.opt.rad
      · exact hasDerivAt_const _ _
      · exact rjp.ddt
    refine HasDerivAt.change (((h0.fun_add ijp.ddt).fun_add ept).add_const 0) (fun t => by rw [hg']; rfl) ?_
    rw [hg']; simp [add5, zero5]
  · have h0 : HasDerivAt (fun x => (if m.opt.rad then rad 0 m.A x T else ⟨zero5, zero5, zero5⟩).e.val)
        (((if m.opt.rad then rad 0 m.A r T else ⟨zero5, zero5, zero5⟩).p.val -
          T * (if m.opt.rad then rad 0 m.A r T else ⟨zero5, zero5, zero5⟩).p.ddt) / r ^ 2) r := by
      cases m.opt.rad
      · exact HasDerivAt.change (hasDerivAt_const r (0:ℝ)) (fun _ => rfl) (by simp [zero5])
      · exact HasDerivAt.change rje.ddr (fun _ => rfl) rl.first
    refine HasDerivAt.change (((h0.fun_add ije.ddr).fun_add eje.ddr).add_const 0) (fun t => by rw [hg']; rfl) ?_
    simp only [il.first, el.first]
    rw [hg']; simp only [add5, zero5]; ring

/-! ## The hypotheses can be met -/

/-- A table with nodes at the integers and all values zero; its single index functions are constant. -/
noncomputable def exTables : Tables :=
  ⟨fun j => j, fun j => j, fun _ _ => 0, fun _ _ => 0, fun _ _ => 0, fun _ _ => 0, fun _ _ => 0, fun _ _ => 0,
   fun _ _ => 0, fun _ _ => 0, fun _ _ => 0, fun _ _ => 0, fun _ _ => 0, fun _ _ => 0, fun _ _ => 0,
   fun _ _ => 0, fun _ _ => 0, fun _ _ => 0, fun _ _ => 0, fun _ _ => 0, fun _ _ => 0, fun _ _ => 0,
   fun _ _ => 0, 1, 10, 0, 1, 0, 10, fun _ => 1, fun _ => 1⟩

/-- The state `rho = 3, T = 3/2, abar = 2, zbar = 1` lies strictly inside cell `(1, 1)`. -/
example : Grid exTables ∧ Inside exTables 1 1 3 (3 / 2) 2 1 := by
  have h10 : 0 < Real.log 10 := Real.log_pos (by norm_num)
  refine ⟨⟨fun j => by simp [exTables], fun j => by simp [exTables]⟩, ?_⟩
  refine ⟨by simp [exTables], by simp [exTables], by norm_num [exTables], by norm_num [exTables],
    by norm_num [exTables], by norm_num [exTables], by norm_num [exTables], by norm_num [exTables], ?_, ?_,
    by norm_num, by norm_num, by norm_num, by norm_num⟩
  · show (0:ℝ) < Real.log _ / Real.log 10
    exact div_pos (Real.log_pos (by norm_num)) h10
  · show Real.log _ / Real.log 10 < (1:ℝ)
    rw [div_lt_one h10]
    exact Real.log_lt_log (by norm_num) (by norm_num)

end Verif.Helm
