import Verif.Props.Ramp
import Verif.Spec.Inversions

set_option linter.unusedSectionVars false

/-! # C33 (ZSplit), C67 and C68 (pressure inversions under every modifier) -/

namespace Verif.Mods

open Verif.Robust Verif.Spec

section general
variable {K Λ : Type*} [Field K] [LinearOrder K] [IsStrictOrderedRing K]

/-! ## C33 -/

theorem zScale_sum (σ z : K) (hσ : 0 ≤ σ) :
    zScale σ .electrons z + zScale σ .ions z = (max 0 z + 1) / (max 0 z + 1 + σ) := by
  have h : 0 ≤ max 0 z + 1 := by have := le_max_left 0 z; linarith
  simp only [zScale, ratio_of_nonneg σ _ h]
  rw [← add_div]

/-- C33: at the same density and temperature the electron and ion parts of energy, pressure, heat
capacity, bulk modulus, entropy and minimum energy sum to the unsplit ones (up to the factor
`(Z+1)/(Z+1+SMALL)` of the regularised division, exactly 1 for `SMALL = 0`). -/
theorem C33_parts_sum {σ : K} (hσ : 0 ≤ σ) (zOf : Λ → K) (l0 l : Λ) (t : Eos K Λ) (r T : K) :
    let E := zsplit σ .electrons zOf l0 t
    let I := zsplit σ .ions zOf l0 t
    let z := max 0 (zOf l)
    let c := (z + 1) / (z + 1 + σ)
    E.q .eRT l r T + I.q .eRT l r T = c * t.q .eRT l r T ∧
    E.q .pRT l r T + I.q .pRT l r T = c * t.q .pRT l r T ∧
    E.q .cvRT l r T + I.q .cvRT l r T = c * t.q .cvRT l r T ∧
    E.q .bRT l r T + I.q .bRT l r T = c * t.q .bRT l r T ∧
    E.q .sRT l r T + I.q .sRT l r T = c * t.q .sRT l r T ∧
    E.minE l r + I.minE l r = c * t.minE l r ∧
    E.q .gRT l r T = t.q .gRT l r T ∧ I.q .gRT l r T = t.q .gRT l r T ∧
    0 < c ∧ c ≤ 1 ∧ (σ = 0 → c = 1) := by
  intro E I z c
  have hz : 0 ≤ z := le_max_left _ _
  have hs : zScale σ .electrons (zOf l) + zScale σ .ions (zOf l) = c := zScale_sum σ _ hσ
  have hpos : 0 < z + 1 + σ := by linarith
  refine ⟨?_, ?_, ?_, ?_, ?_, ?_, rfl, rfl, ?_, ?_, ?_⟩
  iterate 6 (rw [← hs]; simp only [E, I, zsplit]; ring)
  · exact div_pos (by linarith) hpos
  · exact (div_le_one hpos).2 (by linarith)
  · rintro rfl
    simp only [c, add_zero]
    exact div_self (by linarith : (0:K) < z + 1).ne'

/-- C33: at the same temperature, the by-energy queries at each part's own energy also sum. -/
theorem C33_parts_sum_by_energy (zOf : Λ → K) (l0 l : Λ) (hz : 0 < zOf l) (t : Eos K Λ) (r e : K) :
    let E := zsplit 0 .electrons zOf l0 t
    let I := zsplit 0 .ions zOf l0 t
    let eE := zScale 0 .electrons (zOf l) * e
    let eI := zScale 0 .ions (zOf l) * e
    eE + eI = e ∧
    E.q .pRE l r eE + I.q .pRE l r eI = t.q .pRE l r e ∧
    E.q .cvRE l r eE + I.q .cvRE l r eI = t.q .cvRE l r e ∧
    E.q .bRE l r eE + I.q .bRE l r eI = t.q .bRE l r e ∧
    E.q .sRE l r eE + I.q .sRE l r eI = t.q .sRE l r e ∧
    E.q .tRE l r eE = t.q .tRE l r e ∧ I.q .tRE l r eI = t.q .tRE l r e := by
  have hm : max 0 (zOf l) = zOf l := max_eq_right hz.le
  have h1 : zOf l + 1 ≠ 0 := by linarith
  have h2 : zOf l ≠ 0 := hz.ne'
  have iE : zInvScale 0 .electrons (zOf l) * (zScale 0 .electrons (zOf l) * e) = e := by
    simp only [zInvScale, zScale, ratio_zero_small, hm]; field_simp
  have iI : zInvScale 0 .ions (zOf l) * (zScale 0 .ions (zOf l) * e) = e := by
    simp only [zInvScale, zScale, ratio_zero_small, hm]; field_simp
  have hs : zScale (0:K) .electrons (zOf l) + zScale 0 .ions (zOf l) = 1 := by
    rw [zScale_sum 0 _ le_rfl, hm, add_zero, div_self h1]
  intro E I eE eI
  have cE : eE * zInvScale 0 .electrons (zOf l) = e := by rw [mul_comm]; exact iE
  have cI : eI * zInvScale 0 .ions (zOf l) = e := by rw [mul_comm]; exact iI
  have fE : zInvScale 0 .electrons (zOf l) * eE = e := iE
  have fI : zInvScale 0 .ions (zOf l) * eI = e := iI
  refine ⟨?_, ?_, ?_, ?_, ?_, ?_, ?_⟩
  · rw [← add_mul, hs, one_mul]
  iterate 4 (simp only [E, I, zsplit, fE, fI]; rw [← add_mul, hs, one_mul])
  · simp only [E, zsplit, cE]
  · simp only [I, zsplit, cI]

/-- The change of units performed by a split at ionisation `z`. -/
def zCoord (c : ZComp) (z : K) : Coord K := ⟨1, 1, zInvScale 0 c z, zInvScale 0 c z, 0⟩

theorem zCoord_ok {c : ZComp} {z : K} (hz : c = .ions ∨ 0 < z) : (zCoord c z).Ok := by
  refine ⟨one_ne_zero, one_ne_zero, ?_, by simp [zCoord]⟩
  have h0 := le_max_left (0:K) z
  cases c with
  | ions => simp only [zCoord, zInvScale]; positivity
  | electrons =>
    have hz' : 0 < z := by rcases hz with h | h; cases h; exact h
    simp only [zCoord, zInvScale, ratio_zero_small, max_eq_right hz'.le]
    have : 0 < (z + 1) / z := by positivity
    exact this.ne'

/-- C33: each part is the wrapped EOS in units scaled by its share (ions for every `Z`, electrons for
`Z > 0`), so every thermodynamic law of the wrapped EOS holds for each part. -/
theorem C33_part_queries (c : ZComp) (zOf : Λ → K) (l0 l : Λ) (t : Eos K Λ)
    (hz : c = .ions ∨ 0 < zOf l) :
    Image (zCoord c (zOf l)) (t.at l) ((zsplit 0 c zOf l0 t).at l) := by
  have h0 := le_max_left (0:K) (zOf l)
  have hs : zScale 0 c (zOf l) = (zInvScale 0 c (zOf l))⁻¹ := by
    cases c with
    | ions => simp only [zScale, zInvScale, ratio_zero_small, one_div]
    | electrons => simp only [zScale, zInvScale, ratio_zero_small, inv_div]
  intro k r y
  cases k <;>
    simp only [zCoord, Coord.out, Coord.arg, Q.byEnergy, zsplit, Eos.at, if_true,
      Bool.false_eq_true, if_false, sub_zero, add_zero, one_mul, mul_one, inv_one, hs,
      div_eq_mul_inv] <;>
    first
    | rfl
    | (rw [mul_comm y]; done)
    | (rw [mul_comm]; done)

/-- C33: the split EOS recover the temperature from the energy, the twins agree, and each part
satisfies the thermodynamic identities of the wrapped EOS. -/
theorem C33_part_thermodynamics {Λ : Type*} (c : ZComp) (zOf : Λ → ℝ) (l0 l : Λ) (t : Eos ℝ Λ)
    (hz : c = .ions ∨ 0 < zOf l) (r T e : ℝ) (hr : r ≠ 0) (hT : T ≠ 0) :
    let g := (zsplit 0 c zOf l0 t).at l
    let iz := zInvScale 0 c (zOf l)
    (RoundTripT (t.at l) r T → RoundTripT g r T) ∧ (Twins (t.at l) r T → Twins g r T) ∧
    (HeatCapacity (t.at l) r T → HeatCapacity g r T) ∧
    (Gruneisen (t.at l) r (iz * e) → Gruneisen g r e) ∧
    (IsentropicBulk (t.at l) r (iz * e) → IsentropicBulk g r e) ∧
    (EntropyT (t.at l) r T → EntropyT g r T) ∧ (EntropyRho (t.at l) r T → EntropyRho g r T) ∧
    (EnergyRho (t.at l) r T → EnergyRho g r T) := by
  have hi := C33_part_queries c zOf l0 l t hz
  have hc := zCoord_ok hz
  exact ⟨fun h => hi.roundTripT hc (by simpa [zCoord] using h),
    fun h => hi.twins hc (by simpa [zCoord] using h),
    fun h => hi.heatCapacity hc (by simpa [zCoord] using h),
    fun h => hi.gruneisen hc (by simpa [zCoord] using h),
    fun h => hi.isentropicBulk hc hr (by simpa [zCoord] using h),
    fun h => hi.entropyT hc hT (by simpa [zCoord] using h),
    fun h => hi.entropyRho hc hr (by simpa [zCoord] using h),
    fun h => hi.energyRho hc hr (by simpa [zCoord] using h)⟩

/-- C33 non-vacuity: `Z = 3`, electrons carry three quarters of the pressure. -/
example : (zsplit 0 .electrons (fun _ => (3:ℚ)) () demo).q .pRT () 2 5 = 3 / 4 * demo.q .pRT () 2 5 := by
  norm_num [zsplit, zScale, ratio, sgn, demo]

/-! ## C67: density and energy from pressure and temperature -/

/-- C67: the inversion by pressure and temperature survives a shift, a change of units, an energy
floor, the relativistic modifier and a Z split. -/
theorem C67_pt_inversion_partial (σ : K) (t : Eos K Λ) (l : Λ) (P T : K) (g : K × K) :
    (∀ sh, PTInverts t l P T g → PTInverts (shifted sh t) l P T g) ∧
    (∀ l0, PTInverts t l P T g → PTInverts (floored l0 t) l P T g) ∧
    (∀ cl, PTInverts t l P T g → PTInverts (relativistic σ cl t) l P T g) ∧
    (∀ u : Units K, u.Ok → PTInverts t l (u.press * P) (u.temp * T) (u.rho * g.1, u.sie * g.2) →
      PTInverts (unitSystem σ u t) l P T g) ∧
    (∀ (c : ZComp) (zOf : Λ → K) (l0 : Λ), (c = .ions ∨ 0 < zOf l) →
      PTInverts t l (zInvScale 0 c (zOf l) * P) T g →
      PTInverts (zsplit 0 c zOf l0 t) l P T g) := by
  refine ⟨?_, ?_, ?_, ?_, ?_⟩
  · rintro sh ⟨h1, h2⟩
    refine ⟨h1, ?_⟩
    simp only [shifted, h2]
  · rintro l0 ⟨h1, h2⟩; exact ⟨h1, h2⟩
  · rintro cl ⟨h1, h2⟩; exact ⟨h1, h2⟩
  · rintro u ⟨u1, u2, u3⟩ ⟨h1, h2⟩
    have c1 : P * u.press = u.press * P := mul_comm _ _
    have c2 : T * u.temp = u.temp * T := mul_comm _ _
    have c3 : g.1 * u.rho = u.rho * g.1 := mul_comm _ _
    have c4 : g.2 * u.sie = u.sie * g.2 := mul_comm _ _
    have cp : u.press ≠ 0 := (mul_pos u1 u2).ne'
    have cc : ∀ x : K, x * (1 / u.rho) * u.rho = x := fun x => by field_simp
    constructor
    · simp only [unitSystem, c1, c2, c3, c4, cc, h1]
      rw [← mul_assoc, one_div_mul_cancel cp, one_mul]
    · simp only [unitSystem, c1, c2, c3, c4, cc, h2]
      rw [mul_comm]
  · rintro c zOf l0 hz ⟨h1, h2⟩
    have hc := (zCoord_ok hz).2.2.1
    have hne : zInvScale 0 c (zOf l) ≠ 0 := hc
    have hs : zScale 0 c (zOf l) = (zInvScale 0 c (zOf l))⁻¹ := by
      cases c with
      | ions => simp only [zScale, zInvScale, ratio_zero_small, one_div]
      | electrons => simp only [zScale, zInvScale, ratio_zero_small, inv_div]
    constructor
    · simp only [zsplit, h1, hs]
      rw [← mul_assoc, inv_mul_cancel₀ hne, one_mul]
    · simp only [zsplit, h2]
      rw [mul_comm]

/-- C67: the density returned by a scaled EOS has the requested pressure (its energy, however, need
not be the one its own energy query returns, see the violation). -/
theorem C67_scaled_pressure_partial {s : K} (hs : s ≠ 0) (t : Eos K Λ) (l : Λ) (P T : K) (g : K × K)
    (h : PTInverts t l P T g) :
    (scaled s t).q .pRT l ((scaled s t).rePT l P T g).1 T = P := by
  have : s * ((t.rePT l P T g).1 * (1 / s)) = (t.rePT l P T g).1 := by field_simp
  simp only [scaled, this]
  exact h.1

/-- C67 is violated: a wrapped EOS that inverts exactly, scaled by 2, returns an energy different from
the energy query at the returned density and temperature. -/
theorem C67_scaled_violated :
    PTInverts demo () 45 3 (1, 1) ∧ ¬ PTInverts (scaled 2 demo) () 45 3 (1, 1) := by
  constructor <;> norm_num [PTInverts, demo, scaled]

/-- C67 is violated: under a ramp the density returned is the wrapped EOS's, at which the ramped
pressure is not the requested one. -/
theorem C67_ramp_violated (f : Unit → ℚ → ℚ → ℚ → ℚ) (g : Unit → ℚ → ℚ → ℚ → ℚ → PTDer ℚ) :
    PTInverts demo () 36 3 (1, 1) ∧
    ¬ PTInverts (ramped 0 (Ramp.mk' 1 200 100 0) f g demo) () 36 3 (1, 1) := by
  constructor <;> norm_num [PTInverts, demo, ramped, Ramp.mk', Ramp.pressure, ratio, sgn]

/-! ## C68: energy from density and pressure -/

/-- C68: the inversion by density and pressure survives a shift, a change of units, the relativistic
modifier, and an energy floor when the returned energy is not below the floor. -/
theorem C68_p_inversion_partial (σ : K) (t : Eos K Λ) (l : Λ) (r P e : K) :
    (∀ sh, PInverts t l r P (e - sh) → PInverts (shifted sh t) l r P e) ∧
    (∀ cl, PInverts t l r P e → PInverts (relativistic σ cl t) l r P e) ∧
    (∀ l0, t.minE l0 r ≤ t.eRP l r P e → PInverts t l r P e → PInverts (floored l0 t) l r P e) ∧
    (∀ u : Units K, u.Ok → PInverts t l (u.rho * r) (u.press * P) (u.sie * e) →
      PInverts (unitSystem σ u t) l r P e) := by
  refine ⟨?_, ?_, ?_, ?_⟩
  · intro sh h
    unfold PInverts at *
    simp only [shifted, add_sub_cancel_right, h]
  · intro cl h; exact h
  · intro l0 hm h
    unfold PInverts at *
    simp only [floored, max_eq_left hm, h]
  · rintro u ⟨u1, u2, u3⟩ h
    unfold PInverts at *
    have c1 : r * u.rho = u.rho * r := mul_comm _ _
    have c4 : e * u.sie = u.sie * e := mul_comm _ _
    have cp : u.press ≠ 0 := (mul_pos u1 u2).ne'
    have cc : ∀ x : K, x * (1 / u.sie) * u.sie = x := fun x => by field_simp
    simp only [unitSystem, c1, c4, cc, h]
    rw [← mul_assoc, one_div_mul_cancel cp, one_mul]

/-- C68 is violated by `ScaledEOS`: it returns the wrapped EOS's energy without scaling it back. -/
theorem C68_scaled_violated :
    (∀ r P g, r ≠ 0 → PInverts demo () r P g) ∧ ¬ PInverts (scaled 2 demo) () 4 72 0 := by
  constructor
  · intro r P g hr
    simp only [PInverts, demo]
    field_simp
    ring
  · norm_num [PInverts, demo, scaled]

/-- C68 is violated by `ZSplit`: the part's pressure is handed to the wrapped EOS as if it were the
total pressure. -/
theorem C68_zsplit_violated :
    ¬ PInverts (zsplit 0 .ions (fun _ => (1:ℚ)) () demo) () 4 72 0 := by
  norm_num [PInverts, demo, zsplit, zScale, zInvScale, ratio, sgn]

/-- C68: how far off: on any wrapped EOS that inverts exactly, the split EOS's energy has the part
share of the requested pressure instead of the requested pressure. -/
theorem C68_zsplit_factor_partial (c : ZComp) (zOf : Λ → K) (l0 l : Λ) (t : Eos K Λ)
    (hz : c = .ions ∨ 0 < zOf l) (r P e : K)
    (h : PInverts t l r P (e * zInvScale 0 c (zOf l))) :
    (zsplit 0 c zOf l0 t).q .pRE l r ((zsplit 0 c zOf l0 t).eRP l r P e)
      = zScale 0 c (zOf l) * P := by
  have hne : zInvScale 0 c (zOf l) ≠ 0 := (zCoord_ok hz).2.2.1
  have hs : zScale 0 c (zOf l) = (zInvScale 0 c (zOf l))⁻¹ := by
    cases c with
    | ions => simp only [zScale, zInvScale, ratio_zero_small, one_div]
    | electrons => simp only [zScale, zInvScale, ratio_zero_small, inv_div]
  have cc : ∀ x, zInvScale 0 c (zOf l) * (x * zScale 0 c (zOf l)) = x := fun x => by
    rw [hs]; field_simp
  unfold PInverts at h
  simp only [zsplit, cc, h]

/-- C67/C68 non-vacuity: the shifted test EOS inverts at a concrete state. -/
example : PTInverts (shifted 10 demo) () 45 3 (1, 1) ∧ PInverts (shifted 10 demo) () 4 72 0 := by
  constructor <;> norm_num [PTInverts, PInverts, demo, shifted]

end general
end Verif.Mods
