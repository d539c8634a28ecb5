import Verif.Model.Eos.Dust
import Mathlib.Analysis.Calculus.Deriv.Mul
import Mathlib.Tactic.FieldSimp
import Mathlib.Tactic.NormNum
import Mathlib.Tactic.Linarith
import Mathlib.Tactic.Ring

/-! # C139: the example plug-in `Dust` -/

namespace Verif

open Mods DustEos

/-- C139: temperature and energy of `Dust` are inverse to each other for a non-zero heat capacity, independent of the density; the
pressure, bulk modulus and Grüneisen parameter are zero and the heat capacity is the one given. -/
theorem C139_lookups {K : Type*} [Field K] {Cv : K} (hC : Cv ≠ 0) (r r' e T : K) :
    q Cv .tRE r (q Cv .eRT r' T) = T ∧ q Cv .eRT r (q Cv .tRE r' e) = e ∧ q Cv .pRT r T = 0 ∧ q Cv .pRE r e = 0 ∧
      q Cv .bRT r T = 0 ∧ q Cv .bRE r e = 0 ∧ q Cv .gRT r T = 0 ∧ q Cv .gRE r e = 0 ∧ q Cv .cvRT r T = Cv ∧ q Cv .cvRE r e = Cv := by
  refine ⟨?_, ?_, rfl, rfl, rfl, rfl, rfl, rfl, rfl, rfl⟩
  · simp only [q]; field_simp
  · simp only [q]; field_simp

/-- C139: the heat capacity is the derivative of the energy, and the pressure is consistent with the energy: both sides of
`(∂e/∂v)_T = T (∂P/∂T)_v - P` are zero. -/
theorem C139_consistent (Cv r T : ℝ) :
    HasDerivAt (fun t => q Cv .eRT r t) (q Cv .cvRT r T) T ∧
      HasDerivAt (fun v => q Cv .eRT (1 / v) T) (T * deriv (fun t => q Cv .pRT r t) T - q Cv .pRT r T) (1 / r) := by
  constructor
  · simpa [q] using (hasDerivAt_id T).const_mul Cv
  · have : deriv (fun t => q Cv .pRT r t) T = 0 := by simp [q]
    rw [this]
    simpa [q] using hasDerivAt_const (1 / r) (Cv * T)

/-- C139: at energies at or above the minimum that `Dust` reports the temperature is not negative. -/
theorem C139_min_energy {K : Type*} [Field K] [LinearOrder K] [IsStrictOrderedRing K] {Cv : K} (hC : 0 < Cv) (r e : K) :
    minE r ≤ e ↔ 0 ≤ q Cv .tRE r e := by
  simp only [minE, q]
  constructor
  · intro h; exact div_nonneg h hC.le
  · intro h
    by_contra hc
    push Not at hc
    exact absurd h (not_le.mpr (div_neg_of_neg_of_pos hc hC))

/-- C139: `FillEos` asked for the temperature (and not the energy or density) gives the temperature of the energy, and the pressure,
bulk modulus and heat capacity of the state; density and energy stay. -/
theorem C139_fill {K : Type*} [Field K] (Cv : K) (fl : Flags) (s : Thermo K) (hr : fl.rho = false) (he : fl.sie = false)
    (hT : fl.temp = true) :
    fillEos Cv fl s = some ⟨s.rho, q Cv .tRE s.rho s.sie, s.sie, q Cv .pRE s.rho s.sie, q Cv .cvRE s.rho s.sie,
      q Cv .bRE s.rho s.sie⟩ := by
  simp [fillEos, hr, he, hT, q]

/-- C139 fails in one point: `FillEos` never gives the energy of a given temperature: asked for the energy alone it aborts, and asked for
energy and temperature (from density and pressure, of which neither follows) it returns the energy of whatever temperature was passed. -/
theorem C139_fill_energy_violated {K : Type*} [Field K] (Cv : K) (fl : Flags) (s : Thermo K) (hr : fl.rho = false)
    (he : fl.sie = true) :
    (fl.temp = false → fillEos Cv fl s = none) ∧
      (fl.temp = true → ∃ o, fillEos Cv fl s = some o ∧ o.sie = Cv * s.temp ∧ o.temp = s.temp) := by
  constructor
  · intro h; simp [fillEos, hr, he, h]
  · intro h; exact ⟨_, by simp only [fillEos, hr, he, h]; rfl, by simp, by simp⟩

/-- C139 fails in another: `FillEos` writes the pressure, bulk modulus and heat capacity whether asked or not. -/
theorem C139_fill_writes_inputs_violated :
    ∃ (fl : Flags) (s : Thermo ℚ), fl.press = false ∧ s.press = 5 ∧ (fillEos 2 fl s).map (·.press) = some 0 := by
  refine ⟨⟨false, true, false, false, false, false⟩, ⟨1, 1, 1, 5, 1, 1⟩, rfl, rfl, ?_⟩
  simp [fillEos]

/-- C139 fails in a third: the reference state is consistent only for `Cv = 1`, and does not report the heat capacity: the variable of
the caller keeps its value. -/
theorem C139_reference_violated {K : Type*} [Field K] (Cv : K) (s : RefState K) :
    (q Cv .eRT (refState s).rho (refState s).temp = (refState s).sie ↔ Cv = 1) ∧ (refState s).cv = s.cv ∧
      (refState s).press = q Cv .pRT (refState s).rho (refState s).temp ∧
      (refState s).bmod = q Cv .bRT (refState s).rho (refState s).temp := by
  simp [refState, q]

/-- C139 fails in a fourth: the entropy is the constant zero, so `T dS = Cv dT` at constant volume does not hold for `Cv ≠ 0`. -/
theorem C139_entropy_violated {Cv : ℝ} (hC : Cv ≠ 0) (r T : ℝ) :
    T * deriv (fun t => q Cv .sRT r t) T ≠ q Cv .cvRT r T := by
  have : deriv (fun t => q Cv .sRT r t) T = 0 := by simp [q]
  rw [this, mul_zero]
  exact fun h => hC h.symm

/-- The hypotheses are met: dust of heat capacity 2 at temperature 3. -/
example : q (2 : ℚ) .eRT 1 3 = 6 ∧ q (2 : ℚ) .tRE 1 6 = 3 ∧
    (fillEos (2 : ℚ) ⟨false, true, false, false, false, false⟩ ⟨1, 0, 6, 0, 0, 0⟩).map (·.temp) = some 3 := by
  refine ⟨by norm_num [q], by norm_num [q], ?_⟩
  simp only [fillEos]
  norm_num

end Verif
