import Verif.Model.Table.SpinerRhoSie
import Verif.Props.Table.SpinerRhoT
import Mathlib.Analysis.Calculus.Deriv.Inv
import Mathlib.Analysis.Calculus.Deriv.Prod
import Mathlib.Analysis.Calculus.Deriv.Mul
import Mathlib.Analysis.Calculus.FDeriv.Mul
import Mathlib.Analysis.Calculus.FDeriv.Prod
import Mathlib.Analysis.Calculus.FDeriv.Comp

/-! # C92-C96: `SpinerEOSDependsRhoSie` and the tables it reads -/

namespace Verif.RhoSie

open Verif.RootFind Verif.Robust Verif.Mods Verif.RhoT

set_option linter.unusedSectionVars false
set_option linter.unusedSimpArgs false

section field
variable {K : Type*} [Field K] [LinearOrder K] [IsStrictOrderedRing K]

/-! ## C92: `FillEos` -/

/-- C92: when the temperature is asked for, every output asked for is the single query at the given density and energy,
with the energy transform the EOS uses, and inputs are kept. Any lambda. -/
theorem C92_by_energy (t : Tab K) (fl : Flags) (s : Thermo K) (c : K) (hr : fl.rho = false)
    (hT : fl.temp = true) (he : fl.sie = false) :
    ∃ o, fillEos t fl c s = some o ∧ Spec.InputsKept fl s o ∧ Spec.OutputsMatch (query t) fl o := by
  unfold fillEos
  simp only [hr, hT, he, Bool.false_or, Bool.true_or, Bool.or_true, Bool.not_true, Bool.false_and, Bool.true_and,
    Bool.and_false, Bool.not_false, if_false, Bool.false_eq_true, if_true, Option.some.injEq, exists_eq_left']
  refine ⟨⟨fun _ => rfl, fun h => by simp [hT] at h, fun _ => rfl, fun h => by simp [h], fun h => by simp [h],
    fun h => by simp [h]⟩, fun h => ?_, fun _ => rfl, fun h => ?_, fun h => ?_⟩ <;> simp only [h, if_true] <;> rfl

/-- C92: when the energy is asked for, every output asked for is the single query at the given density and
temperature. -/
theorem C92_by_temperature (t : Tab K) (fl : Flags) (s : Thermo K) (c : K) (hr : fl.rho = false)
    (hT : fl.temp = false) (he : fl.sie = true) :
    ∃ o, fillEos t fl c s = some o ∧ Spec.InputsKept fl s o ∧ o.sie = query t .eRT s.rho s.temp ∧
      (fl.press = true → o.press = query t .pRT s.rho s.temp) ∧
      (fl.cv = true → o.cv = query t .cvRT s.rho s.temp) ∧
      (fl.bmod = true → o.bmod = query t .bRT s.rho s.temp) := by
  unfold fillEos
  simp only [hr, hT, he, Bool.false_or, Bool.true_or, Bool.or_true, Bool.not_true, Bool.false_and, Bool.true_and,
    Bool.and_false, Bool.not_false, if_false, Bool.false_eq_true, if_true, Option.some.injEq, exists_eq_left']
  refine ⟨⟨fun _ => rfl, fun _ => rfl, fun h => by simp [he] at h, fun h => by simp [h], fun h => by simp [h],
    fun h => by simp [h]⟩, rfl, fun h => ?_, fun h => ?_, fun h => ?_⟩ <;> simp only [h, if_true] <;> rfl

/-- C92: density and energy from pressure and temperature are those of `DensityEnergyFromPressureTemperature`; heat
capacity and bulk modulus are the single queries there, if the log of the density is recovered exactly. -/
theorem C92_by_pressure_temperature (t : Tab K) (fl : Flags) (s : Thermo K) (c : K) (hr : fl.rho = true)
    (hT : fl.temp = false) (hp : fl.press = false) (he : fl.sie = true) :
    ∃ o, fillEos t fl c s = some o ∧ Spec.InputsKept fl s o ∧ (o.rho, o.sie) = dePT t c s.press s.temp ∧
      (t.lRho o.rho = (lRhoOfPT t c s.press (t.lT s.temp)).1 →
        o.sie = query t .eRT o.rho s.temp ∧
        (fl.cv = true → o.cv = query t .cvRT o.rho s.temp) ∧
        (fl.bmod = true → o.bmod = query t .bRT o.rho s.temp)) := by
  unfold fillEos
  simp only [hr, hT, hp, he, Bool.true_or, Bool.not_true, Bool.or_false, Bool.and_false, Bool.false_eq_true,
    Bool.true_and, Bool.false_and, if_false, if_true, Option.some.injEq, exists_eq_left']
  refine ⟨⟨fun h => by simp [hr] at h, fun _ => rfl, fun h => by simp [he] at h, fun _ => rfl, fun h => by simp [h],
    fun h => by simp [h]⟩, rfl, fun hb => ⟨?_, fun h => ?_, fun h => ?_⟩⟩ <;>
  simp only [query, interpRhoT, hb] <;> simp [*]

/-- A table over the rationals with identity logs: `P = rho T`, `e = T - rho`, so `T = e + rho` and
`dP/drho` at constant energy is `T + rho`. -/
def toy (tr : Spiner.Transform ℚ) : Tab ℚ where
  lRho := id
  rho := id
  lT := id
  T := id
  lE := id
  sie := fun r T => T - r
  PT := fun r T => r * T
  bModT := fun r T => r * (T + r) + r * T
  dPdRhoT := fun r T => T + r
  dPdET := fun r _ => r
  dTdET := fun _ _ => 1
  dEdRhoT := fun _ _ => -1
  TE := fun r e => e + r
  PE := fun r e => r * (e + r)
  bModE := fun r e => r * (e + r + r) + r * (e + r)
  dPdEE := fun r e => r + e
  dTdEE := fun _ _ => 1
  sieCold := fun r => -r
  PMaxRho := fun T => 2 * T
  dPdRhoMax := fun T => T + 2
  rhoAtPmin := fun _ => 0
  lRhoMin := 0
  lRhoMax := 2
  rhoMax := 2
  lTMin := 0
  lTMax := 10
  eps := 1 / 10 ^ 10
  repro := false
  hasMf := true
  mf := fun _ _ T => T
  tr := tr

/-- C92 fails when neither temperature nor energy is asked for: with density and temperature (or energy) given and the
pressure asked for, the pressure passed in comes back. The same holds for heat capacity and bulk modulus asked for
together with the density. -/
theorem C92_pressure_alone_violated (t : Tab K) (s : Thermo K) (c : K) :
    fillEos t ⟨false, false, false, true, false, false⟩ c s = some s ∧
    ∃ o, fillEos t ⟨true, false, false, false, true, true⟩ c s = some o ∧ o.cv = s.cv ∧ o.bmod = s.bmod := by
  exact ⟨rfl, _, rfl, rfl, rfl⟩

/-- The hypotheses of the `FillEos` theorems are met and the outputs depend on the inputs. -/
example : ∃ o, fillEos (toy Spiner.nullT) ⟨false, true, false, true, false, false⟩ 0 ⟨2, 0, 3, 0, 0, 0⟩ = some o ∧
    o.temp = 5 ∧ o.press = 10 := ⟨_, rfl, by norm_num [toy, Spiner.nullT], by norm_num [toy, Spiner.nullT]⟩

/-! ## C93: energy transforms -/

/-- C93: temperature, pressure, heat capacity and bulk modulus by energy are those of the untransformed tables at the
transformed energy. -/
theorem C93_transformed (t : Tab K) (k : Q) (hk : k.byEnergy = true) (hg : k ≠ .gRE) (rho e : K) :
    query t k rho e = query { t with tr := Spiner.nullT } k rho (t.tr.fwd e rho) := by
  cases k <;> simp [Q.byEnergy] at hk hg ⊢ <;> rfl

/-- C93: without a transform (`NullTransform`), the mass fractions by energy are those at the temperature of that
energy. -/
theorem C93_mass_fractions (t : Tab K) (h : t.tr = Spiner.nullT) (rho e : K) (n : Nat) :
    massE t rho e n = massT t rho (query t .tRE rho e) n := by
  simp only [massE, massT, query, interpRhoSie, h, Spiner.nullT]

/-- C93 fails for the Grüneisen parameter by energy and the mass fractions by energy: both read the table at the
untransformed energy, whatever the transform. -/
theorem C93_not_transformed_violated (t : Tab K) (rho e : K) (n : Nat) :
    query t .gRE rho e = query { t with tr := Spiner.nullT } .gRE rho e ∧
    massE t rho e n = massE { t with tr := Spiner.nullT } rho e n := ⟨rfl, rfl⟩

/-- … so for a shift of the energy by 1 they are not the values at the temperature that the EOS reports. -/
theorem C93_shifted_violated :
    let t := toy ⟨fun e _ => e - 1, fun e _ _ => e + 1⟩
    massE t 1 5 0 ≠ massT t 1 (query t .tRE 1 5) 0 ∧
    query t .gRE 1 5 ≠ query { t with tr := Spiner.nullT } .gRE 1 (t.tr.fwd 5 1) := by
  constructor <;> norm_num [toy, massE, massT, query, interpRhoSie]

/-! ## C94: density from pressure and temperature -/

/-- C94: above the pressure of the table's highest density, the density returned is the linear extrapolation from there
(up to the shift `δ` of the log conversion), it is reported as success, and it does not depend on the lambda. -/
theorem C94_above (t : Tab K) {δ P T : K} (c : K) (hd : 0 < t.dPdRhoMax (t.lT T)) (hP : t.PMaxRho (t.lT T) < P)
    (hback : ∀ x, t.rhoMax ≤ x → t.rho (t.lRho x) = x + δ) :
    (lRhoOfPT t c P (t.lT T)).2 = .success ∧
    t.PMaxRho (t.lT T) + t.dPdRhoMax (t.lT T) * ((dePT t c P T).1 - δ - t.rhoMax) = P ∧
    t.rhoMax + δ < (dePT t c P T).1 := by
  have h0 : 0 < (P - t.PMaxRho (t.lT T)) / t.dPdRhoMax (t.lT T) := div_pos (by linarith) hd
  have hx : (lRhoOfPT t c P (t.lT T)) =
      (t.lRho ((P - t.PMaxRho (t.lT T)) / t.dPdRhoMax (t.lT T) + t.rhoMax), .success) := by
    simp only [lRhoOfPT, gt_iff_lt, hd, hP, and_self, if_true]
  have hr : (dePT t c P T).1 = (P - t.PMaxRho (t.lT T)) / t.dPdRhoMax (t.lT T) + t.rhoMax + δ := by
    simp only [dePT, hx]
    exact hback _ (by linarith)
  refine ⟨by rw [hx], ?_, ?_⟩
  · rw [hr]; have := hd.ne'; field_simp; ring
  · rw [hr]; linarith

/-- C94 fails there all the same: the slope used is that at constant energy (`C96_stored`), not the isotherm's, so the
pressure at the density returned is not the one asked for. -/
theorem C94_above_violated :
    let t := toy Spiner.nullT
    (lRhoOfPT t 0 5 (t.lT 1)).2 = .success ∧ (dePT t 0 5 1).1 = 3 ∧ query t .pRT 3 1 = 3 := by
  refine ⟨?_, ?_, ?_⟩ <;> norm_num [toy, lRhoOfPT, dePT, query, interpRhoT]

end field

/-- C94 (missing: convergence when the root finder stops on its residuals): otherwise, for an isotherm that is continuous
in the log density and takes the pressure between its ends, a successful inversion returns a density of the table whose
log is within `robust::EPS` of one with exactly that pressure, whatever the lambda. -/
theorem C94_table_partial (t : Tab ℝ) (heps : 0 ≤ t.eps) {P T : ℝ} (c : ℝ)
    (hP : P ≤ t.PMaxRho (t.lT T))
    (hab : t.lRho (t.rhoAtPmin (t.lT T)) ≤ t.lRhoMax)
    (hcont : ContinuousOn (fun x => t.PT x (t.lT T)) (Set.Icc (t.lRho (t.rhoAtPmin (t.lT T))) t.lRhoMax))
    (hbr : t.PT (t.lRho (t.rhoAtPmin (t.lT T))) (t.lT T) ≤ P ∧ P ≤ t.PT t.lRhoMax (t.lT T))
    (hok : (lRhoOfPT t c P (t.lT T)).2 = .success) :
    let x := (lRhoOfPT t c P (t.lT T)).1
    dePT t c P T = (t.rho x, t.sie x (t.lT T)) ∧
    x ∈ Set.Icc (t.lRho (t.rhoAtPmin (t.lT T))) t.lRhoMax ∧
    ((∃ r ∈ Set.Icc (t.lRho (t.rhoAtPmin (t.lT T))) t.lRhoMax, t.PT r (t.lT T) = P ∧ |x - r| ≤ t.eps) ∨
      ∃ g, StoppedOnResidual t.eps (fun x => t.PT x (t.lT T)) P g (t.lRho (t.rhoAtPmin (t.lT T))) t.lRhoMax) := by
  intro x
  set a := t.lRho (t.rhoAtPmin (t.lT T)) with ha
  set g := guessOf c a t.lRhoMax (if t.repro then t.lRhoMax else 1 / 2 * (a + t.lRhoMax)) with hg
  have hgm : a ≤ g ∧ g ≤ t.lRhoMax := by
    refine guess_mem ?_ ?_ <;> split_ifs <;> linarith
  have hx : lRhoOfPT t c P (t.lT T) =
      ((invert t.eps (fun x => t.PT x (t.lT T)) P g a t.lRhoMax (if t.repro then t.lRhoMax else g)).2,
       (invert t.eps (fun x => t.PT x (t.lT T)) P g a t.lRhoMax (if t.repro then t.lRhoMax else g)).1) := by
    simp only [lRhoOfPT, gt_iff_lt, not_lt.2 hP, and_false, if_false, ← ha, ← hg]
  rw [hx] at hok
  obtain ⟨q1, q2, q3⟩ := invert_success heps hgm.1 hgm.2 hcont
    (mul_nonpos_of_nonpos_of_nonneg (by linarith [hbr.1]) (by linarith [hbr.2]))
    (show invert t.eps (fun x => t.PT x (t.lT T)) P g a t.lRhoMax (if t.repro then t.lRhoMax else g) = (.success, x)
      from Prod.ext hok (by change _ = (lRhoOfPT t c P (t.lT T)).1; rw [hx]))
  exact ⟨rfl, ⟨q1, q2⟩, q3.imp_right fun h => ⟨g, h⟩⟩

/-- A table with `P = 2 rho` on isotherms. -/
noncomputable def linTab : Tab ℝ where
  lRho := id
  rho := id
  lT := id
  T := id
  lE := id
  sie := fun _ T => T
  PT := fun r _ => 2 * r
  bModT := fun _ _ => 1
  dPdRhoT := fun _ _ => 2
  dPdET := fun _ _ => 1
  dTdET := fun _ _ => 1
  dEdRhoT := fun _ _ => 0
  TE := fun _ e => e
  PE := fun r _ => 2 * r
  bModE := fun _ _ => 1
  dPdEE := fun _ _ => 1
  dTdEE := fun _ _ => 1
  sieCold := fun _ => 0
  PMaxRho := fun _ => 6
  dPdRhoMax := fun _ => 2
  rhoAtPmin := fun _ => 0
  lRhoMin := 0
  lRhoMax := 3
  rhoMax := 3
  lTMin := 0
  lTMax := 3
  eps := 1 / 10 ^ 14
  repro := false
  hasMf := false
  mf := fun _ _ _ => 1
  tr := Spiner.nullT

/-- The hypotheses of `C94_table_partial` are met. -/
example : 0 ≤ linTab.eps ∧ (4:ℝ) ≤ linTab.PMaxRho (linTab.lT 1) ∧
    linTab.lRho (linTab.rhoAtPmin (linTab.lT 1)) ≤ linTab.lRhoMax ∧
    (linTab.PT (linTab.lRho (linTab.rhoAtPmin (linTab.lT 1))) (linTab.lT 1) ≤ 4 ∧ 4 ≤ linTab.PT linTab.lRhoMax (linTab.lT 1)) ∧
    (lRhoOfPT linTab (-1) 4 (linTab.lT 1)).2 = .success := by
  refine ⟨by norm_num [linTab], by norm_num [linTab], by norm_num [linTab], by norm_num [linTab], ?_⟩
  have h1 : ¬ (linTab.dPdRhoMax (linTab.lT 1) > 0 ∧ 4 > linTab.PMaxRho (linTab.lT 1)) := by norm_num [linTab]
  simp only [lRhoOfPT, if_neg h1]
  have : guessOf (-1) (linTab.lRho (linTab.rhoAtPmin (linTab.lT 1))) linTab.lRhoMax (if linTab.repro then linTab.lRhoMax
      else 1 / 2 * (linTab.lRho (linTab.rhoAtPmin (linTab.lT 1)) + linTab.lRhoMax)) = 3 / 2 := by
    norm_num [guessOf, linTab]
  rw [this]
  change (invert (1 / 10 ^ 14) (fun x : ℝ => 2 * x) 4 (3 / 2) 0 3 (3 / 2)).1 = _
  rw [invert_example]

section field
variable {K : Type*} [Field K] [LinearOrder K] [IsStrictOrderedRing K]

/-- C94 fails for a pressure the isotherm does not reach (below its minimum, or above its maximum where the stored slope
is not positive): the density cached in `lambda` comes back. -/
theorem C94_unreachable_violated :
    let t := toy Spiner.nullT
    (∀ x, 0 ≤ x → -1 < query t .pRT x 1) ∧ (dePT t 1 (-1) 1).1 = 1 ∧ (dePT t (1 / 2) (-1) 1).1 = 1 / 2 := by
  refine ⟨fun x hx => ?_, by decide +kernel, by decide +kernel⟩
  simp only [query, interpRhoT, toy, id]; linarith

/-! ## C95: the reference state -/

/-- C95: the reference state is a state of the EOS: its energy, pressure, heat capacity and bulk modulus are the single
queries at its density and temperature, if these are the normal density and room temperature and on the table (or the
log conversion is recovered exactly at the middle of the table). -/
theorem C95_reference (t : Tab K) (rho0 T0 : K)
    (hR : (t.lRhoMin < t.lRho rho0 ∧ t.lRho rho0 < t.lRhoMax) ∨
      t.lRho (t.rho (1 / 2 * (t.lRhoMin + t.lRhoMax))) = 1 / 2 * (t.lRhoMin + t.lRhoMax))
    (hT : (t.lTMin < t.lT T0 ∧ t.lT T0 < t.lTMax) ∨
      t.lT (t.T (1 / 2 * (t.lTMin + t.lTMax))) = 1 / 2 * (t.lTMin + t.lTMax)) :
    let o := refState t rho0 T0
    o.sie = query t .eRT o.rho o.temp ∧ o.press = query t .pRT o.rho o.temp ∧ o.cv = query t .cvRT o.rho o.temp ∧
    o.bmod = query t .bRT o.rho o.temp ∧ (o.rho ≠ 0 → o.dpde = o.rho * query t .gRT o.rho o.temp) := by
  intro o
  have h1 : t.lRho o.rho = if t.lRhoMin < t.lRho rho0 ∧ t.lRho rho0 < t.lRhoMax then t.lRho rho0
      else 1 / 2 * (t.lRhoMin + t.lRhoMax) := by
    simp only [o, refState]
    split_ifs with h
    · rfl
    · exact hR.resolve_left h
  have h2 : t.lT o.temp = if t.lTMin < t.lT T0 ∧ t.lT T0 < t.lTMax then t.lT T0
      else 1 / 2 * (t.lTMin + t.lTMax) := by
    simp only [o, refState]
    split_ifs with h
    · rfl
    · exact hT.resolve_left h
  simp only [query, interpRhoT, h1, h2]
  refine ⟨rfl, rfl, rfl, rfl, fun h0 => ?_⟩
  rw [mul_div_cancel₀ _ h0]; rfl

/-- C95: its density and temperature are inside the table (given the table's bounds are ordered and the log conversion
keeps the middle inside). -/
theorem C95_reference_on_table (t : Tab K) (rho0 T0 : K)
    (hR : t.lRhoMin < t.lRho (t.rho (1 / 2 * (t.lRhoMin + t.lRhoMax))) ∧
      t.lRho (t.rho (1 / 2 * (t.lRhoMin + t.lRhoMax))) < t.lRhoMax)
    (hT : t.lTMin < t.lT (t.T (1 / 2 * (t.lTMin + t.lTMax))) ∧ t.lT (t.T (1 / 2 * (t.lTMin + t.lTMax))) < t.lTMax) :
    let o := refState t rho0 T0
    t.lRhoMin < t.lRho o.rho ∧ t.lRho o.rho < t.lRhoMax ∧ t.lTMin < t.lT o.temp ∧ t.lT o.temp < t.lTMax := by
  intro o
  have h1 : t.lRhoMin < t.lRho o.rho ∧ t.lRho o.rho < t.lRhoMax := by
    simp only [o, refState]; split_ifs with h
    · exact h
    · exact hR
  have h2 : t.lTMin < t.lT o.temp ∧ t.lT o.temp < t.lTMax := by
    simp only [o, refState]; split_ifs with h
    · exact h
    · exact hT
  exact ⟨h1.1, h1.2, h2.1, h2.2⟩

/-- C95: `dv/dT` of the reference state divides by the pressure slope at constant energy; it is the value with the slope
at constant temperature exactly when the energy does not depend on the density there (or `dP/dT` is zero). -/
theorem C95_dvdt_iff {rho dpde cv dpdr_e dedr_t : K} (hr : rho ≠ 0) (h1 : dpdr_e ≠ 0)
    (h2 : dpdr_e + dpde * dedr_t ≠ 0) (h3 : dpde * cv ≠ 0) :
    dpde * cv / (rho * rho * dpdr_e) = dpde * cv / (rho * rho * (dpdr_e + dpde * dedr_t)) ↔ dedr_t = 0 := by
  have hd : dpde ≠ 0 := fun h => h3 (by rw [h, zero_mul])
  rw [div_eq_div_iff (by positivity) (by positivity)]
  constructor
  · intro h
    have h4 := mul_left_cancel₀ h3 h
    have h5 : rho * rho * (dpde * dedr_t) = 0 := by linear_combination h4
    rcases mul_eq_zero.1 h5 with h6 | h6
    · exact absurd h6 (mul_ne_zero hr hr)
    · exact (mul_eq_zero.1 h6).resolve_left hd
  · rintro rfl; simp

/-- C95 fails: for `P = rho T`, `e = T - rho` the reference state at density 1 and temperature 3 reports
`dv/dT = 1/4`; along the isobar `v = T/P`, so it is `1/P = 1/3`. -/
theorem C95_dvdt_violated :
    (refState (toy Spiner.nullT) 1 3).press = 3 ∧ (refState (toy Spiner.nullT) 1 3).dvdt = 1 / 4 := by
  constructor <;> norm_num [refState, toy]

/-- Every entry of the bulk modulus tables is at least `robust::EPS` after loading, and is the isentropic bulk modulus of
the stored derivatives where that is positive (C88 for this EOS). -/
theorem C88_rhosie_fixed_table (eps rho press dpdr dpde dedr : K) (heps : 0 ≤ eps) :
    eps ≤ fixedBulk eps rho press dpdr dpde dedr ∧
    (0 < dpde → 0 < rho → eps ≤ rho * dpdr + press / rho * dpde →
      fixedBulk eps rho press dpdr dpde dedr = rho * dpdr + press / rho * dpde) ∧
    (dpde ≤ 0 → 0 < rho → eps ≤ rho * (dpdr + dpde * dedr) →
      fixedBulk eps rho press dpdr dpde dedr = rho * (dpdr + dpde * dedr)) := by
  have h := C88_fixed_table eps rho press dpdr dpde dedr
  rw [abs_of_nonneg heps] at h
  have he : RhoT.fixedBulk eps rho press dpdr dpde dedr = fixedBulk eps rho press dpdr dpde dedr := by
    simp only [RhoT.fixedBulk, fixedBulk, abs_of_nonneg heps]
  rwa [he] at h

/-- C88 fails for the heat capacity of this EOS: there is no floor. -/
theorem C88_rhosie_heat_capacity_violated :
    ∃ (t : Tab ℚ) (rho T : ℚ), query t .cvRT rho T < 0 ∧ query t .cvRE rho T < 0 :=
  ⟨{ toy Spiner.nullT with dTdET := fun _ _ => -1, dTdEE := fun _ _ => -1 }, 1, 1, by
    norm_num [query, interpRhoT, interpRhoSie, toy], by norm_num [query, interpRhoT, interpRhoSie, toy]⟩

end field

/-! ## C96: what `sesame2spiner` stores -/

/-- The functions of one material in EOSPAC's units, and what EOSPAC returns for them at a point: the values and the
partial derivatives. -/
structure Exact (p e τ : ℝ × ℝ → ℝ) (rho T : ℝ) (s : Ses ℝ) : Prop where
  hP : s.P = p (rho, T)
  hE : s.E = e (rho, T)
  hT : s.T = τ (rho, s.E)
  hTT : s.T = T
  dp : HasFDerivAt p (s.DPDR_T • ContinuousLinearMap.fst ℝ ℝ ℝ + s.DPDT_R • ContinuousLinearMap.snd ℝ ℝ ℝ) (rho, T)
  de : HasFDerivAt e (s.DEDR_T • ContinuousLinearMap.fst ℝ ℝ ℝ + s.DEDT_R • ContinuousLinearMap.snd ℝ ℝ ℝ) (rho, T)
  dτ : HasFDerivAt τ (s.DTDR_E • ContinuousLinearMap.fst ℝ ℝ ℝ + s.DTDE_R • ContinuousLinearMap.snd ℝ ℝ ℝ) (rho, s.E)

/-- C96: with `P`, `E`, `Tof` the material's functions in cgs units, the stored tables are the values of these functions
and their derivatives: `dPdRho` and `dTdRho` at constant energy, `dEdRho` at constant temperature, `dPdE`, `dTdE`,
`dEdT` at constant density. -/
theorem C96_stored (p e τ : ℝ × ℝ → ℝ) (rho T : ℝ) (s : Ses ℝ) (h : Exact p e τ rho T s) :
    let P := fun r T => 10 ^ 10 * p (r, T)
    let E := fun r T => 10 ^ 10 * e (r, T)
    let Tof := fun r e => τ (r, e / 10 ^ 10)
    let o := store rho s
    o.P = P rho T ∧ o.sie = E rho T ∧ o.T = Tof rho o.sie ∧
    HasDerivAt (fun r => P r (Tof r o.sie)) o.dPdRho rho ∧
    HasDerivAt (fun x => P rho (Tof rho x)) o.dPdE o.sie ∧
    HasDerivAt (fun r => Tof r o.sie) o.dTdRho rho ∧
    HasDerivAt (fun x => Tof rho x) o.dTdE o.sie ∧
    HasDerivAt (fun r => E r T) o.dEdRho rho ∧
    HasDerivAt (fun x => E rho x) o.dEdT T := by
  intro P E Tof o
  have hs : o.sie / 10 ^ 10 = s.E := by
    simp only [o, store, sesU]; field_simp
  have hτ : τ (rho, s.E) = T := by rw [← h.hT, h.hTT]
  -- partial derivatives of the temperature
  have hTr : HasDerivAt (fun r => τ (r, s.E)) s.DTDR_E rho := by
    have := h.dτ.comp_hasDerivAt rho ((hasDerivAt_id rho).prodMk (hasDerivAt_const rho s.E))
    exact this.congr_deriv (by simp)
  have hTe : HasDerivAt (fun x => τ (rho, x / 10 ^ 10)) (1 / 10 ^ 10 * s.DTDE_R) o.sie := by
    have hin : HasDerivAt (fun x : ℝ => (rho, x / 10 ^ 10)) (0, 1 / 10 ^ 10) o.sie :=
      (hasDerivAt_const _ rho).prodMk ((hasDerivAt_id _).div_const _)
    have hd := h.dτ
    rw [← hs] at hd
    have := hd.comp_hasDerivAt o.sie hin
    exact this.congr_deriv (by simp [mul_comm])
  have hdp := h.dp
  rw [← hτ] at hdp
  refine ⟨?_, ?_, ?_, ?_, ?_, ?_, ?_, ?_, ?_⟩
  · simp only [o, store, P, sesU, h.hP]
  · simp only [o, store, E, sesU, h.hE]
  · change s.T = τ (rho, o.sie / 10 ^ 10); rw [hs, h.hT]
  · change HasDerivAt (fun r => 10 ^ 10 * p (r, τ (r, o.sie / 10 ^ 10))) _ rho
    rw [hs]
    have := (hdp.comp_hasDerivAt rho ((hasDerivAt_id rho).prodMk hTr)).const_mul ((10:ℝ) ^ 10)
    refine this.congr_deriv ?_
    simp [o, store, sesU]; ring
  · change HasDerivAt (fun x => 10 ^ 10 * p (rho, τ (rho, x / 10 ^ 10))) _ o.sie
    have hdp' := hdp
    rw [← hs] at hdp'
    have := (hdp'.comp_hasDerivAt o.sie ((hasDerivAt_const _ rho).prodMk hTe)).const_mul ((10:ℝ) ^ 10)
    refine this.congr_deriv ?_
    simp [o, store, sesU]; ring
  · change HasDerivAt (fun r => τ (r, o.sie / 10 ^ 10)) _ rho
    rw [hs]; exact hTr
  · exact hTe.congr_deriv (by simp [o, store, sesU])
  · have := (h.de.comp_hasDerivAt rho ((hasDerivAt_id rho).prodMk (hasDerivAt_const rho T))).const_mul ((10:ℝ) ^ 10)
    refine this.congr_deriv ?_
    simp [o, store, sesU]
  · have := (h.de.comp_hasDerivAt T ((hasDerivAt_const T rho).prodMk (hasDerivAt_id T))).const_mul ((10:ℝ) ^ 10)
    refine this.congr_deriv ?_
    simp [o, store, sesU]

/-- C96: if temperature and energy are inverse to each other near the point, the stored derivatives satisfy the
reciprocity relations the EOS relies on: `dTdE * dEdT = 1`, `dTdRho = -dEdRho * dTdE`, `dPdRho` at constant temperature
is `dPdRho + dPdE * dEdRho`; and the bulk modulus stored is the isentropic one, floored at zero. -/
theorem C96_reciprocity (p e τ : ℝ × ℝ → ℝ) (rho T : ℝ) (s : Ses ℝ) (h : Exact p e τ rho T s)
    (hinv : ∀ᶠ x in nhds (rho, T), τ (x.1, e x) = x.2) :
    let o := store rho s
    o.dTdE * o.dEdT = 1 ∧ o.dTdRho = -(o.dEdRho * o.dTdE) ∧
    HasDerivAt (fun r => 10 ^ 10 * p (r, T)) (o.dPdRho + o.dPdE * o.dEdRho) rho ∧
    o.bMod = max (rho * o.dPdRho + o.P / rho * o.dPdE) 0 := by
  intro o
  have hτd := h.dτ
  rw [h.hE] at hτd
  -- derivative of the composite
  have hc : HasFDerivAt (fun x : ℝ × ℝ => τ (x.1, e x))
      ((s.DTDR_E • ContinuousLinearMap.fst ℝ ℝ ℝ + s.DTDE_R • ContinuousLinearMap.snd ℝ ℝ ℝ).comp
        ((ContinuousLinearMap.fst ℝ ℝ ℝ).prod
          (s.DEDR_T • ContinuousLinearMap.fst ℝ ℝ ℝ + s.DEDT_R • ContinuousLinearMap.snd ℝ ℝ ℝ))) (rho, T) :=
    HasFDerivAt.comp (rho, T) (f := fun x : ℝ × ℝ => (x.1, e x)) hτd (hasFDerivAt_fst.prodMk h.de)
  have hi : HasFDerivAt (fun x : ℝ × ℝ => τ (x.1, e x)) (ContinuousLinearMap.snd ℝ ℝ ℝ) (rho, T) :=
    hasFDerivAt_snd.congr_of_eventuallyEq hinv
  have hu := hc.unique hi
  have h1 : s.DTDE_R * s.DEDT_R = 1 := by
    have := congrArg (fun L : ℝ × ℝ →L[ℝ] ℝ => L (0, 1)) hu
    simpa using this
  have h2 : s.DTDR_E + s.DTDE_R * s.DEDR_T = 0 := by
    have := congrArg (fun L : ℝ × ℝ →L[ℝ] ℝ => L (1, 0)) hu
    simpa using this
  have h3 : s.DEDT_R ≠ 0 := fun h0 => by rw [h0, mul_zero] at h1; exact zero_ne_one h1
  have h4 : s.DPDT_R / s.DEDT_R = s.DPDT_R * s.DTDE_R := by
    rw [div_eq_iff h3, mul_assoc, h1, mul_one]
  have h5 : s.DTDR_E = -(s.DTDE_R * s.DEDR_T) := by linarith
  refine ⟨?_, ?_, ?_, ?_⟩
  · simp only [o, store, sesU]
    have : 1 / (10:ℝ) ^ 10 * s.DTDE_R * (10 ^ 10 * s.DEDT_R) = s.DTDE_R * s.DEDT_R := by ring
    rw [this, h1]
  · simp only [o, store, sesU]; rw [h5]; ring
  · have := (h.dp.comp_hasDerivAt rho ((hasDerivAt_id rho).prodMk (hasDerivAt_const rho T))).const_mul ((10:ℝ) ^ 10)
    refine this.congr_deriv ?_
    simp [o, store, sesU, h5]; ring
  · simp only [o, store, getBulk, h4, sesU, h5]
    rw [mul_max_of_nonneg _ _ (by norm_num : (0:ℝ) ≤ 10 ^ 10), mul_zero]
    congr 1
    by_cases hr : rho = 0
    · subst hr; simp
    · field_simp; ring

/-- The hypotheses of `C96_reciprocity` are met: `p = rho T`, `e = 2 T - rho`, at `rho = 3`, `T = 5`. -/
example : ∃ s : Ses ℝ, Exact (fun x => x.1 * x.2) (fun x => 2 * x.2 - x.1) (fun x => (x.2 + x.1) / 2) 3 5 s ∧
    ∀ᶠ x in nhds ((3:ℝ), (5:ℝ)), ((2 * x.2 - x.1) + x.1) / 2 = x.2 := by
  refine ⟨⟨15, 5, 3, 7, -1, 2, 5, 1 / 2, 1 / 2⟩, ⟨by norm_num, by norm_num, by norm_num, rfl, ?_, ?_, ?_⟩, ?_⟩
  · refine (hasFDerivAt_fst.mul hasFDerivAt_snd).congr_fderiv ?_
    ext <;> simp
  · refine ((hasFDerivAt_snd.const_mul (2:ℝ)).sub hasFDerivAt_fst).congr_fderiv ?_
    ext <;> simp
  · refine ((hasFDerivAt_snd.add hasFDerivAt_fst).mul_const (1 / 2 : ℝ)).congr_fderiv ?_ |>.congr_of_eventuallyEq ?_
    · ext <;> simp
    · exact Filter.Eventually.of_forall fun x => by simp; ring
  · exact Filter.Eventually.of_forall fun x => by ring

/-- C95: what `dv/dT` at constant pressure is, for an isobar `r(T)` through the point, in terms of the stored
derivatives: `dPdE cv / (rho^2 (dPdRho + dPdE dEdRho))`. -/
theorem C95_true_dvdt (P : ℝ × ℝ → ℝ) (r : ℝ → ℝ) {rho T Pr PT r' : ℝ} (hr : r T = rho) (h0 : rho ≠ 0) (hPr : Pr ≠ 0)
    (hP : HasFDerivAt P (Pr • ContinuousLinearMap.fst ℝ ℝ ℝ + PT • ContinuousLinearMap.snd ℝ ℝ ℝ) (rho, T))
    (hr' : HasDerivAt r r' T) (hiso : ∀ᶠ x in nhds T, P (r x, x) = P (rho, T)) :
    HasDerivAt (fun x => 1 / r x) (PT / (rho * rho * Pr)) T := by
  have hc : HasDerivAt (fun x => P (r x, x)) (Pr * r' + PT) T := by
    have hP' : HasFDerivAt P (Pr • ContinuousLinearMap.fst ℝ ℝ ℝ + PT • ContinuousLinearMap.snd ℝ ℝ ℝ)
        ((fun x => (r x, x)) T) := by
      simp only [hr]; exact hP
    have := hP'.comp_hasDerivAt T (f := fun x => (r x, x)) (hr'.prodMk (hasDerivAt_id T))
    exact this.congr_deriv (by simp)
  have hz : HasDerivAt (fun x => P (r x, x)) 0 T :=
    (hasDerivAt_const T (P (rho, T))).congr_of_eventuallyEq hiso
  have he := hc.unique hz
  have hr2 : r' = -PT / Pr := by
    rw [eq_div_iff hPr]; linarith
  have := (hasDerivAt_const T (1:ℝ)).div hr' (by rw [hr]; exact h0)
  refine this.congr_deriv ?_
  rw [hr, hr2]; field_simp; ring

/-- C95 (when it holds): if at the reference point the stored pressure slope is the one at constant temperature, the
reference state's `dv/dT` is the slope of the specific volume along the isobar through it. -/
theorem C95_dvdt_of_isothermal_slope (t : Tab ℝ) (rho0 T0 : ℝ) (P : ℝ × ℝ → ℝ) (r : ℝ → ℝ) {PT r' : ℝ}
    (h0 : (refState t rho0 T0).rho ≠ 0)
    (hR : t.lRhoMin < t.lRho rho0 ∧ t.lRho rho0 < t.lRhoMax) (hT : t.lTMin < t.lT T0 ∧ t.lT T0 < t.lTMax)
    (hs : t.dPdRhoT (t.lRho rho0) (t.lT T0) ≠ 0)
    (hPT : PT = t.dPdET (t.lRho rho0) (t.lT T0) * (1 / t.dTdET (t.lRho rho0) (t.lT T0)))
    (hP : HasFDerivAt P (t.dPdRhoT (t.lRho rho0) (t.lT T0) • ContinuousLinearMap.fst ℝ ℝ ℝ +
      PT • ContinuousLinearMap.snd ℝ ℝ ℝ) (rho0, T0))
    (hr : r T0 = rho0) (hr' : HasDerivAt r r' T0) (hiso : ∀ᶠ x in nhds T0, P (r x, x) = P (rho0, T0)) :
    (refState t rho0 T0).rho = rho0 ∧ (refState t rho0 T0).temp = T0 ∧
    HasDerivAt (fun x => 1 / r x) (refState t rho0 T0).dvdt T0 := by
  have e1 : (refState t rho0 T0).rho = rho0 := by simp [refState, hR]
  have e2 : (refState t rho0 T0).temp = T0 := by simp [refState, hT]
  refine ⟨e1, e2, ?_⟩
  have := C95_true_dvdt P r hr (by rwa [e1] at h0) hs hP hr' hiso
  refine this.congr_deriv ?_
  simp [refState, hT, hR, hPT]

/-- The ideal gas `P = rho T`, `e = T` with identity log conversions. -/
noncomputable def gasTab : Tab ℝ where
  lRho := id
  rho := id
  lT := id
  T := id
  lE := id
  tr := Spiner.nullT
  sie := fun _ T => T
  PT := fun r T => r * T
  bModT := fun r T => 2 * (r * T)
  dPdRhoT := fun _ T => T
  dPdET := fun r _ => r
  dTdET := fun _ _ => 1
  dEdRhoT := fun _ _ => 0
  TE := fun _ e => e
  PE := fun r e => r * e
  bModE := fun r e => 2 * (r * e)
  dPdEE := fun r _ => r
  dTdEE := fun _ _ => 1
  sieCold := fun _ => 0
  PMaxRho := fun T => 5 * T
  dPdRhoMax := fun T => T
  rhoAtPmin := fun _ => 0
  lRhoMin := 0
  lRhoMax := 5
  rhoMax := 5
  lTMin := 0
  lTMax := 10
  eps := 1 / 10 ^ 10
  repro := false
  hasMf := false
  mf := fun _ _ _ => 0

/-- The hypotheses of `C95_dvdt_of_isothermal_slope` are met by `gasTab`, reference point `(2, 3)`, isobar `rho = 6/T`;
`dv/dT = 1/6`. -/
example : (refState gasTab 2 3).dvdt = 1 / 6 ∧
    HasDerivAt (fun x : ℝ => 1 / (6 / x)) (refState gasTab 2 3).dvdt 3 := by
  constructor
  · norm_num [refState, gasTab]
  · refine (C95_dvdt_of_isothermal_slope _ 2 3 (fun x : ℝ × ℝ => x.1 * x.2) (fun x : ℝ => 6 / x) (PT := 2) (r' := -6 / 9)
      ?_ ?_ ?_ ?_ ?_ ?_ ?_ ?_ ?_).2.2
    · norm_num [refState, gasTab]
    · norm_num [gasTab]
    · norm_num [gasTab]
    · norm_num [gasTab]
    · norm_num [gasTab]
    · refine (hasFDerivAt_fst.mul hasFDerivAt_snd).congr_fderiv ?_
      ext <;> simp [gasTab]
    · norm_num [gasTab]
    · have := (hasDerivAt_const (3:ℝ) (6:ℝ)).div (hasDerivAt_id 3) (by norm_num)
      exact this.congr_deriv (by norm_num)
    · filter_upwards [eventually_ne_nhds (by norm_num : (3:ℝ) ≠ 0)] with x hx
      show 6 / x * x = 2 * 3
      rw [div_mul_cancel₀ _ hx]; norm_num

/-- C96: on the cold curve, the stored bulk modulus is the density times the stored pressure slope, floored at zero, and the
stored pressure, energy and slopes are EOSPAC's in cgs units. -/
theorem C96_cold_curve (rho P DPDR E DEDR : ℝ) :
    let o := storeCold rho P DPDR E DEDR
    o.1 = 10 ^ 10 * P ∧ o.2.1 = 10 ^ 10 * E ∧ o.2.2.2.1 = 10 ^ 10 * DPDR ∧ o.2.2.2.2 = 10 ^ 10 * DEDR ∧
    o.2.2.1 = max (rho * o.2.2.2.1) 0 := by
  refine ⟨rfl, rfl, rfl, rfl, ?_⟩
  simp only [storeCold, getBulk, zero_mul, add_zero, sesU]
  rw [mul_max_of_nonneg _ _ (by positivity), mul_zero]; congr 1; ring

/-- The hypotheses of `C95_true_dvdt` are met: `P = rho T`, the isobar `rho = 6/T` through `rho = 2`, `T = 3`. -/
example : HasFDerivAt (fun x : ℝ × ℝ => x.1 * x.2)
      ((3:ℝ) • ContinuousLinearMap.fst ℝ ℝ ℝ + (2:ℝ) • ContinuousLinearMap.snd ℝ ℝ ℝ) (2, 3) ∧
    HasDerivAt (fun x : ℝ => 6 / x) (-6 / 9) 3 ∧ ∀ᶠ x in nhds (3:ℝ), 6 / x * x = 2 * 3 := by
  refine ⟨?_, ?_, ?_⟩
  · refine (hasFDerivAt_fst.mul hasFDerivAt_snd).congr_fderiv ?_
    ext <;> simp
  · have := (hasDerivAt_const (3:ℝ) (6:ℝ)).div (hasDerivAt_id 3) (by norm_num)
    exact this.congr_deriv (by norm_num)
  · filter_upwards [eventually_ne_nhds (by norm_num : (3:ℝ) ≠ 0)] with x hx
    rw [div_mul_cancel₀ _ hx]; norm_num

end Verif.RhoSie
