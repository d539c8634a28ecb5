import Verif.Model.EosBase
import Verif.Model.Modifiers
import Verif.Spec.Fill
import Verif.Props.ZSplit
import Verif.Tactics

set_option linter.unusedSectionVars false

/-! # C51: `FillEos` and its flags -/

namespace Verif.Base

open Verif.Mods Verif.Spec

section gas
variable {K : Type*} [Field K] [LinearOrder K]

/-- C51: the shared tail of `FillEos` keeps every input and computes each derived output. -/
theorem C51_direct (q : Q → K → K → K) (fl : Flags) (s : Thermo K) :
    (fillRE q fl s).rho = s.rho ∧ (fillRE q fl s).sie = s.sie ∧
    InputsKept fl s (fillRE q fl s) ∧ OutputsMatch q fl (fillRE q fl s) := by
  obtain ⟨a, b, c, d, e, f⟩ := fl
  cases a <;> cases b <;> cases c <;> cases d <;> cases e <;> cases f <;>
    simp [fillRE, InputsKept, OutputsMatch]

/-- C51: the gas-type `FillEos` (IdealGas, StiffGas, NobleAbel, CarnahanStarling, SAP_Polynomial,
IdealElectrons): whatever the flags, a call that returns has kept every input and every derived output is
the direct query at the resulting density and energy. -/
theorem C51_gas_inputs_kept (q : Q → K → K → K) (inv : K → K → K × K → K × K) (eRP : K → K → K)
    (fl : Flags) (s o : Thermo K) (h : fillGas q inv eRP fl s = some o) :
    InputsKept fl s o ∧ OutputsMatch q fl o := by
  obtain ⟨a, b, c, d, e, f⟩ := fl
  revert h
  cases a <;> cases b <;> cases c <;> cases d <;> cases e <;> cases f <;>
    simp [fillGas, fillRE, InputsKept, OutputsMatch] <;> (intro h; subst h; simp)

/-- C51: it aborts exactly when the energy is requested together with two of density, pressure and
temperature. -/
theorem C51_gas_aborts_iff (q : Q → K → K → K) (inv : K → K → K × K → K × K) (eRP : K → K → K)
    (fl : Flags) (s : Thermo K) :
    fillGas q inv eRP fl s = none ↔
      fl.sie = true ∧ ((fl.rho = true ∧ fl.press = true) ∨ (fl.rho = true ∧ fl.temp = true) ∨
        (fl.press = true ∧ fl.temp = true)) := by
  obtain ⟨a, b, c, d, e, f⟩ := fl
  cases a <;> cases b <;> cases c <;> cases d <;> simp [fillGas]

/-- C51: for the four supported pairs of inputs (density and energy; density and temperature; density
and pressure; pressure and temperature), if the inversions are right then the resulting density and
energy have exactly the pressure/temperature passed in. -/
theorem C51_gas_state (q : Q → K → K → K) (inv : K → K → K × K → K × K) (eRP : K → K → K)
    (fl : Flags) (s : Thermo K)
    (hTE : q .tRE s.rho (q .eRT s.rho s.temp) = s.temp)
    (hPE : q .pRE s.rho (eRP s.rho s.press) = s.press)
    (hinv : q .pRE (inv s.press s.temp (s.rho, s.sie)).1 (inv s.press s.temp (s.rho, s.sie)).2 = s.press ∧
      q .tRE (inv s.press s.temp (s.rho, s.sie)).1 (inv s.press s.temp (s.rho, s.sie)).2 = s.temp)
    (hfl : (fl.rho, fl.temp, fl.sie, fl.press) ∈
      [(false, true, false, true), (false, false, true, true), (false, true, true, false),
       (true, false, true, false)]) :
    ∃ o, fillGas q inv eRP fl s = some o ∧ StateMatch q fl s o := by
  obtain ⟨a, b, c, d, e, f⟩ := fl
  revert hfl
  cases a <;> cases b <;> cases c <;> cases d <;> cases e <;> cases f <;>
    simp [fillGas, fillRE, StateMatch, hTE, hPE, hinv]

/-- C51 is violated: asking for the density without the energy returns normally with the density
untouched: the call does not fail and does not compute the requested output. -/
theorem C51_gas_density_not_computed_violated (q : Q → K → K → K) (inv : K → K → K × K → K × K)
    (eRP : K → K → K) (fl : Flags) (hr : fl.rho = true) (he : fl.sie = false) (s : Thermo K) :
    ∃ o, fillGas q inv eRP fl s = some o ∧ o.rho = s.rho ∧ o.sie = s.sie := by
  obtain ⟨a, b, c, d, e, f⟩ := fl
  simp only at hr he
  subst hr he
  refine ⟨_, by simp only [fillGas]; simp; rfl, ?_⟩
  exact ⟨(C51_direct q _ s).1, (C51_direct q _ s).2.1⟩

/-- C51 is violated: asking for the energy alone returns normally with the energy untouched. -/
theorem C51_gas_energy_not_computed_violated (q : Q → K → K → K) (inv : K → K → K × K → K × K)
    (eRP : K → K → K) (fl : Flags) (hr : fl.rho = false) (ht : fl.temp = false) (hp : fl.press = false)
    (s : Thermo K) : ∃ o, fillGas q inv eRP fl s = some o ∧ o.sie = s.sie := by
  obtain ⟨a, b, c, d, e, f⟩ := fl
  simp only at hr ht hp
  subst hr ht hp
  refine ⟨_, by simp only [fillGas]; simp; rfl, ?_⟩
  exact (C51_direct q _ s).2.1

/-- C51 is violated for JWL and the Davis EOS: every call returns, and a requested density or energy is
never computed. -/
theorem C51_direct_ignores_requests_violated (q : Q → K → K → K) (fl : Flags) (s : Thermo K) :
    (fillRE q fl s).rho = s.rho ∧ (fillRE q fl s).sie = s.sie :=
  ⟨(C51_direct q fl s).1, (C51_direct q fl s).2.1⟩

/-- C51 is violated for MGUsup and PowerMG: with density, temperature and energy all inputs the energy is
overwritten by the energy at the temperature. -/
theorem C51_mg_overwrites_energy_violated (q : Q → K → K → K) (fl : Flags) (hr : fl.rho = false)
    (ht : fl.temp = false) (s : Thermo K) :
    ∃ o, fillMG q fl s = some o ∧ o.sie = q .eRT s.rho s.temp := by
  obtain ⟨a, b, c, d, e, f⟩ := fl
  simp only at hr ht
  subst hr ht
  cases c <;> cases d <;> cases e <;> cases f <;> simp [fillMG]

/-- C51 for MGUsup and PowerMG: the call aborts exactly when the density, or both temperature and energy,
are requested; otherwise, unless both temperature and energy are inputs, every input is kept; and the
outputs always are the direct queries at the resulting state, which has the given temperature. -/
theorem C51_mg_partial (q : Q → K → K → K) (fl : Flags) (s : Thermo K) :
    (fillMG q fl s = none ↔ fl.rho = true ∨ (fl.temp = true ∧ fl.sie = true)) ∧
    ∀ o, fillMG q fl s = some o →
      OutputsMatch q fl o ∧ (fl.temp = true ∨ fl.sie = true → InputsKept fl s o) ∧
      (fl.temp = false → o.sie = q .eRT s.rho s.temp) := by
  obtain ⟨a, b, c, d, e, f⟩ := fl
  cases a <;> cases b <;> cases c <;> cases d <;> cases e <;> cases f <;>
    simp [fillMG, InputsKept, OutputsMatch]

/-- C51 non-vacuity: a gas with `P = rho e`, `T = e`. -/
example : ∃ o, fillGas (K := ℚ) (fun k r y => match k with | .pRE => r * y | _ => y)
    (fun P T _ => (P / T, T)) (fun r P => P / r) ⟨true, false, true, false, false, false⟩
    ⟨0, 2, 0, 6, 0, 0⟩ = some o ∧
    StateMatch (fun k r y => match k with | .pRE => r * y | _ => y)
      ⟨true, false, true, false, false, false⟩ ⟨0, 2, 0, 6, 0, 0⟩ o :=
  ⟨⟨3, 2, 2, 6, 0, 0⟩, by simp [fillGas, fillRE]; norm_num, by simp [StateMatch]; norm_num⟩

end gas

section mods
variable {K Λ : Type*} [Field K] [LinearOrder K] [IsStrictOrderedRing K]

/-- The demo EOS with a working `FillEos` of gas type. -/
def demoFill : Eos ℚ Unit :=
  { demo with
    fill := fun l fl s => (fillGas (fun k => demo.q k l) (demo.rePT l) (fun r P => P / r) fl s).getD s }

/-- C51 for `UnitSystem`: if the wrapped `FillEos` keeps its inputs, so does the wrapper's. -/
theorem C51_units (σ : K) (u : Mods.Units K) (hu : u.Ok) (t : Eos K Λ) (l : Λ) (fl : Flags)
    (h : ∀ s, InputsKept fl s (t.fill l fl s)) (s : Thermo K) :
    InputsKept fl s ((unitSystem σ u t).fill l fl s) := by
  obtain ⟨hr, he, hT⟩ := hu
  have hr := hr.ne'; have he := he.ne'; have hT := hT.ne'
  have hp : u.press ≠ 0 := mul_ne_zero hr he
  obtain ⟨h1, h2, h3, h4, h5, h6⟩ := h ⟨s.rho * u.rho, s.temp * u.temp, s.sie * u.sie, s.press * u.press,
      s.cv * u.cv, s.bmod * u.press⟩
  simp only at h1 h2 h3 h4 h5 h6
  refine ⟨fun x => ?_, fun x => ?_, fun x => ?_, fun x => ?_, fun x => ?_, fun x => ?_⟩ <;>
    simp only [unitSystem]
  · rw [h1 x]; field_simp
  · rw [h2 x]; field_simp
  · rw [h3 x]; field_simp
  · rw [h4 x]; field_simp
  · rw [h5 x, Mods.Units.cv, Mods.Units.invCv]; field_simp
  · rw [h6 x]; field_simp

/-- C51 for the ramp: every input but the bulk modulus is kept. -/
theorem C51_ramp_partial (σ : K) (p : Ramp K) (f : Λ → K → K → K → K)
    (g : Λ → K → K → K → K → PTDer K) (t : Eos K Λ) (l : Λ) (fl : Flags)
    (h : ∀ s, InputsKept { fl with press := false } s (t.fill l { fl with press := false } s))
    (s : Thermo K) :
    let o := (ramped σ p f g t).fill l fl s
    (fl.rho = false → o.rho = s.rho) ∧ (fl.temp = false → o.temp = s.temp) ∧
    (fl.sie = false → o.sie = s.sie) ∧ (fl.press = false → o.press = s.press) ∧
    (fl.cv = false → o.cv = s.cv) := by
  obtain ⟨a, b, c, d, e, f'⟩ := fl
  obtain ⟨h1, h2, h3, h4, h5, h6⟩ := h (if d then
        if !c then { s with press := (if t.q .pRE l s.rho s.sie < p.pressure σ s.rho then p.pressure σ s.rho else t.q .pRE l s.rho s.sie) }
        else if !b then { s with press := (if t.q .pRT l s.rho s.temp < p.pressure σ s.rho then p.pressure σ s.rho else t.q .pRT l s.rho s.temp) }
        else s
      else s)
  dsimp only at h1 h2 h3 h4 h5 h6
  refine ⟨?_, ?_, ?_, ?_, ?_⟩ <;> intro hx <;> dsimp only at hx <;> subst hx <;> simp only [ramped]
  · have := h1 rfl
    simp only [Bool.false_eq_true, if_false, lt_irrefl]
    rw [this]
    cases d <;> cases c <;> cases b <;> rfl
  · rw [h2 rfl]; cases d <;> cases c <;> rfl
  · rw [h3 rfl]; cases d <;> rfl
  · rw [h4 rfl]; rfl
  · rw [h5 rfl]; cases d <;> cases c <;> cases b <;> rfl

/-- C51 is violated: the ramp's `FillEos` overwrites the bulk modulus even when it is an input. -/
theorem C51_ramp_overwrites_bmod_violated :
    ∃ (fl : Flags) (s : Thermo ℚ), fl.bmod = false ∧
      (∀ s, InputsKept fl s (demoFill.fill () fl s)) ∧
      ((ramped 0 (Ramp.mk' 1 2 (1/2) (-1)) (fun _ _ _ e => e) (fun _ _ _ _ _ => ⟨0, 0, 0, 0⟩)
        demoFill).fill () fl s).bmod ≠ s.bmod := by
  refine ⟨⟨false, true, false, false, false, false⟩, ⟨4, 0, 20, 0, 0, -7⟩, rfl, fun s => ?_, ?_⟩
  · have : demoFill.fill () ⟨false, true, false, false, false, false⟩ s
        = fillRE (fun k => demo.q k ()) ⟨false, true, false, false, false, false⟩ s := by
      simp [demoFill, fillGas]
    rw [this]
    exact (C51_direct _ _ _).2.2.1
  · simp [ramped, demoFill, fillGas, fillRE, demo, Ramp.mk', Ramp.pressure, Ramp.dpdrho, Robust.ratio,
      Robust.sgn]
    norm_num

/-- C51 for `ShiftedEOS` over an EOS whose preferred input is density and energy: when the energy is an
input every input is kept and (derived outputs being computed by the wrapped EOS) the outputs are the
shifted direct queries. -/
theorem C51_shift_partial (sh : K) (inner : Flags → Thermo K → Option (Thermo K)) (t : Eos K Λ) (l : Λ)
    (fl : Flags) (he : fl.sie = false) (s o : Thermo K)
    (hin : ∀ s o, inner fl s = some o → InputsKept fl s o ∧ OutputsMatch (fun k => t.q k l) fl o)
    (h : shiftedFill sh .DE inner fl s = some o) :
    InputsKept fl s o ∧ OutputsMatch (fun k => (shifted sh t).q k l) fl o := by
  simp only [shiftedFill, Option.map_eq_some_iff] at h
  obtain ⟨o', h, rfl⟩ := h
  obtain ⟨⟨h1, h2, h3, h4, h5, h6⟩, g1, g2, g3, g4⟩ := hin _ _ h
  simp only at h1 h2 h3 h4 h5 h6
  refine ⟨⟨h1, h2, fun _ => rfl, h4, h5, h6⟩, ?_⟩
  rw [h3 he] at g1 g2 g3 g4
  exact ⟨g1, g2, g3, g4⟩

/-- C51 is violated by `ShiftedEOS`: with preferred input density and energy, a requested energy is
computed into a local variable and lost. -/
theorem C51_shift_loses_energy_violated (sh : K) (inner : Flags → Thermo K → Option (Thermo K))
    (fl : Flags) (s o : Thermo K) (h : shiftedFill sh .DE inner fl s = some o) : o.sie = s.sie := by
  simp only [shiftedFill, Option.map_eq_some_iff] at h
  obtain ⟨o', h, rfl⟩ := h
  rfl

/-- C51 is violated by `ShiftedEOS`: with preferred input density and temperature, an energy passed as
input comes back with the shift added. -/
theorem C51_shift_changes_input_energy_violated (sh : K) (inner : Flags → Thermo K → Option (Thermo K))
    (fl : Flags) (he : fl.sie = false) (hin : ∀ s o, inner fl s = some o → InputsKept fl s o)
    (s o : Thermo K) (h : shiftedFill sh .DT inner fl s = some o) : o.sie = s.sie + sh := by
  simp only [shiftedFill, Option.map_eq_some_iff] at h
  obtain ⟨o', h, rfl⟩ := h
  simp only [(hin _ _ h).2.2.1 he]

/-- C51 is violated: over an EOS whose preferred input is neither pair (IdealGas lists density, energy,
temperature and pressure), `FillEos` of the shifted or scaled EOS aborts for every request, although the
unshifted EOS accepts it. -/
theorem C51_shift_scale_abort_violated (x : K) (inner : Flags → Thermo K → Option (Thermo K)) (fl : Flags)
    (s : Thermo K) :
    shiftedFill x .other inner fl s = none ∧ scaledFill x .other inner fl s = none := ⟨rfl, rfl⟩

/-- C51 for `ScaledEOS` over an EOS whose preferred input is density and energy, when neither density nor
energy is requested. -/
theorem C51_scale_partial (sc : K) (inner : Flags → Thermo K → Option (Thermo K)) (t : Eos K Λ) (l : Λ)
    (fl : Flags) (hr : fl.rho = false) (he : fl.sie = false) (s o : Thermo K)
    (hin : ∀ s o, inner fl s = some o → InputsKept fl s o ∧ OutputsMatch (fun k => t.q k l) fl o)
    (h : scaledFill sc .DE inner fl s = some o) :
    InputsKept fl s o ∧ OutputsMatch (fun k => (scaled sc t).q k l) fl o := by
  simp only [scaledFill, Option.map_eq_some_iff] at h
  obtain ⟨o', h, rfl⟩ := h
  obtain ⟨⟨h1, h2, h3, h4, h5, h6⟩, g1, g2, g3, g4⟩ := hin _ _ h
  simp only at h1 h2 h3 h4 h5 h6
  refine ⟨⟨fun _ => rfl, h2, fun _ => rfl, h4, h5, h6⟩, ?_⟩
  rw [h3 he, h1 hr] at g1 g2 g3 g4
  exact ⟨g1, g2, g3, g4⟩

/-- C51 is violated by `ScaledEOS`: a requested density never reaches the caller, nor (preferred input
density and energy) does a requested energy. -/
theorem C51_scale_loses_outputs_violated (sc : K) (p : Pref)
    (inner : Flags → Thermo K → Option (Thermo K)) (fl : Flags) (s o : Thermo K)
    (h : scaledFill sc p inner fl s = some o) : o.rho = s.rho ∧ (p = .DE → o.sie = s.sie) := by
  cases p <;> simp only [scaledFill, Option.map_eq_some_iff, reduceCtorEq] at h
  all_goals (obtain ⟨o', h, rfl⟩ := h; simp)

/-- C51 is violated by `ScaledEOS`: an input energy is rescaled (preferred input density and
temperature). -/
theorem C51_scale_changes_input_energy_violated (sc : K) (inner : Flags → Thermo K → Option (Thermo K))
    (fl : Flags) (he : fl.sie = false) (hin : ∀ s o, inner fl s = some o → InputsKept fl s o)
    (s o : Thermo K) (h : scaledFill sc .DT inner fl s = some o) : o.sie = sc * s.sie := by
  simp only [scaledFill, Option.map_eq_some_iff] at h
  obtain ⟨o', h, rfl⟩ := h
  simp only [(hin _ _ h).2.2.1 he]

/-- The total versions used in `Mods` agree with these whenever the wrapped call returns. -/
theorem C51_total_agrees (x : K) (t : Eos K Λ) (l : Λ) (hp : t.pref ≠ .other) (fl : Flags) (s : Thermo K) :
    shiftedFill x t.pref (fun fl s => some (t.fill l fl s)) fl s = some ((shifted x t).fill l fl s) ∧
    scaledFill x t.pref (fun fl s => some (t.fill l fl s)) fl s = some ((scaled x t).fill l fl s) := by
  cases h : t.pref <;> simp_all [shiftedFill, scaledFill, shifted, scaled]

end mods

end Verif.Base
