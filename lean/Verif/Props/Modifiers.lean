import Verif.Model.Modifiers
import Verif.Lemmas.ChangeOfUnits
import Verif.Lemmas.Robust
import Verif.Tactics
import Mathlib.Topology.Order.Basic
import Mathlib.Topology.Algebra.Field
import Mathlib.Topology.Instances.Real.Lemmas
import Mathlib.Topology.Piecewise

set_option linter.unusedSectionVars false

/-! # C28-C34: the EOS modifiers -/

namespace Verif.Mods

open Verif.Robust Verif.Spec

section general
variable {K Λ : Type*} [Field K] [LinearOrder K] [IsStrictOrderedRing K]

/-- The answers of an EOS at a given lambda. -/
abbrev Eos.at (t : Eos K Λ) (l : Λ) : Answers K := fun k r y => t.q k l r y

/-- A test EOS with a density-dependent cold energy: `e = 2T + rho`, `P = rho*(e - rho) + 3 rho`. -/
def demo : Eos ℚ Unit where
  q := fun k _ r y =>
    match k with
    | .tRE => (y - r) / 2
    | .eRT => 2 * y + r
    | .pRE => r * (y - r) + 3 * r
    | .pRT => r * (2 * y) + 3 * r
    | .sRT => y | .sRE => y
    | .cvRT => 2 | .cvRE => 2
    | .bRT => r * (2 * y) + 5 | .bRE => r * (y - r) + 5
    | .gRT => 1 | .gRE => 1
  minE := fun _ r => r
  eRP := fun _ r P _ => (P - 3 * r) / r + r
  rePT := fun _ P T _ => (P / (2 * T + 3), 2 * T + P / (2 * T + 3))
  ptd := fun _ _ _ _ _ => ⟨0, 0, 0, 0⟩
  fill := fun _ fl s =>
    { s with
      sie := if fl.sie then 2 * s.temp + s.rho else s.sie
      press := if fl.press then s.rho * (2 * s.temp) + 3 * s.rho else s.press
      bmod := if fl.bmod then s.rho * (2 * s.temp) + 5 else s.bmod }
  ref := fun _ => ⟨1, 1, 3, 5, 2, 7, 1, 0⟩
  rhoMin := 0
  rhoMax := 100
  tMin := 0
  pMin := 0
  pMaxT := fun T => 100 * (2 * T) + 300
  rhoPmin := fun _ => 0
  abar := fun _ _ _ => 1
  zbar := fun _ _ _ => 1
  pref := .DT

/-! ## C29 ShiftedEOS -/

/-- The change of units performed by a shift. -/
def shiftCoord (sh : K) : Coord K := ⟨1, 1, 1, 1, sh⟩

theorem shiftCoord_ok (sh : K) : (shiftCoord sh).Ok := by
  simp [Coord.Ok, shiftCoord]

/-- C29: every two-input query of `ShiftedEOS` is the wrapped query with the energy zero moved. -/
theorem C29_shifted_queries (sh : K) (t : Eos K Λ) (l : Λ) :
    Image (shiftCoord sh) (t.at l) ((shifted sh t).at l) := by
  intro k r y
  cases k <;> simp [shiftCoord, Coord.out, Coord.arg, Q.byEnergy, shifted, Eos.at]

/-- C29: the remaining queries: minimum energy, energy from pressure (guess and result), density and
energy from pressure and temperature, derivatives, reference state, limits of the domain. -/
theorem C29_shifted_other (sh : K) (t : Eos K Λ) (l : Λ) (r P T e : K) (g : K × K) :
    (shifted sh t).minE l r = t.minE l r + sh ∧
    (shifted sh t).eRP l r P e = t.eRP l r P (e - sh) + sh ∧
    (shifted sh t).rePT l P T g = ((t.rePT l P T g).1, (t.rePT l P T g).2 + sh) ∧
    (shifted sh t).ptd l r e P T = t.ptd l r (e - sh) P T ∧
    (shifted sh t).ref l = { t.ref l with sie := (t.ref l).sie + sh } ∧
    (shifted sh t).rhoMin = t.rhoMin ∧ (shifted sh t).rhoMax = t.rhoMax ∧ (shifted sh t).tMin = t.tMin ∧
    (shifted sh t).pMin = t.pMin ∧ (shifted sh t).pMaxT T = t.pMaxT T ∧ (shifted sh t).rhoPmin T = t.rhoPmin T := by
  refine ⟨rfl, rfl, rfl, rfl, rfl, rfl, rfl, rfl, rfl, rfl, rfl⟩

/-- C29: temperature/energy inversions and twin queries keep agreeing after a shift. -/
theorem C29_shifted_inversions (sh : K) (t : Eos K Λ) (l : Λ) (r T e : K) :
    (RoundTripT (t.at l) r T → RoundTripT ((shifted sh t).at l) r T) ∧
    (RoundTripE (t.at l) r (e - sh) → RoundTripE ((shifted sh t).at l) r e) ∧
    (Twins (t.at l) r T → Twins ((shifted sh t).at l) r T) := by
  have hi := C29_shifted_queries sh t l
  have hc := shiftCoord_ok sh
  refine ⟨fun h => hi.roundTripT hc (by simpa [shiftCoord] using h),
    fun h => hi.roundTripE hc (by simpa [shiftCoord] using h),
    fun h => hi.twins hc (by simpa [shiftCoord] using h)⟩

/-- C29: thermodynamic consistency (heat capacity, Gruneisen parameter, isentropic bulk modulus,
entropy) survives a shift. -/
theorem C29_shifted_thermodynamics {Λ : Type*} (sh : ℝ) (t : Eos ℝ Λ) (l : Λ) (r T e : ℝ)
    (hr : r ≠ 0) (hT : T ≠ 0) :
    (HeatCapacity (t.at l) r T → HeatCapacity ((shifted sh t).at l) r T) ∧
    (Gruneisen (t.at l) r (e - sh) → Gruneisen ((shifted sh t).at l) r e) ∧
    (IsentropicBulk (t.at l) r (e - sh) → IsentropicBulk ((shifted sh t).at l) r e) ∧
    (EntropyT (t.at l) r T → EntropyT ((shifted sh t).at l) r T) ∧
    (EntropyRho (t.at l) r T → EntropyRho ((shifted sh t).at l) r T) ∧
    (EnergyRho (t.at l) r T → EnergyRho ((shifted sh t).at l) r T) := by
  have hi := C29_shifted_queries sh t l
  have hc := shiftCoord_ok sh
  exact ⟨fun h => hi.heatCapacity hc (by simpa [shiftCoord] using h),
    fun h => hi.gruneisen hc (by simpa [shiftCoord] using h),
    fun h => hi.isentropicBulk hc hr (by simpa [shiftCoord] using h),
    fun h => hi.entropyT hc hT (by simpa [shiftCoord] using h),
    fun h => hi.entropyRho hc hr (by simpa [shiftCoord] using h),
    fun h => hi.energyRho hc hr (by simpa [shiftCoord] using h)⟩

/-- C29: a zero shift changes nothing, and shifts add up. -/
theorem C29_shift_zero_and_compose (a b : K) (t : Eos K Λ) (k : Q) (l : Λ) (r y P T : K) (g : K × K) :
    (shifted 0 t).q k l r y = t.q k l r y ∧ (shifted 0 t).minE l r = t.minE l r ∧
    (shifted 0 t).eRP l r P y = t.eRP l r P y ∧ (shifted 0 t).rePT l P T g = t.rePT l P T g ∧
    (shifted a (shifted b t)).q k l r y = (shifted (a + b) t).q k l r y ∧
    (shifted a (shifted b t)).minE l r = (shifted (a + b) t).minE l r ∧
    (shifted a (shifted b t)).eRP l r P y = (shifted (a + b) t).eRP l r P y := by
  refine ⟨?_, by simp [shifted], by simp [shifted], by simp [shifted], ?_, ?_, ?_⟩
  · cases k <;> simp [shifted]
  · cases k <;> simp only [shifted, sub_sub, add_assoc, add_comm a b]
  · simp only [shifted]; ring
  · simp only [shifted, sub_sub]; ring

/-- C29 non-vacuity: the test EOS round-trips and all its twin queries but the entropy agree; shifted
by 10 it still round-trips at a concrete state. -/
example : RoundTripT (demo.at ()) 4 3 ∧ RoundTripT ((shifted 10 demo).at ()) 4 3 ∧
    (shifted 10 demo).q .eRT () 4 3 = 20 := by
  refine ⟨?_, ?_, ?_⟩ <;> norm_num [RoundTripT, demo, shifted, Eos.at]

/-! ## C28 ScaledEOS -/

/-- The change of units a scale is documented to perform: `rho -> s rho`, `sie -> sie / s`. -/
def scaleCoord (s : K) : Coord K := ⟨s, 1, 1 / s, 1, 0⟩

theorem scaleCoord_ok {s : K} (hs : s ≠ 0) : (scaleCoord s).Ok := by
  refine ⟨hs, one_ne_zero, one_div_ne_zero hs, ?_⟩
  simp [scaleCoord, hs]

/-- C28: temperature, pressure, entropy, bulk modulus and Gruneisen queries of `ScaledEOS` are the
wrapped ones in scaled units. -/
theorem C28_scaled_queries {s : K} (hs : s ≠ 0) (t : Eos K Λ) (l : Λ) (k : Q)
    (hk : k ≠ .eRT ∧ k ≠ .cvRT ∧ k ≠ .cvRE) :
    ImageAt (scaleCoord s) (t.at l) ((scaled s t).at l) k := by
  intro r y
  obtain ⟨h1, h2, h3⟩ := hk
  cases k <;> first
    | exact absurd rfl h1 | exact absurd rfl h2 | exact absurd rfl h3
    | (simp [scaleCoord, Coord.out, Coord.arg, Q.byEnergy, scaled, Eos.at]; try ring)

/-- C28: the introspection and derivative queries of `ScaledEOS` in scaled units. -/
theorem C28_scaled_other {s : K} (hs : s ≠ 0) (t : Eos K Λ) (l : Λ) (r P T e : K) :
    s * (scaled s t).rhoMin = t.rhoMin ∧ s * (scaled s t).rhoMax = t.rhoMax ∧
    s * (scaled s t).rhoPmin T = t.rhoPmin T ∧
    s * ((scaled s t).ref l).rho = (t.ref l).rho ∧
    ((scaled s t).ref l).sie = s * (t.ref l).sie ∧
    ((scaled s t).ptd l r e P T).dedP_T = s * (t.ptd l (s * r) (e / s) P T).dedP_T ∧
    s * ((scaled s t).ptd l r e P T).drdP_T = (t.ptd l (s * r) (e / s) P T).drdP_T ∧
    ((scaled s t).ptd l r e P T).dedT_P = s * (t.ptd l (s * r) (e / s) P T).dedT_P ∧
    s * ((scaled s t).ptd l r e P T).drdT_P = (t.ptd l (s * r) (e / s) P T).drdT_P := by
  have e1 : 1 / s * e = e / s := by ring
  refine ⟨?_, ?_, ?_, ?_, ?_, ?_, ?_, ?_, ?_⟩ <;> simp only [scaled, e1] <;> first
    | (field_simp; done)
    | (field_simp; ring)
    | ring

/-- C28: pressure-derived quantities stay consistent: Gruneisen parameter and isentropic bulk
modulus of the scaled EOS are the right derivatives of its pressure. -/
theorem C28_scaled_pressure_derivatives {Λ : Type*} {s : ℝ} (hs : s ≠ 0) (t : Eos ℝ Λ) (l : Λ)
    (r e : ℝ) (hr : r ≠ 0) :
    (Gruneisen (t.at l) (s * r) (e / s) → Gruneisen ((scaled s t).at l) r e) ∧
    (IsentropicBulk (t.at l) (s * r) (e / s) → IsentropicBulk ((scaled s t).at l) r e) := by
  have hc := scaleCoord_ok hs
  -- the energy query is irrelevant for these two laws: replace it by the right one
  let g : Answers ℝ := fun k => if k = .eRT ∨ k = .cvRT ∨ k = .cvRE
    then fun r y => (scaleCoord s).out k (t.at l k ((scaleCoord s).rho * r) ((scaleCoord s).arg k y))
    else (scaled s t).at l k
  have hi : Image (scaleCoord s) (t.at l) g := by
    intro k
    by_cases h : k = .eRT ∨ k = .cvRT ∨ k = .cvRE
    · intro r y; simp only [g, if_pos h]
    · intro r y
      have := C28_scaled_queries hs t l k (by tauto) r y
      simp only [g, if_neg h]; exact this
  have a1 : (scaleCoord s).rho * r = s * r := rfl
  have a2 : (scaleCoord s).sie * (e - (scaleCoord s).shift) = e / s := by
    simp only [scaleCoord]; ring
  have gp : g .pRE = (scaled s t).at l .pRE := by simp [g]
  have gg : g .gRE = (scaled s t).at l .gRE := by simp [g]
  have gb : g .bRE = (scaled s t).at l .bRE := by simp [g]
  constructor
  · intro h
    have := hi.gruneisen hc (r := r) (e := e) (by rw [a1, a2]; exact h)
    unfold Gruneisen at this ⊢
    rw [gg] at this
    simpa only [gp] using this
  · intro h
    obtain ⟨Pr, Pe, d1, d2, hb⟩ := hi.isentropicBulk hc hr (e := e) (by rw [a1, a2]; exact h)
    refine ⟨Pr, Pe, by simpa only [gp] using d1, by simpa only [gp] using d2, ?_⟩
    rw [gb, gp] at hb; exact hb

/-- C28 non-vacuity. -/
example : (scaled 2 demo).q .pRE () 4 20 = demo.q .pRE () 8 10 := by
  norm_num [demo, scaled]

/-! ## C66 ScaledEOS energy queries -/

/-- C66 (positive part): if the wrapped energy does not depend on density, temperature from the
energy of a scaled EOS recovers the temperature. -/
theorem C66_scaled_roundtrip_partial {s : K} (hs : s ≠ 0) (t : Eos K Λ) (l : Λ) (r T : K)
    (hind : t.q .eRT l r T = t.q .eRT l (s * r) T) (h : RoundTripT (t.at l) (s * r) T) :
    RoundTripT ((scaled s t).at l) r T := by
  unfold RoundTripT Eos.at at *
  simp only [scaled]
  rw [hind, ← mul_assoc, one_div_mul_cancel hs, one_mul, h]

/-- C66 is violated: for a wrapped EOS that round-trips everywhere, `ScaledEOS` does not recover the
temperature from the energy it returned at that temperature. -/
theorem C66_scaled_roundtrip_violated :
    (∀ r T, RoundTripT (demo.at ()) r T) ∧ ¬ RoundTripT ((scaled 2 demo).at ()) 4 3 := by
  refine ⟨fun r T => ?_, ?_⟩
  · simp [RoundTripT, demo, Eos.at]
  · norm_num [RoundTripT, demo, scaled, Eos.at]

/-- C66 is violated: the minimum energy of `ScaledEOS` is not the wrapped minimum energy in scaled
units: it is off by the factor `s`, so that it can lie above the energy at a positive temperature. -/
theorem C66_scaled_minE_violated :
    (scaled (1/2) demo).minE () 8 ≠ (1/2) * demo.minE () (1/2 * 8) ∧
    (scaled (1/2) demo).q .tRE () 8 ((1/2) * demo.q .eRT () (1/2 * 8) 3) = 3 ∧
    (1/2 : ℚ) * demo.q .eRT () (1/2 * 8) (1/2) < (scaled (1/2) demo).minE () 8 := by
  norm_num [demo, scaled]

/-- C66 is violated: the heat capacity returned is that of the wrapped EOS, not `s` times it, although
the energy returned is `s` times the wrapped energy. -/
theorem C66_scaled_heat_capacity_violated :
    ∃ t : Eos ℝ Unit, (∀ r T, HeatCapacity (t.at ()) r T) ∧
      ¬ HeatCapacity ((scaled 2 t).at ()) 1 1 := by
  let t : Eos ℝ Unit :=
    { q := fun k _ _ y => match k with
        | .eRT => 3 * y | .cvRT => 3 | .cvRE => 3 | .tRE => y / 3
        | .pRT => 0 | .pRE => 0 | .sRT => 0 | .sRE => 0 | .bRT => 0 | .bRE => 0 | .gRT => 0 | .gRE => 0
      minE := fun _ _ => 0
      eRP := fun _ _ _ _ => 0
      rePT := fun _ _ _ g => g
      ptd := fun _ _ _ _ _ => ⟨0, 0, 0, 0⟩
      fill := fun _ _ s => s
      ref := fun _ => ⟨1, 1, 1, 1, 1, 1, 1, 1⟩
      rhoMin := 0, rhoMax := 1, tMin := 0, pMin := 0
      pMaxT := fun _ => 1, rhoPmin := fun _ => 0
      abar := fun _ _ _ => 1, zbar := fun _ _ _ => 1, pref := .DT }
  have d : ∀ T : ℝ, HasDerivAt (fun y : ℝ => 3 * y) 3 T := fun T => by
    simpa using (hasDerivAt_id T).const_mul (3 : ℝ)
  refine ⟨t, fun r T => d T, fun h => ?_⟩
  have h2 : HasDerivAt (fun y : ℝ => 2 * (3 * y)) (2 * 3) 1 := (d 1).const_mul 2
  have h1 : HasDerivAt (fun y : ℝ => 2 * (3 * y)) 3 1 := h
  have := h1.unique h2
  norm_num at this

/-! ## C34 UnitSystem -/

/-- The change of units performed by `UnitSystem`. -/
def unitCoord (u : Units K) : Coord K := ⟨u.rho, u.temp, u.sie, u.rho * u.sie, 0⟩

/-- `CheckParams` (`eos_unitsystem.hpp:96-101`). -/
def Units.Ok (u : Units K) : Prop := 0 < u.rho ∧ 0 < u.sie ∧ 0 < u.temp

theorem unitCoord_ok {u : Units K} (h : u.Ok) : (unitCoord u).Ok :=
  ⟨h.1.ne', h.2.2.ne', h.2.1.ne', rfl⟩

/-- C34: every scalar query of `UnitSystem` is the wrapped query converted to the new units. -/
theorem C34_unit_queries (σ : K) {u : Units K} (hu : u.Ok) (t : Eos K Λ) (l : Λ) :
    Image (unitCoord u) (t.at l) ((unitSystem σ u t).at l) := by
  obtain ⟨h1, h2, h3⟩ := hu
  have c1 : ∀ r, r * u.rho = u.rho * r := fun r => mul_comm _ _
  have c2 : ∀ r, r * u.temp = u.temp * r := fun r => mul_comm _ _
  have c3 : ∀ r, r * u.sie = u.sie * r := fun r => mul_comm _ _
  intro k r y
  cases k <;>
    simp only [unitCoord, Coord.out, Coord.arg, Q.byEnergy, unitSystem, Eos.at, Units.press,
      Units.entropy, Units.invCv, if_true, Bool.false_eq_true, if_false, sub_zero, add_zero,
      c1 r, c2 y, c3 y] <;>
    first | rfl | (field_simp)

/-- C34: the other scalar members: limits, reference state, energy from pressure, density and energy
from pressure and temperature. -/
theorem C34_unit_other (σ : K) {u : Units K} (hu : u.Ok) (t : Eos K Λ) (l : Λ) (r P T e : K)
    (g : K × K) :
    u.sie * (unitSystem σ u t).minE l r = t.minE l (u.rho * r) ∧
    u.sie * (unitSystem σ u t).eRP l r P e
      = t.eRP l (u.rho * r) (u.rho * u.sie * P) (u.sie * e) ∧
    (let o := (unitSystem σ u t).rePT l P T g
     let o' := t.rePT l (u.rho * u.sie * P) (u.temp * T) (u.rho * g.1, u.sie * g.2)
     u.rho * o.1 = o'.1 ∧ u.sie * o.2 = o'.2) ∧
    (let o := (unitSystem σ u t).ref l
     let o' := t.ref l
     u.rho * o.rho = o'.rho ∧ u.temp * o.temp = o'.temp ∧ u.sie * o.sie = o'.sie ∧
     u.rho * u.sie * o.press = o'.press ∧ u.sie / u.temp * o.cv = o'.cv ∧
     u.rho * u.sie * o.bmod = o'.bmod ∧ u.rho * o.dpde = o'.dpde ∧
     1 / (u.rho * u.temp) * o.dvdt = o'.dvdt) ∧
    u.rho * (unitSystem σ u t).rhoMin = t.rhoMin ∧ u.rho * (unitSystem σ u t).rhoMax = t.rhoMax ∧
    u.temp * (unitSystem σ u t).tMin = t.tMin ∧
    u.rho * u.sie * (unitSystem σ u t).pMin = t.pMin ∧
    u.rho * u.sie * (unitSystem σ u t).pMaxT T = t.pMaxT (u.temp * T) ∧
    u.rho * (unitSystem σ u t).rhoPmin T = t.rhoPmin (u.temp * T) := by
  obtain ⟨h1, h2, h3⟩ := hu
  have c1 : ∀ r, r * u.rho = u.rho * r := fun r => mul_comm _ _
  have c2 : ∀ r, r * u.temp = u.temp * r := fun r => mul_comm _ _
  have c3 : ∀ r, r * u.sie = u.sie * r := fun r => mul_comm _ _
  have c4 : ∀ r, r * (u.rho * u.sie) = u.rho * u.sie * r := fun r => mul_comm _ _
  have n1 := h1.ne'
  have n2 := h2.ne'
  have n3 := h3.ne'
  simp only [unitSystem, Units.press, Units.invCv, Units.invDpde, Units.invDvdt,
    c1 r, c2 T, c3 e, c4 P, c1 g.1, c3 g.2]
  refine ⟨?_, ?_, ⟨?_, ?_⟩, ⟨?_, ?_, ?_, ?_, ?_, ?_, ?_, ?_⟩, ?_, ?_, ?_, ?_, ?_, ?_⟩ <;>
    field_simp

/-- C34: `FillEos` converts in, calls, and converts out: untouched quantities come back unchanged. -/
theorem C34_unit_fill (σ : K) {u : Units K} (hu : u.Ok) (t : Eos K Λ) (l : Λ) (fl : Flags)
    (s : Thermo K) :
    (let o := (unitSystem σ u t).fill l fl s
     let o' := t.fill l fl ⟨u.rho * s.rho, u.temp * s.temp, u.sie * s.sie, u.rho * u.sie * s.press,
       u.sie / u.temp * s.cv, u.rho * u.sie * s.bmod⟩
     u.rho * o.rho = o'.rho ∧ u.temp * o.temp = o'.temp ∧ u.sie * o.sie = o'.sie ∧
     u.rho * u.sie * o.press = o'.press ∧ u.sie / u.temp * o.cv = o'.cv ∧
     u.rho * u.sie * o.bmod = o'.bmod) ∧
    ((∀ x, t.fill l fl x = x) → (unitSystem σ u t).fill l fl s = s) := by
  obtain ⟨h1, h2, h3⟩ := hu
  have n1 := h1.ne'
  have n2 := h2.ne'
  have n3 := h3.ne'
  have c : (⟨s.rho * u.rho, s.temp * u.temp, s.sie * u.sie, s.press * (u.rho * u.sie),
      s.cv * (u.sie / u.temp), s.bmod * (u.rho * u.sie)⟩ : Thermo K)
      = ⟨u.rho * s.rho, u.temp * s.temp, u.sie * s.sie, u.rho * u.sie * s.press,
       u.sie / u.temp * s.cv, u.rho * u.sie * s.bmod⟩ := by
    congr 1 <;> ring
  constructor
  · simp only [unitSystem, Units.press, Units.cv, Units.invCv, c]
    refine ⟨?_, ?_, ?_, ?_, ?_, ?_⟩ <;> field_simp
  · intro hid
    simp only [unitSystem, Units.press, Units.cv, Units.invCv, c, hid]
    obtain ⟨a1, a2, a3, a4, a5, a6⟩ := s
    congr 1 <;> field_simp

/-- C34: inversions and thermodynamic consistency survive a change of units. -/
theorem C34_unit_inversions (σ : K) {u : Units K} (hu : u.Ok) (t : Eos K Λ) (l : Λ) (r T e : K) :
    (RoundTripT (t.at l) (u.rho * r) (u.temp * T) → RoundTripT ((unitSystem σ u t).at l) r T) ∧
    (RoundTripE (t.at l) (u.rho * r) (u.sie * e) → RoundTripE ((unitSystem σ u t).at l) r e) ∧
    (Twins (t.at l) (u.rho * r) (u.temp * T) → Twins ((unitSystem σ u t).at l) r T) := by
  have hi := C34_unit_queries σ hu t l
  have hc := unitCoord_ok hu
  exact ⟨fun h => hi.roundTripT hc (by simpa [unitCoord] using h),
    fun h => hi.roundTripE hc (by simpa [unitCoord] using h),
    fun h => hi.twins hc (by simpa [unitCoord] using h)⟩

/-- C34: thermodynamic derivatives survive a change of units. -/
theorem C34_unit_thermodynamics {Λ : Type*} (σ : ℝ) {u : Units ℝ} (hu : u.Ok) (t : Eos ℝ Λ) (l : Λ)
    (r T e : ℝ) (hr : r ≠ 0) (hT : T ≠ 0) :
    (HeatCapacity (t.at l) (u.rho * r) (u.temp * T) → HeatCapacity ((unitSystem σ u t).at l) r T) ∧
    (Gruneisen (t.at l) (u.rho * r) (u.sie * e) → Gruneisen ((unitSystem σ u t).at l) r e) ∧
    (IsentropicBulk (t.at l) (u.rho * r) (u.sie * e) →
      IsentropicBulk ((unitSystem σ u t).at l) r e) ∧
    (EntropyT (t.at l) (u.rho * r) (u.temp * T) → EntropyT ((unitSystem σ u t).at l) r T) ∧
    (EntropyRho (t.at l) (u.rho * r) (u.temp * T) → EntropyRho ((unitSystem σ u t).at l) r T) ∧
    (EnergyRho (t.at l) (u.rho * r) (u.temp * T) → EnergyRho ((unitSystem σ u t).at l) r T) := by
  have hi := C34_unit_queries σ hu t l
  have hc := unitCoord_ok hu
  exact ⟨fun h => hi.heatCapacity hc (by simpa [unitCoord] using h),
    fun h => hi.gruneisen hc (by simpa [unitCoord] using h),
    fun h => hi.isentropicBulk hc hr (by simpa [unitCoord] using h),
    fun h => hi.entropyT hc hT (by simpa [unitCoord] using h),
    fun h => hi.entropyRho hc hr (by simpa [unitCoord] using h),
    fun h => hi.energyRho hc hr (by simpa [unitCoord] using h)⟩

/-- C34: unit factors one are the identity; two unit systems compose multiplicatively. -/
theorem C34_unit_identity_compose (σ : K) {u v : Units K} (hu : u.Ok) (hv : v.Ok) (t : Eos K Λ)
    (k : Q) (l : Λ) (r y : K) :
    (unitSystem σ ⟨1, 1, 1⟩ t).q k l r y = t.q k l r y ∧
    (unitSystem σ u (unitSystem σ v t)).q k l r y
      = (unitSystem σ ⟨u.rho * v.rho, u.sie * v.sie, u.temp * v.temp⟩ t).q k l r y := by
  obtain ⟨h1, h2, h3⟩ := hu
  obtain ⟨g1, g2, g3⟩ := hv
  constructor
  · cases k <;> simp [unitSystem, Units.press, Units.entropy, Units.invCv]
  · cases k <;> simp only [unitSystem, Units.press, Units.entropy, Units.invCv, mul_assoc] <;>
      first | rfl | (field_simp)

/-- C34: pressure-temperature derivatives are converted by their dimensions, with the safe division
(exact when `SMALL` is read as 0). -/
theorem C34_unit_derivatives {u : Units K} (hu : u.Ok) (t : Eos K Λ) (l : Λ) (r e P T : K) :
    let o := (unitSystem 0 u t).ptd l r e P T
    let o' := t.ptd l (u.rho * r) (u.sie * e) (u.rho * u.sie * P) (u.temp * T)
    u.sie * o.dedP_T = u.rho * u.sie * o'.dedP_T ∧ u.rho * o.drdP_T = u.rho * u.sie * o'.drdP_T ∧
    u.sie * o.dedT_P = u.temp * o'.dedT_P ∧ u.rho * o.drdT_P = u.temp * o'.drdT_P := by
  obtain ⟨h1, h2, h3⟩ := hu
  have c1 : r * u.rho = u.rho * r := mul_comm _ _
  have c2 : T * u.temp = u.temp * T := mul_comm _ _
  have c3 : e * u.sie = u.sie * e := mul_comm _ _
  have c4 : P * (u.rho * u.sie) = u.rho * u.sie * P := mul_comm _ _
  simp only [unitSystem, Units.press, c1, c2, c3, c4, ratio, mul_zero, add_zero]
  refine ⟨?_, ?_, ?_, ?_⟩ <;> field_simp

/-- C34 non-vacuity: cgs to other units on the test EOS. -/
example : (⟨2, 4, 8⟩ : Units ℚ).Ok ∧ (unitSystem 0 ⟨2, 4, 8⟩ demo).q .eRT () 4 3 = 14 := by
  refine ⟨by norm_num [Units.Ok], by norm_num [demo, unitSystem]⟩

/-! ## C31 FlooredEnergy -/

/-- C31: every by-energy query is the wrapped query at the larger of the energy and the minimum
energy; by-temperature queries are untouched. -/
theorem C31_floored_queries (l0 : Λ) (t : Eos K Λ) (k : Q) (l : Λ) (r y : K) :
    (floored l0 t).q k l r y
      = if k.byEnergy then t.q k l r (max y (t.minE l0 r)) else t.q k l r y := by
  cases k <;> rfl

/-- C31: flooring is idempotent, the identity above the floor, and constant below it. -/
theorem C31_floored_idempotent (l0 : Λ) (t : Eos K Λ) (k : Q) (l : Λ) (r y y' : K) :
    (floored l0 (floored l0 t)).q k l r y = (floored l0 t).q k l r y ∧
    (t.minE l0 r ≤ y → (floored l0 t).q k l r y = t.q k l r y) ∧
    (k.byEnergy = true → y ≤ t.minE l0 r → y' ≤ t.minE l0 r →
      (floored l0 t).q k l r y = (floored l0 t).q k l r y') := by
  refine ⟨?_, ?_, ?_⟩
  · cases k <;> simp [floored]
  · intro h; cases k <;> simp [floored, h]
  · intro hk h h'; rw [C31_floored_queries, C31_floored_queries, if_pos hk, if_pos hk,
      max_eq_right h, max_eq_right h']

/-- C31: the wrapped EOS is never evaluated below its minimum energy when that minimum does not
depend on the lambda: any property of the wrapped answers that holds on or above the minimum holds
for all answers of the floored EOS. -/
theorem C31_floored_never_below (l0 : Λ) (t : Eos K Λ) (k : Q) (hk : k.byEnergy = true) (l : Λ)
    (r : K) (hm : t.minE l0 r = t.minE l r) (good : K → Prop)
    (hgood : ∀ y, t.minE l r ≤ y → good (t.q k l r y)) (y : K) : good ((floored l0 t).q k l r y) := by
  rw [C31_floored_queries, if_pos hk, hm]
  exact hgood _ (le_max_right _ _)

/-- C31: with a temperature that is non-negative on or above the cold curve, the floored EOS never
returns a negative temperature (test EOS). -/
example : (∀ y, 0 ≤ (floored () demo).q .tRE () 4 y) ∧ demo.q .tRE () 4 0 = -2 := by
  refine ⟨fun y => ?_, by norm_num [demo]⟩
  refine C31_floored_never_below () demo .tRE rfl () 4 rfl (fun v => 0 ≤ v) (fun y hy => ?_) y
  simp only [demo] at *
  linarith

/-! ## C32 RelativisticEOS -/

/-- C32: the relativistic bulk modulus is `max(0, B) / (|h| + SMALL)` with
`h = c^2 + e + P/rho` the specific enthalpy including rest mass. -/
theorem C32_relativistic_formula {σ : K} (hσ : 0 ≤ σ) (cl : K) (t : Eos K Λ) (l : Λ) (r e : K)
    (hd : 0 < σ ∨ cl * cl + e + ratio σ (t.q .pRE l r e) r ≠ 0) :
    (relativistic σ cl t).q .bRE l r e * (|cl * cl + e + ratio σ (t.q .pRE l r e) r| + σ)
      = max 0 (t.q .bRE l r e) := by
  simp only [relativistic]
  generalize cl * cl + e + ratio σ (t.q .pRE l r e) r = h at *
  generalize t.q .bRE l r e = B
  have hpos : 0 < |h| + σ := by
    rcases hd with h1 | h1
    · positivity
    · have := abs_pos.mpr h1; linarith
  have hr : ratio σ B |h| = B / (|h| + σ) := by
    unfold ratio sgn
    rw [if_pos (abs_nonneg h), if_neg (not_lt.mpr (abs_nonneg h))]; simp
  rw [hr, max_mul_of_nonneg _ _ hpos.le, zero_mul, div_mul_cancel₀ _ hpos.ne']

/-- C32: the same by temperature, with the wrapped energy and pressure at that temperature. -/
theorem C32_relativistic_formula_temperature {σ : K} (hσ : 0 ≤ σ) (cl : K) (t : Eos K Λ) (l : Λ) (r T : K)
    (hd : 0 < σ ∨ cl * cl + t.q .eRT l r T + ratio σ (t.q .pRT l r T) r ≠ 0) :
    (relativistic σ cl t).q .bRT l r T * (|cl * cl + t.q .eRT l r T + ratio σ (t.q .pRT l r T) r| + σ)
      = max 0 (t.q .bRT l r T) := by
  simp only [relativistic]
  generalize cl * cl + t.q .eRT l r T + ratio σ (t.q .pRT l r T) r = h at *
  generalize t.q .bRT l r T = B
  have hpos : 0 < |h| + σ := by
    rcases hd with h1 | h1
    · positivity
    · have := abs_pos.mpr h1; linarith
  have hr : ratio σ B |h| = B / (|h| + σ) := by
    unfold ratio sgn
    rw [if_pos (abs_nonneg h), if_neg (not_lt.mpr (abs_nonneg h))]; simp
  rw [hr, max_mul_of_nonneg _ _ hpos.le, zero_mul, div_mul_cancel₀ _ hpos.ne']

/-- C32: every other scalar member is the wrapped one (`FillEos` included, see C69). -/
theorem C32_relativistic_other (σ cl : K) (t : Eos K Λ) (l : Λ) (r P T e : K) (g : K × K) :
    (relativistic σ cl t).minE l r = t.minE l r ∧ (relativistic σ cl t).eRP l r P e = t.eRP l r P e ∧
    (relativistic σ cl t).rePT l P T g = t.rePT l P T g ∧ (relativistic σ cl t).ptd l r e P T = t.ptd l r e P T ∧
    (relativistic σ cl t).ref l = t.ref l ∧ (relativistic σ cl t).rhoMin = t.rhoMin ∧
    (relativistic σ cl t).rhoMax = t.rhoMax ∧ (relativistic σ cl t).tMin = t.tMin ∧ (relativistic σ cl t).pMin = t.pMin ∧
    (relativistic σ cl t).pMaxT T = t.pMaxT T ∧ (relativistic σ cl t).rhoPmin T = t.rhoPmin T := by
  refine ⟨rfl, rfl, rfl, rfl, rfl, rfl, rfl, rfl, rfl, rfl, rfl⟩

/-- C32: the relativistic bulk modulus is never negative and the implied sound speed
`c sqrt(B/rho)` never exceeds `c` when the wrapped bulk modulus satisfies `B <= rho |h|`. -/
theorem C32_relativistic_causal {σ : K} (hσ : 0 ≤ σ) (cl : K) (t : Eos K Λ) (l : Λ) (r y : K)
    (k : Q) (hk : k = .bRE ∨ k = .bRT) :
    0 ≤ (relativistic σ cl t).q k l r y ∧
    (let e := if k = .bRE then y else t.q .eRT l r y
     let P := if k = .bRE then t.q .pRE l r y else t.q .pRT l r y
     0 < r → t.q k l r y ≤ r * |cl * cl + e + ratio σ P r| →
       (relativistic σ cl t).q k l r y ≤ r) := by
  have key : ∀ B h : K, 0 ≤ max 0 (ratio σ B |h|) ∧
      (0 < r → B ≤ r * |h| → max 0 (ratio σ B |h|) ≤ r) := by
    intro B h
    refine ⟨le_max_left _ _, fun hr hB => max_le hr.le ?_⟩
    unfold ratio sgn
    rw [if_pos (abs_nonneg h), if_neg (not_lt.mpr (abs_nonneg h))]
    simp only [sub_zero, one_mul]
    rcases (add_nonneg (abs_nonneg h) hσ).eq_or_lt' with h0 | h0
    · rw [h0, div_zero]; exact hr.le
    · rw [div_le_iff₀ h0]; nlinarith
  rcases hk with rfl | rfl
  · simpa [relativistic] using key (t.q .bRE l r y) (cl * cl + y + ratio σ (t.q .pRE l r y) r)
  · simpa [relativistic] using
      key (t.q .bRT l r y) (cl * cl + t.q .eRT l r y + ratio σ (t.q .pRT l r y) r)

/-- C32: all other scalar queries are those of the wrapped EOS. -/
theorem C32_relativistic_transparent (σ cl : K) (t : Eos K Λ) (k : Q) (hk : k ≠ .bRE ∧ k ≠ .bRT)
    (l : Λ) (r y : K) : (relativistic σ cl t).q k l r y = t.q k l r y := by
  obtain ⟨h1, h2⟩ := hk
  cases k <;> first | exact absurd rfl h1 | exact absurd rfl h2 | rfl

/-- C32: by-temperature and by-energy bulk moduli agree if the wrapped twins do. -/
theorem C32_relativistic_twin (σ cl : K) (t : Eos K Λ) (l : Λ) (r T : K)
    (hp : Twin (t.at l) .pRT .pRE r T) (hb : Twin (t.at l) .bRT .bRE r T) :
    Twin ((relativistic σ cl t).at l) .bRT .bRE r T := by
  unfold Twin Eos.at at *
  simp only [relativistic]
  rw [hp, hb]

/-- C32 non-vacuity: a causal state of the test EOS. -/
example : (relativistic 0 10 demo).q .bRE () 4 20 = 69 / 139 ∧
    demo.q .bRE () 4 20 ≤ 4 * |10 * 10 + 20 + ratio 0 (demo.q .pRE () 4 20) 4| := by
  constructor <;> norm_num [demo, relativistic, ratio, sgn]

/-- C69 is violated: `FillEos` and the reference state of a relativistic EOS return the wrapped
(non-relativistic) bulk modulus, not the one the direct query returns at the same state. -/
theorem C69_relativistic_fill_violated :
    let fl : Flags := ⟨false, false, true, true, false, true⟩
    let o := (relativistic 0 10 demo).fill () fl ⟨4, 8, 0, 0, 0, 0⟩
    o.rho = 4 ∧ o.sie = demo.q .eRT () 4 8 ∧ o.press = demo.q .pRT () 4 8 ∧
    o.bmod ≠ (relativistic 0 10 demo).q .bRT () 4 8 := by
  norm_num [demo, relativistic, ratio, sgn]

end general
end Verif.Mods
