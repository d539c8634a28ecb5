import Verif.Model.Modifiers
import Verif.Props.ZSplit

/-! # C84: mean atomic mass and number through the modifiers -/

namespace Verif.Mods

open Robust

variable {K Λ : Type*} [Field K] [LinearOrder K] [IsStrictOrderedRing K]

/-- C84, `ScaledEOS`: the number density of atoms, `rho / MeanAtomicMass`, is that of the wrapped EOS at the
wrapped density, and so is the mean atomic number. -/
theorem C84_scaled {s : K} (hs : s ≠ 0) (t : Eos K Λ) (l : Λ) (r T : K) :
    r / (scaled s t).abar l r T = s * r / t.abar l (s * r) T ∧
    (scaled s t).zbar l r T = t.zbar l (s * r) T := by
  refine ⟨?_, rfl⟩
  change r / (1 / s * t.abar l (s * r) T) = _
  by_cases h : t.abar l (s * r) T = 0
  · simp [h]
  · field_simp

/-- C84, `UnitSystem`: atomic mass and number have no units here; the state they are asked at is converted. -/
theorem C84_unitSystem (σ : K) (u : Units K) (t : Eos K Λ) (l : Λ) (r T : K) :
    (unitSystem σ u t).abar l r T = t.abar l (r * u.rho) (T * u.temp) ∧
    (unitSystem σ u t).zbar l r T = t.zbar l (r * u.rho) (T * u.temp) := ⟨rfl, rfl⟩

/-- C84: `ShiftedEOS`, `FlooredEnergy`, `BilinearRampEOS`, `RelativisticEOS` and `ZSplit` hand the question on
unchanged. -/
theorem C84_passed_on (σ x : K) (p : Ramp K) (be : Λ → K → K → K → K)
    (bp : Λ → K → K → K → K → PTDer K) (c : ZComp) (zOf : Λ → K) (l0 : Λ)
    (t : Eos K Λ) (l : Λ) (r T : K) :
    ∀ m ∈ [shifted x t, floored l0 t, ramped σ p be bp t, relativistic σ x t, zsplit σ c zOf l0 t],
      m.abar l r T = t.abar l r T ∧ m.zbar l r T = t.zbar l r T := by
  intro m hm
  simp only [List.mem_cons, List.not_mem_nil, or_false] at hm
  rcases hm with rfl | rfl | rfl | rfl | rfl <;> exact ⟨rfl, rfl⟩

/-- A non-trivial case: `s = 2`, `r = 3`, atomic mass depending on the density. -/
example : (3 : ℚ) / (1 / 2 * (2 * 3 + 1)) = 2 * 3 / (2 * 3 + 1) := by norm_num

/-! ## More of C31, C33, C34 -/

/-- C34, constructor from base units: if one cgs second, gram, centimetre is `time`, `mass`, `length` of the new system
(so that a mass `m` g is `m * mass`, and so on), then densities, energies, pressures in the new system are converted to
cgs by the stored factors. -/
theorem C34_base_units {time mass length temp : K} (ht : time ≠ 0) (hm : mass ≠ 0) (hl : length ≠ 0)
    {m x s : K} (hx : x ≠ 0) (hs : s ≠ 0) :
    let u := Units.ofLengthTime time mass length temp
    (m * mass) / (x * length) ^ 3 * u.rho = m / x ^ 3 ∧
    (x * length) ^ 2 / (s * time) ^ 2 * u.sie = x ^ 2 / s ^ 2 ∧
    (m * mass) / ((x * length) * (s * time) ^ 2) * u.press = m / (x * s ^ 2) := by
  intro u
  refine ⟨?_, ?_, ?_⟩ <;> simp only [u, Units.ofLengthTime, Units.press] <;> field_simp

/-- C34 fails for the documented convention "multiply by the unit to get cgs" (as in the library's own test: microseconds,
`time_unit = 1e-6`): one `cm^2/us^2` is `1e12 erg/g`, but the stored factor is `1e-12`. -/
theorem C34_base_units_violated :
    let u := Units.ofLengthTime (1 / 10 ^ 6 : ℚ) 1 1 1
    (1 * 1 : ℚ) ^ 2 / (1 * (1 / 10 ^ 6)) ^ 2 = 10 ^ 12 ∧ (1 : ℚ) ^ 2 / 1 ^ 2 * u.sie = 1 / 10 ^ 12 := by
  norm_num [Units.ofLengthTime]

/-- C34: under neither convention are all four units converted the same way unless the temperature unit is its own
inverse: temperatures are multiplied by the unit to get Kelvin, while times, masses and lengths are divided by theirs. -/
theorem C34_base_units_temperature (time mass length temp T : K) (hT : T ≠ 0) (htemp : 0 < temp) :
    let u := Units.ofLengthTime time mass length temp
    (T * temp) * u.temp = T ↔ temp = 1 := by
  intro u
  simp only [u, Units.ofLengthTime]
  constructor
  · intro h
    have h1 : temp * temp = 1 := by
      have : T * (temp * temp) = T * 1 := by rw [← mul_assoc, h, mul_one]
      exact mul_left_cancel₀ hT this
    nlinarith
  · rintro rfl; simp

/-- C31: the P-T derivatives through `FlooredEnergy` are those of the wrapped EOS at the floored energy, and
`FillEos` evaluates at the floored energy without changing the energy passed in. -/
theorem C31_floored_other (l0 : Λ) (t : Eos K Λ) (l : Λ) (r e P T : K) (fl : Flags) (s : Thermo K) :
    (floored l0 t).ptd l r e P T = t.ptd l r (max e (t.minE l0 r)) P T ∧
    (fl.sie = false → ((floored l0 t).fill l fl s).sie = s.sie ∧
      ((floored l0 t).fill l fl s).press = (t.fill l fl { s with sie := max s.sie (t.minE l0 s.rho) }).press ∧
      ((floored l0 t).fill l fl s).temp = (t.fill l fl { s with sie := max s.sie (t.minE l0 s.rho) }).temp) ∧
    (fl.sie = true → (floored l0 t).fill l fl s = t.fill l fl s) ∧
    (floored l0 t).minE l r = t.minE l r ∧ (floored l0 t).eRP l r P e = t.eRP l r P e := by
  refine ⟨rfl, fun h => ?_, fun h => ?_, rfl, rfl⟩
  · simp [floored, h]
  · simp [floored, h]

/-- C33: the reference states of the two parts sum to that of the whole in energy, pressure, heat capacity and bulk
modulus (up to the factor of the regularised division, 1 for `SMALL = 0`, see `C33_parts_sum`), and share its density
and temperature. -/
theorem C33_reference_sum {σ : K} (hσ : 0 ≤ σ) (zOf : Λ → K) (l0 l : Λ) (t : Eos K Λ) :
    let a := (zsplit σ .electrons zOf l0 t).ref l
    let b := (zsplit σ .ions zOf l0 t).ref l
    let o := t.ref l0
    let c := (max 0 (zOf l) + 1) / (max 0 (zOf l) + 1 + σ)
    a.sie + b.sie = o.sie * c ∧ a.press + b.press = o.press * c ∧ a.cv + b.cv = o.cv * c ∧
    a.bmod + b.bmod = o.bmod * c ∧
    a.rho = o.rho ∧ b.rho = o.rho ∧ a.temp = o.temp ∧ b.temp = o.temp := by
  have key : ∀ x : K, x * zScale σ .electrons (zOf l) + x * zScale σ .ions (zOf l)
      = x * ((max 0 (zOf l) + 1) / (max 0 (zOf l) + 1 + σ)) := fun x => by
    rw [← mul_add, zScale_sum σ (zOf l) hσ]
  exact ⟨key _, key _, key _, key _, rfl, rfl, rfl, rfl⟩

end Verif.Mods
