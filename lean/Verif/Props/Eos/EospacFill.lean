import Verif.Props.Eos.Eospac

set_option linter.unusedSectionVars false

/-! # EOSPAC: `FillEos`, error status, table selection -/

namespace Verif.Eospac

open Verif.Mods Verif.Robust Verif.Spec.Eospac

universe u
variable {K : Type u} [Field K] [LinearOrder K] [IsStrictOrderedRing K]

/-- C108: without options and without debug output, `eosSafeInterpolate` reports success exactly when the lookup
succeeded. -/
theorem C108_status_partial (checkOk resetOk lookupOk : Bool) :
    safeInterpStatus ([] : List (Opt × K)) false lookupOk checkOk resetOk = lookupOk := by
  cases lookupOk <;> rfl

/-- C108: a lookup that succeeds is reported as a success, whatever the options and the verbosity (if resetting the
options succeeds). -/
theorem C108_success_reported (opts : List (Opt × K)) (debug checkOk : Bool) :
    safeInterpStatus opts debug true checkOk true = true := by
  unfold safeInterpStatus
  simp only [Bool.not_true, Bool.false_and, Bool.false_eq_true, if_false]
  induction opts with
  | nil => rfl
  | cons o os ih => exact ih

/-- C108 is violated: with any option set, or with debug output, a failed lookup is reported as a success whenever the
calls that follow it succeed. -/
theorem C108_status_violated (opts : List (Opt × K)) (debug : Bool) (h : opts ≠ [] ∨ debug = true) :
    safeInterpStatus opts debug false true true = true := by
  have : ∀ (l : List (Opt × K)) (e : Bool), l ≠ [] ∨ e = true → l.foldl (fun _ _ => true) e = true := by
    intro l
    induction l with
    | nil => intro e h; simpa using h
    | cons o os ih => intro e _; exact ih true (Or.inr rfl)
  refine this opts _ ?_
  rcases h with h | h
  · exact Or.inl h
  · right; simp [h]

example : safeInterpStatus [((.Y, 10 ^ 10) : Opt × ℚ)] false false false true = true := rfl

/-! ## `FillEos` -/

/-- What `FillEos` should produce at density `r` and temperature `t`: the requested quantities, the others
untouched. -/
def filled (T : Tabs K) (o : Flags) (v : Thermo K) (r t : K) : Thermo K :=
  { rho := if o.rho then r else v.rho
    temp := if o.temp then t else v.temp
    sie := if o.sie then sie T r t else v.sie
    press := if o.press then press T r t else v.press
    cv := if o.cv then cv T r t else v.cv
    bmod := if o.bmod then bulk T r t else v.bmod }

theorem mul_clip (a : K) : (10 : K) ^ 10 * max a 0 = max (10 ^ 10 * a) 0 := by
  rw [mul_max_of_nonneg _ _ ten.le, mul_zero]

/-- C109: density and temperature given: `FillEos` stores exactly the requested quantities, each equal to the
answer of the corresponding query, and leaves the others and the library alone. -/
theorem C109_from_density_temperature_partial (T : Tabs K) (o : Flags) (v : Thermo K)
    (h1 : o.rho = false) (h2 : o.temp = false) :
    fillBody (safeInterp T) o v fresh = (filled T o v v.rho v.temp, fresh) := by
  rw [fill_at T o v h1 h2]
  simp [filled, h1, h2]

/-- C109: pressure and temperature given, density wanted: every requested quantity is the one at the density of
that pressure and temperature. -/
theorem C109_from_pressure_temperature_partial (T : Tabs K) (o : Flags) (v : Thermo K)
    (h1 : o.rho = true) (h2 : o.temp = false) :
    fillBody (safeInterp T) o v fresh = (filled T o v (density T v.press v.temp) v.temp, fresh) := by
  obtain ⟨or, ot, os, op, oc, ob⟩ := o
  simp only at h1 h2
  subst h1 h2
  have hd : (T .RofPT).f (toPresU * v.press) v.temp = density T v.press v.temp := by
    simp [density, toPresU, div_eq_inv_mul]
  cases os <;> cases op <;> cases oc <;> cases ob <;>
    simp [fillBody, fillDensity, fillTemp, lookIf, bind, StateT.bind, pure, StateT.pure, safeInterp_plain, sieU,
      presU, cvU, bmodU, bulk_eq, sie, press, cv, mul_clip, filled, hd]

/-- C109: density and pressure given, temperature and energy wanted: every requested quantity is the one at the
temperature of that density and pressure. -/
theorem C109_from_density_pressure_partial (T : Tabs K) (o : Flags) (v : Thermo K)
    (h1 : o.rho = false) (h2 : o.temp = true) (h3 : o.sie = true) (h4 : o.press = false) :
    fillBody (safeInterp T) o v fresh = (filled T o v v.rho (tempP T v.rho v.press), fresh) := by
  obtain ⟨or, ot, os, op, oc, ob⟩ := o
  simp only at h1 h2 h3 h4
  subst h1 h2 h3 h4
  have hd : (T .TofRP).f v.rho (toPresU * v.press) = tempP T v.rho v.press := by
    simp [tempP, toPresU, div_eq_inv_mul]
  cases oc <;> cases ob <;>
    simp [fillBody, fillDensity, fillTemp, lookIf, bind, StateT.bind, pure, StateT.pure, safeInterp_plain, sieU,
      presU, cvU, bmodU, bulk_eq, sie, press, cv, mul_clip, filled, hd]

/-- C109: density and energy given, temperature wanted: the temperature is right; pressure, heat capacity and bulk
modulus are those at the temperature *passed in*. -/
theorem C109_from_density_energy_partial (T : Tabs K) (o : Flags) (v : Thermo K)
    (h1 : o.rho = false) (h2 : o.temp = true) (h3 : o.sie = false) :
    fillBody (safeInterp T) o v fresh =
      ({ filled T o v v.rho v.temp with temp := temp T v.rho v.sie }, fresh) ∧
    (v.temp = temp T v.rho v.sie ∨ (o.press = false ∧ o.cv = false ∧ o.bmod = false) →
      fillBody (safeInterp T) o v fresh = (filled T o v v.rho (temp T v.rho v.sie), fresh)) := by
  obtain ⟨or, ot, os, op, oc, ob⟩ := o
  simp only at h1 h2 h3
  subst h1 h2 h3
  have hd : (T .TofRE).f v.rho (toSieU * v.sie) = temp T v.rho v.sie := by
    simp [temp, toSieU, div_eq_inv_mul]
  have key : fillBody (safeInterp T) ⟨false, true, false, op, oc, ob⟩ v fresh =
      ({ filled T ⟨false, true, false, op, oc, ob⟩ v v.rho v.temp with temp := temp T v.rho v.sie }, fresh) := by
    cases op <;> cases oc <;> cases ob <;>
      simp [fillBody, fillDensity, fillTemp, lookIf, tRE, bind, StateT.bind, pure, StateT.pure, safeInterp_plain,
        sieU, presU, cvU, bmodU, bulk_eq, sie, press, cv, mul_clip, filled, hd]
  refine ⟨key, ?_⟩
  rintro (h | ⟨h4, h5, h6⟩)
  · rw [key, h]; simp [filled]
  · simp only at h4 h5 h6
    subst h4 h5 h6
    rw [key]; simp [filled]

/-- tables of a gas with `P = ρ T`, `e = T` (Sesame units) -/
def gas : Tabs ℚ
  | .PofRT => ⟨fun r t => r * t, fun _ t => t, fun r _ => r⟩
  | .TofRE => ⟨fun _ e => e, fun _ _ => 0, fun _ _ => 1⟩
  | .EofRT => ⟨fun _ t => t, fun _ _ => 0, fun _ _ => 1⟩
  | .RofPT => ⟨fun p t => p / t, fun _ t => 1 / t, fun p t => -p / t ^ 2⟩
  | .TofRP => ⟨fun r p => p / r, fun r p => -p / r ^ 2, fun r _ => 1 / r⟩
  | .PofRE => ⟨fun r e => r * e, fun _ e => e, fun r _ => r⟩
  | .EcofD => ⟨fun _ _ => 0, fun _ _ => 0, fun _ _ => 0⟩
  | .SofRT => ⟨fun _ _ => 0, fun _ _ => 0, fun _ _ => 0⟩

/-- C109 is violated: density and energy given, temperature and pressure wanted (the combination a hydro code asks
for): the pressure returned is the one at the temperature passed in, here `0` instead of `5·10^10`. -/
theorem C109_stale_temperature_violated :
    let o : Flags := ⟨false, true, false, true, false, false⟩
    let v : Thermo ℚ := ⟨1, 0, 5 * 10 ^ 10, 0, 0, 0⟩
    fillAborts o = false ∧
    (fillBody (safeInterp gas) o v fresh).1.temp = 5 ∧
    (fillBody (safeInterp gas) o v fresh).1.press = 0 ∧
    press gas 1 5 = 5 * 10 ^ 10 ∧
    answer 0 gas .pRE 1 (5 * 10 ^ 10) = 5 * 10 ^ 10 := by
  intro o v
  have h := (C109_from_density_energy_partial gas o v rfl rfl rfl).1
  refine ⟨rfl, ?_, ?_, ?_, ?_⟩
  · rw [h]; norm_num [temp, gas, v]
  · rw [h]; norm_num [filled, press, gas, v, o]
  · norm_num [press, gas]
  · norm_num [answer, pressE, gas]

/-- C109: the combinations `FillEos` accepts: something is requested; if density is, pressure and temperature are not;
if temperature is, density is not, and energy or pressure is not. -/
theorem C109_accepts (I : Interp (StateM (Sess K)) K) (o : Flags) (v : Thermo K) :
    fill I o v ≠ none ↔
      (o.rho ∨ o.temp ∨ o.sie ∨ o.press ∨ o.cv ∨ o.bmod) ∧
      (o.rho → ¬ o.press ∧ ¬ o.temp) ∧
      (o.temp → ¬ o.rho ∧ (¬ o.sie ∨ ¬ o.press)) := by
  obtain ⟨or, ot, os, op, oc, ob⟩ := o
  cases or <;> cases ot <;> cases os <;> cases op <;> cases oc <;> cases ob <;>
    simp [fill, fillAborts]

/-! ## Table selection -/

/-- C110: with the default selection every table is a table of the total; with a split selection the tables of
pressure, temperature, energy and entropy are those of the part. -/
theorem C110_split_partial (m : Material K) (s : Split) (t : Tid) (h : t ≠ .RofPT) (h2 : t ≠ .EcofD) :
    m.load s t = m.part s t := by
  cases t <;> simp_all [Material.load]

/-- C110 is violated: whatever the selection, the minimum energy is the cold curve of the total and the density of
pressure and temperature (array `FillEos`; the scalar calls refuse) is the density of the total.  So with electrons
selected the "minimum energy" can exceed the energy at every temperature up to some positive one, although it
is a true minimum for the total. -/
theorem C110_split_violated :
    (∀ (m : Material K) (s s' : Split) (u rho p t : K),
      minE (safeInterp (m.load s)) u rho fresh = minE (safeInterp (m.load s')) u rho fresh ∧
      density (m.load s) p t = density (m.load s') p t) ∧
    ∃ m : Material ℚ, (∀ rho t, 0 ≤ t →
        (minE (safeInterp (m.load .total)) 0 rho fresh).1 ≤ sie (m.load .total) rho t) ∧
      ∀ rho t, 0 ≤ t → t < 5 →
        sie (m.load .electron) rho t < (minE (safeInterp (m.load .electron)) 0 rho fresh).1 := by
  refine ⟨fun _ _ _ _ _ _ _ => ⟨rfl, rfl⟩,
    ⟨fun s _ => match s with
      | .total => ⟨fun _ t => 5 + 2 * t, fun _ _ => 0, fun _ _ => 2⟩
      | .electron => ⟨fun _ t => t, fun _ _ => 0, fun _ _ => 1⟩
      | .ionCold => ⟨fun _ t => 5 + t, fun _ _ => 0, fun _ _ => 1⟩,
      ⟨fun _ _ => 1, fun _ _ => 0, fun _ _ => 0⟩, ⟨fun _ _ => 5, fun _ _ => 0, fun _ _ => 0⟩⟩, ?_, ?_⟩
  · intro rho t ht
    simp only [minE, bind, StateT.bind, pure, StateT.pure, safeInterp_fresh, lookup, List.foldl_cons,
      List.foldl_nil, Conv.set, Conv.none, sieU, sie, Material.load]
    linarith
  · intro rho t ht h5
    simp only [minE, bind, StateT.bind, pure, StateT.pure, safeInterp_fresh, lookup, List.foldl_cons,
      List.foldl_nil, Conv.set, Conv.none, sieU, sie, Material.load]
    linarith

end Verif.Eospac
