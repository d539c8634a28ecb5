import Verif.Model.Table.SpinerRhoT
import Verif.Model.Table.Transforms
import Verif.Props.RootFind
import Verif.Props.Table.Transforms
import Verif.Spec.Fill
import Mathlib.Analysis.SpecialFunctions.Log.Base

/-! # C85-C90: `SpinerEOSDependsRhoT` -/

namespace Verif.RhoT

open Verif.RootFind Verif.Robust Verif.Mods

set_option linter.unusedSectionVars false
set_option linter.unusedSimpArgs false

section field
variable {K : Type*} [Field K] [LinearOrder K] [IsStrictOrderedRing K]

theorem ratio_exact (a b : K) : ratio 0 a b = a / b := by simp [ratio]

/-! ## C85: temperature from energy -/

/-- The temperature scale above the table: `lT` increases, `T (lT x)` gives `x` back with the shift `δ` of the
log conversion (`C59_log_roundtrip`: `δ = robust::EPS`), and `TMax` is not below the table's upper edge. -/
structure TScale (t : Tab K) (δ : K) : Prop where
  mono : ∀ x y, t.TMax ≤ x → x ≤ y → t.lT x ≤ t.lT y
  back : ∀ x, t.TMax ≤ x → t.T (t.lT x) = x + δ
  top : t.lTMax ≤ t.lT t.TMax
  δ_nonneg : 0 ≤ δ
  soft_nonneg : 0 ≤ t.soft
  lTMax_nonneg : 0 ≤ t.lTMax
  sep : (1 + t.soft) * t.lTMin < t.lTMax

/-- With the library's own conversions (`to_log`, `from_log`, offset `off`, an exact log/exp pair) and
`TMax = from_log(lTMax)`, the scale hypotheses hold with `δ = robust::EPS`. -/
theorem tscale_of_logs (t : Tab K) (lg pw : K → K) {ε off : K} (hε : 0 < ε)
    (hinv : ∀ x, 0 < x → pw (lg x) = x) (hinv' : ∀ y, lg (pw y) = y) (hpw : ∀ y, 0 < pw y)
    (hlg : StrictMonoOn lg (Set.Ioi 0))
    (hlT : t.lT = fun x => Spiner.toLog lg ε x off) (hT : t.T = fun y => Spiner.fromLog pw y off)
    (hmax : t.TMax = Spiner.fromLog pw t.lTMax off)
    (hs : 0 ≤ t.soft) (h0 : 0 ≤ t.lTMax) (hsep : (1 + t.soft) * t.lTMin < t.lTMax) : TScale t ε := by
  have hoff : -off ≤ t.TMax := by rw [hmax]; unfold Spiner.fromLog; linarith [hpw t.lTMax]
  refine ⟨fun x y hx hxy => ?_, fun x hx => ?_, ?_, hε.le, hs, h0, hsep⟩
  · rw [hlT]
    exact (Spiner.C59_log_monotone lg hlg ε off hε).1.monotoneOn (by simpa using hoff.trans hx)
      (by simpa using (hoff.trans hx).trans hxy) hxy
  · rw [hlT, hT]
    simp only
    rw [Spiner.C59_log_roundtrip lg pw hinv ε x off hε, max_eq_left (hoff.trans hx)]
  · rw [hlT, hmax]
    unfold Spiner.toLog Spiner.fromLog
    simp only
    rw [max_eq_left (by linarith [hpw t.lTMax]), sub_add_cancel, abs_of_pos (hpw _)]
    have hp := hpw t.lTMax
    have := hlg.monotoneOn (a := pw t.lTMax) hp (b := pw t.lTMax + ε) (by simp only [Set.mem_Ioi]; linarith) (by linarith)
    rwa [hinv'] at this

theorem locT_above (t : Tab K) {δ x : K} (h : TScale t δ) (hx : t.TMax ≤ x) : locT t (t.lT x) = .offTop := by
  have h1 : t.lTMax ≤ t.lT x := h.top.trans (h.mono _ _ le_rfl hx)
  unfold locT
  rw [if_neg (by linarith [h.sep]), if_pos]
  have : (1 - t.soft) * t.lTMax ≤ t.lTMax := by nlinarith [h.soft_nonneg, h.lTMax_nonneg]
  linarith

theorem locE_above (t : Tab K) (hs : 0 ≤ t.soft) {lRho e : K} (he : t.sielTMax lRho ≤ e) : locE t lRho e = .offTop := by
  unfold locE
  rw [if_pos]
  have := mul_nonneg hs (abs_nonneg (t.sielTMax lRho))
  linarith

/-- C85: for an energy at or above the top isotherm, the temperature is the ideal-gas extrapolation, and asking for
the energy, pressure, heat capacity at that temperature gives the energy, pressure, heat capacity back, up to the
shift of the log conversion (exactly, if there is none). Whatever the lambda cache holds. -/
theorem C85_top (t : Tab K) {δ : K} (h : TScale t δ) (hσ : t.σ = 0) {rho e : K} (c c' : K)
    (hCv : 0 < t.dEdTMax (t.lRho rho)) (he : t.sielTMax (t.lRho rho) ≤ e) :
    let T := query t .tRE c rho e
    let Cv := t.dEdTMax (t.lRho rho)
    T = t.TMax + (e - t.sielTMax (t.lRho rho)) / Cv + δ ∧
    query t .eRT c' rho T = e + Cv * δ ∧
    query t .pRT c' rho T = query t .pRE c rho e + t.gm1Max (t.lRho rho) * rho * (Cv * δ) ∧
    query t .cvRT c' rho T = query t .cvRE c rho e ∧ query t .gRT c' rho T = query t .gRE c rho e := by
  intro T Cv
  have hl := locE_above t h.soft_nonneg he
  have hx : t.TMax ≤ t.TMax + (e - t.sielTMax (t.lRho rho)) / Cv := by
    have : 0 ≤ (e - t.sielTMax (t.lRho rho)) / Cv := div_nonneg (by linarith) hCv.le
    linarith
  have hT : T = t.TMax + (e - t.sielTMax (t.lRho rho)) / Cv + δ := by
    change query t .tRE c rho e = _
    simp only [query, lTOfE, hl, hσ, ratio_exact]
    exact h.back _ hx
  have hTx : t.TMax ≤ T := by rw [hT]; linarith [h.δ_nonneg]
  have hlt := locT_above t h hTx
  have hen : t.sielTMax (t.lRho rho) + t.dEdTMax (t.lRho rho) * (T - t.TMax) = e + Cv * δ := by
    rw [hT]; simp only [Cv]; have := hCv.ne'; field_simp; ring
  refine ⟨hT, ?_, ?_, ?_, ?_⟩
  · simp only [query, hlt, sieAt, hen]
  · simp only [query, hlt, pAt, hen, lTOfE, hl]; ring
  · simp only [query, hlt, cvAt, lTOfE, hl]
  · simp only [query, hlt, gAt, lTOfE, hl]

/-- C85: the reverse direction above the table: energy at `T`, then the temperature of that energy, gives `T` back up
to the log shift. -/
theorem C85_top_reverse (t : Tab K) {δ : K} (h : TScale t δ) (hσ : t.σ = 0) {rho T : K} (c c' : K)
    (hCv : 0 < t.dEdTMax (t.lRho rho)) (hT : t.TMax ≤ T) :
    query t .tRE c rho (query t .eRT c' rho T) = T + δ := by
  have hlt := locT_above t h hT
  have he : query t .eRT c' rho T = t.sielTMax (t.lRho rho) + t.dEdTMax (t.lRho rho) * (T - t.TMax) := by
    simp only [query, hlt, sieAt]
  have hge : t.sielTMax (t.lRho rho) ≤ query t .eRT c' rho T := by
    rw [he]; have := mul_nonneg hCv.le (sub_nonneg.2 hT); linarith
  rw [(C85_top t h hσ c c' hCv hge).1, he]
  have := hCv.ne'
  field_simp; ring

/-- C85: an energy at or below the cold curve gives the table's lowest temperature, the cold-curve pressure and heat
capacity, whatever the energy and the lambda. -/
theorem C85_cold (t : Tab K) {rho e : K} (c : K)
    (hbelow : e < t.sielTMax (t.lRho rho) - t.soft * |t.sielTMax (t.lRho rho)|)
    (he : e ≤ t.sieCold (t.lRho rho) + t.soft * |t.sieCold (t.lRho rho)|) :
    query t .tRE c rho e = t.T t.lTMin ∧ query t .pRE c rho e = t.PCold (t.lRho rho) ∧
    query t .bRE c rho e = t.bModCold (t.lRho rho) := by
  have hl : locE t (t.lRho rho) e = .offBottom := by
    unfold locE; rw [if_neg (not_le.2 hbelow), if_pos he]
  simp only [query, lTOfE, hl, and_self]

/-- C85: if the lowest log temperature is positive and the log conversion returns it within the soft threshold, the
energy at the temperature reported for a cold-curve state is the minimum energy at that density. -/
theorem C85_cold_back (t : Tab K) {rho e : K} (c c' : K)
    (hbelow : e < t.sielTMax (t.lRho rho) - t.soft * |t.sielTMax (t.lRho rho)|)
    (he : e ≤ t.sieCold (t.lRho rho) + t.soft * |t.sieCold (t.lRho rho)|)
    (hback : t.lT (t.T t.lTMin) ≤ (1 + t.soft) * t.lTMin) :
    query t .eRT c' rho (query t .tRE c rho e) = minE t rho ∧
    query t .pRT c' rho (query t .tRE c rho e) = query t .pRE c rho e := by
  obtain ⟨h1, h2, -⟩ := C85_cold t c hbelow he
  have hl : locT t (t.lT (t.T t.lTMin)) = .offBottom := by unfold locT; rw [if_pos hback]
  rw [h1, h2]
  simp only [query, hl, sieAt, pAt, minE, and_self]

/-- A table over the rationals with identity log conversions, used for counterexamples. -/
def toy (lTMin lTMax : ℚ) : Tab ℚ where
  lRho := id
  rho := id
  lT := id
  T := id
  P := fun r T => r * T
  sie := fun _ T => T
  bMod := fun _ _ => 1
  dPdE := fun r _ => r
  dEdT := fun _ _ => 1
  PCold := fun r => r * lTMin - 1 / 10
  sieCold := fun _ => lTMin
  bModCold := fun _ => 1
  dPdECold := fun r => r
  dEdTCold := fun _ => 1
  PMax := fun r => r * lTMax
  dEdTMax := fun _ => 1
  gm1Max := fun _ => 1
  sielTMax := fun _ => lTMax
  rhoAtPmin := fun _ => 0
  lTMin := lTMin
  lTMax := lTMax
  lRhoMax := 10
  TMax := lTMax
  eps := 1 / 10 ^ 10
  thr := 1 / 10 ^ 14
  soft := 1 / 10 ^ 8
  σ := 0
  repro := false

/-- C85 fails on the cold curve when the lowest log temperature is negative: `(1 + SOFT_THRESH) * lTMin` is then below
`lTMin`, so the state reported for the cold curve counts as on the table when it is looked up by temperature, and the
pressure at that temperature is not the one reported for the energy. -/
theorem C85_negative_log_temperature_violated :
    ∃ (t : Tab ℚ) (rho e : ℚ), t.lTMin < 0 ∧
      query t .pRE 0 rho e = t.PCold (t.lRho rho) ∧
      query t .pRT 0 rho (query t .tRE 0 rho e) ≠ query t .pRE 0 rho e :=
  ⟨toy (-1) 1, 1, -1, by decide +kernel, by decide +kernel, by decide +kernel⟩

/-- The hypotheses of `C85_top` are met. -/
example : TScale (toy 1 2) 0 ∧ (toy 1 2).σ = 0 ∧ 0 < (toy 1 2).dEdTMax 1 ∧ (toy 1 2).sielTMax 1 ≤ 3 := by
  refine ⟨⟨fun x y _ h => h, fun x _ => by simp [toy], le_rfl, le_rfl, ?_, ?_, ?_⟩, rfl, ?_, ?_⟩ <;>
    norm_num [toy]

/-- The hypotheses of `C85_cold_back` are met. -/
example : ∃ e : ℚ, e < (toy 1 2).sielTMax 1 - (toy 1 2).soft * |(toy 1 2).sielTMax 1| ∧
    e ≤ (toy 1 2).sieCold 1 + (toy 1 2).soft * |(toy 1 2).sieCold 1| ∧
    (toy 1 2).lT ((toy 1 2).T (toy 1 2).lTMin) ≤ (1 + (toy 1 2).soft) * (toy 1 2).lTMin :=
  ⟨1, by decide +kernel, by decide +kernel, by decide +kernel⟩

/-! ## C87: `FillEos` and the single queries -/

/-- C87: with density and temperature as inputs, every requested output is the direct query, inputs are kept. Any
lambda. -/
theorem C87_by_temperature (t : Tab K) (fl : Flags) (s : Thermo K) (c1 c2 c : K) (hr : fl.rho = false)
    (hT : fl.temp = false) (hout : (fl.sie || fl.press || fl.cv || fl.bmod) = true) :
    ∃ o, fillEos t fl c1 c2 s = some o ∧ Spec.InputsKept fl s o ∧
      (fl.sie = true → o.sie = query t .eRT c s.rho s.temp) ∧
      (fl.press = true → o.press = query t .pRT c s.rho s.temp) ∧
      (fl.cv = true → o.cv = query t .cvRT c s.rho s.temp) ∧
      (fl.bmod = true → o.bmod = query t .bRT c s.rho s.temp) := by
  unfold fillEos
  simp only [hr, hT, Bool.false_or, hout, Bool.not_true, Bool.false_and, if_false, Bool.false_eq_true,
    if_neg, Option.some.injEq, exists_eq_left']
  refine ⟨⟨fun _ => rfl, fun _ => rfl, fun h => by simp [h], fun h => by simp [h], fun h => by simp [h],
    fun h => by simp [h]⟩, fun h => ?_, fun h => ?_, fun h => ?_, fun h => ?_⟩ <;>
  · rw [if_pos h]; rfl

/-- C87: with density and energy as inputs the temperature is the direct query; when both ways of locating the state
agree that it is on the table, pressure and heat capacity are the direct queries and the bulk modulus is the direct query
floored at `robust::EPS`. -/
theorem C87_by_energy (t : Tab K) (fl : Flags) (s : Thermo K) (c1 c : K) (hr : fl.rho = false)
    (hT : fl.temp = true) (he : fl.sie = false) :
    ∃ o, fillEos t fl c1 c s = some o ∧ Spec.InputsKept fl s o ∧ o.temp = query t .tRE c s.rho s.sie ∧
      ((lTOfE t c (t.lRho s.rho) s.sie).loc = .onTable → locT t (lTOfE t c (t.lRho s.rho) s.sie).x = .onTable →
        (fl.press = true → o.press = query t .pRE c s.rho s.sie) ∧
        (fl.cv = true → o.cv = query t .cvRE c s.rho s.sie) ∧
        (fl.bmod = true → o.bmod = floorEps t (query t .bRE c s.rho s.sie))) := by
  unfold fillEos
  simp only [hr, hT, he, Bool.false_or, Bool.true_or, Bool.or_true, Bool.not_true, Bool.false_and, Bool.true_and,
    Bool.not_false, Bool.and_self, if_false, Bool.false_eq_true, if_neg, if_true, Option.some.injEq, exists_eq_left']
  refine ⟨⟨fun _ => rfl, fun h => by simp [hT] at h, fun h => rfl, fun h => by simp [h], fun h => by simp [h],
    fun h => by simp [h]⟩, rfl, fun h1 h2 => ⟨fun h => ?_, fun h => ?_, fun h => ?_⟩⟩ <;> rw [if_pos h, h2]
  · simp only [pAt, query, h1]
  · simp only [cvAt, query, h1]
  · simp only [bAt, query, h1]

/-- C87: above the table, with density and energy as inputs, the same up to the log shift of the temperature. -/
theorem C87_by_energy_top (t : Tab K) {δ : K} (h : TScale t δ) (hσ : t.σ = 0) (fl : Flags) (s : Thermo K) (c1 c : K)
    (hCv : 0 < t.dEdTMax (t.lRho s.rho)) (htop : t.sielTMax (t.lRho s.rho) ≤ s.sie)
    (hr : fl.rho = false) (hT : fl.temp = true) (he : fl.sie = false) :
    ∃ o, fillEos t fl c1 c s = some o ∧
      (fl.press = true → o.press = query t .pRE c s.rho s.sie
        + t.gm1Max (t.lRho s.rho) * s.rho * (t.dEdTMax (t.lRho s.rho) * δ)) ∧
      (fl.cv = true → o.cv = query t .cvRE c s.rho s.sie) := by
  have hl := locE_above t h.soft_nonneg htop
  have hx : t.TMax ≤ t.TMax + (s.sie - t.sielTMax (t.lRho s.rho)) / t.dEdTMax (t.lRho s.rho) := by
    have : 0 ≤ (s.sie - t.sielTMax (t.lRho s.rho)) / t.dEdTMax (t.lRho s.rho) :=
      div_nonneg (by linarith) hCv.le
    linarith
  have hlt := locT_above t h hx
  have hb := h.back _ hx
  unfold fillEos
  simp only [hr, hT, he, Bool.false_or, Bool.true_or, Bool.or_true, Bool.not_true, Bool.false_and, Bool.true_and,
    Bool.not_false, Bool.and_self, if_false, Bool.false_eq_true, if_neg, if_true, Option.some.injEq, exists_eq_left']
  refine ⟨fun hp => ?_, fun hp => ?_⟩ <;> rw [if_pos hp]
  · simp only [lTOfE, hl, hσ, ratio_exact, hlt, pAt, hb, query]
    have := hCv.ne'
    field_simp; ring
  · simp only [lTOfE, hl, hσ, ratio_exact, hlt, cvAt, query]

/-- C87: with pressure and temperature as inputs, density is that of `DensityEnergyFromPressureTemperature`; so is the
energy, if the log of the density is recovered exactly. -/
theorem C87_by_pressure_temperature (t : Tab K) (fl : Flags) (s : Thermo K) (c c2 : K) (hr : fl.rho = true)
    (hT : fl.temp = false) (hp : fl.press = false) :
    ∃ o, fillEos t fl c c2 s = some o ∧ Spec.InputsKept fl s o ∧ o.rho = (dePT t c s.press s.temp).1 ∧
      (fl.sie = true → t.lRho (dePT t c s.press s.temp).1 = (lRhoOfPT t c s.press (t.lT s.temp)).x →
        o.sie = (dePT t c s.press s.temp).2) := by
  unfold fillEos
  simp only [hr, hT, hp, Bool.true_or, Bool.not_true, Bool.not_false, Bool.and_self, Bool.false_eq_true,
    Bool.true_and, if_false, Bool.false_and, if_true, Option.some.injEq, exists_eq_left', Bool.and_false]
  refine ⟨⟨fun h => by simp [hr] at h, fun _ => rfl, fun h => by simp [h], fun _ => rfl, fun h => by simp [h],
    fun h => by simp [h]⟩, rfl, fun h hb => ?_⟩
  rw [if_pos h]
  simp only [dePT, query] at hb ⊢
  rw [hb]

/-- C87 fails on the cold curve when the lowest log temperature is negative: `FillEos` from density and energy gives
another pressure than the direct query. -/
theorem C87_cold_violated :
    ∃ (t : Tab ℚ) (s : Thermo ℚ) (o : Thermo ℚ),
      fillEos t ⟨false, true, false, true, false, false⟩ 0 0 s = some o ∧ o.press ≠ query t .pRE 0 s.rho s.sie :=
  ⟨toy (-1) 1, ⟨1, 0, -1, 0, 0, 0⟩, _, rfl, by decide +kernel⟩

/-- C87 fails for density and pressure above the table: the temperature returned is the table's maximum, and the
pressure there is not the one given. -/
theorem C87_pressure_above_table_violated :
    ∃ (t : Tab ℚ) (s : Thermo ℚ) (o : Thermo ℚ),
      fillEos t ⟨false, true, true, false, false, false⟩ 0 0 s = some o ∧ o.press = s.press ∧
      query t .pRT 0 o.rho o.temp ≠ s.press :=
  ⟨toy 1 2, ⟨1, 0, 0, 5, 0, 0⟩, _, rfl, by decide +kernel, by decide +kernel⟩

/-! ## C88: positive heat capacity and bulk modulus -/

/-- C88: heat capacities and the bulk modulus by temperature are at least `robust::EPS`, for every table, state and
lambda. -/
theorem C88_floor (t : Tab K) (c rho y : K) :
    t.eps ≤ query t .cvRT c rho y ∧ t.eps ≤ query t .cvRE c rho y ∧ t.eps ≤ query t .bRT c rho y := by
  have hf : ∀ x, t.eps ≤ floorEps t x := by
    intro x; unfold floorEps; split_ifs with h
    · exact le_of_lt h
    · exact le_rfl
  refine ⟨?_, ?_, ?_⟩
  · simp only [query]; cases locT t (t.lT y) <;> exact hf _
  · simp only [query]; cases (lTOfE t c (t.lRho rho) y).loc <;> exact hf _
  · simp only [query]; cases locT t (t.lT y) <;> exact hf _

/-- C88 fails for the bulk modulus by energy, which has no floor: above the table at zero density it is zero, while the
same state by temperature gives `robust::EPS`. -/
theorem C88_bulk_by_energy_violated :
    ∃ (t : Tab ℚ) (rho e : ℚ), 0 < t.eps ∧ query t .bRE 0 rho e = 0 ∧
      query t .bRT 0 rho (query t .tRE 0 rho e) = t.eps :=
  ⟨toy 1 2, 0, 3, by decide +kernel, by decide +kernel, by decide +kernel⟩

/-- C88: every entry of the bulk modulus table is at least `robust::EPS` after loading, and equals
`rho dP/drho|_e + (P/rho) dP/de|_rho`, the isentropic bulk modulus, wherever density and `dP/de` are positive and that
value is not below `robust::EPS`. -/
theorem C88_fixed_table (eps rho press dpdr dpde dedr : K) :
    |eps| ≤ fixedBulk eps rho press dpdr dpde dedr ∧
    (0 < dpde → 0 < rho → |eps| ≤ rho * dpdr + press / rho * dpde →
      fixedBulk eps rho press dpdr dpde dedr = rho * dpdr + press / rho * dpde) ∧
    (dpde ≤ 0 → 0 < rho → |eps| ≤ rho * (dpdr + dpde * dedr) →
      fixedBulk eps rho press dpdr dpde dedr = rho * (dpdr + dpde * dedr)) := by
  refine ⟨le_max_right _ _, fun h1 h2 h3 => ?_, fun h1 h2 h3 => ?_⟩
  · simp only [fixedBulk, gt_iff_lt, h1, h2, and_self, if_true]
    rw [mul_comm dpde, max_eq_left h3]
  · simp only [fixedBulk, gt_iff_lt, not_lt.2 h1, false_and, if_false, h2, if_true]
    have h4 : 0 ≤ rho * (dpdr + dpde * dedr) := (abs_nonneg _).trans h3
    rw [max_eq_left h4, max_eq_left h3]

/-! ## C90: the edges of the table -/

/-- C88: the Grüneisen parameter times the density is the tabulated slope of the pressure in the energy: on the table
that of the table, at the cold curve that of the cold curve (absolute values), by temperature and by energy; above the
table it is the slope of the pressure returned for the energy. -/
theorem C88_gruneisen (t : Tab K) (hσ : t.σ = 0) (hs : 0 ≤ t.soft) (c rho y : K) (hr : 0 < rho) :
    (locT t (t.lT y) = .onTable → rho * query t .gRT c rho y = |t.dPdE (t.lRho rho) (t.lT y)|) ∧
    (locT t (t.lT y) = .offBottom → rho * query t .gRT c rho y = |t.dPdECold (t.lRho rho)|) ∧
    (locE t (t.lRho rho) y = .onTable →
      rho * query t .gRE c rho y = |t.dPdE (t.lRho rho) (lTOfE t c (t.lRho rho) y).x|) ∧
    (locE t (t.lRho rho) y = .offBottom → rho * query t .gRE c rho y = |t.dPdECold (t.lRho rho)|) ∧
    (∀ y', t.sielTMax (t.lRho rho) ≤ y → t.sielTMax (t.lRho rho) ≤ y' →
      query t .pRE c rho y' - query t .pRE c rho y = rho * query t .gRE c rho y * (y' - y)) := by
  have hq : ∀ a : K, rho * ratio t.σ |a| |rho| = |a| := fun a => by
    rw [hσ, ratio_exact, abs_of_pos hr, mul_div_cancel₀ _ hr.ne']
  refine ⟨fun h => ?_, fun h => ?_, fun h => ?_, fun h => ?_, fun y' h h' => ?_⟩
  · simp only [query, h, gAt, hq]
  · simp only [query, h, gAt, hq]
  · have : (lTOfE t c (t.lRho rho) y).loc = .onTable := by simp only [lTOfE, h]
    simp only [query, this, gAt, hq]
  · have : (lTOfE t c (t.lRho rho) y).loc = .offBottom := by simp only [lTOfE, h]
    simp only [query, this, gAt, hq]
  · have e1 : (lTOfE t c (t.lRho rho) y).loc = .offTop := by simp only [lTOfE, locE_above t hs h]
    have e2 : (lTOfE t c (t.lRho rho) y').loc = .offTop := by simp only [lTOfE, locE_above t hs h']
    simp only [query, e1, e2, gAt]; ring

/-- C82: the density of least pressure the EOS reports (`RhoPmin`; `at0` is the first stored entry) does not increase with
temperature over all temperatures, and is non-negative, if the stored densities do not (`C82_vapour_dome`). -/
theorem C82_rhot_rhoPmin (t : Tab K) (at0 : K) (hlt : t.lTMin < t.lTMax) (hm : Monotone t.lT)
    (ha : ∀ x y, t.lTMin ≤ x → x ≤ y → y ≤ t.lTMax → t.rhoAtPmin y ≤ t.rhoAtPmin x) (h0 : at0 = t.rhoAtPmin t.lTMin)
    (hp : 0 ≤ t.rhoAtPmin t.lTMax) :
    Antitone (rhoPmin t at0) ∧ (∀ T, 0 ≤ rhoPmin t at0 T) ∧
    (∀ T, t.lTMin < t.lT T → t.lT T < t.lTMax → rhoPmin t at0 T = t.rhoAtPmin (t.lT T)) ∧
    (∀ T, t.lTMax ≤ t.lT T → rhoPmin t at0 T = 0) := by
  have hnn : ∀ T, 0 ≤ rhoPmin t at0 T := fun T => by
    unfold rhoPmin; split_ifs with h1 h2
    · rw [h0]; exact hp.trans (ha _ _ le_rfl hlt.le le_rfl)
    · exact le_rfl
    · push Not at h1 h2; exact hp.trans (ha _ _ h1.le h2.le le_rfl)
  refine ⟨fun x y hxy => ?_, hnn, fun T h1 h2 => ?_, fun T h => ?_⟩
  · have hxy' := hm hxy
    unfold rhoPmin
    by_cases hx1 : t.lT x ≤ t.lTMin
    · rw [if_pos hx1]
      split_ifs with h1 h2
      · exact le_rfl
      · rw [h0]; exact hp.trans (ha _ _ le_rfl hlt.le le_rfl)
      · push Not at h1 h2; rw [h0]; exact ha _ _ le_rfl h1.le h2.le
    · push Not at hx1
      rw [if_neg (not_le.2 (hx1.trans_le hxy')), if_neg (not_le.2 hx1)]
      by_cases hy2 : t.lT y ≥ t.lTMax
      · rw [if_pos hy2]
        have := hnn x
        unfold rhoPmin at this
        rwa [if_neg (not_le.2 hx1)] at this
      · push Not at hy2
        rw [if_neg (not_le.2 hy2), if_neg (not_le.2 (hxy'.trans_lt hy2))]
        exact ha _ _ hx1.le hxy' hy2.le
  · unfold rhoPmin; rw [if_neg (not_le.2 h1), if_neg (not_le.2 h2)]
  · unfold rhoPmin; rw [if_neg (not_le.2 (hlt.trans_le h)), if_pos h]

/-- C90: the ideal-gas extrapolation continues the energy of the top isotherm. -/
theorem C90_energy_continues (t : Tab K) {δ : K} (h : TScale t δ) (c rho : K) :
    query t .eRT c rho t.TMax = t.sielTMax (t.lRho rho) := by
  simp only [query, locT_above t h le_rfl, sieAt, sub_self, mul_zero, add_zero]

/-- C90: it continues the pressure of the top isotherm exactly when that isotherm satisfies
`P = gm1 rho e`. -/
theorem C90_pressure_continues_iff (t : Tab K) {δ : K} (h : TScale t δ) (c rho : K) :
    query t .pRT c rho t.TMax = t.PMax (t.lRho rho) ↔
      t.PMax (t.lRho rho) = t.gm1Max (t.lRho rho) * rho * t.sielTMax (t.lRho rho) := by
  simp only [query, locT_above t h le_rfl, pAt, sub_self, mul_zero, add_zero]
  exact eq_comm

/-- C90 fails in general: a material whose top isotherm has an energy offset (here `e = T - 1`, `P = rho T`) has a
pressure jump at the top of the table. -/
theorem C90_pressure_jump_violated :
    ∃ t : Tab ℚ, TScale t 0 ∧ (∀ r, t.PMax r = t.P r t.lTMax) ∧ (∀ r, t.sielTMax r = t.sie r t.lTMax) ∧
      query t .pRT 0 1 t.TMax ≠ t.P (t.lRho 1) t.lTMax := by
  refine ⟨{ toy 1 2 with sie := fun _ T => T - 1, sielTMax := fun _ => 1 }, ?_, fun r => rfl,
    fun r => by norm_num [toy], by decide +kernel⟩
  refine ⟨fun x y _ h => h, fun x _ => by simp [toy], le_rfl, le_rfl, ?_, ?_, ?_⟩ <;> norm_num [toy]

/-! ## C89: the cold critical temperature -/

/-- There is a sign change of `d` between grid points `i` and `i + 1`. -/
def SignChange (d : Nat → K) (i : Nat) : Prop := (d i < 0 ∧ 0 < d (i + 1)) ∨ (0 < d i ∧ d (i + 1) < 0)

/-- What the scan finds: the sign changes in increasing order, and the position in that list of the last upward one
(`-1` if there is none). -/
theorem crossings_spec (d : Nat → K) (n : Nat) :
    let s := crossings d n
    s.1.Pairwise (· < ·) ∧ (∀ i, i ∈ s.1 ↔ i < n - 1 ∧ SignChange d i) ∧
    ((s.2 = -1 ∧ ∀ i, i < n - 1 → ¬ (d i < 0 ∧ 0 < d (i + 1))) ∨
      ∃ k i, s.2 = (k : Nat) ∧ s.1[k]? = some i ∧ d i < 0 ∧ 0 < d (i + 1) ∧
        ∀ j, j < n - 1 → d j < 0 → 0 < d (j + 1) → j ≤ i) := by
  unfold crossings
  refine forN_inv (P := fun m (s : List Nat × Int) =>
    s.1.Pairwise (· < ·) ∧ (∀ i, i ∈ s.1 ↔ i < m ∧ SignChange d i) ∧
    ((s.2 = -1 ∧ ∀ i, i < m → ¬ (d i < 0 ∧ 0 < d (i + 1))) ∨
      ∃ k i, s.2 = (k : Nat) ∧ s.1[k]? = some i ∧ d i < 0 ∧ 0 < d (i + 1) ∧
        ∀ j, j < m → d j < 0 → 0 < d (j + 1) → j ≤ i)) ?_ ?_
  · exact ⟨List.Pairwise.nil, fun i => by simp, Or.inl ⟨rfl, fun i hi => by omega⟩⟩
  · rintro m ⟨l, q⟩ hm ⟨h1, h2, h3⟩
    dsimp only at h1 h2 h3 ⊢
    have hmem : ∀ i, i ∈ l ++ [m] ↔ (i < m ∧ SignChange d i) ∨ i = m := by
      intro i; rw [List.mem_append, h2]; simp
    have hpw : (l ++ [m]).Pairwise (· < ·) := by
      rw [List.pairwise_append]
      refine ⟨h1, List.pairwise_singleton _ _, fun a ha b hb => ?_⟩
      rw [List.mem_singleton] at hb; subst hb
      exact ((h2 a).1 ha).1
    by_cases hu : d m < 0 ∧ d (m + 1) > 0
    · rw [if_pos hu]
      refine ⟨hpw, fun i => ?_, Or.inr ⟨l.length, m, rfl, ?_, hu.1, hu.2, fun j hj _ _ => by omega⟩⟩
      · rw [hmem]
        constructor
        · rintro (h | rfl)
          · exact ⟨by omega, h.2⟩
          · exact ⟨by omega, Or.inl hu⟩
        · rintro ⟨hi, hs⟩
          by_cases h : i = m
          · exact Or.inr h
          · exact Or.inl ⟨by omega, hs⟩
      · rw [List.getElem?_append_right le_rfl]; simp
    · rw [if_neg hu]
      by_cases hd : d m > 0 ∧ d (m + 1) < 0
      · rw [if_pos hd]
        refine ⟨hpw, fun i => ?_, ?_⟩
        · rw [hmem]
          constructor
          · rintro (h | rfl)
            · exact ⟨by omega, h.2⟩
            · exact ⟨by omega, Or.inr hd⟩
          · rintro ⟨hi, hs⟩
            by_cases h : i = m
            · exact Or.inr h
            · exact Or.inl ⟨by omega, hs⟩
        · rcases h3 with ⟨ha, hb⟩ | ⟨k, i, ha, hb, hc, hd', he⟩
          · refine Or.inl ⟨ha, fun i hi => ?_⟩
            by_cases h : i = m
            · subst h; exact hu
            · exact hb i (by omega)
          · refine Or.inr ⟨k, i, ha, ?_, hc, hd', fun j hj h4 h5 => ?_⟩
            · rw [List.getElem?_append_left]
              · exact hb
              · exact (List.getElem?_eq_some_iff.1 hb).1
            · by_cases h : j = m
              · subst h; exact absurd ⟨h4, h5⟩ hu
              · exact he j (by omega) h4 h5
      · rw [if_neg hd]
        have hns : ¬ SignChange d m := by rintro (h | h) <;> [exact hu h; exact hd h]
        refine ⟨h1, fun i => ?_, ?_⟩
        · rw [h2]
          constructor
          · rintro ⟨a, b⟩; exact ⟨by omega, b⟩
          · rintro ⟨a, b⟩
            by_cases h : i = m
            · subst h; exact absurd b hns
            · exact ⟨by omega, b⟩
        · rcases h3 with ⟨ha, hb⟩ | ⟨k, i, ha, hb, hc, hd', he⟩
          · refine Or.inl ⟨ha, fun i hi => ?_⟩
            by_cases h : i = m
            · subst h; exact hu
            · exact hb i (by omega)
          · refine Or.inr ⟨k, i, ha, hb, hc, hd', fun j hj h4 h5 => ?_⟩
            by_cases h : j = m
            · subst h; exact absurd ⟨h4, h5⟩ hu
            · exact he j (by omega) h4 h5

/-- C89: the cold critical temperature is never below the table. -/
theorem C89_on_table (thr c lTMin : K) (f : K → K) (x d : Nat → K) (n : Nat) (y : K) :
    lTMin ≤ coldCrit thr c lTMin f x d n y := le_max_left _ _

/-- C89: without an upward crossing of the cold curve it is the lowest temperature. -/
theorem C89_no_crossing (thr c lTMin : K) (f : K → K) (x d : Nat → K) (n : Nat) (y : K)
    (h : ∀ i, i < n - 1 → ¬ (d i < 0 ∧ 0 < d (i + 1))) : coldCrit thr c lTMin f x d n y = lTMin := by
  obtain ⟨-, -, h3⟩ := crossings_spec d n
  rcases h3 with ⟨ha, -⟩ | ⟨k, i, ha, hb, hc, hd, -⟩
  · simp only [coldCrit, ha]; norm_num
  · exfalso
    have hmem := List.mem_of_getElem? hb
    exact h i (((crossings_spec d n).2.1 i).1 hmem).1 ⟨hc, hd⟩

/-- C89 fails in the ordinary case: when the isochore crosses the cold curve exactly once, upwards (the energy increases
with temperature and the cold energy lies on the grid), the crossing is ignored and the lowest temperature is
returned, wherever the crossing is. -/
theorem C89_single_crossing_violated (thr c lTMin : K) (f : K → K) (x d : Nat → K) (n : Nat) (y : K) {i : Nat}
    (hone : ∀ j, j < n - 1 → SignChange d j → j = i) (hi : i < n - 1) (hup : d i < 0 ∧ 0 < d (i + 1)) :
    coldCrit thr c lTMin f x d n y = lTMin := by
  obtain ⟨h1, h2, h3⟩ := crossings_spec d n
  have hk : (crossings d n).2 ≤ 0 := by
    rcases h3 with ⟨ha, -⟩ | ⟨k, j, ha, hb, hc, hd, -⟩
    · rw [ha]; norm_num
    · rw [ha]
      have hlen : k < (crossings d n).1.length := (List.getElem?_eq_some_iff.1 hb).1
      have hle : (crossings d n).1.length ≤ 1 := by
        by_contra hlt
        push Not at hlt
        have e0 := List.pairwise_iff_getElem.1 h1 0 1 (by omega) hlt (by norm_num)
        have m0 := (h2 _).1 (List.getElem_mem (l := (crossings d n).1) (n := 0) (by omega))
        have m1 := (h2 _).1 (List.getElem_mem (l := (crossings d n).1) (n := 1) hlt)
        have := hone _ m0.1 m0.2
        have := hone _ m1.1 m1.2
        omega
      have : k = 0 := by omega
      subst this; simp
  simp only [coldCrit, hk, if_true, max_self]

/-- The hypotheses of `C89_single_crossing_violated` are met: `sie - sieCold = i - 3/2` on five grid points. -/
example : (∀ j, j < 5 - 1 → SignChange (fun i : Nat => (i : ℚ) - 3 / 2) j → j = 1) ∧
    (((1 : Nat) : ℚ) - 3 / 2 < 0 ∧ 0 < (((1 + 1 : Nat) : ℚ) - 3 / 2)) := by
  refine ⟨fun j hj h => ?_, by norm_num⟩
  rcases h with ⟨h1, h2⟩ | ⟨h1, h2⟩
  · have a : (j : ℚ) < 2 := by linarith
    have b : (0 : ℚ) < j := by push_cast at h2; linarith
    have : j < 2 := by exact_mod_cast a
    have : 0 < j := by exact_mod_cast b
    omega
  · push_cast at h2; linarith

end field

/-! ## Inversions on the table -/

/-- The root finder stopped because its two working residuals were at most `thr` (they are halved as it goes, so this
alone does not bound the distance to a root: `C61_success_without_convergence_violated`). -/
def StoppedOnResidual (thr : ℝ) (f : ℝ → ℝ) (y guess a b : ℝ) : Prop :=
  ∃ r s, regulaFalsi 1000 f y guess a b thr thr = some (r, some s) ∧ |s.ya| ≤ thr ∧ |s.yb| ≤ thr

theorem invert_success {thr : ℝ} (hthr : 0 ≤ thr) {f : ℝ → ℝ} {y guess a b fb x : ℝ} (h1 : a ≤ guess) (h2 : guess ≤ b)
    (hf : ContinuousOn f (Set.Icc a b)) (hbr : (f a - y) * (f b - y) ≤ 0)
    (h : invert thr f y guess a b fb = (.success, x)) :
    a ≤ x ∧ x ≤ b ∧
    ((∃ r ∈ Set.Icc a b, f r = y ∧ |x - r| ≤ thr) ∨ StoppedOnResidual thr f y guess a b) := by
  obtain ⟨st, xr, s, r, he, hr, hrs, hd, hw⟩ := C08_regulaFalsi_near_true_root f y guess a b thr thr hthr hthr h1 h2 hf hbr
  obtain ⟨st', xr', s', he', hxr, ha, hax, hxb, hb, -, -, -⟩ :=
    C08_regulaFalsi_keeps_bracket f y guess a b thr thr hthr hthr h1 h2 (Or.inl hbr)
  rw [he] at he'
  simp only [Option.some.injEq, Prod.mk.injEq, Res.mk.injEq] at he'
  obtain ⟨⟨rfl, rfl⟩, rfl⟩ := he'
  unfold invert at h
  rw [he] at h
  have hst : st = .success := by cases st with
    | success => rfl
    | fail => simp at h
  subst hst
  simp only [Prod.mk.injEq, true_and] at h
  subst h
  obtain ⟨-, -, -, hs⟩ := C08_regulaFalsi_always_sign_change 1000 f y guess a b thr thr hthr hthr h1 h2 _ s he
  refine ⟨ha.trans hax, hxb.trans hb, ?_⟩
  rcases hs rfl with hs | hs
  · exact Or.inl ⟨r, ⟨ha.trans hrs.1, hrs.2.trans hb⟩, hr, hw hs⟩
  · exact Or.inr ⟨_, s, he, hs.1, hs.2⟩

theorem guess_mem {K : Type*} [Field K] [LinearOrder K] {c a b d : K} (h1 : a ≤ d) (h2 : d ≤ b) :
    a ≤ guessOf c a b d ∧ guessOf c a b d ≤ b := by
  unfold guessOf; split_ifs with h
  · exact h
  · exact ⟨h1, h2⟩

theorem invert_example : invert (1 / 10 ^ 14) (fun x : ℝ => 2 * x) 4 (3 / 2) 0 3 (3 / 2) = (.success, 2) := by
  have hi : initBracket (fun x : ℝ => 2 * x - 4) (3 / 2) 0 3 = some ⟨3 / 2, 3, -1, 2⟩ := by
    norm_num [initBracket, checkBracket]
  have hst : rfStart (K := ℝ) ⟨3 / 2, 3, -1, 2⟩ = (1, ⟨3 / 2, 3, -1, 2, 0, 0, 0⟩) := by norm_num [rfStart]
  have hc : rfCond (K := ℝ) (1 / 10 ^ 14) (1 / 10 ^ 14) ⟨3 / 2, 3, -1, 2, 0, 0, 0⟩ := by norm_num [rfCond]
  have hbd : rfBody (fun x : ℝ => 2 * x - 4) 1 ⟨3 / 2, 3, -1, 2, 0, 0, 0⟩ = ⟨2, 2, -1, 2, 0, 0, 1⟩ := by
    norm_num [rfBody]
  have hnc : ¬ rfCond (K := ℝ) (1 / 10 ^ 14) (1 / 10 ^ 14) ⟨2, 2, -1, 2, 0, 0, 1⟩ := by norm_num [rfCond]
  have hr : regulaFalsi 1000 (fun x : ℝ => 2 * x) 4 (3 / 2) 0 3 (1 / 10 ^ 14) (1 / 10 ^ 14)
        = some (⟨.success, some 2⟩, some ⟨2, 2, -1, 2, 0, 0, 1⟩) := by
    unfold regulaFalsi
    simp only [hi, hst]
    rw [show (1000 : Nat) = 999 + 1 from rfl, rfLoop, if_pos hc, hbd, rfLoop_stop hnc]
    norm_num
  simp only [invert, hr]

/-- C85 (missing: convergence when the root finder stops on its residuals, and energies that no temperature of the table
has, see the next theorem): on the table, for an isochore that is continuous in the log temperature and takes the energy
between its ends, a successful inversion returns a temperature of the table within the threshold of one with exactly
that energy, whatever the lambda cache holds; if moreover the isochore is Lipschitz with constant `L`, its energy there is
within `L` thresholds of the one asked for. -/
theorem C85_table_partial (t : Tab ℝ) (hthr : 0 ≤ t.thr) (hlt : t.lTMin ≤ t.lTMax) {rho e : ℝ} (c : ℝ)
    (hloc : locE t (t.lRho rho) e = .onTable)
    (hcont : ContinuousOn (t.sie (t.lRho rho)) (Set.Icc t.lTMin t.lTMax))
    (hbr : t.sie (t.lRho rho) t.lTMin ≤ e ∧ e ≤ t.sie (t.lRho rho) t.lTMax)
    (hok : (lTOfE t c (t.lRho rho) e).status = .success) :
    let lT := (lTOfE t c (t.lRho rho) e).x
    query t .tRE c rho e = t.T lT ∧ lT ∈ Set.Icc t.lTMin t.lTMax ∧
    ((∃ r ∈ Set.Icc t.lTMin t.lTMax, t.sie (t.lRho rho) r = e ∧ |lT - r| ≤ t.thr ∧
        ∀ L, (∀ u ∈ Set.Icc t.lTMin t.lTMax, ∀ v ∈ Set.Icc t.lTMin t.lTMax,
          |t.sie (t.lRho rho) u - t.sie (t.lRho rho) v| ≤ L * |u - v|) → 0 ≤ L →
          |t.sie (t.lRho rho) lT - e| ≤ L * t.thr) ∨
      ∃ g ∈ Set.Icc t.lTMin t.lTMax, StoppedOnResidual t.thr (t.sie (t.lRho rho)) e g t.lTMin t.lTMax) := by
  intro lT
  set g := guessOf c t.lTMin t.lTMax (if t.repro then t.lTMin else 1 / 2 * (t.lTMin + t.lTMax)) with hg
  have hgm : t.lTMin ≤ g ∧ g ≤ t.lTMax := by
    refine guess_mem ?_ ?_ <;> split_ifs <;> linarith
  have hx : lTOfE t c (t.lRho rho) e =
      ⟨(invert t.thr (t.sie (t.lRho rho)) e g t.lTMin t.lTMax (if t.repro then t.lTMin else g)).2, .onTable,
       (invert t.thr (t.sie (t.lRho rho)) e g t.lTMin t.lTMax (if t.repro then t.lTMin else g)).1⟩ := by
    simp only [lTOfE, hloc, ← hg]
  rw [hx] at hok
  obtain ⟨q1, q2, q3⟩ := invert_success hthr hgm.1 hgm.2 hcont
    (mul_nonpos_of_nonpos_of_nonneg (by linarith [hbr.1]) (by linarith [hbr.2]))
    (show invert t.thr (t.sie (t.lRho rho)) e g t.lTMin t.lTMax (if t.repro then t.lTMin else g) = (.success, lT) from
      Prod.ext hok (by change _ = (lTOfE t c (t.lRho rho) e).x; rw [hx]))
  refine ⟨rfl, ⟨q1, q2⟩, ?_⟩
  rcases q3 with ⟨r, hr, hre, hrd⟩ | h
  · refine Or.inl ⟨r, hr, hre, hrd, fun L hL hL0 => ?_⟩
    have := hL lT ⟨q1, q2⟩ r hr
    rw [hre] at this
    exact this.trans (mul_le_mul_of_nonneg_left hrd hL0)
  · exact Or.inr ⟨g, hgm, h⟩

/-- A table with `e = 2 T` on isochores and `P = 2 rho` on isotherms, identity log conversions. -/
noncomputable def linTab : Tab ℝ where
  lRho := id
  rho := id
  lT := id
  T := id
  P := fun r _ => 2 * r
  sie := fun _ T => 2 * T
  bMod := fun _ _ => 1
  dPdE := fun _ _ => 1
  dEdT := fun _ _ => 2
  PCold := fun r => 2 * r
  sieCold := fun _ => -1
  bModCold := fun _ => 1
  dPdECold := fun _ => 1
  dEdTCold := fun _ => 2
  PMax := fun r => 2 * r
  dEdTMax := fun _ => 2
  gm1Max := fun _ => 1
  sielTMax := fun _ => 6
  rhoAtPmin := fun _ => 0
  lTMin := 0
  lTMax := 3
  lRhoMax := 3
  TMax := 3
  eps := 1 / 10 ^ 10
  thr := 1 / 10 ^ 14
  soft := 1 / 10 ^ 8
  σ := 0
  repro := false

/-- The hypotheses of `C85_table_partial` (and `C91_on_table_converged`) are met. -/
example : 0 ≤ linTab.thr ∧ linTab.lTMin ≤ linTab.lTMax ∧ locE linTab (linTab.lRho 1) 4 = .onTable ∧
    ContinuousOn (linTab.sie (linTab.lRho 1)) (Set.Icc linTab.lTMin linTab.lTMax) ∧
    StrictMonoOn (linTab.sie (linTab.lRho 1)) (Set.Icc linTab.lTMin linTab.lTMax) ∧
    (linTab.sie (linTab.lRho 1) linTab.lTMin ≤ 4 ∧ 4 ≤ linTab.sie (linTab.lRho 1) linTab.lTMax) ∧
    (lTOfE linTab (-1) (linTab.lRho 1) 4).status = .success := by
  have hl : locE linTab (linTab.lRho 1) 4 = .onTable := by norm_num [locE, linTab]
  refine ⟨by norm_num [linTab], by norm_num [linTab], hl, ?_, ?_, by norm_num [linTab], ?_⟩
  · exact (continuous_const.mul continuous_id).continuousOn
  · intro x _ y _ h; simp only [linTab]; linarith
  · simp only [lTOfE, hl]
    have : guessOf (-1) linTab.lTMin linTab.lTMax (if linTab.repro then linTab.lTMin
        else 1 / 2 * (linTab.lTMin + linTab.lTMax)) = 3 / 2 := by norm_num [guessOf, linTab]
    rw [this]
    change (invert (1 / 10 ^ 14) (fun x : ℝ => 2 * x) 4 (3 / 2) 0 3 (3 / 2)).1 = _
    rw [invert_example]

/-- C85, C91 fail for an energy between the cold curve and the lowest isotherm: the state counts as on the table, the
inversion fails, and the temperature returned is the one cached in `lambda`, so it depends on the history of calls. -/
theorem C85_below_lowest_isotherm_violated :
    ∃ (t : Tab ℚ) (rho e : ℚ), locE t (t.lRho rho) e = .onTable ∧ t.sieCold (t.lRho rho) < e ∧
      (∀ x, e < t.sie (t.lRho rho) x) ∧
      query t .tRE (5 / 4) rho e = 5 / 4 ∧ query t .tRE (7 / 4) rho e = 7 / 4 :=
  ⟨{ toy 1 2 with sie := fun _ T => T * T + 2, sielTMax := fun _ => 6 }, 1, 3 / 2, by decide +kernel, by decide +kernel,
    fun x => by simp only [toy, id]; nlinarith [mul_self_nonneg x], by decide +kernel, by decide +kernel⟩

/-! ## C86: density from pressure and temperature -/

/-- C86 (missing: as for C85, and temperatures above the table, see below): on the table, for an isotherm continuous in
the log density that takes the pressure between its ends, a successful inversion returns a density of the table whose
log is within the threshold of one with exactly that pressure; below the table the same holds on the cold curve. -/
theorem C86_table_partial (t : Tab ℝ) (hthr : 0 ≤ t.thr) {P T : ℝ} (c : ℝ)
    (f : ℝ → ℝ) (hlT : (t.lT T ≤ t.lTMin ∧ f = t.PCold) ∨ (t.lTMin < t.lT T ∧ t.lT T < t.lTMax ∧ f = fun x => t.P x (t.lT T)))
    (hab : t.lRho (t.rhoAtPmin (t.lT T)) ≤ t.lRhoMax)
    (hcont : ContinuousOn f (Set.Icc (t.lRho (t.rhoAtPmin (t.lT T))) t.lRhoMax))
    (hbr : f (t.lRho (t.rhoAtPmin (t.lT T))) ≤ P ∧ P ≤ f t.lRhoMax)
    (hok : (lRhoOfPT t c P (t.lT T)).status = .success) :
    let lR := (lRhoOfPT t c P (t.lT T)).x
    (dePT t c P T).1 = t.rho lR ∧ lR ∈ Set.Icc (t.lRho (t.rhoAtPmin (t.lT T))) t.lRhoMax ∧
    ((∃ r ∈ Set.Icc (t.lRho (t.rhoAtPmin (t.lT T))) t.lRhoMax, f r = P ∧ |lR - r| ≤ t.thr) ∨
      ∃ g, StoppedOnResidual t.thr f P g (t.lRho (t.rhoAtPmin (t.lT T))) t.lRhoMax) := by
  intro lR
  set a := t.lRho (t.rhoAtPmin (t.lT T)) with ha
  set g := guessOf c a t.lRhoMax (if t.repro then t.lRhoMax else 1 / 2 * (a + t.lRhoMax)) with hg
  have hgm : a ≤ g ∧ g ≤ t.lRhoMax := by
    refine guess_mem ?_ ?_ <;> split_ifs <;> linarith
  obtain ⟨loc, hx⟩ : ∃ loc, lRhoOfPT t c P (t.lT T) =
      ⟨(invert t.thr f P g a t.lRhoMax (if t.repro then t.lRhoMax else g)).2, loc,
       (invert t.thr f P g a t.lRhoMax (if t.repro then t.lRhoMax else g)).1⟩ := by
    rcases hlT with ⟨h1, rfl⟩ | ⟨h1, h2, rfl⟩
    · exact ⟨.offBottom, by simp only [lRhoOfPT, h1, if_true, ← ha, ← hg]⟩
    · exact ⟨.onTable, by
        simp only [lRhoOfPT, not_le.2 h1, if_false, ge_iff_le, not_le.2 h2, ← ha, ← hg]⟩
  rw [hx] at hok
  obtain ⟨q1, q2, q3⟩ := invert_success hthr hgm.1 hgm.2 hcont
    (mul_nonpos_of_nonpos_of_nonneg (by linarith [hbr.1]) (by linarith [hbr.2]))
    (show invert t.thr f P g a t.lRhoMax (if t.repro then t.lRhoMax else g) = (.success, lR) from
      Prod.ext hok (by change _ = (lRhoOfPT t c P (t.lT T)).x; rw [hx]))
  exact ⟨rfl, ⟨q1, q2⟩, q3.imp_right fun h => ⟨g, h⟩⟩

/-- The hypotheses of `C86_table_partial` are met. -/
example : 0 ≤ linTab.thr ∧ linTab.lTMin < linTab.lT 1 ∧ linTab.lT 1 < linTab.lTMax ∧
    linTab.lRho (linTab.rhoAtPmin (linTab.lT 1)) ≤ linTab.lRhoMax ∧
    (linTab.P (linTab.lRho (linTab.rhoAtPmin (linTab.lT 1))) 1 ≤ 4 ∧ 4 ≤ linTab.P linTab.lRhoMax 1) ∧
    (lRhoOfPT linTab (-1) 4 (linTab.lT 1)).status = .success := by
  refine ⟨by norm_num [linTab], by norm_num [linTab], by norm_num [linTab], by norm_num [linTab],
    by norm_num [linTab], ?_⟩
  have h1 : ¬ linTab.lT 1 ≤ linTab.lTMin := by norm_num [linTab]
  have h2 : ¬ linTab.lT 1 ≥ linTab.lTMax := by norm_num [linTab]
  simp only [lRhoOfPT, h1, h2, if_false]
  have : guessOf (-1) (linTab.lRho (linTab.rhoAtPmin (linTab.lT 1))) linTab.lRhoMax (if linTab.repro then linTab.lRhoMax
      else 1 / 2 * (linTab.lRho (linTab.rhoAtPmin (linTab.lT 1)) + linTab.lRhoMax)) = 3 / 2 := by
    norm_num [guessOf, linTab]
  rw [this]
  change (invert (1 / 10 ^ 14) (fun x : ℝ => 2 * x) 4 (3 / 2) 0 3 (3 / 2)).1 = _
  rw [invert_example]

/-- An ideal-gas table with real logarithms: `gm1 = Cv = 1`, `e = T`, `P = rho T`, `log10 T <= 1`, `0 <= log10 rho <= 3`. -/
noncomputable def idealTab : Tab ℝ where
  lRho := Real.logb 10
  rho := fun y => 10 ^ y
  lT := Real.logb 10
  T := fun y => 10 ^ y
  P := fun r T => 10 ^ r * 10 ^ T
  sie := fun _ T => 10 ^ T
  bMod := fun r T => 2 * 10 ^ r * 10 ^ T
  dPdE := fun r _ => 10 ^ r
  dEdT := fun _ _ => 1
  PCold := fun _ => 0
  sieCold := fun _ => 0
  bModCold := fun _ => 0
  dPdECold := fun r => 10 ^ r
  dEdTCold := fun _ => 1
  PMax := fun r => 10 ^ r * 10
  dEdTMax := fun _ => 1
  gm1Max := fun _ => 1
  sielTMax := fun _ => 10
  rhoAtPmin := fun _ => 1
  lTMin := 0
  lTMax := 1
  lRhoMax := 3
  TMax := 10
  eps := 1 / 10 ^ 10
  thr := 1 / 10 ^ 14
  soft := 1 / 10 ^ 8
  σ := 0
  repro := false

/-- C86 fails above the table: the function inverted there multiplies the logs of temperature and density instead of the
temperature and the density. For an ideal gas with `P = rho T` the density found for `P = 4`, `T = 100` is 100, with
success reported, and the pressure there is 10000. -/
theorem C86_above_table_violated :
    (lRhoOfPT idealTab (-1) 4 (idealTab.lT 100)).status = .success ∧
    (dePT idealTab (-1) 4 100).1 = 100 ∧ query idealTab .pRT (-1) 100 100 = 10000 := by
  have hl : Real.logb 10 100 = 2 := by
    rw [show (100 : ℝ) = 10 ^ (2 : ℝ) by norm_num]; exact Real.logb_rpow (by norm_num) (by norm_num)
  have hf : prodInterp (fun _ : ℝ => (1 : ℝ)) (fun _ => 1) 2 = fun x => 2 * x := by
    funext x; unfold prodInterp; ring
  have hinv := invert_example
  have hL : lRhoOfPT idealTab (-1) 4 2 = ⟨2, .offTop, .success⟩ := by
    have h0 : Real.logb 10 1 = 0 := Real.logb_one
    simp only [lRhoOfPT, idealTab, h0, guessOf]
    norm_num
    rw [hf]
    norm_num
    rw [show (1 / 100000000000000 : ℝ) = 1 / 10 ^ 14 by norm_num, hinv]
    exact ⟨rfl, rfl⟩
  have hlT : idealTab.lT 100 = 2 := hl
  refine ⟨by rw [hlT, hL], ?_, ?_⟩
  · change idealTab.rho (lRhoOfPT idealTab (-1) 4 (idealTab.lT 100)).x = 100
    rw [hlT, hL]
    change (10 : ℝ) ^ (2 : ℝ) = 100
    norm_num
  · simp only [query, idealTab, hl, locT, pAt]
    norm_num

/-- C86, C91: a pressure the isotherm does not reach gives back the density cached in `lambda`, without any sign of
failure in the result. -/
theorem C86_unreachable_pressure_violated :
    ∃ (t : Tab ℚ) (P T : ℚ), (∀ x, t.P x (t.lT T) < P) ∧ (∀ x, t.PCold x < P) ∧
      (dePT t 1 P T).1 = 1 ∧ (dePT t 2 P T).1 = 2 :=
  ⟨{ toy 1 2 with P := fun _ _ => 0, PCold := fun _ => 0 }, 1, 3 / 2, fun _ => (by norm_num : (0 : ℚ) < 1),
    fun _ => (by norm_num : (0 : ℚ) < 1), by decide +kernel, by decide +kernel⟩

/-! ## C91: the lambda cache -/

/-- C91: queries by temperature do not depend on what is in `lambda`; neither do queries by energy for states off the
table. -/
theorem C91_off_table {K : Type*} [Field K] [LinearOrder K] (t : Tab K) (k : Q) (c c' rho y : K)
    (h : k.byEnergy = false ∨ locE t (t.lRho rho) y ≠ .onTable) : query t k c rho y = query t k c' rho y := by
  rcases h with h | h
  · cases k <;> simp [Q.byEnergy] at h <;> rfl
  · have : lTOfE t c (t.lRho rho) y = lTOfE t c' (t.lRho rho) y := by
      unfold lTOfE
      cases hl : locE t (t.lRho rho) y with
      | onTable => exact absurd hl h
      | offBottom => rfl
      | offTop => rfl
    simp only [query, this]

/-- C91: on the table, for an isochore strictly increasing in
the log temperature, two converged inversions with different caches agree within twice the threshold. -/
theorem C91_on_table_converged (t : Tab ℝ) (hthr : 0 ≤ t.thr) (hlt : t.lTMin ≤ t.lTMax) {rho e : ℝ} (c c' : ℝ)
    (hloc : locE t (t.lRho rho) e = .onTable)
    (hcont : ContinuousOn (t.sie (t.lRho rho)) (Set.Icc t.lTMin t.lTMax))
    (hmono : StrictMonoOn (t.sie (t.lRho rho)) (Set.Icc t.lTMin t.lTMax))
    (hbr : t.sie (t.lRho rho) t.lTMin ≤ e ∧ e ≤ t.sie (t.lRho rho) t.lTMax)
    (hres : ∀ g, ¬ StoppedOnResidual t.thr (t.sie (t.lRho rho)) e g t.lTMin t.lTMax)
    (hok : (lTOfE t c (t.lRho rho) e).status = .success) (hok' : (lTOfE t c' (t.lRho rho) e).status = .success) :
    |(lTOfE t c (t.lRho rho) e).x - (lTOfE t c' (t.lRho rho) e).x| ≤ 2 * t.thr := by
  obtain ⟨-, -, h1⟩ := C85_table_partial t hthr hlt c hloc hcont hbr hok
  obtain ⟨-, -, h2⟩ := C85_table_partial t hthr hlt c' hloc hcont hbr hok'
  rcases h1 with ⟨r, hr, hre, hrd, -⟩ | ⟨g, -, h⟩
  · rcases h2 with ⟨r', hr', hre', hrd', -⟩ | ⟨g, -, h⟩
    · have : r = r' := hmono.injOn hr hr' (hre.trans hre'.symm)
      subst this
      rw [abs_le] at *
      constructor <;> linarith [hrd.1, hrd.2, hrd'.1, hrd'.2]
    · exact absurd h (hres g)
  · exact absurd h (hres g)

end Verif.RhoT
