import Verif.Model.Eos.HelmholtzQuery
import Verif.Spec.HelmholtzQuery
import Verif.Spec.Expansion
import Verif.Props.Eos.HelmholtzInvert

/-! # C156: the queries of the Helmholtz EOS agree with each other, whatever was asked before -/

namespace Verif.Helm

open Verif.Robust Verif.Spec Verif.RootFind
open Verif.Mods (Q Flags Thermo RefState)

/-- The answer of a query, without the lambda it leaves. -/
noncomputable def ans (σ ε : ℝ) (m : Model) (j : Thermo ℝ) (l : Option Lam) (q : Q) (x y : ℝ) : Option ℝ :=
  (query σ ε m j q l x y).map (·.1)

/-- C156: `FillEos` aborts exactly when there is no lambda, when the density is asked for, or when both temperature and energy are. -/
theorem C156_fill_aborts (σ ε : ℝ) (m : Model) (u : ℝ) (l : Option Lam) (out : Flags) (v : Thermo ℝ) :
    fillEos σ ε m u l out v = none ↔ l = none ∨ out.rho = true ∨ (out.temp = true ∧ out.sie = true) := by
  obtain ⟨r, t, s, p, c, b⟩ := out
  cases l <;> cases r <;> cases t <;> cases s <;> simp [fillEos, mustGet]

/-- C156: otherwise it does what it should: the outputs asked for are the answers of the direct queries, everything else is left
alone. -/
theorem C156_fill (σ ε : ℝ) (m : Model) (j : Thermo ℝ) (l l' : Option Lam) (out : Flags) (v w : Thermo ℝ)
    (h : fillEos σ ε m j.temp l out v = some (w, l')) : FillsEos (ans σ ε m j l) out v w := by
  obtain ⟨r, t, s, p, c, b⟩ := out
  cases l with
  | none => cases r <;> cases t <;> cases s <;> simp [fillEos, mustGet] at h
  | some lam =>
    cases r <;> cases t <;> cases s <;> cases p <;> cases c <;> cases b <;>
    · simp [fillEos, mustGet] at h <;> (obtain ⟨rfl, -⟩ := h; constructor <;> rfl)

/-- C156: with a lambda every query answers, without one every query aborts. -/
theorem C156_answers (σ ε : ℝ) (m : Model) (j : Thermo ℝ) (l : Option Lam) (q : Q) (x y : ℝ) :
    ans σ ε m j l q x y = none ↔ l = none := by
  cases l <;> cases q <;> simp [ans, query, fillEos, fromRT, fromRE, mustGet, noOut]

/-- C156: a query by density and energy is the query by density and temperature at the temperature that
`TemperatureFromDensityInternalEnergy` returns for the same arguments. -/
theorem C156_by_energy (σ ε : ℝ) (m : Model) (j j' : Thermo ℝ) (l : Option Lam) (q q' : Q) (hq : byTemperature q = some q')
    (rho e T : ℝ) (hT : ans σ ε m j l .tRE rho e = some T) : ans σ ε m j l q rho e = ans σ ε m j' l q' rho T := by
  cases l with
  | none => cases q <;> simp [ans, query, fillEos, mustGet, noOut] at hT
  | some lam =>
    cases q <;> simp only [byTemperature, Option.some.injEq, reduceCtorEq] at hq <;> subst hq <;>
    · simp [ans, query, fillEos, mustGet, noOut] at hT
      subst hT
      rfl

/-- C156: queries by temperature depend only on the composition in the lambda, and not on uninitialised memory. -/
theorem by_temperature (σ ε : ℝ) (m : Model) (j j' : Thermo ℝ) (a b : Lam) (ha : a.abar = b.abar) (hz : a.zbar = b.zbar) (q : Q)
    (hq : q.byEnergy = false) (x y : ℝ) : ans σ ε m j (some a) q x y = ans σ ε m j' (some b) q x y := by
  obtain ⟨aa, az, at'⟩ := a
  obtain ⟨ba, bz, bt⟩ := b
  simp only at ha hz
  subst ha hz
  cases q <;> simp only [Q.byEnergy, reduceCtorEq] at hq <;> rfl

/-- One call leaves the composition alone, and writes the log-temperature entry only if there is one. -/
theorem lamAfter_same (σ ε : ℝ) (m : Model) (j : Thermo ℝ) (c : Call) (a : Lam) (l : Option Lam)
    (h : c.lamAfter σ ε m j (some a) = some l) :
    ∃ b, l = some b ∧ b.abar = a.abar ∧ b.zbar = a.zbar ∧ (a.lT = none → b = a) := by
  have hf : ∀ (a : Lam) u out v w l, fillEos σ ε m u (some a) out v = some (w, l) →
      ∃ b, l = some b ∧ b.abar = a.abar ∧ b.zbar = a.zbar ∧ (a.lT = none → b = a) := by
    intro a u out v w l h
    obtain ⟨r, t, s, p, c, b⟩ := out
    cases r <;> cases t <;> cases s <;> simp [fillEos, mustGet] at h
    all_goals
      obtain ⟨-, rfl⟩ := h
      refine ⟨_, rfl, rfl, rfl, fun hn => ?_⟩
      try simp [hn]
    all_goals
      obtain ⟨x, y, z⟩ := a
      simp only at hn
      subst hn
      rfl
  have hq : ∀ (a : Lam) q x y r l, query σ ε m j q (some a) x y = some (r, l) →
      ∃ b, l = some b ∧ b.abar = a.abar ∧ b.zbar = a.zbar ∧ (a.lT = none → b = a) := by
    intro a q x y r l h
    cases q <;> simp only [query, Option.map_eq_some_iff, Prod.mk.injEq] at h
    all_goals first
      | (obtain ⟨⟨w, l1⟩, h1, -, rfl⟩ := h; exact hf a _ _ _ _ _ h1)
      | (obtain ⟨g, h1, -, rfl⟩ := h; exact ⟨a, rfl, rfl, rfl, fun _ => rfl⟩)
  cases c with
  | query q x y =>
    simp only [Call.lamAfter, Option.map_eq_some_iff] at h
    obtain ⟨⟨r, l1⟩, h1, rfl⟩ := h
    exact hq a q x y r l1 h1
  | fill out v =>
    simp only [Call.lamAfter, Option.map_eq_some_iff] at h
    obtain ⟨⟨r, l1⟩, h1, rfl⟩ := h
    exact hf a _ _ _ _ _ h1
  | ref =>
    simp only [Call.lamAfter, Option.map_eq_some_iff] at h
    obtain ⟨⟨r, l1⟩, h1, rfl⟩ := h
    simp only [refState, Option.bind_eq_bind, Option.bind_eq_some_iff] at h1
    obtain ⟨⟨w, l2⟩, e1, ⟨g, l3⟩, e2, e3⟩ := h1
    simp only [Option.some.injEq, Prod.mk.injEq] at e3
    obtain ⟨-, rfl⟩ := e3
    obtain ⟨b, rfl, b1, b2, b3⟩ := hf a _ _ _ _ _ e1
    obtain ⟨d, rfl, d1, d2, d3⟩ := hq b _ _ _ _ _ e2
    exact ⟨d, rfl, d1.trans b1, d2.trans b2, fun hn => by rw [d3 (by rw [b3 hn]; exact hn), b3 hn]⟩
  | pt P T =>
    simp only [Call.lamAfter, Option.map_eq_some_iff] at h
    obtain ⟨⟨r, e, l1⟩, h1, rfl⟩ := h
    simp only [rhoSiePT, mustGet, Option.bind_eq_bind, Option.bind_some] at h1
    split at h1
    · split at h1
      · cases h1
      · simp only [Option.bind_eq_some_iff] at h1
        obtain ⟨⟨g, l3⟩, e2, e3⟩ := h1
        simp only [Option.some.injEq, Prod.mk.injEq] at e3
        obtain ⟨rfl, rfl, rfl⟩ := e3
        exact hq a _ _ _ _ _ e2
    · cases h1

/-- **C156.** Whatever calls were made on the same lambda before, of any kind, in any number and order, as long as none aborted: the
composition entries are still what they were, and every query by density and temperature answers what it would have answered at the
start.  If the lambda has no log-temperature entry this is so for every query, since the lambda is as it was. -/
theorem C156_history (σ ε : ℝ) (m : Model) (cs : List (Thermo ℝ × Call)) (a : Lam) (l : Option Lam)
    (h : runCalls σ ε m cs (some a) = some l) :
    (∃ b, l = some b ∧ b.abar = a.abar ∧ b.zbar = a.zbar) ∧
    (∀ (j j' : Thermo ℝ) (q : Q), q.byEnergy = false → ∀ x y, ans σ ε m j l q x y = ans σ ε m j' (some a) q x y) ∧
    (a.lT = none → l = some a) := by
  have key : ∃ b, l = some b ∧ b.abar = a.abar ∧ b.zbar = a.zbar ∧ (a.lT = none → b = a) := by
    induction cs generalizing a with
    | nil =>
      simp only [runCalls, Option.some.injEq] at h
      exact ⟨a, h.symm, rfl, rfl, fun _ => rfl⟩
    | cons c cs ih =>
      obtain ⟨j, c⟩ := c
      simp only [runCalls, Option.bind_eq_bind, Option.bind_eq_some_iff] at h
      obtain ⟨l1, h1, h2⟩ := h
      obtain ⟨b, rfl, b1, b2, b3⟩ := lamAfter_same σ ε m j c a l1 h1
      obtain ⟨d, rfl, d1, d2, d3⟩ := ih b h2
      exact ⟨d, rfl, d1.trans b1, d2.trans b2, fun hn => by rw [d3 (by rw [b3 hn]; exact hn), b3 hn]⟩
  obtain ⟨b, rfl, b1, b2, b3⟩ := key
  exact ⟨⟨b, rfl, b1, b2⟩, fun j j' q hq x y => by_temperature σ ε m j j' b a b1 b2 q hq x y, fun hn => by rw [b3 hn]⟩

/-- **C156 violated** for queries by energy, on a lambda with a log-temperature entry: once the energy, pressure, heat capacity or bulk
modulus has been asked for at a temperature `T`, every query by density and energy answers for `T`, whatever density it is asked at
and whatever the energy. -/
theorem C156_energy_after_temperature_violated (σ ε : ℝ) (m : Model) (j j' j'' : Thermo ℝ) (a : Lam) (ha : a.lT ≠ none) (q0 : Q)
    (h0 : q0 = .eRT ∨ q0 = .pRT ∨ q0 = .cvRT ∨ q0 = .bRT) (rho0 T v : ℝ) (l : Option Lam) (hT : 0 < T)
    (h : query σ ε m j q0 (some a) rho0 T = some (v, l)) (rho e : ℝ) :
    ans σ ε m j' l .tRE rho e = some T ∧
    ∀ q q', byTemperature q = some q' → ans σ ε m j' l q rho e = ans σ ε m j'' (some a) q' rho T := by
  obtain ⟨x, y, z⟩ := a
  obtain ⟨z, rfl⟩ := Option.ne_none_iff_exists'.1 ha
  have hl : l = some ⟨x, y, some (log10 T)⟩ := by
    rcases h0 with rfl | rfl | rfl | rfl <;>
    · simp [query, fillEos, mustGet, noOut] at h
      exact h.2.symm
  subst hl
  have ht : ans σ ε m j' (some ⟨x, y, some (log10 T)⟩) .tRE rho e = some T := by
    have : pow10 (lTFromRhoSie σ m rho e j'.temp ⟨x, y, some (log10 T)⟩) = T := by
      simp only [lTFromRhoSie, safeGet, Option.getD_some]
      exact pow10_log10 hT
    simp [ans, query, fillEos, mustGet, noOut, this]
  refine ⟨ht, fun q q' hq => ?_⟩
  rw [C156_by_energy σ ε m j' j'' _ q q' hq rho e T ht]
  exact by_temperature σ ε m j'' j'' ⟨x, y, some (log10 T)⟩ ⟨x, y, some z⟩ rfl rfl q' (by
    cases q <;> simp only [byTemperature, Option.some.injEq, reduceCtorEq] at hq <;> subst hq <;> rfl) rho T

/-- C156: the queries by temperature return the quantities whose laws are C77-C81, and the temperature query is that of C80. -/
theorem C156_values (σ ε : ℝ) (m : Model) (j : Thermo ℝ) (a : Lam) (x y : ℝ) :
    ans σ ε m j (some a) .eRT x y = some (atRT σ ε m a x y).e ∧ ans σ ε m j (some a) .pRT x y = some (atRT σ ε m a x y).p ∧
    ans σ ε m j (some a) .cvRT x y = some (atRT σ ε m a x y).cv ∧ ans σ ε m j (some a) .bRT x y = some (atRT σ ε m a x y).bmod ∧
    ans σ ε m j (some a) .gRT x y = some (atRT σ ε m a x y).grun ∧ ans σ ε m j (some a) .sRT x y = some (atRT σ ε m a x y).s ∧
    ans σ ε m j (some a) .tRE x y = some (tempFromRhoSie σ m x y j.temp a) :=
  ⟨rfl, rfl, rfl, rfl, rfl, rfl, rfl⟩

/-! ## The reference state -/

/-- C156: the reference state is a state of the EOS at density `1e7` and temperature `1.5e9`: the energy, pressure, heat capacity and
bulk modulus are the direct queries there, and `dp/de` is the Gruneisen parameter times the density. -/
theorem C156_reference (σ ε : ℝ) (m : Model) (j : Thermo ℝ) (a : Lam) :
    ∃ s l, refState σ ε m j (some a) = some (s, l) ∧ s.rho = 10 ^ 7 ∧ s.temp = 3 / 2 * 10 ^ 9 ∧
      ans σ ε m j (some a) .eRT s.rho s.temp = some s.sie ∧ ans σ ε m j (some a) .pRT s.rho s.temp = some s.press ∧
      ans σ ε m j (some a) .cvRT s.rho s.temp = some s.cv ∧ ans σ ε m j (some a) .bRT s.rho s.temp = some s.bmod ∧
      ∃ g, ans σ ε m j (some a) .gRT s.rho s.temp = some g ∧ s.dpde = g * s.rho ∧ s.dvdt = 0 :=
  ⟨_, _, rfl, rfl, rfl, rfl, rfl, rfl, rfl, _, rfl, rfl, rfl⟩

/-- With electrons that are not degenerate, the pressure is that of an ideal gas plus that of radiation. -/
theorem pressure_ideal (ε : ℝ) (m : Model) (a : Lam) (r T : ℝ) (ha : 0 < a.abar) (hz : 0 ≤ a.zbar)
    (hg : m.opt.gas = true) (hd : m.opt.degenerate = false) :
    (atRT 0 ε m a r T).p =
      m.c.NA * ((if m.opt.ionized then a.zbar + 1 else 1) / a.abar) * m.c.KB * T * r + (if m.opt.rad then m.A * T ^ 4 else 0) := by
  have hz1 : a.zbar + 1 ≠ 0 := by linarith
  cases hi : m.opt.ionized <;> cases hr : m.opt.rad <;>
  · simp only [atRT, getRT, ionPart, hd, hg, hi, hr, add5, zero5, ion, massFractions, dens, ratio0, rad]
    simp
    field_simp
    try ring

/-- C156 violated in the last entry: the thermal expansion `dv/dT` reported with the reference state is zero, which it is not, for every
composition, with or without radiation, with electrons that are not degenerate. -/
theorem C156_reference_expansion_violated (ε : ℝ) (m : Model) (j : Thermo ℝ) (a : Lam) (ha : 0 < a.abar) (hz : 0 ≤ a.zbar)
    (hg : m.opt.gas = true) (hd : m.opt.degenerate = false) (hN : 0 < m.c.NA) (hK : 0 < m.c.KB) (hA : 0 ≤ m.A) :
    ∃ s l, refState 0 ε m j (some a) = some (s, l) ∧
      ∀ f : Q → ℝ → ℝ → ℝ, (∀ q x y, ans 0 ε m j (some a) q x y = some (f q x y)) → ¬ Expansion f s.rho s.temp s.dvdt := by
  refine ⟨_, _, rfl, fun f hf => ?_⟩
  rintro ⟨Pr, PT, h1, h2, h3, h4⟩
  change (0 : ℝ) = PT / ((10 ^ 7) ^ 2 * Pr) at h4
  change HasDerivAt (fun t => f .pRT (10 ^ 7) t) PT (3 / 2 * 10 ^ 9) at h2
  have hp : ∀ x y, f .pRT x y = (atRT 0 ε m a x y).p := fun x y => by
    have := hf .pRT x y
    rw [(C156_values 0 ε m j a x y).2.1] at this
    exact (Option.some.inj this).symm
  have h0 : PT = 0 := by
    rcases div_eq_zero_iff.1 h4.symm with h | h
    · exact h
    · exact absurd h (mul_ne_zero (by norm_num) h3)
  set k : ℝ := m.c.NA * ((if m.opt.ionized then a.zbar + 1 else 1) / a.abar) * m.c.KB with hk
  have hkp : 0 < k := by
    have : (0 : ℝ) < (if m.opt.ionized then a.zbar + 1 else 1) := by split_ifs <;> linarith
    positivity
  set A : ℝ := if m.opt.rad then m.A else 0 with hAd
  have hA0 : 0 ≤ A := by rw [hAd]; split_ifs <;> simp [hA]
  have hfun : (fun t => f .pRT (10 ^ 7) t) = fun t => k * t * 10 ^ 7 + A * t ^ 4 := by
    funext t
    rw [hp, pressure_ideal ε m a _ t ha hz hg hd, ← hk, hAd]
    cases m.opt.rad <;> simp
  rw [hfun] at h2
  have h5 : HasDerivAt (fun t : ℝ => k * t * 10 ^ 7 + A * t ^ 4) (k * 1 * 10 ^ 7 + A * (4 * (3 / 2 * 10 ^ 9) ^ 3 * 1)) (3 / 2 * 10 ^ 9) :=
    (((hasDerivAt_id' _).const_mul k).mul_const _).add (((hasDerivAt_id' _).fun_pow 4).const_mul A |>.congr_deriv (by norm_num))
  have h6 := h2.unique h5
  rw [h0] at h6
  have : 0 < k * 1 * 10 ^ 7 + A * (4 * (3 / 2 * 10 ^ 9) ^ 3 * 1) := by positivity
  linarith

/-! ## Density and energy from pressure and temperature -/

private theorem pofRT_eq (σ ε : ℝ) (m : Model) (j : Thermo ℝ) (a : Lam) (T r : ℝ) :
    pofRT σ ε m j (some a) T r = (atRT σ ε m a r T).p := rfl

/-- C156: what `DensityEnergyFromPressureTemperature` returns, when it returns, is a non-negative density, at least the least of the
table and less than 32 times the largest, and the energy at that density and the given temperature; without a lambda it aborts. -/
theorem C156_pressure_temperature_state (σ ε : ℝ) (m : Model) (j : Thermo ℝ) (l l' : Option Lam) (P T rho e : ℝ)
    (hlo : m.tb.rhoMin ≤ 10 ^ 7) (hhi : 10 ^ 7 ≤ m.tb.rhoMax) (h : rhoSiePT σ ε m j l P T = some (rho, e, l')) :
    l ≠ none ∧ 0 ≤ rho ∧ m.tb.rhoMin ≤ rho ∧ rho ≤ m.tb.rhoMin + 63 / 2 * (m.tb.rhoMax - m.tb.rhoMin) ∧
    ans σ ε m j l .eRT rho T = some e := by
  cases l with
  | none => simp [rhoSiePT, mustGet] at h
  | some a =>
    simp only [rhoSiePT, mustGet, Option.bind_eq_bind, Option.bind_some] at h
    split at h
    · rename_i x o heq
      split at h
      · cases h
      · rename_i hx
        simp only [Option.bind_eq_some_iff] at h
        obtain ⟨⟨g, l3⟩, e2, e3⟩ := h
        simp only [Option.some.injEq, Prod.mk.injEq] at e3
        obtain ⟨rfl, rfl, rfl⟩ := e3
        obtain ⟨c1, c2⟩ := C09_root_range 1000 _ P (10 ^ 7) _ _ _ _ (by norm_num) (by norm_num) hlo hhi _ _ x heq rfl
        refine ⟨by simp, not_lt.1 hx, c1, c2.trans (max_le ?_ le_rfl), by simp [ans, e2]⟩
        linarith
    · cases h

/-- C156: let the pressure at the given temperature and composition rise with density, between any two densities of the table's range,
at least at the rate `c` and at most at the rate `C`, and let the requested pressure be that at a density `r` of the range. Then
`DensityEnergyFromPressureTemperature` returns, a density of the range within `10^-8` or `2 10^-8 / c` of `r`, with its energy,
provided `10^7` is in the range and the rates allow the root finder to finish within its 1000 iterations. -/
theorem C156_pressure_temperature (ε : ℝ) (m : Model) (j : Thermo ℝ) (a : Lam) (T r c C : ℝ) (p q : Nat)
    (h7 : m.tb.rhoMin ≤ 10 ^ 7 ∧ 10 ^ 7 ≤ m.tb.rhoMax) (h0 : 0 ≤ m.tb.rhoMin) (hc : 0 < c) (hcC : c ≤ C) (hp : C ≤ c * 2 ^ p)
    (hP : ∀ x y, m.tb.rhoMin ≤ x → x ≤ y → y ≤ m.tb.rhoMax →
      c * (y - x) ≤ (atRT 0 ε m a y T).p - (atRT 0 ε m a x T).p ∧ (atRT 0 ε m a y T).p - (atRT 0 ε m a x T).p ≤ C * (y - x))
    (hr : m.tb.rhoMin ≤ r ∧ r ≤ m.tb.rhoMax)
    (hq : (1 - c / (2 * C)) ^ q * (m.tb.rhoMax - m.tb.rhoMin) ≤ 1 / 10 ^ 8) (hpq : (p + 2) * q < 1000) :
    ∃ rho e l', rhoSiePT 0 ε m j (some a) (atRT 0 ε m a r T).p T = some (rho, e, l') ∧
      |rho - r| ≤ max (1 / 10 ^ 8) (2 * (1 / 10 ^ 8) / c) ∧ m.tb.rhoMin ≤ rho ∧ rho ≤ m.tb.rhoMax ∧
      e = (atRT 0 ε m a rho T).e := by
  obtain ⟨xr, s, e1, e2, -⟩ := C61_no_failure (pofRT 0 ε m j (some a) T) (atRT 0 ε m a r T).p (10 ^ 7) m.tb.rhoMin m.tb.rhoMax
    (1 / 10 ^ 8) (1 / 10 ^ 8) 1 c C r p q (Or.inl rfl) hc hcC hp (fun x y a b d => by
      simp only [pofRT_eq, one_mul]; exact hP x y a b d) hr.1 hr.2 (pofRT_eq 0 ε m j a T r) h7.1 h7.2 (by norm_num)
    (by norm_num) hq hpq
  obtain ⟨st, xr', s', e1', a1, a2⟩ := C09_bracketed_root_in_interval (pofRT 0 ε m j (some a) T) (atRT 0 ε m a r T).p (10 ^ 7)
    m.tb.rhoMin m.tb.rhoMax (1 / 10 ^ 8) (1 / 10 ^ 8) (by norm_num) (by norm_num) h7.1 h7.2 (Or.inl (by
      simp only [pofRT_eq]
      have h1 := (hP _ _ le_rfl hr.1 hr.2).1
      have h2 := (hP _ _ hr.1 hr.2 le_rfl).1
      have h3 : 0 ≤ c * (r - m.tb.rhoMin) := mul_nonneg hc.le (by linarith [hr.1])
      have h4 : 0 ≤ c * (m.tb.rhoMax - r) := mul_nonneg hc.le (by linarith [hr.2])
      exact mul_nonpos_of_nonpos_of_nonneg (by linarith) (by linarith)))
  rw [e1] at e1'
  simp only [Option.some.injEq, Prod.mk.injEq, Res.mk.injEq] at e1'
  obtain ⟨⟨-, hxx⟩, -⟩ := e1'
  subst hxx
  refine ⟨xr, (atRT 0 ε m a xr T).e, some (lamAfterRT a T), ?_, e2, a1, a2, rfl⟩
  simp only [rhoSiePT, mustGet, Option.bind_eq_bind, Option.bind_some, e1, if_neg (not_lt.2 (h0.trans a1))]
  rfl

/-- C156: with electrons that are not degenerate (an ideal gas, with or without radiation) `DensityEnergyFromPressureTemperature`
inverts the pressure for every density and temperature of the published table's range. -/
theorem C156_pressure_temperature_ideal (ε : ℝ) (m : Model) (j : Thermo ℝ) (a : Lam) (r T : ℝ) (ha : 0 < a.abar) (hz : 0 ≤ a.zbar)
    (hg : m.opt.gas = true) (hd : m.opt.degenerate = false) (hN : 0 < m.c.NA) (hK : 0 < m.c.KB) (hT : 0 < T)
    (hlo : m.tb.rhoMin = 1 / 10 ^ 12) (hhi : m.tb.rhoMax = 10 ^ 15) (hr : m.tb.rhoMin ≤ r ∧ r ≤ m.tb.rhoMax) :
    let c := m.c.NA * ((if m.opt.ionized then a.zbar + 1 else 1) / a.abar) * m.c.KB * T
    ∃ rho e l', rhoSiePT 0 ε m j (some a) (atRT 0 ε m a r T).p T = some (rho, e, l') ∧
      |rho - r| ≤ max (1 / 10 ^ 8) (2 * (1 / 10 ^ 8) / c) ∧ e = (atRT 0 ε m a rho T).e := by
  intro c
  have hc : 0 < c := by
    have : (0 : ℝ) < (if m.opt.ionized then a.zbar + 1 else 1) := by split_ifs <;> linarith
    positivity
  obtain ⟨rho, e, l', h1, h2, -, -, h3⟩ := C156_pressure_temperature ε m j a T r c c 0 77
    ⟨by rw [hlo]; norm_num, by rw [hhi]; norm_num⟩ (by rw [hlo]; norm_num) hc le_rfl (by simp)
    (fun x y _ _ _ => by
      rw [pressure_ideal ε m a x T ha hz hg hd, pressure_ideal ε m a y T ha hz hg hd]
      constructor <;> apply le_of_eq <;> simp only [c] <;> ring) hr
    (by
      rw [hlo, hhi, show c / (2 * c) = 1 / 2 by field_simp]
      norm_num) (by norm_num)
  exact ⟨rho, e, l', h1, h2, h3⟩

/-- The mean atomic mass and number are those of the caller's lambda. -/
theorem C156_composition (l : Option Lam) : massOf l = l.map (·.abar) ∧ numberOf l = l.map (·.zbar) := ⟨rfl, rfl⟩

/-- A Helmholtz EOS of ideal, ionised gas with radiation, on the range of the published table. -/
noncomputable def exIdeal : Model :=
  ⟨{ rad := true
     gas := true
     coul := false
     ionized := true
     degenerate := false
     newton := true }, 1, codeConsts, { exTables with
       rhoMin := 1 / 10 ^ 12
       rhoMax := 10 ^ 15
       lTMin := 3
       lTMax := 13 }⟩

/-- The hypotheses are met: carbon at density 2 and temperature `10^6`, any contents of uninitialised memory, with and without a
log-temperature entry; a history of four calls that does not abort. -/
example (j : Thermo ℝ) :
    (∃ rho e l', rhoSiePT 0 1 exIdeal j (some ⟨12, 6, none⟩) (atRT 0 1 exIdeal ⟨12, 6, none⟩ 2 (10 ^ 6)).p (10 ^ 6) = some (rho, e, l')) ∧
    (∃ s l, refState 0 1 exIdeal j (some ⟨12, 6, some 8⟩) = some (s, l) ∧ s.dvdt = 0) ∧
    (∃ v l, query 0 1 exIdeal j .pRT (some ⟨12, 6, some 8⟩) 2 (10 ^ 6) = some (v, l)) ∧
    (∃ w l, fillEos 0 1 exIdeal j.temp (some ⟨12, 6, none⟩) ⟨false, true, false, true, false, true⟩ j = some (w, l)) ∧
    (∃ l, runCalls 0 1 exIdeal [(j, .query .eRT 2 3), (j, .query .sRE 4 5), (j, .ref),
      (j, .fill ⟨false, true, false, true, true, true⟩ j)] (some ⟨12, 6, some 8⟩) = some l) := by
  refine ⟨?_, ⟨_, _, rfl, rfl⟩, ⟨_, _, rfl⟩, ⟨_, _, rfl⟩, ⟨_, rfl⟩⟩
  obtain ⟨r, e, l', h, -, -⟩ := C156_pressure_temperature_ideal 1 exIdeal j ⟨12, 6, none⟩ 2 (10 ^ 6) (by norm_num) (by norm_num) rfl rfl
    (by norm_num [exIdeal, codeConsts]) (by norm_num [exIdeal, codeConsts]) (by norm_num) rfl rfl
    ⟨by norm_num [exIdeal], by norm_num [exIdeal]⟩
  exact ⟨r, e, l', h⟩

end Verif.Helm
