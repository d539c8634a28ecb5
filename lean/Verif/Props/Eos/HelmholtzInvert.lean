import Verif.Props.Eos.HelmholtzMore
import Verif.Props.RootFindRate

/-! # C80, continued: the temperature inversion by regula falsi -/

namespace Verif.Helm

open Verif.Robust Verif.Spec Verif.RootFind

/-- The first guess of the root finds is in the range of the table, if `10^8` is. -/
theorem lTGuess_range (σ : ℝ) (m : Model) (rho e ni ne u : ℝ) (l : Lam) (h8 : m.tb.lTMin ≤ 8 ∧ 8 ≤ m.tb.lTMax) :
    m.tb.lTMin ≤ lTGuess σ m rho e ni ne u l ∧ lTGuess σ m rho e ni ne u l ≤ m.tb.lTMax := by
  unfold lTGuess; simp only
  split_ifs with h1 h2
  · exact h1
  · exact h2
  · exact h8

/-- What the root find found is what is returned, when it is in the range of the table and nothing is cached. -/
theorem tempFromRhoSie_eq {σ : ℝ} {m : Model} {rho e u x : ℝ} {l : Lam} (hl : l.lT = none)
    (hs : solveT σ m rho e l.abar l.zbar (ratio σ 1 l.abar * rho * m.c.NA)
        (l.zbar * (ratio σ 1 l.abar * rho * m.c.NA)) (pow10 (lTGuess σ m rho e (ratio σ 1 l.abar * rho * m.c.NA)
        (l.zbar * (ratio σ 1 l.abar * rho * m.c.NA)) u l)) = x)
    (h1 : pow10 m.tb.lTMin ≤ x) (h2 : x ≤ pow10 m.tb.lTMax) : tempFromRhoSie σ m rho e u l = x := by
  have hxpos : 0 < x := lt_of_lt_of_le (Real.exp_pos _) h1
  have l1 : m.tb.lTMin ≤ log10 x := by
    rw [← log10_pow10 m.tb.lTMin]
    exact div_le_div_of_nonneg_right (Real.log_le_log (Real.exp_pos _) h1) (Real.log_pos (by norm_num)).le
  have l2 : log10 x ≤ m.tb.lTMax := by
    rw [← log10_pow10 m.tb.lTMax]
    exact div_le_div_of_nonneg_right (Real.log_le_log hxpos h2) (Real.log_pos (by norm_num)).le
  unfold tempFromRhoSie lTFromRhoSie
  simp only [hs, safeGet, hl, Option.getD_none, not_lt.2 l1, if_false, not_lt.2 l2]
  exact pow10_log10 hxpos

/-- C80, regula falsi: let the energy at the given density and composition rise with temperature, between any two temperatures of
the table's range, at least at the rate `c` and at most at the rate `C`, and let the requested energy be that at a temperature `T`
of the range. If Newton-Raphson is switched off (and some contribution makes a root find necessary), then
`TemperatureFromDensityInternalEnergy` returns `T` within `10^-14` or `2 10^-14 / c`, and a temperature of the range, whatever the
uninitialised first guess, provided the lambda caches nothing, `10^8` is in the range, and the rates allow the root finder to
finish within its 1000 iterations. -/
theorem C80_regula_falsi (ε : ℝ) (m : Model) (l : Lam) (hl : l.lT = none) (rho T u c C : ℝ) (p q : Nat)
    (hopt : (m.opt.rad || m.opt.degenerate || m.opt.coul) = true) (hn : m.opt.newton = false)
    (h8 : m.tb.lTMin ≤ 8 ∧ 8 ≤ m.tb.lTMax) (hc : 0 < c) (hcC : c ≤ C) (hp : C ≤ c * 2 ^ p)
    (hE : ∀ x y, pow10 m.tb.lTMin ≤ x → x ≤ y → y ≤ pow10 m.tb.lTMax →
      c * (y - x) ≤ (atRT 0 ε m l rho y).e - (atRT 0 ε m l rho x).e ∧
      (atRT 0 ε m l rho y).e - (atRT 0 ε m l rho x).e ≤ C * (y - x))
    (hT : pow10 m.tb.lTMin ≤ T ∧ T ≤ pow10 m.tb.lTMax)
    (hq : (1 - c / (2 * C)) ^ q * (pow10 m.tb.lTMax - pow10 m.tb.lTMin) ≤ 1 / 10 ^ 14) (hpq : (p + 2) * q < 1000) :
    let t := tempFromRhoSie 0 m rho (atRT 0 ε m l rho T).e u l
    |t - T| ≤ max (1 / 10 ^ 14) (2 * (1 / 10 ^ 14) / c) ∧ pow10 m.tb.lTMin ≤ t ∧ t ≤ pow10 m.tb.lTMax := by
  intro t
  set e := (atRT 0 ε m l rho T).e with he
  have hEe : ∀ x, (getE 0 m rho x l.abar l.zbar (dens 0 m.c rho l.abar l.zbar)).val = (atRT 0 ε m l rho x).e := fun x =>
    (C81_only_e_agrees 0 m rho x l.abar l.zbar _).1
  set ni := ratio 0 1 l.abar * rho * m.c.NA with hni
  have hg := lTGuess_range 0 m rho e ni (l.zbar * ni) u l h8
  set G := pow10 (lTGuess 0 m rho e ni (l.zbar * ni) u l) with hG
  obtain ⟨xr, s, e1, e2, -⟩ := C61_no_failure
    (fun x => (getE 0 m rho x l.abar l.zbar (dens 0 m.c rho l.abar l.zbar)).val) e G (pow10 m.tb.lTMin) (pow10 m.tb.lTMax)
    (1 / 10 ^ 14) (1 / 10 ^ 14) 1 c C T p q (Or.inl rfl) hc hcC hp (fun x y a b d => by
      simp only [hEe, one_mul]; exact hE x y a b d) hT.1 hT.2 (hEe T) (pow10_mono hg.1) (pow10_mono hg.2) (by norm_num)
    (by norm_num) hq hpq
  obtain ⟨st, xr', s', e1', a1, a2⟩ := C09_bracketed_root_in_interval
    (fun x => (getE 0 m rho x l.abar l.zbar (dens 0 m.c rho l.abar l.zbar)).val) e G (pow10 m.tb.lTMin) (pow10 m.tb.lTMax)
    (1 / 10 ^ 14) (1 / 10 ^ 14) (by norm_num) (by norm_num) (pow10_mono hg.1) (pow10_mono hg.2) (Or.inl (by
      simp only [hEe]
      have h1 := (hE _ _ le_rfl hT.1 hT.2).1
      have h2 := (hE _ _ hT.1 hT.2 le_rfl).1
      have h3 : 0 ≤ c * (T - pow10 m.tb.lTMin) := mul_nonneg hc.le (by linarith [hT.1])
      have h4 : 0 ≤ c * (pow10 m.tb.lTMax - T) := mul_nonneg hc.le (by linarith [hT.2])
      exact mul_nonpos_of_nonpos_of_nonneg (by linarith) (by linarith)))
  rw [e1] at e1'
  simp only [Option.some.injEq, Prod.mk.injEq, Res.mk.injEq] at e1'
  obtain ⟨⟨-, hxx⟩, -⟩ := e1'
  subst hxx
  have hrf : rfT 0 m rho e l.abar l.zbar G = some xr := by
    unfold rfT; simp only [e1]
  have ht : t = xr := by
    refine tempFromRhoSie_eq hl ?_ a1 a2
    unfold solveT
    rw [if_pos hopt, if_neg (by simp [hn]), hrf]; rfl
  rw [ht]
  exact ⟨e2, a1, a2⟩

/-- C80: with the Coulomb flag alone (which has no effect without degenerate electrons, but makes the code search instead of
using the ideal-gas formula), the energy rises at a constant rate and the search succeeds for every table range up to `10^13`. -/
theorem C80_coulomb_flag_only (ε : ℝ) (m : Model) (l : Lam) (hl : l.lT = none) (rho T u : ℝ) (hr : 0 < rho)
    (ha : 0 < l.abar) (hz : 0 ≤ l.zbar) (hN : 0 < m.c.NA) (hK : 0 < m.c.KB)
    (h1 : m.opt.rad = false) (h2 : m.opt.degenerate = false) (h3 : m.opt.coul = true) (h4 : m.opt.gas = true)
    (hn : m.opt.newton = false) (h8 : m.tb.lTMin ≤ 8 ∧ 8 ≤ m.tb.lTMax) (h13 : m.tb.lTMax ≤ 13)
    (hT : pow10 m.tb.lTMin ≤ T ∧ T ≤ pow10 m.tb.lTMax) :
    let c := 3 / 2 * (m.c.NA * ((if m.opt.ionized then l.zbar + 1 else 1) / l.abar)) * m.c.KB
    |tempFromRhoSie 0 m rho (atRT 0 ε m l rho T).e u l - T| ≤ max (1 / 10 ^ 14) (2 * (1 / 10 ^ 14) / c) := by
  intro c
  have hz1 : 0 < l.zbar + 1 := by linarith
  have hc : 0 < c := by
    have : (0:ℝ) < if m.opt.ionized then l.zbar + 1 else 1 := by split_ifs <;> positivity
    positivity
  have he : ∀ T, (atRT 0 ε m l rho T).e = c * T := by
    intro T
    have hz1 : l.zbar + 1 ≠ 0 := by linarith
    simp only [c]
    cases hi : m.opt.ionized <;>
    · simp only [atRT, getRT, ionPart, h1, h2, h3, h4, hi, add5, zero5, ion, massFractions, dens, ratio0]
      simp
      field_simp
  refine (C80_regula_falsi ε m l hl rho T u c c 0 90 (by simp [h3]) hn h8 hc le_rfl (by simp) (fun x y _ _ _ => by
    rw [he, he]; constructor <;> linarith) hT ?_ (by norm_num)).1
  have e2 : (1 - c / (2 * c)) = 1 / 2 := by field_simp; norm_num
  have hp : pow10 m.tb.lTMax ≤ 10 ^ 13 := by
    have := pow10_mono h13
    refine this.trans (le_of_eq ?_)
    rw [← pow10_log10 (show (0:ℝ) < 10 ^ 13 by positivity)]
    congr 1
    unfold log10
    rw [Real.logb_pow, Real.logb_self_eq_one (by norm_num)]
    norm_num
  have hm : 0 < pow10 m.tb.lTMin := Real.exp_pos _
  rw [e2]
  have : ((1:ℝ) / 2) ^ 90 * (pow10 m.tb.lTMax - pow10 m.tb.lTMin) ≤ (1 / 2) ^ 90 * 10 ^ 13 :=
    mul_le_mul_of_nonneg_left (by linarith) (by positivity)
  refine this.trans ?_
  norm_num

/-- The hypotheses are met by ionised helium with the code's constants and the table's temperatures `10^3` to `10^13`. -/
example : ∃ (m : Model) (l : Lam) (T : ℝ), l.lT = none ∧ 0 < l.abar ∧ 0 ≤ l.zbar ∧ 0 < m.c.NA ∧ 0 < m.c.KB ∧
    m.opt.rad = false ∧ m.opt.degenerate = false ∧ m.opt.coul = true ∧ m.opt.gas = true ∧ m.opt.newton = false ∧
    (m.tb.lTMin ≤ 8 ∧ 8 ≤ m.tb.lTMax) ∧ m.tb.lTMax ≤ 13 ∧ pow10 m.tb.lTMin ≤ T ∧ T ≤ pow10 m.tb.lTMax :=
  ⟨⟨{ rad := false
      gas := true
      coul := true
      ionized := true
      degenerate := false
      newton := false }, 1, codeConsts, { exTables with
        lTMin := 3
        lTMax := 13 }⟩, ⟨4, 2, none⟩, pow10 7, rfl, by norm_num, by norm_num, by norm_num [codeConsts], by norm_num [codeConsts],
    rfl, rfl, rfl, rfl, rfl, by norm_num, by norm_num, pow10_mono (by norm_num), pow10_mono (by norm_num)⟩

end Verif.Helm
