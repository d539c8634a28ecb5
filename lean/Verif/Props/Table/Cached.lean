import Verif.Props.Table.Converge

/-! # C91: what the lambda cache of `SpinerEOSDependsRhoT` is good for -/

namespace Verif.RhoT

open Verif.RootFind

variable {K : Type*} [Field K] [LinearOrder K] [IsStrictOrderedRing K]

/-- The root finder started at the root, more than its tolerances away from the lower bound, returns it exactly. -/
theorem invert_at_root {thr : K} {f : K → K} {y g a b fb : K} (hg : f g = y) (hthr : 0 ≤ thr) (hx : 2 * thr < g - a)
    (hy : thr < |f a - y|) : invert thr f y g a b fb = (.success, g) := by
  have hne : f a - y ≠ 0 := fun h => by rw [h, abs_zero] at hy; linarith
  have hga : g ≠ a := fun h => by rw [h] at hx; linarith
  unfold invert regulaFalsi initBracket
  simp only [hg, sub_self]
  rw [if_pos (show checkBracket (f a - y) 0 = true by simp [checkBracket])]
  set σ : K := if f a - y < 0 then 1 else -1 with hσ
  have hs : σ ≠ 0 := by rw [hσ]; split_ifs <;> norm_num
  have hs1 : |σ| = 1 := by rw [hσ]; split_ifs <;> simp
  have hst : rfStart (⟨a, g, f a - y, 0⟩ : Br K) = (σ, ⟨a, g, (f a - y) * σ, 0, 0, 0, 0⟩) := by
    simp only [rfStart, zero_mul, ← hσ]
  simp only [hst]
  have hc : rfCond thr thr (⟨a, g, (f a - y) * σ, 0, 0, 0, 0⟩ : RF K) :=
    ⟨hx, Or.inl (by rw [abs_mul, hs1, mul_one]; exact hy), by norm_num⟩
  have hb : rfBody (fun x => f x - y) σ (⟨a, g, (f a - y) * σ, 0, 0, 0, 0⟩ : RF K) = ⟨g, g, (f a - y) * σ, 0, 0, 0, 0⟩ := by
    have hq : (a * 0 - g * ((f a - y) * σ)) / (0 - (f a - y) * σ) = g := by
      have : (f a - y) * σ ≠ 0 := mul_ne_zero hne hs
      field_simp
      ring
    unfold rfBody
    simp only [hq]
    rw [if_neg hga]
    simp
  have hc' : ¬ rfCond thr thr (⟨g, g, (f a - y) * σ, 0, 0, 0, 0⟩ : RF K) := fun h => by
    have := h.1; simp only [sub_self] at this; linarith
  rw [show (1000 : Nat) = 998 + 1 + 1 from rfl, rfLoop, if_pos hc, hb, rfLoop, if_neg hc']
  simp

/-- C91: with the log temperature of the state in the cache (where any query by temperature leaves it, `eos_spiner_rho_temp.hpp:1131-1132`), the temperature of its
energy is found without error, whatever the shape of the table: the energy need not even rise with the temperature. Required are a
state that counts as on the table, and one distinguishable from the lowest temperature by the tolerance of the search. -/
theorem C91_cached_temperature (t : Tab K) (hthr : 0 ≤ t.thr) {rho T : K} (hT : t.T (t.lT T) = T)
    (hT1 : t.lTMin + 2 * t.thr < t.lT T) (hT2 : t.lT T ≤ t.lTMax)
    (hE : t.thr < |t.sie (t.lRho rho) t.lTMin - t.sie (t.lRho rho) (t.lT T)|)
    (hloc : locE t (t.lRho rho) (t.sie (t.lRho rho) (t.lT T)) = .onTable) :
    query t .tRE (t.lT T) rho (t.sie (t.lRho rho) (t.lT T)) = T ∧
    (locT t (t.lT T) = .onTable →
      query t .tRE (t.lT T) rho (query t .eRT (t.lT T) rho T) = T ∧
      query t .pRE (t.lT T) rho (query t .eRT (t.lT T) rho T) = query t .pRT (t.lT T) rho T) := by
  have hg : guessOf (t.lT T) t.lTMin t.lTMax (if t.repro then t.lTMin else 1 / 2 * (t.lTMin + t.lTMax)) = t.lT T :=
    if_pos ⟨by linarith, hT2⟩
  have hi : lTOfE t (t.lT T) (t.lRho rho) (t.sie (t.lRho rho) (t.lT T)) = ⟨t.lT T, .onTable, .success⟩ := by
    rw [lTOfE_onTable t _ _ _ hloc]
    simp only [hg]
    rw [invert_at_root rfl hthr (by linarith) hE]
  have h1 : query t .tRE (t.lT T) rho (t.sie (t.lRho rho) (t.lT T)) = T := by simp only [query, hi, hT]
  refine ⟨h1, fun hl => ?_⟩
  have he : query t .eRT (t.lT T) rho T = t.sie (t.lRho rho) (t.lT T) := by simp only [query, hl, sieAt]
  rw [he]
  refine ⟨h1, ?_⟩
  simp only [query, hi, hl, pAt]

/-- C91: with the log density of the state in the cache, the density of its pressure at its temperature is found without error, on the table
whatever the shape of the isotherm. -/
theorem C91_cached_density (t : Tab K) (hthr : 0 ≤ t.thr) {rho T : K} (hr : t.rho (t.lRho rho) = rho)
    (hT1 : t.lTMin < t.lT T) (hT2 : t.lT T < t.lTMax)
    (hR1 : t.lRho (t.rhoAtPmin (t.lT T)) + 2 * t.thr < t.lRho rho) (hR2 : t.lRho rho ≤ t.lRhoMax)
    (hP : t.thr < |t.P (t.lRho (t.rhoAtPmin (t.lT T))) (t.lT T) - t.P (t.lRho rho) (t.lT T)|) :
    dePT t (t.lRho rho) (t.P (t.lRho rho) (t.lT T)) T = (rho, query t .eRT (t.lRho rho) rho T) := by
  set a := t.lRho (t.rhoAtPmin (t.lT T)) with ha
  have hg : guessOf (t.lRho rho) a t.lRhoMax (if t.repro then t.lRhoMax else 1 / 2 * (a + t.lRhoMax)) = t.lRho rho :=
    if_pos ⟨by linarith, hR2⟩
  have hi : lRhoOfPT t (t.lRho rho) (t.P (t.lRho rho) (t.lT T)) (t.lT T) = ⟨t.lRho rho, .onTable, .success⟩ := by
    simp only [lRhoOfPT, not_le.2 hT1, if_false, ge_iff_le, not_le.2 hT2, ← ha, hg]
    rw [invert_at_root (f := fun x => t.P x (t.lT T)) rfl hthr (by linarith) hP]
  simp only [dePT, hi, hr]

/-- The hypotheses of both are met by `linTab`. -/
example : linTab.T (linTab.lT 2) = 2 ∧ linTab.lTMin + 2 * linTab.thr < linTab.lT 2 ∧ linTab.lT 2 ≤ linTab.lTMax ∧
    linTab.thr < |linTab.sie (linTab.lRho 1) linTab.lTMin - linTab.sie (linTab.lRho 1) (linTab.lT 2)| ∧
    locE linTab (linTab.lRho 1) (linTab.sie (linTab.lRho 1) (linTab.lT 2)) = .onTable ∧ locT linTab (linTab.lT 2) = .onTable := by
  norm_num [linTab, locE, locT, abs_of_neg]

end Verif.RhoT
