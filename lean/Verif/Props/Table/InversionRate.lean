import Verif.Props.Table.StellarCollapseMore
import Verif.Props.Table.SpinerRhoSie
import Verif.Props.RootFindRate
import Verif.Spec.Rising

set_option linter.unusedSectionVars false

/-! # Inversions of tables whose curves rise: accuracy and certainty of success

The theorems of C85, C86, C94 and C105 leave open what a successful inversion means when the root finder stopped on its
residuals.  For curves that rise through the requested value with slopes between `m` and `M` the answer is: within
`max(thr, 2 thr / m)`. -/

namespace Verif.RhoT

open Verif.RootFind Verif.Robust Verif.Mods Verif.Spec

variable {K : Type*} [Field K] [LinearOrder K] [IsStrictOrderedRing K]

theorem invert_rate_range {thr : K} (hthr : 0 ≤ thr) {f : K → K} {y guess a b fb x r m M : K} (h1 : a ≤ guess) (h2 : guess ≤ b)
    (hf : RisesThrough f a b y r m M) (h : (invert thr f y guess a b fb).1 = .success)
    (hx : x = (invert thr f y guess a b fb).2) : |x - r| ≤ max thr (2 * thr / m) := by
  obtain ⟨o, ho⟩ : ∃ o, regulaFalsi 1000 f y guess a b thr thr = some (⟨.success, some x⟩, o) := by
    subst hx
    unfold invert at h ⊢
    revert h
    generalize regulaFalsi 1000 f y guess a b thr thr = R
    intro h
    rcases R with _ | ⟨⟨st, xo⟩, o⟩
    · simp at h
    · cases st <;> cases xo <;> simp at h
      exact ⟨o, rfl⟩
  exact C61_chord_accuracy 1000 f y guess a b thr thr 1 m r x o (Or.inl rfl) hf.pos hf.mem.1 hf.mem.2 hf.hit
    (fun z p q => by rw [one_mul]; exact (hf.left z p q).1) (fun z p q => by rw [one_mul]; exact (hf.right z p q).1)
    h1 h2 hthr hthr ho

theorem invert_total_rate {thr : K} (hthr : 0 ≤ thr) {f : K → K} {y guess a b fb r m M : K} (h1 : a ≤ guess) (h2 : guess ≤ b)
    (hf : RisesThrough f a b y r m M) (p q : Nat) (hmM : m ≤ M) (hp : M ≤ m * 2 ^ p)
    (hq : (1 - m / (2 * M)) ^ q * (b - a) ≤ thr) (hpq : (p + 2) * q < 1000) :
    (invert thr f y guess a b fb).1 = .success := by
  obtain ⟨xr, s, e, -, -⟩ := C61_chord_no_failure f y guess a b thr thr 1 m M r p q (Or.inl rfl) hf.pos hmM hp hf.mem.1
    hf.mem.2 hf.hit (fun z u v => by rw [one_mul]; exact hf.left z u v) (fun z u v => by rw [one_mul]; exact hf.right z u v)
    h1 h2 hthr hthr hq hpq
  unfold invert
  rw [e]

/-- C85: on an isochore that rises through the requested energy at log temperature `r` with slopes between `m` and `M`, a
successful inversion returns a log temperature within `max(thr, 2 thr / m)` of `r`, whatever the lambda cache holds; and
success is certain if the bound on the number of iterations is below 1000. -/
theorem C85_rising (t : Tab K) (hthr : 0 ≤ t.thr) (hlt : t.lTMin ≤ t.lTMax) {rho e r m M : K} (c : K)
    (hloc : locE t (t.lRho rho) e = .onTable) (hf : RisesThrough (t.sie (t.lRho rho)) t.lTMin t.lTMax e r m M) :
    query t .tRE c rho e = t.T (lTOfE t c (t.lRho rho) e).x ∧
    ((lTOfE t c (t.lRho rho) e).status = .success →
      |(lTOfE t c (t.lRho rho) e).x - r| ≤ max t.thr (2 * t.thr / m)) ∧
    ∀ p q : Nat, m ≤ M → M ≤ m * 2 ^ p → (1 - m / (2 * M)) ^ q * (t.lTMax - t.lTMin) ≤ t.thr → (p + 2) * q < 1000 →
      (lTOfE t c (t.lRho rho) e).status = .success := by
  set g := guessOf c t.lTMin t.lTMax (if t.repro then t.lTMin else 1 / 2 * (t.lTMin + t.lTMax)) with hg
  have hgm : t.lTMin ≤ g ∧ g ≤ t.lTMax := by
    refine guess_mem ?_ ?_ <;> split_ifs <;> linarith
  have hx : lTOfE t c (t.lRho rho) e =
      ⟨(invert t.thr (t.sie (t.lRho rho)) e g t.lTMin t.lTMax (if t.repro then t.lTMin else g)).2, .onTable,
       (invert t.thr (t.sie (t.lRho rho)) e g t.lTMin t.lTMax (if t.repro then t.lTMin else g)).1⟩ := by
    simp only [lTOfE, hloc, ← hg]
  refine ⟨rfl, ?_, ?_⟩
  · rw [hx]; intro hok
    exact invert_rate_range hthr hgm.1 hgm.2 hf hok rfl
  · intro p q a1 a2 a3 a4
    rw [hx]
    exact invert_total_rate hthr hgm.1 hgm.2 hf p q a1 a2 a3 a4

/-- C86: likewise for the density at a pressure and temperature (the isotherm, or the cold curve below the table). -/
theorem C86_rising (t : Tab K) (hthr : 0 ≤ t.thr) {P T r m M : K} (c : K)
    (f : K → K) (hlT : (t.lT T ≤ t.lTMin ∧ f = t.PCold) ∨ (t.lTMin < t.lT T ∧ t.lT T < t.lTMax ∧ f = fun x => t.P x (t.lT T)))
    (hf : RisesThrough f (t.lRho (t.rhoAtPmin (t.lT T))) t.lRhoMax P r m M) :
    (dePT t c P T).1 = t.rho (lRhoOfPT t c P (t.lT T)).x ∧
    ((lRhoOfPT t c P (t.lT T)).status = .success →
      |(lRhoOfPT t c P (t.lT T)).x - r| ≤ max t.thr (2 * t.thr / m)) ∧
    ∀ p q : Nat, m ≤ M → M ≤ m * 2 ^ p →
      (1 - m / (2 * M)) ^ q * (t.lRhoMax - t.lRho (t.rhoAtPmin (t.lT T))) ≤ t.thr → (p + 2) * q < 1000 →
      (lRhoOfPT t c P (t.lT T)).status = .success := by
  set a := t.lRho (t.rhoAtPmin (t.lT T)) with ha
  set g := guessOf c a t.lRhoMax (if t.repro then t.lRhoMax else 1 / 2 * (a + t.lRhoMax)) with hg
  have hab : a ≤ t.lRhoMax := hf.mem.1.trans hf.mem.2
  have hgm : a ≤ g ∧ g ≤ t.lRhoMax := by
    refine guess_mem ?_ ?_ <;> split_ifs <;> linarith
  obtain ⟨loc, hx⟩ : ∃ loc, lRhoOfPT t c P (t.lT T) =
      ⟨(invert t.thr f P g a t.lRhoMax (if t.repro then t.lRhoMax else g)).2, loc,
       (invert t.thr f P g a t.lRhoMax (if t.repro then t.lRhoMax else g)).1⟩ := by
    rcases hlT with ⟨h1, rfl⟩ | ⟨h1, h2, rfl⟩
    · exact ⟨.offBottom, by simp only [lRhoOfPT, h1, if_true, ← ha, ← hg]⟩
    · exact ⟨.onTable, by
        simp only [lRhoOfPT, not_le.2 h1, if_false, ge_iff_le, not_le.2 h2, ← ha, ← hg]⟩
  refine ⟨rfl, ?_, ?_⟩
  · rw [hx]; intro hok
    exact invert_rate_range hthr hgm.1 hgm.2 hf hok rfl
  · intro p q a1 a2 a3 a4
    rw [hx]
    exact invert_total_rate hthr hgm.1 hgm.2 hf p q a1 a2 a3 a4

/-- The linear table meets the hypotheses of both, with slopes exactly 2: the inversions succeed, within the threshold. -/
example : RisesThrough (linTab.sie (linTab.lRho 1)) linTab.lTMin linTab.lTMax 4 2 2 2 ∧
    RisesThrough (fun x => linTab.P x (linTab.lT 1)) (linTab.lRho (linTab.rhoAtPmin (linTab.lT 1))) linTab.lRhoMax 4 2 2 2 ∧
    (1 - 2 / (2 * 2) : ℝ) ^ 50 * 3 ≤ 1 / 10 ^ 14 ∧ (0 + 2) * 50 < 1000 := by
  refine ⟨⟨?_, ?_, ?_, ?_, ?_⟩, ⟨?_, ?_, ?_, ?_, ?_⟩, by norm_num, by norm_num⟩ <;>
    first
      | (norm_num [linTab]; done)
      | (intro x h1 h2; constructor <;> (simp only [linTab]; linarith))

end Verif.RhoT

namespace Verif.RhoSie

open Verif.RootFind Verif.Robust Verif.Mods Verif.RhoT Verif.Spec

variable {K : Type*} [Field K] [LinearOrder K] [IsStrictOrderedRing K]

/-- C94: the same for the energy-based table. -/
theorem C94_rising (t : Tab K) (heps : 0 ≤ t.eps) {P T r m M : K} (c : K) (hP : P ≤ t.PMaxRho (t.lT T))
    (hf : RisesThrough (fun x => t.PT x (t.lT T)) (t.lRho (t.rhoAtPmin (t.lT T))) t.lRhoMax P r m M) :
    (dePT t c P T).1 = t.rho (lRhoOfPT t c P (t.lT T)).1 ∧
    ((lRhoOfPT t c P (t.lT T)).2 = .success → |(lRhoOfPT t c P (t.lT T)).1 - r| ≤ max t.eps (2 * t.eps / m)) ∧
    ∀ p q : Nat, m ≤ M → M ≤ m * 2 ^ p →
      (1 - m / (2 * M)) ^ q * (t.lRhoMax - t.lRho (t.rhoAtPmin (t.lT T))) ≤ t.eps → (p + 2) * q < 1000 →
      (lRhoOfPT t c P (t.lT T)).2 = .success := by
  set a := t.lRho (t.rhoAtPmin (t.lT T)) with ha
  set g := guessOf c a t.lRhoMax (if t.repro then t.lRhoMax else 1 / 2 * (a + t.lRhoMax)) with hg
  have hab : a ≤ t.lRhoMax := hf.mem.1.trans hf.mem.2
  have hgm : a ≤ g ∧ g ≤ t.lRhoMax := by
    refine guess_mem ?_ ?_ <;> split_ifs <;> linarith
  have hx : lRhoOfPT t c P (t.lT T) =
      ((invert t.eps (fun x => t.PT x (t.lT T)) P g a t.lRhoMax (if t.repro then t.lRhoMax else g)).2,
       (invert t.eps (fun x => t.PT x (t.lT T)) P g a t.lRhoMax (if t.repro then t.lRhoMax else g)).1) := by
    simp only [lRhoOfPT, gt_iff_lt, not_lt.2 hP, and_false, if_false, ← ha, ← hg]
  refine ⟨rfl, ?_, ?_⟩
  · rw [hx]; intro hok
    exact invert_rate_range heps hgm.1 hgm.2 hf hok rfl
  · intro p q a1 a2 a3 a4
    rw [hx]
    exact invert_total_rate heps hgm.1 hgm.2 hf p q a1 a2 a3 a4

end Verif.RhoSie

namespace Verif.SC

open Verif.RootFind Verif.Robust Verif.Mods Verif.Databox Verif.Spec
open Verif.RhoT (invert invert_rate_range invert_total_rate)

variable {K : Type*} [Field K] [LinearOrder K] [IsStrictOrderedRing K] [FloorRing K]

/-- C105: and for the stellar collapse table: `dePT` returns a density whose logarithm is within `max(thr, 2 thr / m)` of
the one with the requested pressure (the status is not reported to the caller, but success is certain under the last
four hypotheses). -/
theorem C105_rising {m : Env K} (hm : Logs m) (hthr : 0 ≤ m.thr) {s : Eos K} (Ye P T rho0 r s1 s2 : K)
    (hRn : s.lRhoMin ≤ lRho m rhoNormal ∧ lRho m rhoNormal ≤ s.lRhoMax)
    (hf : RisesThrough (fun r => (s.tab .lP).interp Ye (lT m T) r) s.lRhoMin s.lRhoMax (lPOf m P) r s1 s2)
    (p q : Nat) (h12 : s1 ≤ s2) (hp : s2 ≤ s1 * 2 ^ p) (hq : (1 - s1 / (2 * s2)) ^ q * (s.lRhoMax - s.lRhoMin) ≤ m.thr)
    (hpq : (p + 2) * q < 1000) :
    |lRho m (dePT m s Ye P T rho0).1 - r| ≤ max m.thr (2 * m.thr / s1) := by
  set g := if lRho m rho0 < s.lRhoMin ∨ lRho m rho0 > s.lRhoMax then lRho m rhoNormal else lRho m rho0 with hgd
  have hg : s.lRhoMin ≤ g ∧ g ≤ s.lRhoMax := by
    rw [hgd]; split_ifs with h
    · exact hRn
    · push Not at h; exact h
  set x := (invert m.thr (fun r => (s.tab .lP).interp Ye (lT m T) r) (lPOf m P) g s.lRhoMin s.lRhoMax g).2 with hx
  have ho : (dePT m s Ye P T rho0).1 = rhoOf m x := rfl
  have hrx : rhoOf m x = m.pw x := by
    unfold rhoOf fromLog; rw [sub_zero, if_neg (not_lt.2 (hm.pw_pos x).le)]
  rw [ho, hrx, lRho_pw hm]
  exact invert_rate_range hthr hg.1 hg.2 hf (invert_total_rate hthr hg.1 hg.2 hf p q h12 hp hq hpq) hx

end Verif.SC
