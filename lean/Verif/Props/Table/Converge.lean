import Verif.Lemmas.Invert
import Verif.Props.RootFindRate
import Verif.Props.Table.SpinerRhoT
import Verif.Props.Table.SpinerRhoSie
import Verif.Props.Table.StellarCollapseMore
import Verif.Props.Table.StellarCollapseLoad

/-! # C85, C86, C91, C94, C97, C105: convergence of the table inversions where the tabulated quantity is strictly monotone -/

set_option linter.unusedSectionVars false
set_option linter.unusedVariables false

namespace Verif.RhoT

open Verif.RootFind

section field
variable {K : Type*} [Field K] [LinearOrder K] [IsStrictOrderedRing K]

/-- `f` rises on `[a, b]` at least at rate `m`. -/
def Rises (f : K → K) (m a b : K) : Prop := ∀ u v, a ≤ u → u ≤ v → v ≤ b → m * (v - u) ≤ f v - f u

/-- `f` rises on `[a, b]` at most at rate `M`. -/
def AtMost (f : K → K) (M a b : K) : Prop := ∀ u v, a ≤ u → u ≤ v → v ≤ b → f v - f u ≤ M * (v - u)

theorem lTOfE_onTable (t : Tab K) (c lR e : K) (hloc : locE t lR e = .onTable) :
    let g := guessOf c t.lTMin t.lTMax (if t.repro then t.lTMin else 1 / 2 * (t.lTMin + t.lTMax))
    lTOfE t c lR e =
      ⟨(invert t.thr (t.sie lR) e g t.lTMin t.lTMax (if t.repro then t.lTMin else g)).2, .onTable,
       (invert t.thr (t.sie lR) e g t.lTMin t.lTMax (if t.repro then t.lTMin else g)).1⟩ := by
  simp only [lTOfE, hloc]

/-- C85: the round trip. If on an isochore the energy rises with the log temperature at least at rate `m`, and the state
with log temperature `x` counts as on the table, then the temperature found from its energy, with success reported, has a log
within `max thr (2 thr / m)` of `x`, whatever the lambda cache holds. -/
theorem C85_round_trip (t : Tab K) (hthr : 0 ≤ t.thr) {m rho x : K} (c : K) (hm : 0 < m)
    (hrise : Rises (t.sie (t.lRho rho)) m t.lTMin t.lTMax) (hx1 : t.lTMin ≤ x) (hx2 : x ≤ t.lTMax)
    (hloc : locE t (t.lRho rho) (t.sie (t.lRho rho) x) = .onTable)
    (hok : (lTOfE t c (t.lRho rho) (t.sie (t.lRho rho) x)).status = .success) :
    query t .tRE c rho (t.sie (t.lRho rho) x) = t.T (lTOfE t c (t.lRho rho) (t.sie (t.lRho rho) x)).x ∧
    |(lTOfE t c (t.lRho rho) (t.sie (t.lRho rho) x)).x - x| ≤ max t.thr (2 * t.thr / m) := by
  refine ⟨rfl, ?_⟩
  have hlt := hx1.trans hx2
  set g := guessOf c t.lTMin t.lTMax (if t.repro then t.lTMin else 1 / 2 * (t.lTMin + t.lTMax)) with hg
  have hgm : t.lTMin ≤ g ∧ g ≤ t.lTMax := by
    refine guess_mem ?_ ?_ <;> split_ifs <;> linarith
  rw [lTOfE_onTable t c _ _ hloc] at hok ⊢
  exact invert_rate hthr (Or.inl rfl) hm (fun u v p q s => by rw [one_mul]; exact hrise u v p q s) hx1 hx2 rfl hgm.1 hgm.2
    (Prod.ext hok rfl)

/-- C85: and the inversion does succeed, if moreover the energy rises at most at rate `M` and the iterations suffice for
the ratio `M / m`. -/
theorem C85_succeeds (t : Tab K) (hthr : 0 ≤ t.thr) {m M rho x : K} (c : K) (hm : 0 < m) (hmM : m ≤ M)
    (hen : Enough m M (t.lTMax - t.lTMin) t.thr)
    (hrise : Rises (t.sie (t.lRho rho)) m t.lTMin t.lTMax) (hmost : AtMost (t.sie (t.lRho rho)) M t.lTMin t.lTMax)
    (hx1 : t.lTMin ≤ x) (hx2 : x ≤ t.lTMax) :
    (lTOfE t c (t.lRho rho) (t.sie (t.lRho rho) x)).status = .success := by
  have hlt := hx1.trans hx2
  set e := t.sie (t.lRho rho) x with he
  cases hl : locE t (t.lRho rho) e with
  | offBottom => simp only [lTOfE, hl]
  | offTop => simp only [lTOfE, hl]
  | onTable =>
    set g := guessOf c t.lTMin t.lTMax (if t.repro then t.lTMin else 1 / 2 * (t.lTMin + t.lTMax)) with hg
    have hgm : t.lTMin ≤ g ∧ g ≤ t.lTMax := by
      refine guess_mem ?_ ?_ <;> split_ifs <;> linarith
    rw [lTOfE_onTable t c _ _ hl]
    obtain ⟨z, hz⟩ := invert_total (fb := if t.repro then t.lTMin else g) hthr (Or.inl rfl) hm hmM hen
      (fun u v p q s => by rw [one_mul]; exact ⟨hrise u v p q s, hmost u v p q s⟩) hx1 hx2 he.symm hgm.1 hgm.2
    dsimp only
    rw [hz]

/-- C91: on the table, for an isochore that rises at least at rate `m`, the answers from two different lambda caches agree
within `2 max thr (2 thr / m)`, with no assumption on how the root finder stopped. -/
theorem C91_on_table (t : Tab K) (hthr : 0 ≤ t.thr) {m rho x : K} (c c' : K) (hm : 0 < m)
    (hrise : Rises (t.sie (t.lRho rho)) m t.lTMin t.lTMax) (hx1 : t.lTMin ≤ x) (hx2 : x ≤ t.lTMax)
    (hok : (lTOfE t c (t.lRho rho) (t.sie (t.lRho rho) x)).status = .success)
    (hok' : (lTOfE t c' (t.lRho rho) (t.sie (t.lRho rho) x)).status = .success) :
    |(lTOfE t c (t.lRho rho) (t.sie (t.lRho rho) x)).x - (lTOfE t c' (t.lRho rho) (t.sie (t.lRho rho) x)).x|
      ≤ 2 * max t.thr (2 * t.thr / m) := by
  cases hl : locE t (t.lRho rho) (t.sie (t.lRho rho) x) with
  | onTable =>
    have h1 := (C85_round_trip t hthr c hm hrise hx1 hx2 hl hok).2
    have h2 := (C85_round_trip t hthr c' hm hrise hx1 hx2 hl hok').2
    rw [abs_le] at *
    constructor <;> linarith [h1.1, h1.2, h2.1, h2.2]
  | offBottom =>
    simp only [lTOfE, hl, sub_self, abs_zero]
    exact mul_nonneg (by norm_num) (le_max_of_le_left hthr)
  | offTop =>
    simp only [lTOfE, hl, sub_self, abs_zero]
    exact mul_nonneg (by norm_num) (le_max_of_le_left hthr)

/-- C86: the density from pressure and temperature. On the table (and, with the cold curve, below it), for an isotherm along
which the pressure rises with the log density at least at rate `m` above the density of least pressure: the density found,
with success reported, for the pressure at log density `x` has a log within `max thr (2 thr / m)` of `x`. -/
theorem C86_round_trip (t : Tab K) (hthr : 0 ≤ t.thr) {m T x : K} (c : K) (hm : 0 < m)
    (f : K → K) (hlT : (t.lT T ≤ t.lTMin ∧ f = t.PCold) ∨ (t.lTMin < t.lT T ∧ t.lT T < t.lTMax ∧ f = fun x => t.P x (t.lT T)))
    (hrise : Rises f m (t.lRho (t.rhoAtPmin (t.lT T))) t.lRhoMax)
    (hx1 : t.lRho (t.rhoAtPmin (t.lT T)) ≤ x) (hx2 : x ≤ t.lRhoMax) :
    let o := lRhoOfPT t c (f x) (t.lT T)
    (dePT t c (f x) T).1 = t.rho o.x ∧ (o.status = .success → |o.x - x| ≤ max t.thr (2 * t.thr / m)) ∧
    (∀ M, m ≤ M → AtMost f M (t.lRho (t.rhoAtPmin (t.lT T))) t.lRhoMax →
      Enough m M (t.lRhoMax - t.lRho (t.rhoAtPmin (t.lT T))) t.thr → o.status = .success) := by
  intro o
  set a := t.lRho (t.rhoAtPmin (t.lT T)) with ha
  have hab := hx1.trans hx2
  set g := guessOf c a t.lRhoMax (if t.repro then t.lRhoMax else 1 / 2 * (a + t.lRhoMax)) with hg
  have hgm : a ≤ g ∧ g ≤ t.lRhoMax := by
    refine guess_mem ?_ ?_ <;> split_ifs <;> linarith
  obtain ⟨loc, hx⟩ : ∃ loc, o =
      ⟨(invert t.thr f (f x) g a t.lRhoMax (if t.repro then t.lRhoMax else g)).2, loc,
       (invert t.thr f (f x) g a t.lRhoMax (if t.repro then t.lRhoMax else g)).1⟩ := by
    rcases hlT with ⟨h1, rfl⟩ | ⟨h1, h2, rfl⟩
    · exact ⟨.offBottom, by simp only [o, lRhoOfPT, h1, if_true, ← ha, ← hg]⟩
    · exact ⟨.onTable, by
        simp only [o, lRhoOfPT, not_le.2 h1, if_false, ge_iff_le, not_le.2 h2, ← ha, ← hg]⟩
  refine ⟨rfl, fun hok => ?_, fun M hmM hmost hen => ?_⟩
  · rw [hx] at hok ⊢
    exact invert_rate hthr (Or.inl rfl) hm (fun u v p q s => by rw [one_mul]; exact hrise u v p q s) hx1 hx2 rfl hgm.1 hgm.2
      (Prod.ext hok rfl)
  · rw [hx]
    obtain ⟨z, hz⟩ := invert_total (fb := if t.repro then t.lRhoMax else g) hthr (Or.inl rfl) hm hmM hen
      (fun u v p q s => by rw [one_mul]; exact ⟨hrise u v p q s, hmost u v p q s⟩) hx1 hx2 rfl hgm.1 hgm.2
    dsimp only
    rw [hz]

end field

/-- The hypotheses of the four theorems are met by `linTab` (`e = 2 T`, `P = 2 rho`, `m = M = 2`, threshold `10^-14`): 49
halvings of the interval of width 3 suffice, with `p = 0`. -/
example : Rises (linTab.sie 1) 2 linTab.lTMin linTab.lTMax ∧ AtMost (linTab.sie 1) 2 linTab.lTMin linTab.lTMax ∧
    Enough (2 : ℝ) 2 (linTab.lTMax - linTab.lTMin) linTab.thr ∧ locE linTab (linTab.lRho 1) (linTab.sie (linTab.lRho 1) 2) = .onTable ∧
    Rises (fun x => linTab.P x (linTab.lT 1)) 2 (linTab.lRho (linTab.rhoAtPmin (linTab.lT 1))) linTab.lRhoMax := by
  refine ⟨fun u v _ _ _ => ?_, fun u v _ _ _ => ?_, ⟨0, 49, ?_⟩, by norm_num [locE, linTab], fun u v _ _ _ => ?_⟩
  · simp only [linTab]; linarith
  · simp only [linTab]; linarith
  · norm_num [linTab]
  · simp only [linTab]; linarith

end Verif.RhoT

namespace Verif.RhoSie

open Verif.RootFind
open Verif.RhoT (invert guessOf guess_mem Rises AtMost Enough invert_rate invert_total)

variable {K : Type*} [Field K] [LinearOrder K] [IsStrictOrderedRing K]

/-- C94: density from pressure and temperature. For an isotherm along which the pressure rises with the log density at least
at rate `m` above the density of least pressure, and a pressure not above the stored maximum: the density found, with
success reported, for the pressure at log density `x` has a log within `max eps (2 eps / m)` of `x`, whatever the lambda; and
success is certain if the rate is at most `M` and the iterations suffice. -/
theorem C94_round_trip (t : Tab K) (heps : 0 ≤ t.eps) {m T x : K} (c : K) (hm : 0 < m)
    (hP : t.PT x (t.lT T) ≤ t.PMaxRho (t.lT T))
    (hrise : Rises (fun x => t.PT x (t.lT T)) m (t.lRho (t.rhoAtPmin (t.lT T))) t.lRhoMax)
    (hx1 : t.lRho (t.rhoAtPmin (t.lT T)) ≤ x) (hx2 : x ≤ t.lRhoMax) :
    let o := lRhoOfPT t c (t.PT x (t.lT T)) (t.lT T)
    dePT t c (t.PT x (t.lT T)) T = (t.rho o.1, t.sie o.1 (t.lT T)) ∧
    (o.2 = .success → |o.1 - x| ≤ max t.eps (2 * t.eps / m)) ∧
    (∀ M, m ≤ M → AtMost (fun x => t.PT x (t.lT T)) M (t.lRho (t.rhoAtPmin (t.lT T))) t.lRhoMax →
      Enough m M (t.lRhoMax - t.lRho (t.rhoAtPmin (t.lT T))) t.eps → o.2 = .success) := by
  intro o
  set a := t.lRho (t.rhoAtPmin (t.lT T)) with ha
  have hab := hx1.trans hx2
  set g := guessOf c a t.lRhoMax (if t.repro then t.lRhoMax else 1 / 2 * (a + t.lRhoMax)) with hg
  have hgm : a ≤ g ∧ g ≤ t.lRhoMax := by
    refine guess_mem ?_ ?_ <;> split_ifs <;> linarith
  have hx : o = ((invert t.eps (fun x => t.PT x (t.lT T)) (t.PT x (t.lT T)) g a t.lRhoMax (if t.repro then t.lRhoMax else g)).2,
       (invert t.eps (fun x => t.PT x (t.lT T)) (t.PT x (t.lT T)) g a t.lRhoMax (if t.repro then t.lRhoMax else g)).1) := by
    simp only [o, lRhoOfPT, gt_iff_lt, not_lt.2 hP, and_false, if_false, ← ha, ← hg]
  refine ⟨rfl, fun hok => ?_, fun M hmM hmost hen => ?_⟩
  · rw [hx] at hok ⊢
    exact invert_rate heps (Or.inl rfl) hm (fun u v p q s => by rw [one_mul]; exact hrise u v p q s) hx1 hx2 rfl hgm.1 hgm.2
      (Prod.ext hok rfl)
  · rw [hx]
    obtain ⟨z, hz⟩ := invert_total (f := fun x => t.PT x (t.lT T)) (y := t.PT x (t.lT T)) (fb := if t.repro then t.lRhoMax else g) heps (Or.inl rfl) hm hmM hen
      (fun u v p q s => by rw [one_mul]; exact ⟨hrise u v p q s, hmost u v p q s⟩) hx1 hx2 rfl hgm.1 hgm.2
    rw [hz]

/-- The hypotheses of `C94_round_trip` are met. -/
example : linTab.PT 2 (linTab.lT 1) ≤ linTab.PMaxRho (linTab.lT 1) ∧
    Rises (fun x => linTab.PT x (linTab.lT 1)) 2 (linTab.lRho (linTab.rhoAtPmin (linTab.lT 1))) linTab.lRhoMax ∧
    Enough (2 : ℝ) 2 (linTab.lRhoMax - linTab.lRho (linTab.rhoAtPmin (linTab.lT 1))) linTab.eps := by
  refine ⟨by norm_num [linTab], fun u v _ _ _ => ?_, 0, 49, ?_⟩
  · simp only [linTab]; linarith
  · norm_num [linTab]

end Verif.RhoSie

namespace Verif.SC

open Verif.RootFind Verif.Databox Verif.Mods
open Verif.RhoT (invert Enough invert_rate invert_total)

variable {K : Type*} [Field K] [LinearOrder K] [IsStrictOrderedRing K] [FloorRing K]

/-- C97: the round trip on the table. At the densities and electron fractions of the table, if the stored log energies
of neighbouring temperatures differ by at least `m` grid spacings (`m > 0`), then for every temperature strictly between the
first and the last the temperature found from its energy, with success reported, has a log within `max thr (2 thr / m)` of
the original, whatever the lambda cache holds; and success is certain if the differences are at most `M` spacings and the
iterations suffice for `M / m`. -/
theorem C97_round_trip {μ : Env K} (hμ : Logs μ) (hthr : 0 ≤ μ.thr) {s : Eos K} (h : Loaded μ s) {k i : Nat}
    (hk : k < (s.tab .lE).g2.N) (hi : i < (s.tab .lE).g0.N) (c c' T m : K) (hm : 0 < m)
    (hmono : ∀ j, j + 1 < s.numT → m * (s.tab .lE).g1.dx ≤ (s.tab .lE).data k (j + 1) i - (s.tab .lE).data k j i)
    (hT1 : tOf μ s.lTMin < T) (hT2 : T < tOf μ s.lTMax) :
    let Ye := (s.tab .lE).g2.x k
    let rho := μ.pw ((s.tab .lE).g0.x i)
    let e := query μ s .eRT Ye c' rho T
    let st := (lTOfE μ s Ye c ((s.tab .lE).g0.x i) e).1
    (st = .success → |lT μ (query μ s .tRE Ye c rho e) - lT μ T| ≤ max μ.thr (2 * μ.thr / m)) ∧
    (∀ M, m ≤ M →
      (∀ j, j + 1 < s.numT → (s.tab .lE).data k (j + 1) i - (s.tab .lE).data k j i ≤ M * (s.tab .lE).g1.dx) →
      Enough m M (s.lTMax - s.lTMin) μ.thr → st = .success) := by
  intro Ye rho e st
  set f := fun x => (s.tab .lE).interp Ye x ((s.tab .lE).g0.x i) with hfd
  have hf : ∀ x, f x = lin (s.tab .lE).g1 (fun j => (s.tab .lE).data k j i) x := fun x => lE_node h hk hi x
  have hN := h.numT
  have f0 : f s.lTMin = (s.tab .lE).data k 0 i := by rw [hf, ← h.first]; exact lin_node h.okT _ (by omega)
  have f1 : f s.lTMax = (s.tab .lE).data k (s.numT - 1) i := by rw [hf, ← h.last]; exact lin_node h.okT _ (by omega)
  have rate : ∀ u v, u ≤ v → m * (v - u) ≤ f v - f u := fun u v huv => by
    rw [hf, hf]; exact lin_rate h.okT (fun j hj => hmono j (by rw [hN.1] at hj; exact hj)) huv
  have hrho : lRho μ rho = (s.tab .lE).g0.x i := lRho_pw hμ _
  have he : e = eOf μ s (f (lT μ T)) := by
    simp only [e, query, Q.byEnergy, Bool.false_eq_true, if_false, at_, hrho, f]
  have hTp : 0 < T := lt_of_le_of_lt (by unfold tOf fromLog; rw [sub_zero]; exact (hμ.pw_pos _).le) hT1
  have hl : lT μ T = μ.lg T := toLog_pos hμ hTp
  have a1 : s.lTMin < lT μ T := by
    by_contra hc; push Not at hc
    have := hμ.pw_mono.monotone hc
    rw [hl, hμ.pw_lg T hTp] at this
    unfold tOf fromLog at hT1; linarith
  have a2 : lT μ T < s.lTMax := by
    by_contra hc; push Not at hc
    have := hμ.pw_mono.monotone hc
    rw [hl, hμ.pw_lg T hTp] at this
    unfold tOf fromLog at hT2; linarith
  have hlE : lEOf μ s e = f (lT μ T) := by
    have hpos := hμ.pw_pos (f (lT μ T))
    have : e + s.lEOffset = μ.pw (f (lT μ T)) := by rw [he]; unfold eOf fromLog; ring
    unfold lEOf toLog; rw [hμ.small, max_eq_left (by linarith), add_zero, this, abs_of_pos hpos, hμ.lg_pw]
  have hc0 : ¬ e ≤ s.eCold.interp Ye ((s.tab .lE).g0.x i) := by
    have hmin := minE_node hμ h hk hi
    unfold minE at hmin; rw [lRho_pw hμ] at hmin
    rw [hmin, he, ← f0, not_le]
    refine eOf_mono hμ s ?_
    have := rate _ _ a1.le
    have := mul_pos hm (by linarith : 0 < lT μ T - s.lTMin)
    linarith
  have hc1 : ¬ e ≥ s.eHot.interp Ye ((s.tab .lE).g0.x i) := by
    rw [hot_node hμ h hk hi, he, ← f1, ge_iff_le, not_le]
    refine eOf_mono hμ s ?_
    have := rate _ _ a2.le
    have := mul_pos hm (by linarith : 0 < s.lTMax - lT μ T)
    linarith
  set g := if s.lTMin ≤ c ∧ c ≤ s.lTMax then c else 1 / 2 * (s.lTMin + s.lTMax) with hg
  have hgm : s.lTMin ≤ g ∧ g ≤ s.lTMax := by
    rw [hg]; split_ifs with hc
    · exact hc
    · constructor <;> linarith
  have hinv : lTOfE μ s Ye c ((s.tab .lE).g0.x i) e = invert μ.thr f (f (lT μ T)) g s.lTMin s.lTMax g := by
    unfold lTOfE
    rw [if_neg hc0, if_neg hc1, ← hlE]
  refine ⟨fun hok => ?_, fun M hmM hmost hen => ?_⟩
  · have hq : lT μ (query μ s .tRE Ye c rho e) = (lTOfE μ s Ye c ((s.tab .lE).g0.x i) e).2 := by
      simp only [query, Q.byEnergy, if_true, at_, hrho, lT_tOf hμ]
    rw [hq]
    simp only [st] at hok
    rw [hinv] at hok ⊢
    exact invert_rate hthr (Or.inl rfl) hm (fun u v _ q _ => by rw [one_mul]; exact rate u v q) a1.le a2.le rfl hgm.1 hgm.2
      (Prod.ext hok rfl)
  · simp only [st]
    rw [hinv]
    obtain ⟨z, hz⟩ := invert_total (f := f) (y := f (lT μ T)) (fb := g) hthr (Or.inl rfl) hm hmM hen
      (fun u v _ q _ => by
        rw [one_mul]
        refine ⟨rate u v q, ?_⟩
        rw [hf, hf]; exact lin_rate_le h.okT (fun j hj => hmost j (by rw [hN.1] at hj; exact hj)) q)
      a1.le a2.le rfl hgm.1 hgm.2
    rw [hz]

/-- C105: the round trip of pressure. If the stored log pressures of neighbouring densities differ by at least `m > 0` grid
spacings at every temperature and electron fraction of the table, then for every density, temperature and electron fraction
within the table the density found from the pressure and the temperature, when the root finder succeeds, has a log within
`max thr (2 thr / m)` of the original, from any incoming density. -/
theorem C105_round_trip {μ : Env K} (hμ : Logs μ) (hthr : 0 ≤ μ.thr) {s : Eos K} (Ye rho T rho0 c m : K) (hm : 0 < m)
    (hRn : s.lRhoMin ≤ lRho μ rhoNormal ∧ lRho μ rhoNormal ≤ s.lRhoMax)
    (okR : (s.tab .lP).g0.Ok) (okT : (s.tab .lP).g1.Ok) (okY : (s.tab .lP).g2.Ok)
    (hR : s.lRhoMin ≤ lRho μ rho ∧ lRho μ rho ≤ s.lRhoMax)
    (hT : (s.tab .lP).g1.min ≤ lT μ T ∧ lT μ T ≤ (s.tab .lP).g1.max)
    (hY : (s.tab .lP).g2.min ≤ Ye ∧ Ye ≤ (s.tab .lP).g2.max)
    (hmono : ∀ k < (s.tab .lP).g2.N, ∀ j < (s.tab .lP).g1.N, ∀ i, i + 1 < (s.tab .lP).g0.N →
      m * (s.tab .lP).g0.dx ≤ (s.tab .lP).data k j (i + 1) - (s.tab .lP).data k j i) :
    let P := query μ s .pRT Ye c rho T
    let f := fun r => (s.tab .lP).interp Ye (lT μ T) r
    let g := if lRho μ rho0 < s.lRhoMin ∨ lRho μ rho0 > s.lRhoMax then lRho μ rhoNormal else lRho μ rho0
    let o := dePT μ s Ye P T rho0
    o.2 = query μ s .eRT Ye c o.1 T ∧
    ((invert μ.thr f (lPOf μ P) g s.lRhoMin s.lRhoMax g).1 = .success →
      |lRho μ o.1 - lRho μ rho| ≤ max μ.thr (2 * μ.thr / m)) ∧
    (∀ M, m ≤ M → (∀ k < (s.tab .lP).g2.N, ∀ j < (s.tab .lP).g1.N, ∀ i, i + 1 < (s.tab .lP).g0.N →
        (s.tab .lP).data k j (i + 1) - (s.tab .lP).data k j i ≤ M * (s.tab .lP).g0.dx) →
      Enough m M (s.lRhoMax - s.lRhoMin) μ.thr → (invert μ.thr f (lPOf μ P) g s.lRhoMin s.lRhoMax g).1 = .success) := by
  intro P f g o
  have hg : s.lRhoMin ≤ g ∧ g ≤ s.lRhoMax := by
    simp only [g]; split_ifs with h
    · exact hRn
    · push Not at h; exact h
  set x := (invert μ.thr f (lPOf μ P) g s.lRhoMin s.lRhoMax g).2 with hx
  have ho : o = (rhoOf μ x, eOf μ s ((s.tab .lE).interp Ye (lT μ T) x)) := rfl
  have hrx : rhoOf μ x = μ.pw x := by
    unfold rhoOf fromLog; rw [sub_zero, if_neg (not_lt.2 (hμ.pw_pos x).le)]
  have hlx : lRho μ o.1 = x := by rw [ho, hrx, lRho_pw hμ]
  have hlP : lPOf μ P = f (lRho μ rho) := by
    have : P = μ.pw (f (lRho μ rho)) := by
      simp only [P, query, Q.byEnergy, Bool.false_eq_true, if_false, at_, pOf, fromLog, sub_zero, f]
    rw [this]; unfold lPOf; rw [toLog_pos hμ (hμ.pw_pos _), hμ.lg_pw]
  have rates : ∀ a b : K, (∀ k < (s.tab .lP).g2.N, ∀ j < (s.tab .lP).g1.N, ∀ i, i + 1 < (s.tab .lP).g0.N →
      a * (s.tab .lP).g0.dx ≤ (s.tab .lP).data k j (i + 1) - (s.tab .lP).data k j i ∧
      (s.tab .lP).data k j (i + 1) - (s.tab .lP).data k j i ≤ b * (s.tab .lP).g0.dx) →
      ∀ u v, u ≤ v → a * (v - u) ≤ f v - f u ∧ f v - f u ≤ b * (v - u) := by
    intro a b hab u v huv
    refine lin_rate_param okY (f := fun k r => lin (s.tab .lP).g1 (fun j => lin (s.tab .lP).g0 ((s.tab .lP).data k j) r) (lT μ T))
      (fun k hk => ?_) hY.1 hY.2
    refine lin_rate_param okT (f := fun j r => lin (s.tab .lP).g0 ((s.tab .lP).data k j) r) (fun j hj => ?_) hT.1 hT.2
    exact ⟨lin_rate okR (fun i hi => (hab k hk j hj i hi).1) huv, lin_rate_le okR (fun i hi => (hab k hk j hj i hi).2) huv⟩
  have rate : ∀ u v, u ≤ v → m * (v - u) ≤ f v - f u := by
    intro u v huv
    have e : ∀ r, f r = lin (s.tab .lP).g2 (fun k => lin (s.tab .lP).g1 (fun j => lin (s.tab .lP).g0 ((s.tab .lP).data k j) r) (lT μ T)) Ye :=
      fun r => rfl
    have e2 : f v - f u = lin (s.tab .lP).g2 (fun k => lin (s.tab .lP).g1 (fun j =>
        lin (s.tab .lP).g0 ((s.tab .lP).data k j) v - lin (s.tab .lP).g0 ((s.tab .lP).data k j) u) (lT μ T)) Ye := by
      rw [e, e]
      have : ∀ (gg : Grid K) (p q : Nat → K) (z : K), lin gg p z - lin gg q z = lin gg (fun i => p i - q i) z :=
        fun gg p q z => by unfold lin; ring
      rw [this]; congr 1; funext k; rw [this]
    rw [e2, ← lin_const okY (m * (v - u)) Ye]
    refine lin_mono okY (fun k hk => ?_) hY.1 hY.2
    rw [← lin_const okT (m * (v - u)) (lT μ T)]
    refine lin_mono okT (fun j hj => ?_) hT.1 hT.2
    exact lin_rate okR (fun i hi => hmono k hk j hj i hi) huv
  refine ⟨?_, fun hok => ?_, fun M hmM hmost hen => ?_⟩
  · simp only [query, Q.byEnergy, Bool.false_eq_true, if_false, at_, hlx]
    rw [ho]
  · rw [hlx]
    rw [hlP] at hok hx
    exact invert_rate hthr (Or.inl rfl) hm (fun u v _ q _ => by rw [one_mul]; exact rate u v q) hR.1 hR.2 rfl hg.1 hg.2
      (Prod.ext hok hx.symm)
  · have := rates m M fun k hk j hj i hi => ⟨hmono k hk j hj i hi, hmost k hk j hj i hi⟩
    rw [hlP]
    obtain ⟨z, hz⟩ := invert_total (f := f) (y := f (lRho μ rho)) (fb := g) hthr (Or.inl rfl) hm hmM hen
      (fun u v _ q _ => by rw [one_mul]; exact this u v q) hR.1 hR.2 rfl hg.1 hg.2
    rw [hz]

/-- The hypotheses of `C97_round_trip` are met by the table `steep` (`log e = log T + 2 log rho`), with `m = M = 1`, at
`T = 2` between 1 and 10; those of `C105_round_trip` on its slopes with `m = 2`. -/
example : Loaded trueLogs steep ∧ Enough (1 : ℝ) 1 (steep.lTMax - steep.lTMin) trueLogs.thr ∧
    tOf trueLogs steep.lTMin < 2 ∧ 2 < tOf trueLogs steep.lTMax ∧
    (∀ j, j + 1 < steep.numT → 1 * (steep.tab .lE).g1.dx ≤ (steep.tab .lE).data 0 (j + 1) 1 - (steep.tab .lE).data 0 j 1) ∧
    (∀ j, j + 1 < steep.numT → (steep.tab .lE).data 0 (j + 1) 1 - (steep.tab .lE).data 0 j 1 ≤ 1 * (steep.tab .lE).g1.dx) ∧
    (∀ k < (steep.tab .lP).g2.N, ∀ j < (steep.tab .lP).g1.N, ∀ i, i + 1 < (steep.tab .lP).g0.N →
      2 * (steep.tab .lP).g0.dx ≤ (steep.tab .lP).data k j (i + 1) - (steep.tab .lP).data k j i) := by
  have hdx : (⟨0, 1, 2⟩ : Grid ℝ).dx = 1 := by norm_num [Grid.dx]
  refine ⟨steep_loaded, ⟨0, 49, ?_⟩, ?_, ?_, fun j _ => ?_, fun j _ => ?_, fun k _ j _ i _ => ?_⟩
  · norm_num [steep, trueLogs]
  · simp only [tOf, fromLog, steep, trueLogs]; norm_num
  · simp only [tOf, fromLog, steep, trueLogs]; norm_num
  · simp only [steep, hdx]; push_cast; linarith
  · simp only [steep, hdx]; push_cast; linarith
  · simp only [steep, hdx]; push_cast; linarith

end Verif.SC
