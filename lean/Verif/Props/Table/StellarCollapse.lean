import Verif.Model.Table.StellarCollapse
import Verif.Lemmas.DataBox
import Verif.Props.Table.SpinerRhoT
import Verif.Props.Table.SpinerRhoSie
import Verif.Spec.Fill

/-! # C97-C105: `StellarCollapse` -/

namespace Verif.SC

open Verif.RootFind Verif.Robust Verif.Mods Verif.Databox
open Verif.RhoT (invert StoppedOnResidual invert_success)

set_option linter.unusedSectionVars false
set_option linter.unusedSimpArgs false
set_option linter.unusedVariables false

/-- The two logarithm/exponential pairs are exact inverses and increasing, no `robust::SMALL` shift. -/
structure Logs {K : Type*} [Field K] [LinearOrder K] (m : Env K) : Prop where
  pw_lg : ∀ x, 0 < x → m.pw (m.lg x) = x
  lg_pw : ∀ y, m.lg (m.pw y) = y
  pw_pos : ∀ y, 0 < m.pw y
  pw_mono : StrictMono m.pw
  p10_log : ∀ x, 0 < x → m.pow10 (m.log10 x) = x
  log_p10 : ∀ y, m.log10 (m.pow10 y) = y
  p10_pos : ∀ y, 0 < m.pow10 y
  p10_mono : StrictMono m.pow10
  p10_add : ∀ a b, m.pow10 (a + b) = m.pow10 a * m.pow10 b
  small : m.σ = 0
  eps_pos : 0 < m.eps

/-- Exact base-10 logarithms, `SINGULARITY_USE_TRUE_LOG_GRIDDING`. -/
noncomputable def trueLogs : Env ℝ :=
  { lg := Real.logb 10, pw := fun y => (10 : ℝ) ^ y, log10 := Real.logb 10, pow10 := fun y => (10 : ℝ) ^ y
    eps := 1 / 10 ^ 16, σ := 0, thr := 1 / 10 ^ 14 }

theorem trueLogs_ok : Logs trueLogs where
  pw_lg := fun x hx => Real.rpow_logb (by norm_num) (by norm_num) hx
  lg_pw := fun y => Real.logb_rpow (by norm_num) (by norm_num)
  pw_pos := fun y => Real.rpow_pos_of_pos (by norm_num) y
  pw_mono := fun x y h => Real.rpow_lt_rpow_of_exponent_lt (by norm_num) h
  p10_log := fun x hx => Real.rpow_logb (by norm_num) (by norm_num) hx
  log_p10 := fun y => Real.logb_rpow (by norm_num) (by norm_num)
  p10_pos := fun y => Real.rpow_pos_of_pos (by norm_num) y
  p10_mono := fun x y h => Real.rpow_lt_rpow_of_exponent_lt (by norm_num) h
  p10_add := fun a b => Real.rpow_add (by norm_num) a b
  small := rfl
  eps_pos := by norm_num [trueLogs]

section field
variable {K : Type*} [Field K] [LinearOrder K] [IsStrictOrderedRing K] [FloorRing K]

theorem toLog_pos {m : Env K} (hm : Logs m) {x : K} (hx : 0 < x) : toLog m x 0 = m.lg x := by
  unfold toLog; rw [hm.small, neg_zero, max_eq_left hx.le, add_zero, add_zero, abs_of_pos hx]

theorem tOf_lT {m : Env K} (hm : Logs m) {T : K} (hT : 0 < T) : tOf m (lT m T) = T := by
  unfold tOf lT fromLog; rw [toLog_pos hm hT, hm.pw_lg T hT, sub_zero]

theorem lT_tOf {m : Env K} (hm : Logs m) (x : K) : lT m (tOf m x) = x := by
  unfold tOf lT fromLog; rw [sub_zero, toLog_pos hm (hm.pw_pos x), hm.lg_pw]

theorem lRho_pw {m : Env K} (hm : Logs m) (x : K) : lRho m (m.pw x) = x := by
  unfold lRho; rw [toLog_pos hm (hm.pw_pos x), hm.lg_pw]

/-! ## C97: queries by energy are the queries at the temperature found -/

/-- C97: every query by density and energy is the query by density and temperature at the temperature the EOS reports for
that energy, for every state on or off the table and every lambda; the bulk modulus lacks the floor. -/
theorem C97_energy_is_temperature {m : Env K} (hm : Logs m) (s : Eos K) (Ye c c' rho e : K) :
    let T := query m s .tRE Ye c rho e
    query m s .pRE Ye c rho e = query m s .pRT Ye c' rho T ∧
    query m s .sRE Ye c rho e = query m s .sRT Ye c' rho T ∧
    query m s .cvRE Ye c rho e = query m s .cvRT Ye c' rho T ∧
    query m s .gRE Ye c rho e = query m s .gRT Ye c' rho T ∧
    query m s .bRT Ye c' rho T = max (query m s .bRE Ye c rho e) m.eps := by
  intro T
  have hT : lT m T = (lTOfE m s Ye c (lRho m rho) e).2 := by
    change lT m (tOf m _) = _
    rw [lT_tOf hm]; rfl
  simp only [query, Q.byEnergy, if_true, if_false, hT, at_, flo, Bool.false_eq_true]
  refine ⟨trivial, trivial, trivial, trivial, ?_⟩
  split_ifs with h
  · exact (max_eq_left h.le).symm
  · exact (max_eq_right (not_lt.1 h)).symm

/-- C97: an energy at or below the cold curve gives the lowest temperature of the table, one at or above the hot curve (and
above the cold one) the highest, whatever the lambda. -/
theorem C97_clamped (m : Env K) (s : Eos K) (Ye c rho e : K) :
    (e ≤ minE m s Ye rho → query m s .tRE Ye c rho e = tOf m s.lTMin) ∧
    (minE m s Ye rho < e → s.eHot.interp Ye (lRho m rho) ≤ e → query m s .tRE Ye c rho e = tOf m s.lTMax) := by
  unfold minE
  constructor
  · intro h
    simp only [query, Q.byEnergy, if_true, lTOfE, if_pos h, at_]
  · intro h h'
    simp only [query, Q.byEnergy, if_true, lTOfE, if_neg (not_le.2 h), if_pos h', at_]

/-! ## C98: cold and hot curves -/

/-- What loading guarantees about the axes and the curves. -/
structure Loaded (m : Env K) (s : Eos K) : Prop where
  okY : (s.tab .lE).g2.Ok
  okT : (s.tab .lE).g1.Ok
  okR : (s.tab .lE).g0.Ok
  gT : (s.tab .lE).g1 = ⟨s.lTMin, s.lTMax, s.numT⟩
  coldY : s.eCold.g1 = (s.tab .lE).g2
  coldR : s.eCold.g0 = (s.tab .lE).g0
  hotY : s.eHot.g1 = (s.tab .lE).g2
  hotR : s.eHot.g0 = (s.tab .lE).g0
  cold : ∀ k i, s.eCold.data k i = eOf m s ((s.tab .lE).data k 0 i)
  hot : ∀ k i, s.eHot.data k i = eOf m s ((s.tab .lE).data k (s.numT - 1) i)
  smin : s.sieMin = s.eCold.min
  smax : s.sieMax = s.eHot.max

theorem Loaded.first {m : Env K} {s : Eos K} (h : Loaded m s) : (s.tab .lE).g1.x 0 = s.lTMin := by
  rw [Grid.x_zero, h.gT]

theorem Loaded.last {m : Env K} {s : Eos K} (h : Loaded m s) : (s.tab .lE).g1.x (s.numT - 1) = s.lTMax := by
  have := Grid.x_last h.okT
  rw [h.gT] at this ⊢; exact this

theorem Loaded.numT {m : Env K} {s : Eos K} (h : Loaded m s) : (s.tab .lE).g1.N = s.numT ∧ 2 ≤ s.numT := by
  have := h.okT.two
  rw [h.gT] at this ⊢; exact ⟨rfl, this⟩

/-- The log energy at a node of the density and electron-fraction axes. -/
theorem lE_node {m : Env K} {s : Eos K} (h : Loaded m s) {k i : Nat} (hk : k < (s.tab .lE).g2.N)
    (hi : i < (s.tab .lE).g0.N) (x : K) :
    (s.tab .lE).interp ((s.tab .lE).g2.x k) x ((s.tab .lE).g0.x i)
      = lin (s.tab .lE).g1 (fun j => (s.tab .lE).data k j i) x := by
  unfold Box3.interp
  rw [lin_node h.okY _ hk]
  congr 1; funext j
  rw [lin_node h.okR _ hi]

theorem minE_node {m : Env K} (hm : Logs m) {s : Eos K} (h : Loaded m s) {k i : Nat} (hk : k < (s.tab .lE).g2.N)
    (hi : i < (s.tab .lE).g0.N) :
    minE m s ((s.tab .lE).g2.x k) (m.pw ((s.tab .lE).g0.x i)) = eOf m s ((s.tab .lE).data k 0 i) := by
  unfold minE
  rw [lRho_pw hm]
  have := Box2.interp_node (b := s.eCold) (by rw [h.coldY]; exact h.okY) (by rw [h.coldR]; exact h.okR)
    (j := k) (i := i) (by rw [h.coldY]; exact hk) (by rw [h.coldR]; exact hi)
  rw [h.coldY, h.coldR] at this
  rw [this, h.cold]

theorem hot_node {m : Env K} (hm : Logs m) {s : Eos K} (h : Loaded m s) {k i : Nat} (hk : k < (s.tab .lE).g2.N)
    (hi : i < (s.tab .lE).g0.N) :
    s.eHot.interp ((s.tab .lE).g2.x k) ((s.tab .lE).g0.x i) = eOf m s ((s.tab .lE).data k (s.numT - 1) i) := by
  have := Box2.interp_node (b := s.eHot) (by rw [h.hotY]; exact h.okY) (by rw [h.hotR]; exact h.okR)
    (j := k) (i := i) (by rw [h.hotY]; exact hk) (by rw [h.hotR]; exact hi)
  rw [h.hotY, h.hotR] at this
  rw [this, h.hot]

theorem eOf_mono {m : Env K} (hm : Logs m) (s : Eos K) : StrictMono (eOf m s) := fun x y h => by
  unfold eOf fromLog; linarith [hm.pw_mono h]

/-- C98: at the densities and electron fractions of the table, the minimum energy is the energy at the lowest temperature,
and (for isochores on which the energy increases) no temperature of the table has a smaller one, none has a
larger one than the hot curve; and the global bounds hold. -/
theorem C98_nodes {m : Env K} (hm : Logs m) {s : Eos K} (h : Loaded m s) {k i : Nat} (hk : k < (s.tab .lE).g2.N)
    (hi : i < (s.tab .lE).g0.N) (c : K) :
    let Ye := (s.tab .lE).g2.x k
    let rho := m.pw ((s.tab .lE).g0.x i)
    minE m s Ye rho = query m s .eRT Ye c rho (tOf m s.lTMin) ∧ s.sieMin ≤ minE m s Ye rho ∧
    ((∀ j, j + 1 < s.numT → (s.tab .lE).data k j i < (s.tab .lE).data k (j + 1) i) →
      ∀ T, tOf m s.lTMin ≤ T → T ≤ tOf m s.lTMax →
        minE m s Ye rho ≤ query m s .eRT Ye c rho T ∧ query m s .eRT Ye c rho T ≤ s.eHot.interp Ye (lRho m rho) ∧
        query m s .eRT Ye c rho T ≤ s.sieMax) := by
  intro Ye rho
  have hq : ∀ T, query m s .eRT Ye c rho T = eOf m s (lin (s.tab .lE).g1 (fun j => (s.tab .lE).data k j i) (lT m T)) := by
    intro T
    simp only [query, Q.byEnergy, Bool.false_eq_true, if_false, at_, rho, lRho_pw hm, Ye]
    rw [lE_node h hk hi]
  have h0 : lin (s.tab .lE).g1 (fun j => (s.tab .lE).data k j i) s.lTMin = (s.tab .lE).data k 0 i := by
    rw [← h.first]; exact lin_node h.okT _ (by have := h.okT.two; omega)
  have h1 : lin (s.tab .lE).g1 (fun j => (s.tab .lE).data k j i) s.lTMax = (s.tab .lE).data k (s.numT - 1) i := by
    rw [← h.last]; exact lin_node h.okT _ (by have := h.numT; omega)
  have hmin := minE_node hm h hk hi
  have hmax := hot_node hm h hk hi
  refine ⟨?_, ?_, fun hmono T hT1 hT2 => ?_⟩
  · rw [hq, lT_tOf hm, h0]; exact hmin
  · rw [hmin, ← h.cold, h.smin]
    exact (Box2.min_spec s.eCold (by rw [h.coldY]; have := h.okY.two; omega) (by rw [h.coldR]; have := h.okR.two; omega)).1
      k (by rw [h.coldY]; exact hk) i (by rw [h.coldR]; exact hi)
  · have hTp : 0 < T := lt_of_lt_of_le (by unfold tOf fromLog; rw [sub_zero]; exact hm.pw_pos _) hT1
    have hl : lT m T = m.lg T := toLog_pos hm hTp
    have a : s.lTMin ≤ lT m T := by
      by_contra hc; push Not at hc
      have := hm.pw_mono hc
      rw [hl, hm.pw_lg T hTp] at this
      unfold tOf fromLog at hT1; linarith
    have b : lT m T ≤ s.lTMax := by
      by_contra hc; push Not at hc
      have := hm.pw_mono hc
      rw [hl, hm.pw_lg T hTp] at this
      unfold tOf fromLog at hT2; linarith
    have mono := (lin_strictMono h.okT (f := fun j => (s.tab .lE).data k j i)
      (fun j hj => hmono j (by rw [h.numT.1] at hj; exact hj))).monotone
    have ea := (eOf_mono hm s).monotone (mono a)
    have eb := (eOf_mono hm s).monotone (mono b)
    rw [h0] at ea
    rw [h1] at eb
    rw [hq]
    refine ⟨by rw [hmin]; exact ea, ?_, ?_⟩
    · simp only [Ye, rho, lRho_pw hm, hmax]; exact eb
    · rw [← h.hot] at eb
      refine eb.trans ?_
      rw [h.smax]
      exact (Box2.max_spec s.eHot (by rw [h.hotY]; have := h.okY.two; omega) (by rw [h.hotR]; have := h.okR.two; omega)).1
        k (by rw [h.hotY]; exact hk) i (by rw [h.hotR]; exact hi)

end field

/-- C97: at the densities and electron fractions of the table, on isochores with increasing energy, a
successful inversion of an energy between the curves gives a temperature of the table whose logarithm is within the
threshold of the one temperature that has exactly this energy, whatever the lambda cache holds. -/
theorem C97_table_converged {m : Env ℝ} (hm : Logs m) (hthr : 0 ≤ m.thr) {s : Eos ℝ} (h : Loaded m s) {k i : Nat}
    (hk : k < (s.tab .lE).g2.N) (hi : i < (s.tab .lE).g0.N) (c c' e : ℝ)
    (hmono : ∀ j, j + 1 < s.numT → (s.tab .lE).data k j i < (s.tab .lE).data k (j + 1) i)
    (hcold : minE m s ((s.tab .lE).g2.x k) (m.pw ((s.tab .lE).g0.x i)) < e)
    (hhot : e < s.eHot.interp ((s.tab .lE).g2.x k) ((s.tab .lE).g0.x i))
    (hok : (lTOfE m s ((s.tab .lE).g2.x k) c ((s.tab .lE).g0.x i) e).1 = .success) :
    let Ye := (s.tab .lE).g2.x k
    let rho := m.pw ((s.tab .lE).g0.x i)
    let f := fun x => (s.tab .lE).interp Ye x ((s.tab .lE).g0.x i)
    let T := query m s .tRE Ye c rho e
    T ∈ Set.Icc (tOf m s.lTMin) (tOf m s.lTMax) ∧
    ((∃! T', T' ∈ Set.Icc (tOf m s.lTMin) (tOf m s.lTMax) ∧ query m s .eRT Ye c' rho T' = e) ∧
     (∃ T' ∈ Set.Icc (tOf m s.lTMin) (tOf m s.lTMax), query m s .eRT Ye c' rho T' = e ∧ |lT m T - lT m T'| ≤ m.thr) ∨
     ∃ g ∈ Set.Icc s.lTMin s.lTMax, StoppedOnResidual m.thr f (lEOf m s e) g s.lTMin s.lTMax) := by
  intro Ye rho f T
  have hmin := minE_node hm h hk hi
  have hmax := hot_node hm h hk hi
  have hf : ∀ x, f x = lin (s.tab .lE).g1 (fun j => (s.tab .lE).data k j i) x := fun x => lE_node h hk hi x
  have hf' : f = lin (s.tab .lE).g1 (fun j => (s.tab .lE).data k j i) := funext hf
  have hN := h.numT
  have f0 : f s.lTMin = (s.tab .lE).data k 0 i := by rw [hf, ← h.first]; exact lin_node h.okT _ (by omega)
  have f1 : f s.lTMax = (s.tab .lE).data k (s.numT - 1) i := by rw [hf, ← h.last]; exact lin_node h.okT _ (by omega)
  have sm : StrictMono f := by
    rw [hf']; exact lin_strictMono h.okT fun j hj => hmono j (by rw [hN.1] at hj; exact hj)
  have hct : Continuous f := by rw [hf']; exact lin_continuous h.okT _
  have hle : s.lTMin < s.lTMax := by have := h.okT.lt; rw [h.gT] at this; exact this
  rw [hmin] at hcold
  rw [hmax] at hhot
  have hpos : 0 < e + s.lEOffset := by
    have := hm.pw_pos ((s.tab .lE).data k 0 i)
    unfold eOf fromLog at hcold; linarith
  have hlE : lEOf m s e = m.lg (e + s.lEOffset) := by
    unfold lEOf toLog; rw [hm.small, max_eq_left (by linarith), add_zero, abs_of_pos hpos]
  have hback : eOf m s (lEOf m s e) = e := by
    unfold eOf fromLog; rw [hlE, hm.pw_lg _ hpos]; ring
  have b0 : f s.lTMin < lEOf m s e := by
    rw [f0]; by_contra hc; push Not at hc
    have := (eOf_mono hm s).monotone hc
    rw [hback] at this; linarith
  have b1 : lEOf m s e < f s.lTMax := by
    rw [f1]; by_contra hc; push Not at hc
    have := (eOf_mono hm s).monotone hc
    rw [hback] at this; linarith
  set g := if s.lTMin ≤ c ∧ c ≤ s.lTMax then c else 1 / 2 * (s.lTMin + s.lTMax) with hg
  have hgm : s.lTMin ≤ g ∧ g ≤ s.lTMax := by
    rw [hg]; split_ifs with hc
    · exact hc
    · constructor <;> linarith
  have hrho : lRho m rho = (s.tab .lE).g0.x i := lRho_pw hm _
  have hcv : s.eCold.interp Ye ((s.tab .lE).g0.x i) = eOf m s ((s.tab .lE).data k 0 i) := by
    rw [← hmin]; unfold minE; rw [lRho_pw hm]
  have hinv : lTOfE m s Ye c ((s.tab .lE).g0.x i) e = invert m.thr f (lEOf m s e) g s.lTMin s.lTMax g := by
    unfold lTOfE
    rw [if_neg (by rw [hcv]; exact not_le.2 hcold), if_neg (by rw [hmax]; exact not_le.2 hhot)]
  rw [hinv] at hok
  set x := (invert m.thr f (lEOf m s e) g s.lTMin s.lTMax g).2 with hx
  obtain ⟨q1, q2, q3⟩ := invert_success hthr hgm.1 hgm.2 hct.continuousOn
    (mul_nonpos_of_nonpos_of_nonneg (by linarith) (by linarith))
    (show invert m.thr f (lEOf m s e) g s.lTMin s.lTMax g = (.success, x) from Prod.ext hok rfl)
  have hT : T = tOf m x := by
    change query m s .tRE Ye c rho e = _
    simp only [query, Q.byEnergy, if_true, at_, hrho, hinv, ← hx]
  have tmono : StrictMono (tOf m) := fun a b hab => by unfold tOf fromLog; linarith [hm.pw_mono hab]
  have hquery : ∀ T', query m s .eRT Ye c' rho T' = eOf m s (f (lT m T')) := by
    intro T'
    simp only [query, Q.byEnergy, Bool.false_eq_true, if_false, at_, hrho, f]
  refine ⟨by rw [hT]; exact ⟨tmono.monotone q1, tmono.monotone q2⟩, ?_⟩
  rcases q3 with ⟨r, ⟨r1, r2⟩, hr, hd⟩ | hs
  · left
    refine ⟨⟨tOf m r, ⟨⟨tmono.monotone r1, tmono.monotone r2⟩, ?_⟩, ?_⟩, tOf m r, ⟨tmono.monotone r1, tmono.monotone r2⟩, ?_, ?_⟩
    · rw [hquery, lT_tOf hm, hr, hback]
    · rintro T' ⟨⟨t1, t2⟩, hT'⟩
      have hTp : 0 < T' := lt_of_lt_of_le (by unfold tOf fromLog; rw [sub_zero]; exact hm.pw_pos _) t1
      rw [hquery] at hT'
      have : f (lT m T') = f r := (eOf_mono hm s).injective (by rw [hT', hr, hback])
      rw [← sm.injective this, tOf_lT hm hTp]
    · rw [hquery, lT_tOf hm, hr, hback]
    · rw [hT, lT_tOf hm, lT_tOf hm]; exact hd
  · exact Or.inr ⟨g, hgm, hs⟩

end Verif.SC
