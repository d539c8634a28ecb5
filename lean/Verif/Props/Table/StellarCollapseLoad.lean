import Verif.Props.Table.StellarCollapse
import Mathlib.Data.List.Sort

/-! # C97-C105, continued: loading, saving, `FillEos`, reference state -/

namespace Verif.SC

open Verif.RootFind Verif.Robust Verif.Mods Verif.Databox
open Verif.RhoT (invert StoppedOnResidual invert_success)

set_option linter.unusedSectionVars false
set_option linter.unusedSimpArgs false
set_option linter.unusedVariables false

section field
variable {K : Type*} [Field K] [LinearOrder K] [IsStrictOrderedRing K] [FloorRing K]

/-- A file with at least two points and increasing bounds on each axis. -/
structure File.Ok (fi : File K) : Prop where
  nR : 2 ≤ fi.nRho
  nT : 2 ≤ fi.nT
  nY : 2 ≤ fi.nYe
  r : fi.logrhoMin < fi.logrhoMax
  t : fi.logtempMin < fi.logtempMax
  y : fi.yeMin < fi.yeMax

theorem dense_ge {n : Nat} (h : 2 ≤ n) : 2 ≤ dense n := by unfold dense; omega

theorem lg_mono {m : Env K} (hm : Logs m) {x y : K} (hx : 0 < x) (hxy : x < y) : m.lg x < m.lg y := by
  by_contra hc; push Not at hc
  have := hm.pw_mono.monotone hc
  rw [hm.pw_lg _ hx, hm.pw_lg _ (hx.trans hxy)] at this; linarith

theorem grid_ok {m : Env K} (hm : Logs m) {g : Grid K} (h : g.min < g.max) {n : Nat} (hn : 2 ≤ n) :
    (gridToNQT m g n).Ok := ⟨hn, lg_mono hm (hm.p10_pos _) (hm.p10_mono h)⟩

/-- The axes of the tables as read. -/
theorem raw_axes (m : Env K) (b : Bool) (fi : File K) (f : F) :
    (rawTab m b fi f).g2 = ⟨fi.yeMin, fi.yeMax, fi.nYe⟩ ∧
    (rawTab m b fi f).g1 = ⟨fi.logtempMin + m.log10 MeV2K, fi.logtempMax + m.log10 MeV2K, fi.nT⟩ ∧
    (rawTab m b fi f).g0 = ⟨fi.logrhoMin, fi.logrhoMax, fi.nRho⟩ := by
  cases f <;> simp [rawTab, bulkBox]

/-- Every table loaded from a good file satisfies what C97 and C98 assume. -/
theorem load_loaded {m : Env K} (hm : Logs m) (b : Bool) {fi : File K} (h : fi.Ok) : Loaded m (load m b fi) where
  okY := ⟨by simpa [load, regridded, regrid, raw_axes] using h.nY, by simpa [load, regridded, regrid, raw_axes] using h.y⟩
  okT := by
    simp only [load, regridded, regrid, raw_axes]
    exact grid_ok hm (by linarith [h.t]) (dense_ge h.nT)
  okR := by
    simp only [load, regridded, regrid, raw_axes]
    exact grid_ok hm h.r (dense_ge h.nR)
  gT := by simp only [load, regridded, regrid, raw_axes, gridToNQT]
  coldY := by simp only [load, regridded, regrid, raw_axes, curve]
  coldR := by simp only [load, regridded, regrid, raw_axes, curve, gridToNQT]
  hotY := by simp only [load, regridded, regrid, raw_axes, curve]
  hotR := by simp only [load, regridded, regrid, raw_axes, curve, gridToNQT]
  cold := fun k i => by simp only [load, regridded, regrid, raw_axes, curve, eOf]
  hot := fun k i => by simp only [load, regridded, regrid, raw_axes, curve, eOf]
  smin := rfl
  smax := rfl

/-! ## C101: re-gridding keeps the file's values -/

/-- The stored value of a table of the file at a state: the interpolation in `log10 T`, `log10 rho` of the tables as read
(and hardened). -/
def fileValue (m : Env K) (b : Bool) (fi : File K) (f : F) (Ye rho T : K) : K :=
  (rawTab m b fi f).interp Ye (m.log10 T) (m.log10 rho)

/-- C101: at every density, temperature and electron fraction of the grid used for look-ups, energy and pressure are ten to
the file's own log-log interpolation (less the energy shift), and every table read linearly, apart from
the chemical potentials, gives the file's own interpolation. Any sizes. -/
theorem C101_regrid {m : Env K} (hm : Logs m) (b : Bool) {fi : File K} (h : fi.Ok) {k j i : Nat} (hk : k < fi.nYe)
    (hj : j < dense fi.nT) (hi : i < dense fi.nRho) (c : K) :
    let s := load m b fi
    let Ye := (s.tab .lP).g2.x k
    let T := m.pw ((s.tab .lP).g1.x j)
    let rho := m.pw ((s.tab .lP).g0.x i)
    query m s .pRT Ye c rho T = m.pow10 (fileValue m b fi .lP Ye rho T) ∧
    query m s .eRT Ye c rho T = m.pow10 (fileValue m b fi .lE Ye rho T) - fi.energyShift ∧
    query m s .bRT Ye c rho T = max (m.pow10 (fileValue m b fi .lBMod Ye rho T)) m.eps ∧
    query m s .cvRT Ye c rho T = max (fileValue m b fi .dEdT Ye rho T) m.eps ∧
    query m s .sRT Ye c rho T = max (fileValue m b fi .entropy Ye rho T) m.eps ∧
    (∀ f, regridded f = some false → composition m s f Ye rho T = fileValue m b fi f Ye rho T) := by
  intro s Ye T rho
  have hT : lT m T = (s.tab .lP).g1.x j := by unfold lT; rw [toLog_pos hm (hm.pw_pos _), hm.lg_pw]
  have hR : lRho m rho = (s.tab .lP).g0.x i := lRho_pw hm _
  have hS : ∀ f l, regridded f = some l → s.tab f
      = regrid m (gridToNQT m (rawTab m b fi .lP).g1 (dense fi.nT)) (gridToNQT m (rawTab m b fi .lP).g0 (dense fi.nRho)) l
        (rawTab m b fi f) := fun f l hf => by simp only [s, load, hf]
  have okY : ∀ f, (rawTab m b fi f).g2.Ok := fun f => by
    rw [(raw_axes m b fi f).1]; exact ⟨h.nY, h.y⟩
  have ok1 : (gridToNQT m (rawTab m b fi .lP).g1 (dense fi.nT)).Ok := by
    rw [(raw_axes m b fi .lP).2.1]; exact grid_ok hm (by dsimp only; linarith [h.t]) (dense_ge h.nT)
  have ok0 : (gridToNQT m (rawTab m b fi .lP).g0 (dense fi.nRho)).Ok := by
    rw [(raw_axes m b fi .lP).2.2]; exact grid_ok hm h.r (dense_ge h.nR)
  have key : ∀ f l, regridded f = some l → (s.tab f).interp Ye (lT m T) (lRho m rho)
      = if l then m.lg (m.pow10 (fileValue m b fi f Ye rho T)) else fileValue m b fi f Ye rho T := by
    intro f l hf
    have e1 : lT m T = (gridToNQT m (rawTab m b fi .lP).g1 (dense fi.nT)).x j := by
      rw [hT, hS .lP true rfl]; rfl
    have e0 : lRho m rho = (gridToNQT m (rawTab m b fi .lP).g0 (dense fi.nRho)).x i := by
      rw [hR, hS .lP true rfl]; rfl
    have eY : Ye = (rawTab m b fi f).g2.x k := by
      change (s.tab .lP).g2.x k = _
      rw [hS .lP true rfl]
      simp only [regrid, raw_axes]
    rw [hS f l hf, e1, e0, eY]
    have := Box3.interp_node (b := regrid m (gridToNQT m (rawTab m b fi .lP).g1 (dense fi.nT))
      (gridToNQT m (rawTab m b fi .lP).g0 (dense fi.nRho)) l (rawTab m b fi f)) (k := k) (j := j) (i := i)
      (okY f) ok1 ok0 (by simp only [regrid, raw_axes]; exact hk) hj hi
    rw [show (regrid m (gridToNQT m (rawTab m b fi .lP).g1 (dense fi.nT))
      (gridToNQT m (rawTab m b fi .lP).g0 (dense fi.nRho)) l (rawTab m b fi f)).g2 = (rawTab m b fi f).g2 from rfl,
      show (regrid m (gridToNQT m (rawTab m b fi .lP).g1 (dense fi.nT))
      (gridToNQT m (rawTab m b fi .lP).g0 (dense fi.nRho)) l (rawTab m b fi f)).g1
        = gridToNQT m (rawTab m b fi .lP).g1 (dense fi.nT) from rfl,
      show (regrid m (gridToNQT m (rawTab m b fi .lP).g1 (dense fi.nT))
      (gridToNQT m (rawTab m b fi .lP).g0 (dense fi.nRho)) l (rawTab m b fi f)).g0
        = gridToNQT m (rawTab m b fi .lP).g0 (dense fi.nRho) from rfl] at this
    rw [this]
    unfold fileValue regrid
    dsimp only
    have eT : m.pw ((gridToNQT m (rawTab m b fi .lP).g1 (dense fi.nT)).x j) = T := by
      rw [← e1]; change m.pw (toLog m T 0) = T
      rw [toLog_pos hm (hm.pw_pos _), hm.pw_lg _ (hm.pw_pos _)]
    have eR : m.pw ((gridToNQT m (rawTab m b fi .lP).g0 (dense fi.nRho)).x i) = rho := by
      rw [← e0]; change m.pw (toLog m rho 0) = rho
      rw [toLog_pos hm (hm.pw_pos _), hm.pw_lg _ (hm.pw_pos _)]
    rw [eT, eR]
  have fl : ∀ x, flo m x = max x m.eps := fun x => by
    unfold flo; split_ifs with hx
    · exact (max_eq_left hx.le).symm
    · exact (max_eq_right (not_lt.1 hx)).symm
  have hoff : s.lEOffset = fi.energyShift := rfl
  refine ⟨?_, ?_, ?_, ?_, ?_, fun f hf => ?_⟩
  · simp only [query, Q.byEnergy, Bool.false_eq_true, if_false, at_, pOf, fromLog, sub_zero]
    rw [key .lP true rfl, if_pos rfl, hm.pw_lg _ (hm.p10_pos _)]
  · simp only [query, Q.byEnergy, Bool.false_eq_true, if_false, at_, eOf, fromLog, hoff]
    rw [key .lE true rfl, if_pos rfl, hm.pw_lg _ (hm.p10_pos _)]
  · simp only [query, Q.byEnergy, Bool.false_eq_true, if_false, at_, pOf, fromLog, sub_zero, fl]
    rw [key .lBMod true rfl, if_pos rfl, hm.pw_lg _ (hm.p10_pos _)]
  · simp only [query, Q.byEnergy, Bool.false_eq_true, if_false, at_, fl]
    rw [key .dEdT false rfl, if_neg Bool.false_ne_true]
  · simp only [query, Q.byEnergy, Bool.false_eq_true, if_false, at_, fl]
    rw [key .entropy false rfl, if_neg Bool.false_ne_true]
  · unfold composition
    rw [key f false hf, if_neg Bool.false_ne_true]

/-- C101: at the file's own grid points the values read are the file's: with the temperature of the point converted from
MeV to K, the heat capacity is the file's converted from per MeV to per K (apart from the median filter), every other table
is as in the file. -/
theorem C101_file_points {m : Env K} (hm : Logs m) {fi : File K} (h : fi.Ok) {k j i : Nat} (hk : k < fi.nYe)
    (hj : j < fi.nT) (hi : i < fi.nRho) :
    let Ye := (⟨fi.yeMin, fi.yeMax, fi.nYe⟩ : Grid K).x k
    let T := m.pow10 ((⟨fi.logtempMin, fi.logtempMax, fi.nT⟩ : Grid K).x j) * MeV2K
    let rho := m.pow10 ((⟨fi.logrhoMin, fi.logrhoMax, fi.nRho⟩ : Grid K).x i)
    fileValue m false fi .dEdT Ye rho T * MeV2K = fi.data .dEdT k j i ∧
    (∀ b f, f ≠ .dEdT → f ≠ .lBMod → (b = false ∨ (f ≠ .dPdRho ∧ f ≠ .dPdE)) →
      fileValue m b fi f Ye rho T = fi.data f k j i) := by
  intro Ye T rho
  have hM : (0 : K) < MeV2K := by unfold MeV2K; positivity
  have eR : m.log10 rho = (⟨fi.logrhoMin, fi.logrhoMax, fi.nRho⟩ : Grid K).x i := hm.log_p10 _
  have eT : m.log10 T = (⟨fi.logtempMin + m.log10 MeV2K, fi.logtempMax + m.log10 MeV2K, fi.nT⟩ : Grid K).x j := by
    have : T = m.pow10 ((⟨fi.logtempMin, fi.logtempMax, fi.nT⟩ : Grid K).x j + m.log10 MeV2K) := by
      rw [hm.p10_add, hm.p10_log _ hM]
    rw [this, hm.log_p10]; simp only [Grid.x, Grid.dx]; ring
  have key : ∀ b f, fileValue m b fi f Ye rho T = (rawTab m b fi f).data k j i := by
    intro b f
    obtain ⟨a2, a1, a0⟩ := raw_axes m b fi f
    have := Box3.interp_node (b := rawTab m b fi f) (k := k) (j := j) (i := i) (by rw [a2]; exact ⟨h.nY, h.y⟩)
      (by rw [a1]; exact ⟨h.nT, by dsimp only; linarith [h.t]⟩) (by rw [a0]; exact ⟨h.nR, h.r⟩)
      (by rw [a2]; exact hk) (by rw [a1]; exact hj) (by rw [a0]; exact hi)
    rw [← this, a2, a1, a0, fileValue, eT, eR]
  refine ⟨?_, fun b f h1 h2 h3 => ?_⟩
  · rw [key]
    show fi.data .dEdT k j i * (1 / MeV2K) * MeV2K = _
    rw [one_div, mul_assoc, inv_mul_cancel₀ hM.ne', mul_one]
  · rw [key]
    cases f <;> simp_all [rawTab] <;> rcases h3 with h3 | h3 <;> simp_all

/-- C101: the range of validity is the file's: the bounds in temperature (converted from MeV to K), density and electron
fraction. -/
theorem C101_bounds {m : Env K} (hm : Logs m) (b : Bool) (fi : File K) :
    let s := load m b fi
    tOf m s.lTMin = m.pow10 fi.logtempMin * MeV2K ∧ tOf m s.lTMax = m.pow10 fi.logtempMax * MeV2K ∧
    rhoOf m s.lRhoMin = m.pow10 fi.logrhoMin ∧ rhoOf m s.lRhoMax = m.pow10 fi.logrhoMax ∧
    s.YeMin = fi.yeMin ∧ s.YeMax = fi.yeMax := by
  intro s
  have hM : (0 : K) < MeV2K := by unfold MeV2K; positivity
  have e1 : s.lTMin = m.lg (m.pow10 (fi.logtempMin + m.log10 MeV2K)) := by simp only [s, load, regridded, regrid, raw_axes, gridToNQT]
  have e2 : s.lTMax = m.lg (m.pow10 (fi.logtempMax + m.log10 MeV2K)) := by simp only [s, load, regridded, regrid, raw_axes, gridToNQT]
  have e3 : s.lRhoMin = m.lg (m.pow10 fi.logrhoMin) := by simp only [s, load, regridded, regrid, raw_axes, gridToNQT]
  have e4 : s.lRhoMax = m.lg (m.pow10 fi.logrhoMax) := by simp only [s, load, regridded, regrid, raw_axes, gridToNQT]
  have r : ∀ x, rhoOf m (m.lg (m.pow10 x)) = m.pow10 x := fun x => by
    have := hm.p10_pos x
    unfold rhoOf fromLog; rw [sub_zero, hm.pw_lg _ this, if_neg (not_lt.2 this.le)]
  refine ⟨?_, ?_, by rw [e3, r], by rw [e4, r], by simp only [s, load, regridded, regrid, raw_axes],
    by simp only [s, load, regridded, regrid, raw_axes]⟩
  · rw [e1]; unfold tOf fromLog; rw [sub_zero, hm.pw_lg _ (hm.p10_pos _), hm.p10_add, hm.p10_log _ hM]
  · rw [e2]; unfold tOf fromLog; rw [sub_zero, hm.pw_lg _ (hm.p10_pos _), hm.p10_add, hm.p10_log _ hM]

/-- The chemical-potential tables are those of the file, still on the `log10` axes. -/
theorem mu_raw (m : Env K) (b : Bool) (fi : File K) {f : F} (hf : regridded f = none) :
    (load m b fi).tab f = rawTab m b fi f := by simp only [load, hf]

/-- C101 fails for the five chemical potentials whenever the fast logarithm is not `log10` (the default build): there is a
file, whose table is the logarithm of the density, for which the value returned at a density is the fast
logarithm of it. -/
theorem C101_chemical_potentials_violated {m : Env K} (hm : Logs m) (b : Bool) {rho T Ye : K} (hr : 0 < rho) (hT : 0 < T)
    (hne : m.lg rho ≠ m.log10 rho) {f : F} (hf : regridded f = none) :
    ∃ fi : File K, fi.Ok ∧ fileValue m b fi f Ye rho T = m.log10 rho ∧
      composition m (load m b fi) f Ye rho T = m.lg rho ∧
      composition m (load m b fi) f Ye rho T ≠ fileValue m b fi f Ye rho T := by
  let gR : Grid K := ⟨0, 1, 2⟩
  let fi : File K := ⟨2, 2, 2, 0, 1, 0, 1, 0, 1, 0, fun _ _ _ i => gR.x i⟩
  have ok : fi.Ok := ⟨le_rfl, le_rfl, le_rfl, zero_lt_one, zero_lt_one, zero_lt_one⟩
  have hv : ∀ x y z, (rawTab m b fi f).interp x y z = z := by
    intro x y z
    have okR : gR.Ok := ⟨le_rfl, zero_lt_one⟩
    have okT : (⟨0 + m.log10 MeV2K, 1 + m.log10 MeV2K, 2⟩ : Grid K).Ok := ⟨le_rfl, by dsimp only; linarith⟩
    have okY : (⟨0, 1, 2⟩ : Grid K).Ok := ⟨le_rfl, zero_lt_one⟩
    have hd : rawTab m b fi f = ⟨⟨0, 1, 2⟩, ⟨0 + m.log10 MeV2K, 1 + m.log10 MeV2K, 2⟩, gR, fun _ _ i => gR.x i⟩ := by
      cases f <;> first | rfl | (exact absurd hf (by simp [regridded]))
    rw [hd]
    unfold Box3.interp
    have e : lin gR (fun i => gR.x i) z = z := by simpa using lin_affine okR 0 1 z
    rw [show (fun k : Nat => lin (⟨0 + m.log10 MeV2K, 1 + m.log10 MeV2K, 2⟩ : Grid K) (fun j => lin gR (fun i => gR.x i) z) y)
      = fun _ => z from funext fun _ => by rw [e, lin_const okT]]
    exact lin_const okY z x
  refine ⟨fi, ok, hv _ _ _, ?_, ?_⟩
  · unfold composition; rw [mu_raw m b fi hf, hv]; exact toLog_pos hm hr
  · unfold composition fileValue
    rw [mu_raw m b fi hf, hv, hv]
    change toLog m rho 0 ≠ _
    rw [toLog_pos hm hr]; exact hne

/-- C101 holds for the chemical potentials exactly where the two logarithms agree (for instance in a build with true
logarithms): there every file's values are returned. -/
theorem C101_chemical_potentials_partial {m : Env K} (hm : Logs m) (b : Bool) {rho T Ye : K} (hr : 0 < rho) (hT : 0 < T)
    (h1 : m.lg rho = m.log10 rho) (h2 : m.lg T = m.log10 T) (fi : File K) {f : F} (hf : regridded f = none) :
    composition m (load m b fi) f Ye rho T = fileValue m b fi f Ye rho T := by
  unfold composition fileValue
  rw [mu_raw m b fi hf]
  change (rawTab m b fi f).interp Ye (toLog m T 0) (toLog m rho 0) = _
  rw [toLog_pos hm hr, toLog_pos hm hT, h1, h2]

/-! ## C100: the bulk modulus table -/

/-- C100: every stored bulk modulus is at least `robust::EPS`; where the formula is not below that, it is the formula. -/
theorem C100_floor {m : Env K} (hm : Logs m) (lr lp dpdr dpde : K) :
    m.eps ≤ bulkEntry m lr lp dpdr dpde ∧
    (m.eps ≤ m.pow10 lr * dpdr + m.pow10 lp / m.pow10 lr * dpde →
      bulkEntry m lr lp dpdr dpde = m.pow10 lr * dpdr + m.pow10 lp / m.pow10 lr * dpde) := by
  have hr := hm.p10_pos lr
  have hp := hm.p10_pos lp
  have : ratio m.σ (m.pow10 lp) (m.pow10 lr) = m.pow10 lp / m.pow10 lr := by rw [hm.small]; simp [ratio]
  unfold bulkEntry
  dsimp only
  rw [this]
  constructor
  · split_ifs with h
    · exact le_rfl
    · exact not_lt.1 h
  · intro h; rw [if_neg (not_lt.2 h)]

end field

/-- C100: that formula is the isentropic bulk modulus: for a pressure with the tabulated derivatives in density and energy,
along any isentrope (on which `de/drho = P/rho²`) it is `rho dP/drho`. -/
theorem C100_isentropic {m : Env ℝ} (hm : Logs m) {lr lp dpdr dpde e : ℝ} (P : ℝ × ℝ → ℝ) (ε : ℝ → ℝ)
    (hP : HasFDerivAt P (dpdr • ContinuousLinearMap.fst ℝ ℝ ℝ + dpde • ContinuousLinearMap.snd ℝ ℝ ℝ) (m.pow10 lr, e))
    (hval : P (m.pow10 lr, e) = m.pow10 lp) (hε0 : ε (m.pow10 lr) = e)
    (hε : HasDerivAt ε (P (m.pow10 lr, e) / m.pow10 lr ^ 2) (m.pow10 lr))
    (hbig : m.eps ≤ m.pow10 lr * dpdr + m.pow10 lp / m.pow10 lr * dpde) :
    HasDerivAt (fun r => P (r, ε r)) (bulkEntry m lr lp dpdr dpde / m.pow10 lr) (m.pow10 lr) := by
  have hr := hm.p10_pos lr
  rw [(C100_floor hm lr lp dpdr dpde).2 hbig]
  have h1 : HasDerivAt (fun r => (r, ε r)) (1, P (m.pow10 lr, e) / m.pow10 lr ^ 2) (m.pow10 lr) :=
    (hasDerivAt_id _).prodMk hε
  have h2 := HasFDerivAt.comp_hasDerivAt (m.pow10 lr) (by rw [hε0]; exact hP) h1
  refine h2.congr_deriv ?_
  simp only [ContinuousLinearMap.add_apply, ContinuousLinearMap.smul_apply, ContinuousLinearMap.coe_fst',
    ContinuousLinearMap.coe_snd', smul_eq_mul, hval]
  field_simp

/-! ## C98: between the nodes -/

/-- A table with `log10 e = lT + 2 lRho` on `[0,1]²`. -/
noncomputable def steep : Eos ℝ :=
  { tab := fun _ => ⟨⟨0, 1, 2⟩, ⟨0, 1, 2⟩, ⟨0, 1, 2⟩, fun _ j i => j + 2 * i⟩
    eCold := ⟨⟨0, 1, 2⟩, ⟨0, 1, 2⟩, fun _ i => (10 : ℝ) ^ ((2 * i : ℕ) : ℝ)⟩
    eHot := ⟨⟨0, 1, 2⟩, ⟨0, 1, 2⟩, fun _ i => (10 : ℝ) ^ ((1 + 2 * i : ℕ) : ℝ)⟩
    numRho := 2, numT := 2, numYe := 2, lRhoMin := 0, lRhoMax := 1, lTMin := 0, lTMax := 1, YeMin := 0, YeMax := 1
    sieMin := (⟨⟨0, 1, 2⟩, ⟨0, 1, 2⟩, fun _ i => (10 : ℝ) ^ ((2 * i : ℕ) : ℝ)⟩ : Box2 ℝ).min
    sieMax := (⟨⟨0, 1, 2⟩, ⟨0, 1, 2⟩, fun _ i => (10 : ℝ) ^ ((1 + 2 * i : ℕ) : ℝ)⟩ : Box2 ℝ).max
    lEOffset := 0 }

theorem unit_ok : (⟨0, 1, 2⟩ : Grid ℝ).Ok := ⟨le_rfl, zero_lt_one⟩

/-- The hypotheses of C97 and C98 are met by it. -/
theorem steep_loaded : Loaded trueLogs steep where
  okY := unit_ok
  okT := unit_ok
  okR := unit_ok
  gT := rfl
  coldY := rfl
  coldR := rfl
  hotY := rfl
  hotR := rfl
  cold := fun k i => by
    change (10 : ℝ) ^ ((2 * i : ℕ) : ℝ) = (10 : ℝ) ^ (((0 : ℕ) : ℝ) + 2 * (i : ℝ)) - 0
    push_cast; rw [zero_add, sub_zero]
  hot := fun k i => by
    change (10 : ℝ) ^ ((1 + 2 * i : ℕ) : ℝ) = (10 : ℝ) ^ (((1 : ℕ) : ℝ) + 2 * (i : ℝ)) - 0
    push_cast; rw [sub_zero]
  smin := rfl
  smax := rfl

example : ∀ j, j + 1 < steep.numT → (steep.tab .lE).data 0 j 1 < (steep.tab .lE).data 0 (j + 1) 1 := by
  intro j _; simp only [steep]; push_cast; linarith

theorem steep_interp (f : F) (x y z : ℝ) : (steep.tab f).interp x y z = y + 2 * z := by
  change lin (⟨0, 1, 2⟩ : Grid ℝ) (fun k => lin (⟨0, 1, 2⟩ : Grid ℝ) (fun j => lin (⟨0, 1, 2⟩ : Grid ℝ)
    (fun i => (j : ℝ) + 2 * (i : ℝ)) z) y) x = _
  have hx : ∀ i : Nat, (⟨0, 1, 2⟩ : Grid ℝ).x i = i := fun i => by simp [Grid.x, Grid.dx]; norm_num
  have e0 : ∀ j : Nat, lin (⟨0, 1, 2⟩ : Grid ℝ) (fun i => (j : ℝ) + 2 * (i : ℝ)) z = j + 2 * z := fun j => by
    have := lin_affine unit_ok (j : ℝ) 2 z
    simpa only [hx] using this
  have e1 : lin (⟨0, 1, 2⟩ : Grid ℝ) (fun j => (j : ℝ) + 2 * z) y = y + 2 * z := by
    have := lin_affine unit_ok (2 * z) 1 y
    simp only [hx, one_mul] at this
    rw [show (fun j : Nat => (j : ℝ) + 2 * z) = fun j : Nat => 2 * z + (j : ℝ) from funext fun j => add_comm _ _, this]; ring
  simp only [e0, e1]
  exact lin_const unit_ok _ x

theorem steep_cold (x : ℝ) : steep.eCold.interp x (1 / 2) = 101 / 2 := by
  change lin (⟨0, 1, 2⟩ : Grid ℝ) (fun k => lin (⟨0, 1, 2⟩ : Grid ℝ) (fun i => (10 : ℝ) ^ ((2 * i : ℕ) : ℝ)) (1 / 2)) x = _
  have hx : ∀ i : Nat, (⟨0, 1, 2⟩ : Grid ℝ).x i = i := fun i => by simp [Grid.x, Grid.dx]; norm_num
  have : lin (⟨0, 1, 2⟩ : Grid ℝ) (fun i => (10 : ℝ) ^ ((2 * i : ℕ) : ℝ)) (1 / 2) = 101 / 2 := by
    rw [lin_congr unit_ok (f' := fun i => 1 + 99 * (⟨0, 1, 2⟩ : Grid ℝ).x i), lin_affine unit_ok]
    · norm_num
    · intro i hi
      rw [hx, Real.rpow_natCast]
      have : i = 0 ∨ i = 1 := by change i < 2 at hi; omega
      rcases this with rfl | rfl <;> norm_num
  simp only [this]
  exact lin_const unit_ok _ x

/-- C98, C97 fail between the densities of the table (exact logarithms): the cold curve is interpolated linearly in the
energy, the energy itself in its logarithm, so `MinInternalEnergyFromDensity` is above energies that the EOS
takes at temperatures inside the table, and asking for the temperature of such an energy does not give it back. -/
theorem C98_between_nodes_violated :
    ∃ (rho T : ℝ), Loaded trueLogs steep ∧ tOf trueLogs steep.lTMin < T ∧ T < tOf trueLogs steep.lTMax ∧
      ∀ Ye c c', query trueLogs steep .eRT Ye c rho T < minE trueLogs steep Ye rho ∧
        query trueLogs steep .tRE Ye c' rho (query trueLogs steep .eRT Ye c rho T) = tOf trueLogs steep.lTMin ∧
        query trueLogs steep .tRE Ye c' rho (query trueLogs steep .eRT Ye c rho T) ≠ T := by
  refine ⟨trueLogs.pw (1 / 2), trueLogs.pw (1 / 2), steep_loaded, ?_, ?_, fun Ye c c' => ?_⟩
  · change _ - (0 : ℝ) < _; rw [sub_zero]; exact trueLogs_ok.pw_mono (by norm_num [steep])
  · change _ < _ - (0 : ℝ); rw [sub_zero]; exact trueLogs_ok.pw_mono (by norm_num [steep])
  have hq : query trueLogs steep .eRT Ye c (trueLogs.pw (1 / 2)) (trueLogs.pw (1 / 2)) = (10 : ℝ) ^ (3 / 2 : ℝ) := by
    have h1 : lT trueLogs (trueLogs.pw (1 / 2)) = 1 / 2 := by
      unfold lT; rw [toLog_pos trueLogs_ok (trueLogs_ok.pw_pos _), trueLogs_ok.lg_pw]
    simp only [query, Q.byEnergy, Bool.false_eq_true, if_false, at_, h1, lRho_pw trueLogs_ok, steep_interp]
    change (10 : ℝ) ^ _ - (0 : ℝ) = _
    norm_num
  have hmin : minE trueLogs steep Ye (trueLogs.pw (1 / 2)) = 101 / 2 := by
    unfold minE; rw [lRho_pw trueLogs_ok, steep_cold]
  have hlt : (10 : ℝ) ^ (3 / 2 : ℝ) < 101 / 2 := by
    have hsq : ((10 : ℝ) ^ (3 / 2 : ℝ)) ^ 2 = 1000 := by
      rw [← Real.rpow_natCast, ← Real.rpow_mul (by norm_num)]; norm_num
    have hpos : (0 : ℝ) < (10 : ℝ) ^ (3 / 2 : ℝ) := Real.rpow_pos_of_pos (by norm_num) _
    nlinarith
  have hT := (C97_clamped trueLogs steep Ye c' (trueLogs.pw (1 / 2)) ((10 : ℝ) ^ (3 / 2 : ℝ))).1 (by rw [hmin]; exact hlt.le)
  rw [hq, hmin]
  refine ⟨hlt, hT, ?_⟩
  rw [hT]
  change (10 : ℝ) ^ (0 : ℝ) - 0 ≠ (10 : ℝ) ^ (1 / 2 : ℝ)
  have : (10 : ℝ) ^ (0 : ℝ) < (10 : ℝ) ^ (1 / 2 : ℝ) := trueLogs_ok.pw_mono (by norm_num)
  rw [sub_zero]; exact this.ne

end Verif.SC
