import Verif.Model.Table.IdealScript
import Verif.Props.Table.StellarCollapseMore
import Verif.Lemmas.Invert
import Mathlib.Analysis.Convex.SpecificFunctions.Basic

/-! # C148: a table written by `make_tabulated_ideal_sc.py` and read by `StellarCollapse`; C99, C101: more -/

namespace Verif.SC

open Verif.RootFind Verif.Robust Verif.Mods Verif.Databox
open Verif.RhoT (invert invert_total invert_rate Enough)

set_option linter.unusedSectionVars false
set_option linter.unusedSimpArgs false
set_option linter.unusedVariables false

section field
variable {K : Type*} [Field K] [LinearOrder K] [IsStrictOrderedRing K] [FloorRing K]

theorem count_cover (l : List K) {M N : K} (h : M < N) :
    l.length ≤ l.countP (fun x => decide (M < x)) + l.countP (fun x => decide (x < N)) := by
  induction l with
  | nil => simp
  | cons a l ih =>
    simp only [List.countP_cons, List.length_cons, decide_eq_true_eq]
    rcases lt_or_ge M a with h1 | h1
    · rw [if_pos h1]; split_ifs <;> omega
    · rw [if_neg (not_lt.2 h1), if_pos (h1.trans_lt h)]; omega

theorem median_unique {l : List K} {M N : K} (hM : IsMedian l M) (hN : IsMedian l N) : M = N := by
  rcases lt_trichotomy M N with h | h | h
  · have := count_cover l h; have := hM.2.2; have := hN.2.1; omega
  · exact h
  · have := count_cover l h; have := hN.2.2; have := hM.2.1; omega

/-- Entries of a window counted by a predicate on one index. -/
theorem window_count (p : K → Bool) (g : Nat → K) (iY iT ir : Nat) :
    (window (fun _ _ r => g r) iY iT ir).countP p = 49 * ((List.range 7).countP fun c => p (g (ir + c - 3))) ∧
    (window (fun _ t _ => g t) iY iT ir).countP p = 49 * ((List.range 7).countP fun c => p (g (iT + c - 3))) ∧
    (window (fun y _ _ => g y) iY iT ir).countP p = 49 * ((List.range 7).countP fun c => p (g (iY + c - 3))) := by
  have h7 : List.range 7 = [0, 1, 2, 3, 4, 5, 6] := rfl
  refine ⟨?_, ?_, ?_⟩ <;>
  · simp only [window, W, List.countP_flatMap, h7, List.map_cons, List.map_nil, List.countP_cons, List.countP_nil,
      List.sum_cons, List.sum_nil, Function.comp]
    ring

theorem monotone_median {g : Nat → K} (hg : Monotone g) {i : Nat} (hi : 3 ≤ i) :
    2 * (49 * ((List.range 7).countP fun c => decide (g (i + c - 3) < g i))) < 343 ∧
    2 * (49 * ((List.range 7).countP fun c => decide (g i < g (i + c - 3)))) < 343 := by
  have h7 : List.range 7 = [0, 1, 2, 3, 4, 5, 6] := rfl
  have a : ∀ c, 3 ≤ c → ¬ g (i + c - 3) < g i := fun c hc => not_lt.2 (hg (by omega))
  have b : ∀ c, c ≤ 3 → ¬ g i < g (i + c - 3) := fun c hc => not_lt.2 (hg (by omega))
  simp only [h7, List.countP_cons, List.countP_nil, decide_eq_true_eq, a 3 (by omega), a 4 (by omega), a 5 (by omega),
    a 6 (by omega), b 0 (by omega), b 1 (by omega), b 2 (by omega), b 3 (by omega), if_false]
  constructor <;> split_ifs <;> omega

/-- C99: the filter never alters a table that depends on one of its indices only and never decreases with it: the ideal gas tables of
`make_tabulated_ideal_sc.py` for instance, however steep. Any sizes. -/
theorem C99_monotone (nY nT nR : Nat) (g : Nat → K) (hg : Monotone g) :
    medianFilter nY nT nR (fun _ _ r => g r) = (fun _ _ r => g r) ∧
    medianFilter nY nT nR (fun _ t _ => g t) = (fun _ t _ => g t) ∧
    medianFilter nY nT nR (fun y _ _ => g y) = (fun y _ _ => g y) := by
  have go : ∀ (tab : Nat → Nat → Nat → K), (∀ y t r, Interior nY nT nR y t r → IsMedian (window tab y t r) (tab y t r)) →
      medianFilter nY nT nR tab = tab := by
    intro tab h
    funext y t r
    rw [filter_apply]
    split_ifs with h1 h2
    · have := median_unique (h y t r (by unfold Interior; unfold W at h1; omega)) (C99_median _ (by rw [window_length]))
      exact this.symm
    · rfl
    · rfl
  have mem : ∀ (tab : Nat → Nat → Nat → K) y t r, Interior nY nT nR y t r → tab y t r ∈ window tab y t r := by
    intro tab y t r h
    rw [window_mem tab h.1.1 h.2.1.1 h.2.2.1]
    exact ⟨y, t, r, by omega, by omega, by omega, by omega, by omega, by omega, rfl⟩
  refine ⟨go _ fun y t r h => ⟨mem _ _ _ _ h, ?_, ?_⟩, go _ fun y t r h => ⟨mem _ _ _ _ h, ?_, ?_⟩,
    go _ fun y t r h => ⟨mem _ _ _ _ h, ?_, ?_⟩⟩
  · rw [window_length, (window_count _ g y t r).1]; exact (monotone_median hg h.2.2.1).1
  · rw [window_length, (window_count _ g y t r).1]; exact (monotone_median hg h.2.2.1).2
  · rw [window_length, (window_count _ g y t r).2.1]; exact (monotone_median hg h.2.1.1).1
  · rw [window_length, (window_count _ g y t r).2.1]; exact (monotone_median hg h.2.1.1).2
  · rw [window_length, (window_count _ g y t r).2.2]; exact (monotone_median hg h.1.1).1
  · rw [window_length, (window_count _ g y t r).2.2]; exact (monotone_median hg h.1.1).2


theorem interp_affine {b : Box3 K} (h2 : b.g2.Ok) (h1 : b.g1.Ok) (h0 : b.g0.Ok) {A D B C : K}
    (hd : ∀ k j i, b.data k j i = A + D * b.g2.x k + B * b.g1.x j + C * b.g0.x i) (x2 x1 x0 : K) :
    b.interp x2 x1 x0 = A + D * x2 + B * x1 + C * x0 := by
  unfold Box3.interp
  have e0 : ∀ k j, lin b.g0 (b.data k j) x0 = A + D * b.g2.x k + B * b.g1.x j + C * x0 := fun k j => by
    rw [show b.data k j = fun i => (A + D * b.g2.x k + B * b.g1.x j) + C * b.g0.x i from funext (hd k j), lin_affine h0]
  have e1 : ∀ k, lin b.g1 (fun j => lin b.g0 (b.data k j) x0) x1 = A + D * b.g2.x k + B * x1 + C * x0 := fun k => by
    rw [show (fun j => lin b.g0 (b.data k j) x0) = fun j => (A + D * b.g2.x k + C * x0) + B * b.g1.x j from
      funext fun j => by rw [e0]; ring, lin_affine h1]; ring
  rw [show (fun k => lin b.g1 (fun j => lin b.g0 (b.data k j) x0) x1) = fun k => (A + B * x1 + C * x0) + D * b.g2.x k from
      funext fun k => by rw [e1]; ring, lin_affine h2]; ring

theorem raw_ok (m : Env K) (b : Bool) {fi : File K} (h : fi.Ok) (f : F) :
    (rawTab m b fi f).g2.Ok ∧ (rawTab m b fi f).g1.Ok ∧ (rawTab m b fi f).g0.Ok := by
  obtain ⟨e2, e1, e0⟩ := raw_axes m b fi f
  rw [e2, e1, e0]
  exact ⟨⟨h.nY, h.y⟩, ⟨h.nT, by dsimp only; linarith [h.t]⟩, ⟨h.nR, h.r⟩⟩

/-- C101: with true logarithms for the look-ups too, a table of the file that is linear in the electron fraction and the logarithms of
temperature and density is reproduced exactly at every state, inside and outside the range of the file. Any sizes. -/
theorem C101_linear {m : Env K} (hm : Logs m) (htrue : ∀ x, m.log10 (m.pw x) = x) (hlg : ∀ x, m.lg (m.pow10 x) = x) (b : Bool)
    {fi : File K} (h : fi.Ok) {f : F} {l : Bool} (hf : regridded f = some l) {A D B C : K}
    (hd : ∀ k j i, (rawTab m b fi f).data k j i = A + D * (rawTab m b fi f).g2.x k + B * (rawTab m b fi f).g1.x j
      + C * (rawTab m b fi f).g0.x i) (x2 x1 x0 : K) :
    ((load m b fi).tab f).interp x2 x1 x0 = A + D * x2 + B * x1 + C * x0 := by
  obtain ⟨o2, o1, o0⟩ := raw_ok m b h f
  have ok1 : (gridToNQT m (rawTab m b fi .lP).g1 (dense fi.nT)).Ok := by
    rw [(raw_axes m b fi .lP).2.1]; exact grid_ok hm (by dsimp only; linarith [h.t]) (dense_ge h.nT)
  have ok0 : (gridToNQT m (rawTab m b fi .lP).g0 (dense fi.nRho)).Ok := by
    rw [(raw_axes m b fi .lP).2.2]; exact grid_ok hm h.r (dense_ge h.nR)
  have e : (load m b fi).tab f = regrid m (gridToNQT m (rawTab m b fi .lP).g1 (dense fi.nT))
      (gridToNQT m (rawTab m b fi .lP).g0 (dense fi.nRho)) l (rawTab m b fi f) := by simp only [load, hf]
  rw [e]
  refine interp_affine (b := regrid m _ _ l (rawTab m b fi f)) o2 ok1 ok0 (fun k j i => ?_) x2 x1 x0
  simp only [regrid]
  rw [interp_affine o2 o1 o0 hd, htrue, htrue, hlg]
  simp

end field

/-! ## C148 -/

noncomputable section

namespace Args

/-- Arguments for which the script makes sense. -/
structure Ok (a : Args) : Prop where
  gam : 1 < a.gam
  mu : 0 < a.mu
  nr : 2 ≤ a.nrho
  nt : 2 ≤ a.ntemp
  ny : 2 ≤ a.nye
  r0 : 0 < a.rhomin
  r1 : a.rhomin < a.rhomax
  t0 : 0 < a.tempmin
  t1 : a.tempmin < a.tempmax
  y1 : a.yemin < a.yemax

/-- The arguments when none is given on the command line. -/
def default : Args where
  gam := 14 / 10
  mu := 167262171 / 10 ^ 32
  nrho := 234
  ntemp := 136
  nye := 50
  rhomin := 1 / 10 ^ 10
  rhomax := 1 / 10 ^ 4
  tempmin := 100
  tempmax := 10 ^ 10
  yemin := 0
  yemax := 55 / 100

theorem default_ok : default.Ok := by constructor <;> norm_num [default]

end Args

/-- Constants that are positive. -/
structure Cgs.Ok (c : Cgs) : Prop where
  k : 0 < c.KBOL
  m : 0 < c.MEV

theorem cgs_ok : cgs.Ok := ⟨by norm_num [cgs], by norm_num [cgs]⟩

/-- The Boltzmann constant the reader uses in effect: one MeV over the number of kelvin per MeV. -/
def Cgs.k (c : Cgs) : ℝ := c.MEV / MeV2K

/-- Temperature scale of the reader over that of the script. -/
def Cgs.scale (c : Cgs) : ℝ := c.KBOL / c.k

theorem MeV2K_pos : (0 : ℝ) < MeV2K := by norm_num [MeV2K]

theorem linspace_last {x y : ℝ} {n : Nat} (hn : 2 ≤ n) : Args.linspace x y n (n - 1) = y := by
  unfold Args.linspace
  have : (2 : ℝ) ≤ n := by exact_mod_cast hn
  rw [Nat.cast_sub (by omega), Nat.cast_one, mul_div_assoc', mul_comm, mul_div_assoc, div_self (by linarith)]; ring

theorem linspace_first {x y : ℝ} {n : Nat} : Args.linspace x y n 0 = x := by simp [Args.linspace]

section
variable {c : Cgs} (hc : c.Ok) {a : Args} (ha : a.Ok)
include hc ha

theorem file_ok : (a.file c).Ok where
  nR := ha.nr
  nT := ha.nt
  nY := ha.ny
  r := by
    simp only [Args.file, linspace_last ha.nr, linspace_first]
    exact Real.logb_lt_logb (by norm_num) ha.r0 ha.r1
  t := by
    simp only [Args.file, linspace_last ha.nt, linspace_first]
    have := hc.k; have := hc.m; have := ha.t0; have := ha.t1
    exact Real.logb_lt_logb (by norm_num) (by positivity) (by gcongr)
  y := by
    simp only [Args.file, Args.ye, linspace_last ha.ny, linspace_first]; exact ha.y1

theorem scale_eq : c.scale = c.KBOL / c.MEV * MeV2K := by
  have := hc.m.ne'; have := MeV2K_pos.ne'
  unfold Cgs.scale Cgs.k; field_simp

theorem scale_pos : 0 < c.scale := by
  rw [scale_eq hc ha]; have := hc.k; have := hc.m; have := MeV2K_pos; positivity

theorem k_pos : 0 < c.k := div_pos hc.m MeV2K_pos

theorem rho_pos (i : Nat) : 0 < a.rho i := Real.rpow_pos_of_pos (by norm_num) _
theorem temp_pos (i : Nat) : 0 < a.temp i := Real.rpow_pos_of_pos (by norm_num) _

/-- The axes as read: `log10` of the densities of the script; of its temperatures times the scale. -/
theorem axes (b : Bool) (f : F) (k j i : Nat) :
    (rawTab trueLogs b (a.file c) f).g0.x i = Real.logb 10 (a.rho i) ∧
    (rawTab trueLogs b (a.file c) f).g1.x j = Real.logb 10 (a.temp j) + Real.logb 10 c.scale ∧
    (rawTab trueLogs b (a.file c) f).g2.x k = a.ye k := by
  obtain ⟨e2, e1, e0⟩ := raw_axes trueLogs b (a.file c) f
  rw [e2, e1, e0]
  have l10 : ∀ x : ℝ, Real.logb 10 ((10 : ℝ) ^ x) = x := fun x => Real.logb_rpow (by norm_num) (by norm_num)
  have hk := hc.k.ne'; have hm := hc.m.ne'; have hK := MeV2K_pos.ne'; have ht := ha.t0.ne'; have ht1 := (ha.t0.trans ha.t1).ne'
  have es : Real.logb 10 c.scale = Real.logb 10 (c.KBOL / c.MEV) + Real.logb 10 MeV2K := by
    rw [scale_eq hc ha, Real.logb_mul (by positivity) hK]
  have et : ∀ t : ℝ, t ≠ 0 → Real.logb 10 (t * c.KBOL / c.MEV) = Real.logb 10 t + Real.logb 10 (c.KBOL / c.MEV) := fun t h => by
    rw [mul_div_assoc, Real.logb_mul h (by positivity)]
  refine ⟨?_, ?_, ?_⟩
  · simp only [Args.file, Grid.x, Grid.dx, linspace_last ha.nr, linspace_first]
    unfold Args.rho; rw [l10]; rfl
  · simp only [Args.file, Grid.x, Grid.dx, linspace_last ha.nt, linspace_first, trueLogs]
    unfold Args.temp; rw [l10, et _ ht, et _ ht1, es]; unfold Args.linspace; ring
  · simp only [Args.file, Grid.x, Grid.dx, Args.ye, linspace_last ha.ny, linspace_first]
    rfl

/-- Logarithms of the products in the script, in terms of the axes as read. -/
theorem log_prs (j i : Nat) : Real.logb 10 (a.prs c j i)
    = Real.logb 10 (c.k / a.mu) + (Real.logb 10 (a.temp j) + Real.logb 10 c.scale) + Real.logb 10 (a.rho i) := by
  have h1 := (rho_pos hc ha i).ne'; have h2 := (temp_pos hc ha j).ne'; have h3 := (scale_pos hc ha).ne'
  have h4 := (k_pos hc ha).ne'; have h5 := ha.mu.ne'
  rw [← Real.logb_mul h2 h3, ← Real.logb_mul (by positivity) (by positivity), ← Real.logb_mul (by positivity) h1]
  congr 1
  unfold Args.prs Cgs.scale
  field_simp

theorem log_eps (j i : Nat) : Real.logb 10 (a.eps c j i)
    = Real.logb 10 (c.k / (a.mu * (a.gam - 1))) + (Real.logb 10 (a.temp j) + Real.logb 10 c.scale) := by
  have h1 := (rho_pos hc ha i).ne'; have h2 := (temp_pos hc ha j).ne'; have h3 := (scale_pos hc ha).ne'
  have h4 := (k_pos hc ha).ne'; have h5 := ha.mu.ne'; have h6 : a.gam - 1 ≠ 0 := by have := ha.gam; linarith
  rw [← Real.logb_mul h2 h3, ← Real.logb_mul (by positivity) (by positivity)]
  congr 1
  unfold Args.eps Args.prs Cgs.scale
  field_simp

theorem eps_eq (j i : Nat) : a.eps c j i = c.KBOL * a.temp j / a.mu / (a.gam - 1) := by
  have h1 := (rho_pos hc ha i).ne'; have h5 := ha.mu.ne'; have h6 : a.gam - 1 ≠ 0 := by have := ha.gam; linarith
  unfold Args.eps Args.prs; field_simp

theorem temp_mono : Monotone a.temp := fun i j hij => by
  have hn : (2 : ℝ) ≤ a.ntemp := by exact_mod_cast ha.nt
  have h := Real.logb_lt_logb (b := 10) (by norm_num) ha.t0 ha.t1
  refine Real.rpow_le_rpow_of_exponent_le (by norm_num) ?_
  unfold Args.linspace
  have : (i : ℝ) ≤ j := by exact_mod_cast hij
  have : 0 ≤ (Real.logb 10 a.tempmax - Real.logb 10 a.tempmin) / ((a.ntemp : ℝ) - 1) := div_nonneg (by linarith) (by linarith)
  gcongr

theorem rho_mono : Monotone a.rho := fun i j hij => by
  have hn : (2 : ℝ) ≤ a.nrho := by exact_mod_cast ha.nr
  have h := Real.logb_lt_logb (b := 10) (by norm_num) ha.r0 ha.r1
  refine Real.rpow_le_rpow_of_exponent_le (by norm_num) ?_
  unfold Args.linspace
  have : (i : ℝ) ≤ j := by exact_mod_cast hij
  have : 0 ≤ (Real.logb 10 a.rhomax - Real.logb 10 a.rhomin) / ((a.nrho : ℝ) - 1) := div_nonneg (by linarith) (by linarith)
  gcongr

theorem filt_const (b : Bool) (x : ℝ) : (if b then medianFilter a.nye a.ntemp a.nrho (fun _ _ _ => x) else fun _ _ _ => x)
    = fun _ _ _ => x := by
  split_ifs
  · exact (C99_monotone a.nye a.ntemp a.nrho (fun _ => x) (fun _ _ _ => le_rfl)).1
  · rfl

/-- The three filtered tables, with or without the filter. -/
theorem derivs (b : Bool) :
    (rawTab trueLogs b (a.file c) .dPdRho).data = (fun _ j _ => (a.gam - 1) * (c.KBOL * a.temp j / a.mu / (a.gam - 1))) ∧
    (rawTab trueLogs b (a.file c) .dPdE).data = (fun _ _ i => (a.gam - 1) * a.rho i) ∧
    (rawTab trueLogs b (a.file c) .dEdT).data = (fun _ _ _ => c.k / (a.mu * (a.gam - 1))) := by
  have hg : 0 < a.gam - 1 := by have := ha.gam; linarith
  have hmu := ha.mu; have hk := hc.k; have hm := hc.m
  have e1 : (a.file c).data .dPdRho = fun _ j _ => (a.gam - 1) * (c.KBOL * a.temp j / a.mu / (a.gam - 1)) := by
    funext k j i; change (a.gam - 1) * a.eps c j i = _; rw [eps_eq hc ha]
  have e2 : (a.file c).data .dPdE = fun _ _ i => (a.gam - 1) * a.rho i := rfl
  have e3 : (fun k j i => (a.file c).data .dEdT k j i * (1 / MeV2K)) = fun _ _ _ => c.k / (a.mu * (a.gam - 1)) := by
    funext k j i
    change 1 * a.eps c j i / a.temp j * c.MEV / c.KBOL * (1 / MeV2K) = _
    have := (temp_pos hc ha j).ne'; have := MeV2K_pos.ne'
    rw [eps_eq hc ha]; unfold Cgs.k; field_simp
  refine ⟨?_, ?_, ?_⟩
  · simp only [rawTab]
    rw [e1]
    split_ifs
    · refine (C99_monotone _ _ _ (fun j => (a.gam - 1) * (c.KBOL * a.temp j / a.mu / (a.gam - 1))) fun i j hij => ?_).2.1
      have := temp_mono hc ha hij
      dsimp only; gcongr
    · rfl
  · simp only [rawTab]
    rw [e2]
    split_ifs
    · refine (C99_monotone _ _ _ (fun i => (a.gam - 1) * a.rho i) fun i j hij => ?_).1
      have := rho_mono hc ha hij
      dsimp only; gcongr
    · rfl
  · simp only [rawTab]
    rw [e3]
    exact filt_const hc ha b _

/-- Every entry of the bulk modulus table is `gam P` or the floor. -/
theorem bulk_data (b : Bool) (k j i : Nat) : (rawTab trueLogs b (a.file c) .lBMod).data k j i
    = Real.logb 10 (max (a.gam * a.prs c j i) trueLogs.eps) := by
  have hg : 0 < a.gam - 1 := by have := ha.gam; linarith
  have hmu := ha.mu; have hk := hc.k; have hr := rho_pos hc ha i; have ht := temp_pos hc ha j
  have hp : 0 < a.prs c j i := by unfold Args.prs; positivity
  obtain ⟨d1, d2, -⟩ := derivs hc ha b
  have l10 : ∀ x : ℝ, 0 < x → (10 : ℝ) ^ Real.logb 10 x = x := fun x h => Real.rpow_logb (by norm_num) (by norm_num) h
  have eb : bulkEntry trueLogs ((rawTab trueLogs b (a.file c) .lP).g0.x i) (Real.logb 10 (a.prs c j i))
      ((a.gam - 1) * (c.KBOL * a.temp j / a.mu / (a.gam - 1))) ((a.gam - 1) * a.rho i)
      = max (a.gam * a.prs c j i) trueLogs.eps := by
    rw [((axes hc ha b .lP k j i).1)]
    have e : a.rho i * ((a.gam - 1) * (c.KBOL * a.temp j / a.mu / (a.gam - 1)))
        + a.prs c j i / a.rho i * ((a.gam - 1) * a.rho i) = a.gam * a.prs c j i := by
      unfold Args.prs; field_simp; ring
    have er : ratio trueLogs.σ (a.prs c j i) (a.rho i) = a.prs c j i / a.rho i := by
      have : trueLogs.σ = 0 := rfl
      simp [ratio, this]
    simp only [bulkEntry, show ∀ x, trueLogs.pow10 x = (10 : ℝ) ^ x from fun _ => rfl, l10 _ hr, l10 _ hp, er, e]
    split_ifs with h
    · rw [max_eq_right h.le]
    · rw [max_eq_left (not_lt.1 h)]
  rw [← eb]
  have := congrFun (congrFun (congrFun d1 k) j) i
  have := congrFun (congrFun (congrFun d2 k) j) i
  simp only [rawTab] at *
  simp only [bulkBox, *]
  exact congrArg (Real.logb 10) eb

/-- What the loaded tables give at every point, inside and outside their range. -/
theorem loaded_lP (b : Bool) (y t r : ℝ) :
    ((load trueLogs b (a.file c)).tab .lP).interp y t r = Real.logb 10 (c.k / a.mu) + t + r := by
  rw [C101_linear trueLogs_ok (fun x => trueLogs_ok.lg_pw x) (fun x => trueLogs_ok.log_p10 x) b (file_ok hc ha) (f := .lP) (l := true) rfl
    (A := Real.logb 10 (c.k / a.mu)) (D := 0) (B := 1) (C := 1)]
  · ring
  · intro k j i
    obtain ⟨h0, h1, h2⟩ := axes hc ha b .lP k j i
    rw [h0, h1]
    change Real.logb 10 (a.prs c j i) = _
    rw [log_prs hc ha]; ring

theorem loaded_lE (b : Bool) (y t r : ℝ) :
    ((load trueLogs b (a.file c)).tab .lE).interp y t r = Real.logb 10 (c.k / (a.mu * (a.gam - 1))) + t := by
  rw [C101_linear trueLogs_ok (fun x => trueLogs_ok.lg_pw x) (fun x => trueLogs_ok.log_p10 x) b (file_ok hc ha) (f := .lE) (l := true) rfl
    (A := Real.logb 10 (c.k / (a.mu * (a.gam - 1)))) (D := 0) (B := 1) (C := 0)]
  · ring
  · intro k j i
    obtain ⟨h0, h1, h2⟩ := axes hc ha b .lE k j i
    rw [h0, h1]
    change Real.logb 10 (a.eps c j i) = _
    rw [log_eps hc ha]; ring

theorem loaded_dEdT (b : Bool) (y t r : ℝ) :
    ((load trueLogs b (a.file c)).tab .dEdT).interp y t r = c.k / (a.mu * (a.gam - 1)) := by
  rw [C101_linear trueLogs_ok (fun x => trueLogs_ok.lg_pw x) (fun x => trueLogs_ok.log_p10 x) b (file_ok hc ha) (f := .dEdT) (l := false) rfl
    (A := c.k / (a.mu * (a.gam - 1))) (D := 0) (B := 0) (C := 0)]
  · ring
  · intro k j i
    rw [(derivs hc ha b).2.2]; ring

theorem prs_ge (j i : Nat) : a.rhomin * c.KBOL * a.tempmin / a.mu ≤ a.prs c j i := by
  have h1 : a.rho 0 = a.rhomin := by
    unfold Args.rho; rw [linspace_first]; exact Real.rpow_logb (by norm_num) (by norm_num) ha.r0
  have h2 : a.temp 0 = a.tempmin := by
    unfold Args.temp; rw [linspace_first]; exact Real.rpow_logb (by norm_num) (by norm_num) ha.t0
  have := rho_mono hc ha (Nat.zero_le i)
  have := temp_mono hc ha (Nat.zero_le j)
  have := ha.mu; have := hc.k; have := temp_pos hc ha 0; have := rho_pos hc ha 0; have := rho_pos hc ha i
  rw [← h1, ← h2]
  unfold Args.prs; gcongr

theorem loaded_lB (b : Bool) (hfl : trueLogs.eps ≤ a.gam * (a.rhomin * c.KBOL * a.tempmin / a.mu)) (y t r : ℝ) :
    ((load trueLogs b (a.file c)).tab .lBMod).interp y t r = Real.logb 10 (a.gam * (c.k / a.mu)) + t + r := by
  have hg : 0 < a.gam := by have := ha.gam; linarith
  have hmu := ha.mu; have hk := k_pos hc ha
  rw [C101_linear trueLogs_ok (fun x => trueLogs_ok.lg_pw x) (fun x => trueLogs_ok.log_p10 x) b (file_ok hc ha) (f := .lBMod) (l := true) rfl
    (A := Real.logb 10 (a.gam * (c.k / a.mu))) (D := 0) (B := 1) (C := 1)]
  · ring
  · intro k j i
    obtain ⟨h0, h1, h2⟩ := axes hc ha b .lBMod k j i
    have hp := prs_ge hc ha j i
    have hpp : 0 < a.prs c j i := lt_of_lt_of_le (by have := ha.r0; have := ha.t0; have := hc.k; positivity) hp
    rw [h0, h1, bulk_data hc ha, max_eq_left (hfl.trans (by gcongr)), Real.logb_mul hg.ne' hpp.ne', log_prs hc ha,
      Real.logb_mul hg.ne' (by positivity)]; ring

end

theorem flo_max (x : ℝ) : flo trueLogs x = max x trueLogs.eps := by
  unfold flo; split_ifs with h
  · rw [max_eq_left (le_of_lt h)]
  · rw [max_eq_right (not_lt.1 h)]

theorem pw_log {x : ℝ} (h : 0 < x) : (10 : ℝ) ^ Real.logb 10 x = x := Real.rpow_logb (by norm_num) (by norm_num) h

theorem pw_sum2 {x y : ℝ} (hx : 0 < x) (hy : 0 < y) : (10 : ℝ) ^ (Real.logb 10 x + Real.logb 10 y) = x * y := by
  rw [← Real.logb_mul hx.ne' hy.ne', pw_log (mul_pos hx hy)]

/-- C148: read with exact logarithms, with or without the median filter, the table of `make_tabulated_ideal_sc.py` is an ideal gas
at every positive density and temperature and every electron fraction, inside the range of the table or not: `P = rho kT/mu`, `e = kT/(mu (gam - 1))`,
`cv = k/(mu (gam - 1))` and the bulk modulus `gam P`, `k` being one MeV over the reader's number of kelvin per MeV. Any table sizes. -/
theorem C148_ideal_gas {c : Cgs} (hc : c.Ok) {a : Args} (ha : a.Ok) (b : Bool) (Ye cache rho T : ℝ) (hr : 0 < rho) (hT : 0 < T) :
    let s := load trueLogs b (a.file c)
    query trueLogs s .pRT Ye cache rho T = rho * c.k * T / a.mu ∧
    query trueLogs s .eRT Ye cache rho T = c.k * T / (a.mu * (a.gam - 1)) ∧
    query trueLogs s .cvRT Ye cache rho T = max (c.k / (a.mu * (a.gam - 1))) trueLogs.eps ∧
    (trueLogs.eps ≤ a.gam * (a.rhomin * c.KBOL * a.tempmin / a.mu) →
      query trueLogs s .bRT Ye cache rho T = max (a.gam * (rho * c.k * T / a.mu)) trueLogs.eps) := by
  intro s
  have hk := k_pos hc ha; have hmu := ha.mu; have hg : 0 < a.gam - 1 := by have := ha.gam; linarith
  have hg' : 0 < a.gam := by linarith
  have e1 : lT trueLogs T = Real.logb 10 T := toLog_pos trueLogs_ok hT
  have e2 : lRho trueLogs rho = Real.logb 10 rho := toLog_pos trueLogs_ok hr
  have epw : ∀ x, trueLogs.pw x = (10 : ℝ) ^ x := fun _ => rfl
  refine ⟨?_, ?_, ?_, fun hfl => ?_⟩
  · simp only [query, Q.byEnergy, Bool.false_eq_true, if_false, at_, s, loaded_lP hc ha, e1, e2, pOf, fromLog, epw, sub_zero]
    rw [← Real.logb_mul (by positivity) hT.ne', pw_sum2 (by positivity) hr]; ring
  · have h0 : (load trueLogs b (a.file c)).lEOffset = 0 := rfl
    simp only [query, Q.byEnergy, Bool.false_eq_true, if_false, at_, s, loaded_lE hc ha, e1, e2, eOf, fromLog, epw, h0, sub_zero]
    rw [pw_sum2 (by positivity) hT]; ring
  · simp only [query, Q.byEnergy, Bool.false_eq_true, if_false, at_, s, loaded_dEdT hc ha, flo_max]
  · simp only [query, Q.byEnergy, Bool.false_eq_true, if_false, at_, s, loaded_lB hc ha b hfl, e1, e2, pOf, fromLog, epw, sub_zero,
      flo_max]
    rw [← Real.logb_mul (by positivity) hT.ne', pw_sum2 (by positivity) hr]; congr 1; ring

/-- The default arguments satisfy the hypotheses, with the constants of the script. -/
example : cgs.Ok ∧ Args.default.Ok := ⟨cgs_ok, Args.default_ok⟩

/-- C148: the reader's Boltzmann constant agrees with the script's to two parts in a million. -/
theorem C148_boltzmann : |cgs.k - cgs.KBOL| ≤ 2 / 10 ^ 6 * cgs.KBOL ∧ cgs.k ≠ cgs.KBOL := by
  have e : (MeV2K : ℝ) = 11604525006 := by norm_num [MeV2K]
  constructor
  · unfold Cgs.k cgs
    rw [e, abs_le]
    constructor <;> norm_num
  · unfold Cgs.k cgs
    rw [e]; norm_num


/-! ## C148: inversions -/

section
variable {c : Cgs} (hc : c.Ok) {a : Args} (ha : a.Ok)
include hc ha

theorem lE_data (b : Bool) (k j i : Nat) : ((load trueLogs b (a.file c)).tab .lE).data k j i
    = Real.logb 10 (c.k / (a.mu * (a.gam - 1))) + ((load trueLogs b (a.file c)).tab .lE).g1.x j := by
  have e : (load trueLogs b (a.file c)).tab .lE = regrid trueLogs (gridToNQT trueLogs (rawTab trueLogs b (a.file c) .lP).g1 (dense (a.file c).nT))
      (gridToNQT trueLogs (rawTab trueLogs b (a.file c) .lP).g0 (dense (a.file c).nRho)) true (rawTab trueLogs b (a.file c) .lE) := rfl
  obtain ⟨o2, o1, o0⟩ := raw_ok trueLogs b (file_ok hc ha) .lE
  have hd : ∀ k j i, (rawTab trueLogs b (a.file c) .lE).data k j i = Real.logb 10 (c.k / (a.mu * (a.gam - 1)))
      + 0 * (rawTab trueLogs b (a.file c) .lE).g2.x k + 1 * (rawTab trueLogs b (a.file c) .lE).g1.x j
      + 0 * (rawTab trueLogs b (a.file c) .lE).g0.x i := by
    intro k j i
    obtain ⟨h0, h1, h2⟩ := axes hc ha b .lE k j i
    rw [h0, h1]
    change Real.logb 10 (a.eps c j i) = _
    rw [log_eps hc ha]; ring
  rw [e]
  simp only [regrid]
  rw [interp_affine o2 o1 o0 hd, if_pos trivial, show ∀ x, trueLogs.lg (trueLogs.pow10 x) = x from fun x => trueLogs_ok.log_p10 x,
    show ∀ x, trueLogs.log10 (trueLogs.pw x) = x from fun x => trueLogs_ok.lg_pw x]
  ring

theorem lims (b : Bool) :
    (load trueLogs b (a.file c)).lTMin = Real.logb 10 (c.scale * a.tempmin) ∧
    (load trueLogs b (a.file c)).lTMax = Real.logb 10 (c.scale * a.tempmax) ∧
    (load trueLogs b (a.file c)).lRhoMin = Real.logb 10 a.rhomin ∧
    (load trueLogs b (a.file c)).lRhoMax = Real.logb 10 a.rhomax := by
  have hlg : ∀ x, trueLogs.lg (trueLogs.pow10 x) = x := fun x => trueLogs_ok.log_p10 x
  have hs := scale_pos hc ha; have t0 := ha.t0; have t1 := ha.t0.trans ha.t1; have hk := hc.k; have hm := hc.m
  have key : ∀ t : ℝ, 0 < t → Real.logb 10 (t * c.KBOL / c.MEV) + Real.logb 10 MeV2K = Real.logb 10 (c.scale * t) := fun t h => by
    rw [← Real.logb_mul (by positivity) MeV2K_pos.ne', scale_eq hc ha]; congr 1; ring
  simp only [load, regridded, regrid, raw_axes, gridToNQT, hlg]
  refine ⟨?_, ?_, ?_, ?_⟩
  · simp only [Args.file, linspace_first]; exact key _ t0
  · simp only [Args.file, linspace_last ha.nt]; exact key _ t1
  · simp only [Args.file, linspace_first]
  · simp only [Args.file, linspace_last ha.nr]

theorem curves (b : Bool) (y r : ℝ) :
    (load trueLogs b (a.file c)).eCold.interp y r = c.k / (a.mu * (a.gam - 1)) * (c.scale * a.tempmin) ∧
    (load trueLogs b (a.file c)).eHot.interp y r = c.k / (a.mu * (a.gam - 1)) * (c.scale * a.tempmax) := by
  have L := load_loaded trueLogs_ok b (file_ok hc ha)
  have hk := k_pos hc ha; have hmu := ha.mu; have hg : 0 < a.gam - 1 := by have := ha.gam; linarith
  have hs := scale_pos hc ha; have t0 := ha.t0; have t1 := ha.t0.trans ha.t1
  obtain ⟨l0, l1, -, -⟩ := lims hc ha b
  have h0 : (load trueLogs b (a.file c)).lEOffset = 0 := rfl
  have ok1 : (load trueLogs b (a.file c)).eCold.g1.Ok := by rw [L.coldY]; exact L.okY
  have ok0 : (load trueLogs b (a.file c)).eCold.g0.Ok := by rw [L.coldR]; exact L.okR
  have ok1' : (load trueLogs b (a.file c)).eHot.g1.Ok := by rw [L.hotY]; exact L.okY
  have ok0' : (load trueLogs b (a.file c)).eHot.g0.Ok := by rw [L.hotR]; exact L.okR
  have ec : ∀ k i, (load trueLogs b (a.file c)).eCold.data k i = c.k / (a.mu * (a.gam - 1)) * (c.scale * a.tempmin) := fun k i => by
    rw [L.cold, lE_data hc ha, L.first, l0]
    change (10 : ℝ) ^ _ - (load trueLogs b (a.file c)).lEOffset = _
    rw [h0, sub_zero, pw_sum2 (by positivity) (by positivity)]
  have eh : ∀ k i, (load trueLogs b (a.file c)).eHot.data k i = c.k / (a.mu * (a.gam - 1)) * (c.scale * a.tempmax) := fun k i => by
    rw [L.hot, lE_data hc ha, L.last, l1]
    change (10 : ℝ) ^ _ - (load trueLogs b (a.file c)).lEOffset = _
    rw [h0, sub_zero, pw_sum2 (by positivity) (by positivity)]
  unfold Box2.interp
  constructor
  · rw [show (fun j => lin (load trueLogs b (a.file c)).eCold.g0 ((load trueLogs b (a.file c)).eCold.data j) r) = fun _ =>
      c.k / (a.mu * (a.gam - 1)) * (c.scale * a.tempmin) from funext fun j => by
        rw [show (load trueLogs b (a.file c)).eCold.data j = fun _ => _ from funext (ec j), lin_const ok0], lin_const ok1]
  · rw [show (fun j => lin (load trueLogs b (a.file c)).eHot.g0 ((load trueLogs b (a.file c)).eHot.data j) r) = fun _ =>
      c.k / (a.mu * (a.gam - 1)) * (c.scale * a.tempmax) from funext fun j => by
        rw [show (load trueLogs b (a.file c)).eHot.data j = fun _ => _ from funext (eh j), lin_const ok0'], lin_const ok1']

end

theorem enough_one {w : ℝ} (hw : w ≤ 10 ^ 60) : Enough 1 1 w trueLogs.thr := by
  refine ⟨0, 250, by norm_num, ?_, by norm_num⟩
  have : trueLogs.thr = 1 / 10 ^ 14 := rfl
  rw [this]
  calc (1 - 1 / (2 * 1) : ℝ) ^ 250 * w ≤ (1 - 1 / (2 * 1) : ℝ) ^ 250 * 10 ^ 60 := by gcongr
    _ ≤ 1 / 10 ^ 14 := by norm_num

/-- Inversion of a function of slope one, the guess in the range or above it. -/
theorem invert_slope_one {A y g l u fb r : ℝ} (hl : l ≤ r) (hu : r ≤ u) (hr : A + r = y) (h1 : l ≤ g) (hg : g - l ≤ 10 ^ 60)
    (hul : u - l ≤ 10 ^ 60) :
    ∃ x, invert trueLogs.thr (fun x => A + x) y g l u fb = (.success, x) ∧ |x - r| ≤ 2 / 10 ^ 14 := by
  have ht : 0 ≤ trueLogs.thr := by norm_num [trueLogs]
  have hrate : ∀ p q u v : ℝ, p ≤ u → u ≤ v → v ≤ q → 1 * (v - u) ≤ 1 * ((A + v) - (A + u)) ∧ 1 * ((A + v) - (A + u)) ≤ 1 * (v - u) :=
    fun p q u v _ _ _ => ⟨by linarith, by linarith⟩
  have fin : ∀ p q, p ≤ r → r ≤ q → p ≤ g → g ≤ q → q - p ≤ 10 ^ 60 →
      ∃ x, invert trueLogs.thr (fun x => A + x) y g p q fb = (.success, x) ∧ |x - r| ≤ 2 / 10 ^ 14 := by
    intro p q h1 h2 h3 h4 h5
    obtain ⟨x, hx⟩ := invert_total (fb := fb) ht (Or.inl rfl) one_pos le_rfl (enough_one h5) (hrate p q) h1 h2 hr h3 h4
    refine ⟨x, hx, (invert_rate ht (Or.inl rfl) one_pos (fun u v p q s => (hrate _ _ u v p q s).1) h1 h2 hr h3 h4 hx).trans ?_⟩
    norm_num [trueLogs]
  rcases le_or_gt g u with h2 | h2
  · exact fin l u hl hu h1 h2 hul
  · -- above the range: the bracket is `[l, g]`
    have e : invert trueLogs.thr (fun x => A + x) y g l g fb = invert trueLogs.thr (fun x => A + x) y g l u fb := by
      unfold invert regulaFalsi initBracket checkBracket
      have : (A + l - y) * (A + g - y) ≤ 0 := mul_nonpos_of_nonpos_of_nonneg (by linarith) (by linarith)
      simp only [decide_eq_true this, if_true]
    rw [← e]
    exact fin l g hl (by linarith) h1 le_rfl hg

/-- C148: temperature from density and energy. With `T` the temperature of the ideal gas at this energy, the answer is `T` to `2e-14` in `log10` if `T`
lies in the table, and the nearer end of the table otherwise, whatever the lambda cache holds. -/
theorem C148_temperature {c : Cgs} (hc : c.Ok) {a : Args} (ha : a.Ok) (b : Bool) (Ye cache rho T : ℝ) (hT : 0 < T)
    (hw : Real.logb 10 a.tempmax - Real.logb 10 a.tempmin ≤ 10 ^ 60) :
    let s := load trueLogs b (a.file c)
    let T' := query trueLogs s .tRE Ye cache rho (c.k * T / (a.mu * (a.gam - 1)))
    (T ≤ c.scale * a.tempmin → T' = c.scale * a.tempmin) ∧
    (c.scale * a.tempmax ≤ T → T' = c.scale * a.tempmax) ∧
    (c.scale * a.tempmin ≤ T → T ≤ c.scale * a.tempmax → |Real.logb 10 T' - Real.logb 10 T| ≤ 2 / 10 ^ 14) := by
  intro s T'
  have hk := k_pos hc ha; have hmu := ha.mu; have hg : 0 < a.gam - 1 := by have := ha.gam; linarith
  have hs := scale_pos hc ha; have t0 := ha.t0; have t1 := ha.t1
  obtain ⟨l0, l1, -, -⟩ := lims hc ha b
  obtain ⟨e0, e1⟩ := curves hc ha b Ye (lRho trueLogs rho)
  set k' := c.k / (a.mu * (a.gam - 1)) with hk'
  have hkp : 0 < k' := by positivity
  have hE : c.k * T / (a.mu * (a.gam - 1)) = k' * T := by rw [hk']; ring
  have hTq : T' = tOf trueLogs (lTOfE trueLogs s Ye cache (lRho trueLogs rho) (k' * T)).2 := by
    change query trueLogs s .tRE Ye cache rho (c.k * T / (a.mu * (a.gam - 1))) = _
    rw [hE]; simp only [query, Q.byEnergy, if_true, at_]
  have epw : ∀ x, tOf trueLogs x = (10 : ℝ) ^ x := fun x => by simp [tOf, fromLog, trueLogs]
  have lo : T ≤ c.scale * a.tempmin → T' = c.scale * a.tempmin := fun h => by
    rw [hTq]; unfold lTOfE
    rw [if_pos (by rw [e0]; gcongr), epw, l0, pw_log (by positivity)]
  have hi : c.scale * a.tempmax ≤ T → T' = c.scale * a.tempmax := fun h => by
    have : c.scale * a.tempmin < c.scale * a.tempmax := by gcongr
    rw [hTq]; unfold lTOfE
    rw [if_neg (by rw [e0, not_le]; gcongr; linarith), if_pos (by rw [e1, ge_iff_le]; gcongr), epw, l1,
      pw_log (mul_pos hs (t0.trans t1))]
  refine ⟨lo, hi, fun h1 h2 => ?_⟩
  rcases eq_or_lt_of_le h1 with h3 | h3
  · rw [lo h3.ge, ← h3]; norm_num
  rcases eq_or_lt_of_le h2 with h4 | h4
  · rw [hi h4.ge, ← h4]; norm_num
  have hle : lEOf trueLogs s (k' * T) = Real.logb 10 k' + Real.logb 10 T := by
    rw [← Real.logb_mul hkp.ne' hT.ne']
    exact toLog_pos trueLogs_ok (by positivity)
  have m0 : Real.logb 10 (c.scale * a.tempmin) ≤ Real.logb 10 T := (Real.logb_le_logb (by norm_num) (by positivity) hT).2 h1
  have m1 : Real.logb 10 T ≤ Real.logb 10 (c.scale * a.tempmax) :=
    (Real.logb_le_logb (by norm_num) hT (mul_pos hs (t0.trans t1))).2 h2
  have hwid : Real.logb 10 (c.scale * a.tempmax) - Real.logb 10 (c.scale * a.tempmin) ≤ 10 ^ 60 := by
    rw [Real.logb_mul hs.ne' (t0.trans t1).ne', Real.logb_mul hs.ne' t0.ne']; linarith
  set g := if s.lTMin ≤ cache ∧ cache ≤ s.lTMax then cache else 1 / 2 * (s.lTMin + s.lTMax) with hgd
  have hgm : s.lTMin ≤ g ∧ g ≤ s.lTMax := by
    rw [hgd]; split_ifs with hcc
    · exact hcc
    · rw [l0, l1]; constructor <;> linarith
  have l0' : s.lTMin = _ := l0
  have l1' : s.lTMax = _ := l1
  obtain ⟨x, hx, hd⟩ := invert_slope_one (A := Real.logb 10 k') (y := lEOf trueLogs s (k' * T)) (g := g) (l := s.lTMin) (u := s.lTMax)
    (fb := g) (r := Real.logb 10 T) (by rw [l0']; exact m0) (by rw [l1']; exact m1) hle.symm hgm.1
    (by have := hgm.2; rw [l1'] at this; rw [l0']; linarith) (by rw [l0', l1']; exact hwid)
  have : (lTOfE trueLogs s Ye cache (lRho trueLogs rho) (k' * T)).2 = x := by
    unfold lTOfE
    rw [if_neg (by rw [e0, not_le]; gcongr), if_neg (by rw [e1, ge_iff_le, not_le]; gcongr)]
    have ef : (fun x => (s.tab .lE).interp Ye x (lRho trueLogs rho)) = fun x => Real.logb 10 k' + x :=
      funext fun x => loaded_lE hc ha b Ye x _
    simp only [ef, ← hgd, hx]
  rw [hTq, this, epw, Real.logb_rpow (by norm_num) (by norm_num)]
  exact hd

/-- C148: density and energy from pressure and temperature. If the density of the ideal gas at this state lies in the table, the density returned is
it to `2e-14` in `log10` and the energy is exactly that of the gas, whatever positive density comes in. -/
theorem C148_density {c : Cgs} (hc : c.Ok) {a : Args} (ha : a.Ok) (b : Bool) (Ye rho0 rho T : ℝ) (hT : 0 < T) (h0 : 0 < rho0)
    (h1 : a.rhomin ≤ rho) (h2 : rho ≤ a.rhomax) (hn : a.rhomin ≤ rhoNormal)
    (hw : Real.logb 10 a.rhomax - Real.logb 10 a.rhomin ≤ 10 ^ 60)
    (hwn : Real.logb 10 rhoNormal - Real.logb 10 a.rhomin ≤ 10 ^ 60) :
    let s := load trueLogs b (a.file c)
    let o := dePT trueLogs s Ye (rho * c.k * T / a.mu) T rho0
    |Real.logb 10 o.1 - Real.logb 10 rho| ≤ 2 / 10 ^ 14 ∧ o.2 = c.k * T / (a.mu * (a.gam - 1)) := by
  intro s o
  have hk := k_pos hc ha; have hmu := ha.mu; have hg : 0 < a.gam - 1 := by have := ha.gam; linarith
  have hr0 := ha.r0
  have hr : 0 < rho := hr0.trans_le h1
  obtain ⟨-, -, l0, l1⟩ := lims hc ha b
  have l0' : s.lRhoMin = _ := l0
  have l1' : s.lRhoMax = _ := l1
  have eT : lT trueLogs T = Real.logb 10 T := toLog_pos trueLogs_ok hT
  have eg : lRho trueLogs rho0 = Real.logb 10 rho0 := toLog_pos trueLogs_ok h0
  have en : lRho trueLogs rhoNormal = Real.logb 10 rhoNormal := toLog_pos trueLogs_ok (hr0.trans_le hn)
  set A := Real.logb 10 (c.k / a.mu) + Real.logb 10 T with hA
  have hP : lPOf trueLogs (rho * c.k * T / a.mu) = A + Real.logb 10 rho := by
    have : lPOf trueLogs (rho * c.k * T / a.mu) = Real.logb 10 (rho * c.k * T / a.mu) := toLog_pos trueLogs_ok (by positivity)
    rw [this, hA, ← Real.logb_mul (by positivity) hT.ne', ← Real.logb_mul (by positivity) hr.ne']; congr 1; ring
  have ef : (fun r => (s.tab .lP).interp Ye (lT trueLogs T) r) = fun r => A + r :=
    funext fun r => by rw [hA, eT]; exact loaded_lP hc ha b Ye _ r
  set g := if lRho trueLogs rho0 < s.lRhoMin ∨ lRho trueLogs rho0 > s.lRhoMax then lRho trueLogs rhoNormal else lRho trueLogs rho0 with hgd
  have hgm : s.lRhoMin ≤ g ∧ g - s.lRhoMin ≤ 10 ^ 60 := by
    rw [hgd]; split_ifs with hcc
    · rw [en, l0']; exact ⟨(Real.logb_le_logb (by norm_num) hr0 (hr0.trans_le hn)).2 hn, hwn⟩
    · push Not at hcc; refine ⟨hcc.1, ?_⟩
      have := hcc.2; rw [l1'] at this; rw [l0']; linarith
  obtain ⟨x, hx, hd⟩ := invert_slope_one (A := A) (y := lPOf trueLogs (rho * c.k * T / a.mu)) (g := g) (l := s.lRhoMin) (u := s.lRhoMax)
    (fb := g) (r := Real.logb 10 rho) (by rw [l0']; exact (Real.logb_le_logb (by norm_num) hr0 hr).2 h1)
    (by rw [l1']; exact (Real.logb_le_logb (by norm_num) hr (hr.trans_le h2)).2 h2) hP.symm hgm.1 hgm.2
    (by rw [l0', l1']; exact hw)
  have ho : o = (rhoOf trueLogs x, eOf trueLogs s ((s.tab .lE).interp Ye (lT trueLogs T) x)) := by
    change dePT trueLogs s Ye (rho * c.k * T / a.mu) T rho0 = _
    unfold dePT
    simp only [ef, ← hgd, hx]
  have hrx : rhoOf trueLogs x = (10 : ℝ) ^ x := by
    unfold rhoOf fromLog; rw [sub_zero, if_neg (not_lt.2 (trueLogs_ok.pw_pos x).le)]; rfl
  rw [ho]
  refine ⟨?_, ?_⟩
  · dsimp only
    rw [hrx, Real.logb_rpow (by norm_num) (by norm_num)]; exact hd
  · dsimp only
    have hoff : s.lEOffset = 0 := rfl
    have epw : ∀ x, trueLogs.pw x = (10 : ℝ) ^ x := fun _ => rfl
    rw [show (s.tab .lE).interp Ye (lT trueLogs T) x = Real.logb 10 (c.k / (a.mu * (a.gam - 1))) + lT trueLogs T from
      loaded_lE hc ha b Ye _ x]
    unfold eOf fromLog
    rw [hoff, sub_zero, epw, eT, pw_sum2 (by positivity) hT]; ring

/-- The default arguments satisfy the further hypotheses. -/
example : trueLogs.eps ≤ Args.default.gam * (Args.default.rhomin * cgs.KBOL * Args.default.tempmin / Args.default.mu) ∧
    Real.logb 10 Args.default.tempmax - Real.logb 10 Args.default.tempmin ≤ 10 ^ 60 ∧
    Real.logb 10 Args.default.rhomax - Real.logb 10 Args.default.rhomin ≤ 10 ^ 60 ∧
    Args.default.rhomin ≤ rhoNormal ∧ Real.logb 10 rhoNormal - Real.logb 10 Args.default.rhomin ≤ 10 ^ 60 := by
  have e1 : Real.logb 10 Args.default.tempmax = 10 := by
    rw [show Args.default.tempmax = (10 : ℝ) ^ (10 : ℝ) by norm_num [Args.default]]; exact Real.logb_rpow (by norm_num) (by norm_num)
  have e2 : Real.logb 10 Args.default.tempmin = 2 := by
    rw [show Args.default.tempmin = (10 : ℝ) ^ (2 : ℝ) by norm_num [Args.default]]; exact Real.logb_rpow (by norm_num) (by norm_num)
  have e3 : Real.logb 10 Args.default.rhomax = -4 := by
    rw [show Args.default.rhomax = (10 : ℝ) ^ (-4 : ℝ) by rw [Real.rpow_neg (by norm_num)]; norm_num [Args.default]]
    exact Real.logb_rpow (by norm_num) (by norm_num)
  have e4 : Real.logb 10 Args.default.rhomin = -10 := by
    rw [show Args.default.rhomin = (10 : ℝ) ^ (-10 : ℝ) by rw [Real.rpow_neg (by norm_num)]; norm_num [Args.default]]
    exact Real.logb_rpow (by norm_num) (by norm_num)
  have e5 : Real.logb 10 (rhoNormal : ℝ) ≤ 13 := by
    rw [Real.logb_le_iff_le_rpow (by norm_num) (by norm_num [rhoNormal])]; norm_num [rhoNormal]
  rw [e1, e2, e3, e4]
  refine ⟨by norm_num [trueLogs, Args.default, cgs], by norm_num, by norm_num, by norm_num [Args.default, rhoNormal], by
    have : (23 : ℝ) ≤ 10 ^ 60 := by norm_num
    linarith⟩

/-- C148: the composition is what the script says at every state: neutrons and protons only, `Xp = Ye`, `Xn = 1 - Ye`, so the fractions sum to one;
mean mass and charge numbers are one. -/
theorem C148_composition {c : Cgs} (hc : c.Ok) {a : Args} (ha : a.Ok) (b : Bool) (Ye rho T : ℝ) :
    let s := load trueLogs b (a.file c)
    let X := fun f => composition trueLogs s f Ye rho T
    X .Xp = Ye ∧ X .Xn = 1 - Ye ∧ X .Xa = 0 ∧ X .Xh = 0 ∧ X .Xa + X .Xh + X .Xn + X .Xp = 1 ∧ X .Abar = 1 ∧ X .Zbar = 1 := by
  intro s X
  have go : ∀ f A D, regridded f = some false → (∀ k j i, (rawTab trueLogs b (a.file c) f).data k j i = A + D * a.ye k) →
      X f = A + D * Ye := by
    intro f A D hf hd
    change ((load trueLogs b (a.file c)).tab f).interp _ _ _ = _
    rw [C101_linear trueLogs_ok (fun x => trueLogs_ok.lg_pw x) (fun x => trueLogs_ok.log_p10 x) b (file_ok hc ha) hf
      (A := A) (D := D) (B := 0) (C := 0)]
    · ring
    · intro k j i
      rw [(axes hc ha b f k j i).2.2, hd]; ring
  have p1 : X .Xp = Ye := by rw [go .Xp 0 1 rfl fun k j i => by change a.ye k = _; ring]; ring
  have p2 : X .Xn = 1 - Ye := by rw [go .Xn 1 (-1) rfl fun k j i => by change 1 - a.ye k = _; ring]; ring
  have p3 : X .Xa = 0 := by rw [go .Xa 0 0 rfl fun k j i => by change (0 : ℝ) = _; ring]; ring
  have p4 : X .Xh = 0 := by rw [go .Xh 0 0 rfl fun k j i => by change (0 : ℝ) = _; ring]; ring
  have p5 : X .Abar = 1 := by rw [go .Abar 1 0 rfl fun k j i => by change (1 : ℝ) = _; ring]; ring
  have p6 : X .Zbar = 1 := by rw [go .Zbar 1 0 rfl fun k j i => by change (1 : ℝ) = _; ring]; ring
  exact ⟨p1, p2, p3, p4, by rw [p1, p2, p3, p4]; ring, p5, p6⟩

/-! ## C148: the Gruneisen parameter -/

/-- Interpolating exponentials of the grid points from above. -/
theorem lin_exp {g : Grid ℝ} (h : g.Ok) {f : Nat → ℝ} {u C : ℝ} (hC : 0 ≤ C)
    (hf : ∀ i < g.N, u * (10 : ℝ) ^ g.x i ≤ f i ∧ f i ≤ u * C * (10 : ℝ) ^ g.x i) (hu : 0 ≤ u) {x : ℝ} (h1 : g.min ≤ x) (h2 : x ≤ g.max) :
    u * (10 : ℝ) ^ x ≤ lin g f x ∧ lin g f x ≤ u * (C * (10 : ℝ) ^ g.dx) * (10 : ℝ) ^ x := by
  obtain ⟨w0, w1⟩ := g.w_mem h h1 h2
  have hx := g.w_mul h x
  have hi := g.index_lt h x
  set i := g.index x with hid
  have hd := g.dx_pos h
  obtain ⟨a1, a2⟩ := hf i (by omega)
  obtain ⟨b1, b2⟩ := hf (i + 1) hi
  rw [g.x_succ] at b1 b2
  have hcx : x = (1 - g.w x) * g.x i + g.w x * (g.x i + g.dx) := by linarith
  have conv : (10 : ℝ) ^ x ≤ (1 - g.w x) * (10 : ℝ) ^ g.x i + g.w x * (10 : ℝ) ^ (g.x i + g.dx) := by
    have := convexOn_exp.2 (Set.mem_univ (Real.log 10 * g.x i)) (Set.mem_univ (Real.log 10 * (g.x i + g.dx)))
      (sub_nonneg.2 w1) w0 (by ring)
    simp only [smul_eq_mul] at this
    rw [show ∀ y : ℝ, (10 : ℝ) ^ y = Real.exp (Real.log 10 * y) from fun y => Real.rpow_def_of_pos (by norm_num) y]
    rw [Real.rpow_def_of_pos (by norm_num), Real.rpow_def_of_pos (by norm_num)]
    refine le_trans (le_of_eq ?_) this
    congr 1
    nth_rewrite 1 [hcx]; ring
  have up : ∀ z, z ≤ x + g.dx → (10 : ℝ) ^ z ≤ (10 : ℝ) ^ g.dx * (10 : ℝ) ^ x := fun z hz => by
    rw [← Real.rpow_add (by norm_num)]; exact Real.rpow_le_rpow_of_exponent_le (by norm_num) (by linarith)
  have hwd : 0 ≤ g.w x * g.dx := mul_nonneg w0 hd.le
  have u1 := up (g.x i) (by linarith)
  have u2 := up (g.x i + g.dx) (by linarith)
  have huC : 0 ≤ u * C := mul_nonneg hu hC
  unfold lin
  rw [← hid]
  constructor
  · have := mul_le_mul_of_nonneg_left conv hu
    have := mul_le_mul_of_nonneg_left a1 (sub_nonneg.2 w1)
    have := mul_le_mul_of_nonneg_left b1 w0
    nlinarith
  · have e1 : f i ≤ u * C * ((10 : ℝ) ^ g.dx * (10 : ℝ) ^ x) := a2.trans (by gcongr)
    have e2 : f (i + 1) ≤ u * C * ((10 : ℝ) ^ g.dx * (10 : ℝ) ^ x) := b2.trans (by gcongr)
    have := mul_le_mul_of_nonneg_left e1 (sub_nonneg.2 w1)
    have := mul_le_mul_of_nonneg_left e2 w0
    nlinarith

theorem interp_one {b : Box3 ℝ} (h2 : b.g2.Ok) (h1 : b.g1.Ok) {f : Nat → ℝ} (hd : ∀ k j i, b.data k j i = f i) (x2 x1 x0 : ℝ) :
    b.interp x2 x1 x0 = lin b.g0 f x0 := by
  unfold Box3.interp
  rw [show (fun k => lin b.g1 (fun j => lin b.g0 (b.data k j) x0) x1) = fun _ => lin b.g0 f x0 from funext fun k => by
    rw [show (fun j => lin b.g0 (b.data k j) x0) = fun _ => lin b.g0 f x0 from funext fun j => by
      rw [show b.data k j = f from funext (hd k j)], lin_const h1], lin_const h2]

/-- C148: the Gruneisen parameter at densities of the table is never below that of the gas, `gam - 1`, and exceeds it at most by one spacing of the file's
and one of the reader's density grid (ten to the power of it), apart from the guard `rho / (rho + EPS)` in the code. -/
theorem C148_gruneisen {c : Cgs} (hc : c.Ok) {a : Args} (ha : a.Ok) (b : Bool) (Ye cache rho T : ℝ)
    (h1 : a.rhomin ≤ rho) (h2 : rho ≤ a.rhomax) :
    let s := load trueLogs b (a.file c)
    let w := Real.logb 10 a.rhomax - Real.logb 10 a.rhomin
    let G := query trueLogs s .gRT Ye cache rho T
    (a.gam - 1) * (rho / (rho + trueLogs.eps)) ≤ G ∧
    G ≤ (a.gam - 1) * (10 : ℝ) ^ (w / (a.nrho - 1) + w / ((dense a.nrho : ℝ) - 1)) * (rho / (rho + trueLogs.eps)) := by
  intro s w G
  have hg : 0 < a.gam - 1 := by have := ha.gam; linarith
  have hr0 := ha.r0
  have hr : 0 < rho := hr0.trans_le h1
  have eR : lRho trueLogs rho = Real.logb 10 rho := toLog_pos trueLogs_ok hr
  set raw := rawTab trueLogs b (a.file c) .dPdE with hraw
  obtain ⟨o2, o1, o0⟩ := raw_ok trueLogs b (file_ok hc ha) .dPdE
  have hlg : ∀ x, trueLogs.lg (trueLogs.pow10 x) = x := fun x => trueLogs_ok.log_p10 x
  have g0 : raw.g0 = ⟨Real.logb 10 a.rhomin, Real.logb 10 a.rhomax, a.nrho⟩ := by
    rw [hraw, (raw_axes trueLogs b (a.file c) .dPdE).2.2]
    simp only [Args.file, linspace_first, linspace_last ha.nr]
  have hx : ∀ i, raw.g0.x i = Real.logb 10 (a.rho i) := fun i => (axes hc ha b .dPdE 0 0 i).1
  -- the file's own interpolation
  have hfile : ∀ y t r, raw.g0.min ≤ r → r ≤ raw.g0.max → (a.gam - 1) * (10 : ℝ) ^ r ≤ raw.interp y t r ∧
      raw.interp y t r ≤ (a.gam - 1) * (1 * (10 : ℝ) ^ raw.g0.dx) * (10 : ℝ) ^ r := by
    intro y t r hr1 hr2
    rw [interp_one (f := fun i => (a.gam - 1) * a.rho i) o2 o1 (fun k j i => by rw [(derivs hc ha b).2.1])]
    refine lin_exp o0 zero_le_one (fun i _ => ?_) hg.le hr1 hr2
    rw [hx, pw_log (rho_pos hc ha i), mul_one]; exact ⟨le_rfl, le_rfl⟩
  set r1 := gridToNQT trueLogs (rawTab trueLogs b (a.file c) .lP).g1 (dense (a.file c).nT) with hr1d
  set r0 := gridToNQT trueLogs (rawTab trueLogs b (a.file c) .lP).g0 (dense (a.file c).nRho) with hr0d
  have ok1 : r1.Ok := by
    rw [hr1d, (raw_axes trueLogs b (a.file c) .lP).2.1]
    exact grid_ok trueLogs_ok (by dsimp only; linarith [(file_ok hc ha).t]) (dense_ge (file_ok hc ha).nT)
  have ok0 : r0.Ok := by
    rw [hr0d, (raw_axes trueLogs b (a.file c) .lP).2.2]; exact grid_ok trueLogs_ok (file_ok hc ha).r (dense_ge (file_ok hc ha).nR)
  have er0 : r0 = ⟨Real.logb 10 a.rhomin, Real.logb 10 a.rhomax, dense a.nrho⟩ := by
    rw [hr0d, (raw_axes trueLogs b (a.file c) .lP).2.2]
    simp only [gridToNQT, hlg, Args.file, linspace_first, linspace_last ha.nr]
  have etab : s.tab .dPdE = regrid trueLogs r1 r0 false raw := rfl
  have hl : ∀ y t r, raw.interp y t r = lin raw.g0 (fun i => (a.gam - 1) * a.rho i) r := fun y t r =>
    interp_one o2 o1 (fun k j i => by rw [(derivs hc ha b).2.1]) y t r
  have hint : ∀ y t r, (s.tab .dPdE).interp y t r = lin r0 (fun i => raw.interp 0 0 (r0.x i)) r := by
    intro y t r
    rw [etab]
    refine interp_one (b := regrid trueLogs r1 r0 false raw) o2 ok1 (fun k j i => ?_) y t r
    simp only [regrid, Bool.false_eq_true, if_false]
    rw [hl, hl, show ∀ x, trueLogs.log10 (trueLogs.pw x) = x from fun x => trueLogs_ok.lg_pw x]
  have hmain := lin_exp (g := r0) ok0 (f := fun i => raw.interp 0 0 (r0.x i)) (u := a.gam - 1) (C := 1 * (10 : ℝ) ^ raw.g0.dx)
    (by positivity) (fun i hi => by
      have q1 : r0.min ≤ r0.x i := by rw [← r0.x_zero]; exact r0.x_mono ok0 (Nat.zero_le i)
      have q2 : r0.x i ≤ r0.max := by rw [← Grid.x_last ok0]; exact r0.x_mono ok0 (by omega)
      exact hfile 0 0 (r0.x i) (by rw [g0]; rw [er0] at q1 ⊢; exact q1) (by rw [g0]; rw [er0] at q2 ⊢; exact q2)) hg.le
    (x := Real.logb 10 rho) (by rw [er0]; exact (Real.logb_le_logb (by norm_num) hr0 hr).2 h1)
    (by rw [er0]; exact (Real.logb_le_logb (by norm_num) hr (hr.trans_le h2)).2 h2)
  rw [pw_log hr] at hmain
  have hG : G = |(s.tab .dPdE).interp Ye (lT trueLogs T) (Real.logb 10 rho)| / (|rho| + trueLogs.eps) := by
    change query trueLogs s .gRT Ye cache rho T = _
    simp only [query, Q.byEnergy, Bool.false_eq_true, if_false, at_, eR]
  have heps := trueLogs_ok.eps_pos
  have hpos : 0 < rho + trueLogs.eps := by linarith
  have hpow : (10 : ℝ) ^ (w / (a.nrho - 1) + w / ((dense a.nrho : ℝ) - 1)) = (10 : ℝ) ^ raw.g0.dx * (10 : ℝ) ^ r0.dx := by
    rw [← Real.rpow_add (by norm_num), g0, er0]; rfl
  rw [hG, hint, abs_of_pos hr, abs_of_nonneg (le_trans (by positivity) hmain.1), hpow]
  constructor
  · rw [← mul_div_assoc]; gcongr; exact hmain.1
  · rw [← mul_div_assoc]; gcongr
    refine hmain.2.trans (le_of_eq (by ring))

/-- The entropy read at the ends of the table in temperature, at its lowest density. -/
theorem entropy_ends {c : Cgs} (hc : c.Ok) {a : Args} (ha : a.Ok) (b : Bool) (cache : ℝ) :
    let s := load trueLogs b (a.file c)
    query trueLogs s .sRT a.yemin cache a.rhomin (c.scale * a.tempmin)
      = max (a.rhomin * c.KBOL * a.tempmin / a.mu * a.rhomin ^ (-a.gam)) trueLogs.eps ∧
    query trueLogs s .sRT a.yemin cache a.rhomin (c.scale * a.tempmax)
      = max (a.rhomin * c.KBOL * a.tempmax / a.mu * a.rhomin ^ (-a.gam)) trueLogs.eps := by
  intro s
  have hs := scale_pos hc ha; have t0 := ha.t0; have t1 := ha.t0.trans ha.t1; have hr := ha.r0
  have hN := ha.nt; have hR := ha.nr; have hY := ha.ny
  obtain ⟨l0, l1, l2, -⟩ := lims hc ha b
  have L := load_loaded trueLogs_ok b (file_ok hc ha)
  have r0 : a.rho 0 = a.rhomin := by unfold Args.rho; rw [linspace_first]; exact pw_log hr
  have c0 : a.temp 0 = a.tempmin := by unfold Args.temp; rw [linspace_first]; exact pw_log t0
  have c1 : a.temp (a.ntemp - 1) = a.tempmax := by unfold Args.temp; rw [linspace_last hN]; exact pw_log t1
  obtain ⟨o2, o1, o0⟩ := raw_ok trueLogs b (file_ok hc ha) .entropy
  obtain ⟨n2, n1, n0⟩ := raw_axes trueLogs b (a.file c) .entropy
  have y0 : a.ye 0 = a.yemin := linspace_first
  have eY : (s.tab .lP).g2.x 0 = a.yemin := by
    rw [Grid.x_zero]; change a.ye 0 = _; exact y0
  have eR : trueLogs.pw ((s.tab .lP).g0.x 0) = a.rhomin := by
    rw [Grid.x_zero]; change (10 : ℝ) ^ s.lRhoMin = _
    rw [show s.lRhoMin = _ from l2]; exact pw_log hr
  have eT0 : trueLogs.pw ((s.tab .lP).g1.x 0) = c.scale * a.tempmin := by
    rw [Grid.x_zero]; change (10 : ℝ) ^ s.lTMin = _
    rw [show s.lTMin = _ from l0]; exact pw_log (by positivity)
  have eT1 : trueLogs.pw ((s.tab .lP).g1.x (dense a.ntemp - 1)) = c.scale * a.tempmax := by
    have hk : ((s.tab .lP).g1).Ok := L.okT
    have := Grid.x_last hk
    change (s.tab .lP).g1.x (dense a.ntemp - 1) = s.lTMax at this
    rw [this, show s.lTMax = _ from l1]; exact pw_log (by positivity)
  have fv : ∀ j, j < a.ntemp → fileValue trueLogs b (a.file c) .entropy a.yemin a.rhomin (c.scale * a.temp j)
      = a.prs c j 0 * a.rho 0 ^ (-a.gam) := by
    intro j hj
    obtain ⟨x0, x1, x2⟩ := axes hc ha b .entropy 0 j 0
    unfold fileValue
    have q1 : trueLogs.log10 (c.scale * a.temp j) = (rawTab trueLogs b (a.file c) .entropy).g1.x j := by
      rw [x1]; change Real.logb 10 _ = _
      rw [Real.logb_mul hs.ne' (temp_pos hc ha j).ne']; ring
    have q0 : trueLogs.log10 a.rhomin = (rawTab trueLogs b (a.file c) .entropy).g0.x 0 := by rw [x0, r0]; rfl
    have q2 : a.yemin = (rawTab trueLogs b (a.file c) .entropy).g2.x 0 := by rw [x2, y0]
    rw [q1, q0, q2, Box3.interp_node o2 o1 o0 (by have := o2.two; omega) (by rw [n1]; exact hj) (by have := o0.two; omega)]
    rfl
  have A := (C101_regrid trueLogs_ok b (file_ok hc ha) (k := 0) (j := 0) (i := 0) (by have := (file_ok hc ha).nY; omega)
    (by have := dense_ge (file_ok hc ha).nT; omega) (by have := dense_ge (file_ok hc ha).nR; omega) cache).2.2.2.2.1
  have B := (C101_regrid trueLogs_ok b (file_ok hc ha) (k := 0) (j := dense a.ntemp - 1) (i := 0) (by have := (file_ok hc ha).nY; omega)
    (by have := dense_ge (file_ok hc ha).nT; change dense a.ntemp - 1 < dense a.ntemp; change 2 ≤ dense a.ntemp at this; omega)
    (by have := dense_ge (file_ok hc ha).nR; omega) cache).2.2.2.2.1
  have F0 := fv 0 (by omega)
  have F1 := fv (a.ntemp - 1) (by omega)
  rw [c0] at F0
  rw [c1] at F1
  constructor
  · rw [show (load trueLogs b (a.file c)).tab = s.tab from rfl, eY, eR, eT0, F0] at A
    rw [A]; unfold Args.prs; rw [r0, c0]
  · rw [show (load trueLogs b (a.file c)).tab = s.tab from rfl, eY, eR, eT1, F1] at B
    rw [B]; unfold Args.prs; rw [r0, c1]

/-- C148: the entropy in the file is `P rho^-gam`, not the entropy of the gas. With the default arguments the entropy read rises by more than a billion
times `cv ln(T2/T1)`, the entropy change of the gas, from the lowest to the highest temperature of the table. -/
theorem C148_entropy_violated (b : Bool) (cache : ℝ) :
    let a := Args.default
    let s := load trueLogs b (a.file cgs)
    let S := fun T => query trueLogs s .sRT a.yemin cache a.rhomin T
    let T1 := cgs.scale * a.tempmin
    let T2 := cgs.scale * a.tempmax
    10 ^ 9 * (query trueLogs s .cvRT a.yemin cache a.rhomin T1 * Real.log (T2 / T1)) < S T2 - S T1 := by
  intro a s S T1 T2
  have ha : a.Ok := Args.default_ok
  obtain ⟨e1, e2⟩ := entropy_ends cgs_ok ha b cache
  have hs := scale_pos cgs_ok ha
  have hT1 : 0 < T1 := mul_pos hs ha.t0
  have hcv := (C148_ideal_gas cgs_ok ha b a.yemin cache a.rhomin T1 ha.r0 hT1).2.2.1
  have hk : cgs.k / (a.mu * (a.gam - 1)) ≤ 3 * 10 ^ 8 := by
    rw [show cgs.k = 10 ^ 6 * (160217653 / 10 ^ 20) / 11604525006 by norm_num [Cgs.k, cgs, MeV2K],
      show a.mu = 167262171 / 10 ^ 32 from rfl, show a.gam = 14 / 10 from rfl]
    norm_num
  have hcv' : query trueLogs s .cvRT a.yemin cache a.rhomin T1 ≤ 3 * 10 ^ 8 := by
    rw [hcv]; exact max_le hk (by norm_num [trueLogs])
  have hcv0 : 0 ≤ query trueLogs s .cvRT a.yemin cache a.rhomin T1 := by
    rw [hcv]; exact (trueLogs_ok.eps_pos.le).trans (le_max_right _ _)
  have hq : T2 / T1 = 10 ^ 8 := by
    change cgs.scale * (10 ^ 10) / (cgs.scale * 100) = 10 ^ 8
    field_simp; norm_num
  have hlog' : Real.log (T2 / T1) ≤ 80 := by
    rw [hq, Real.log_pow]
    have h10 := Real.log_le_sub_one_of_pos (show (0 : ℝ) < 10 by norm_num)
    push_cast; linarith
  have hpow : a.rhomin ^ (-a.gam) = (10 : ℝ) ^ (14 : ℝ) := by
    rw [show a.rhomin = (10 : ℝ) ^ (-10 : ℝ) by
      change (1 : ℝ) / 10 ^ 10 = _; rw [Real.rpow_neg (by norm_num)]; norm_num, ← Real.rpow_mul (by norm_num)]
    congr 1
    change -10 * -(14 / 10 : ℝ) = 14; norm_num
  have hp14 : (10 : ℝ) ^ (14 : ℝ) = 10 ^ 14 := by rw [← Real.rpow_natCast]; norm_num
  have S1 : S T1 = a.rhomin * cgs.KBOL * a.tempmin / a.mu * 10 ^ 14 := by
    change query trueLogs s .sRT a.yemin cache a.rhomin (cgs.scale * a.tempmin) = _
    rw [e1, hpow, hp14, max_eq_left]
    norm_num [a, trueLogs, Args.default, cgs]
  have S2 : S T2 = a.rhomin * cgs.KBOL * a.tempmax / a.mu * 10 ^ 14 := by
    change query trueLogs s .sRT a.yemin cache a.rhomin (cgs.scale * a.tempmax) = _
    rw [e2, hpow, hp14, max_eq_left]
    norm_num [a, trueLogs, Args.default, cgs]
  have up : query trueLogs s .cvRT a.yemin cache a.rhomin T1 * Real.log (T2 / T1) ≤ 3 * 10 ^ 8 * 80 :=
    mul_le_mul hcv' hlog' (Real.log_nonneg (by rw [hq]; norm_num)) (by norm_num)
  rw [S1, S2]
  refine lt_of_le_of_lt (mul_le_mul_of_nonneg_left up (by norm_num)) ?_
  norm_num [a, Args.default, cgs]

end

end Verif.SC
