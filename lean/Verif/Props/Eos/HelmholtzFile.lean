import Verif.Model.Eos.HelmholtzFile
import Verif.Spec.HelmTable
import Verif.Lemmas.DataBox
import Verif.Props.Eos.HelmholtzEos

set_option linter.unusedSectionVars false

/-! # C123: the Helmholtz table file and the EOS made of it -/

namespace Verif.Helm

open Verif.Databox Verif.Spec.HelmTable Filter Topology

/-- The first `k` words are numbers. -/
def Nums (s : Stream) (k : Nat) : Prop := ∀ n < k, ∃ v, numAt s n = some v

/-- The `n`-th number (0 if there is none). -/
def val (s : Stream) (n : Nat) : ℝ := (numAt s n).getD 0

theorem numAt_drop (s : Stream) (m n : Nat) : numAt (s.drop m) n = numAt s (m + n) := by
  simp [numAt, List.getElem?_drop]

theorem val_drop (s : Stream) (m n : Nat) : val (s.drop m) n = val s (m + n) := by simp [val, numAt_drop]

theorem nums_add (s : Stream) (a b : Nat) : Nums s (a + b) ↔ Nums s a ∧ Nums (s.drop a) b := by
  constructor
  · refine fun h => ⟨fun n hn => h n (by omega), fun n hn => ?_⟩
    rw [numAt_drop]; exact h (a + n) (by omega)
  · rintro ⟨h1, h2⟩ n hn
    rcases lt_or_ge n a with h | h
    · exact h1 n h
    · obtain ⟨v, hv⟩ := h2 (n - a) (by omega)
      rw [numAt_drop, Nat.add_sub_cancel' h] at hv
      exact ⟨v, hv⟩

theorem readVars_spec (j i : Nat) : ∀ (k c : Nat) (t : Cols) (s : Stream),
    (Nums s k → readVars j i c k (t, s) =
      some (fun c' j' i' => if (c ≤ c' ∧ c' < c + k) ∧ j' = j ∧ i' = i then val s (c' - c) else t c' j' i', s.drop k)) ∧
    (¬ Nums s k → readVars j i c k (t, s) = none)
  | 0, c, t, s => by
    refine ⟨fun _ => ?_, fun h => absurd (fun n hn => by omega) h⟩
    simp only [readVars, List.drop_zero, Option.some.injEq, Prod.mk.injEq, and_true]
    funext c' j' i'
    rw [if_neg (by omega)]
  | k + 1, c, t, [] => by
    refine ⟨fun h => ?_, fun _ => rfl⟩
    obtain ⟨v, hv⟩ := h 0 (by omega)
    simp [numAt] at hv
  | k + 1, c, t, none :: s => by
    refine ⟨fun h => ?_, fun _ => rfl⟩
    obtain ⟨v, hv⟩ := h 0 (by omega)
    simp [numAt] at hv
  | k + 1, c, t, some v :: s => by
    have ih := readVars_spec j i k (c + 1) (t.set c j i v) s
    have hN : Nums (some v :: s) (k + 1) ↔ Nums s k := by
      rw [Nat.add_comm, nums_add]
      constructor
      · exact fun h => h.2
      · refine fun h => ⟨fun n hn => ?_, h⟩
        obtain rfl : n = 0 := by omega
        exact ⟨v, rfl⟩
    rw [hN]
    refine ⟨fun h => ?_, fun h => ih.2 h⟩
    rw [readVars, ih.1 h]
    simp only [Option.some.injEq, Prod.mk.injEq]
    refine ⟨?_, by simp⟩
    funext c' j' i'
    by_cases hc : (c + 1 ≤ c' ∧ c' < c + 1 + k) ∧ j' = j ∧ i' = i
    · rw [if_pos hc, if_pos (by omega)]
      have : c' - c = 1 + (c' - (c + 1)) := by omega
      rw [this, ← val_drop]; rfl
    · rw [if_neg hc]
      unfold Cols.set
      by_cases h0 : c' = c ∧ j' = j ∧ i' = i
      · rw [if_pos h0, if_pos (by omega), h0.1, Nat.sub_self]; rfl
      · rw [if_neg h0, if_neg (by omega)]

theorem row_spec (j k : Nat) (t : Cols) (s : Stream) : ∀ m : Nat,
    (Nums s (m * k) → (List.range m).foldlM (fun st i => readVars j i 0 k st) (t, s) =
      some (fun c' j' i' => if c' < k ∧ j' = j ∧ i' < m then val s (i' * k + c') else t c' j' i', s.drop (m * k))) ∧
    (¬ Nums s (m * k) → (List.range m).foldlM (fun st i => readVars j i 0 k st) (t, s) = none)
  | 0 => by
    refine ⟨fun _ => ?_, fun h => absurd (fun n hn => by omega) h⟩
    simp only [List.range_zero, List.foldlM_nil, Nat.zero_mul, List.drop_zero]
    show some _ = some _
    congr 2
    funext c' j' i'
    rw [if_neg (by omega)]
  | m + 1 => by
    have ih := row_spec j k t s m
    rw [List.range_succ, List.foldlM_append, Nat.succ_mul, nums_add]
    by_cases h : Nums s (m * k)
    · rw [ih.1 h]
      show (_ → (readVars j m 0 k _ >>= pure) = _) ∧ (_ → (readVars j m 0 k _ >>= pure) = _)
      rw [bind_pure]
      refine ⟨fun h2 => ?_, fun h2 => (readVars_spec j m k 0 _ _).2 fun h3 => h2 ⟨h, h3⟩⟩
      rw [(readVars_spec j m k 0 _ _).1 h2.2]
      simp only [Option.some.injEq, Prod.mk.injEq, List.drop_drop, and_true]
      funext c' j' i'
      by_cases hc : (0 ≤ c' ∧ c' < 0 + k) ∧ j' = j ∧ i' = m
      · rw [if_pos hc, if_pos (by omega), val_drop, hc.2.2, Nat.sub_zero]
      · rw [if_neg hc]
        by_cases hd : c' < k ∧ j' = j ∧ i' < m
        · rw [if_pos hd, if_pos (by omega)]
        · rw [if_neg hd, if_neg (by omega)]
    · rw [ih.2 h]
      exact ⟨fun h2 => absurd h2.1 h, fun _ => rfl⟩

theorem setTables_spec (n0 k : Nat) (t : Cols) (s : Stream) : ∀ m : Nat,
    (Nums s (m * (n0 * k)) → setTables m n0 k (t, s) =
      some (fun c' j' i' => if c' < k ∧ j' < m ∧ i' < n0 then val s (j' * (n0 * k) + (i' * k + c')) else t c' j' i',
        s.drop (m * (n0 * k)))) ∧
    (¬ Nums s (m * (n0 * k)) → setTables m n0 k (t, s) = none)
  | 0 => by
    refine ⟨fun _ => ?_, fun h => absurd (fun n hn => by omega) h⟩
    simp only [setTables, List.range_zero, List.foldlM_nil, Nat.zero_mul, List.drop_zero]
    show some _ = some _
    congr 2
    funext c' j' i'
    rw [if_neg (by omega)]
  | m + 1 => by
    have ih := setTables_spec n0 k t s m
    unfold setTables at ih ⊢
    rw [List.range_succ, List.foldlM_append, Nat.succ_mul, nums_add]
    by_cases h : Nums s (m * (n0 * k))
    · rw [ih.1 h]
      show (_ → ((List.range n0).foldlM (fun st i => readVars m i 0 k st) _ >>= pure) = _) ∧
        (_ → ((List.range n0).foldlM (fun st i => readVars m i 0 k st) _ >>= pure) = _)
      rw [bind_pure]
      refine ⟨fun h2 => ?_, fun h2 => (row_spec m k _ _ n0).2 fun h3 => h2 ⟨h, h3⟩⟩
      rw [(row_spec m k _ _ n0).1 h2.2]
      simp only [Option.some.injEq, Prod.mk.injEq, List.drop_drop, and_true]
      funext c' j' i'
      by_cases hc : c' < k ∧ j' = m ∧ i' < n0
      · rw [if_pos hc, if_pos (by omega), val_drop, hc.2.1]
      · rw [if_neg hc]
        by_cases hd : c' < k ∧ j' < m ∧ i' < n0
        · rw [if_pos hd, if_pos (by omega)]
        · rw [if_neg hd, if_neg (by omega)]
    · rw [ih.2 h]
      exact ⟨fun h2 => absurd h2.1 h, fun _ => rfl⟩

/-- The file as a table: what the entry of each table is. -/
structure IsTableOf (file : File) (tb : Tables) : Prop where
  f : ∀ j < 101, ∀ i < 271, numAt file (pos 271 0 9 0 j i) = some (tb.f j i)
  fd : ∀ j < 101, ∀ i < 271, numAt file (pos 271 0 9 1 j i) = some (tb.fd j i)
  ft : ∀ j < 101, ∀ i < 271, numAt file (pos 271 0 9 2 j i) = some (tb.ft j i)
  fdd : ∀ j < 101, ∀ i < 271, numAt file (pos 271 0 9 3 j i) = some (tb.fdd j i)
  ftt : ∀ j < 101, ∀ i < 271, numAt file (pos 271 0 9 4 j i) = some (tb.ftt j i)
  fdt : ∀ j < 101, ∀ i < 271, numAt file (pos 271 0 9 5 j i) = some (tb.fdt j i)
  fddt : ∀ j < 101, ∀ i < 271, numAt file (pos 271 0 9 6 j i) = some (tb.fddt j i)
  fdtt : ∀ j < 101, ∀ i < 271, numAt file (pos 271 0 9 7 j i) = some (tb.fdtt j i)
  fddtt : ∀ j < 101, ∀ i < 271, numAt file (pos 271 0 9 8 j i) = some (tb.fddtt j i)
  dpdf : ∀ j < 101, ∀ i < 271, numAt file (pos 271 (9 * pts) 4 0 j i) = some (tb.dpdf j i)
  dpdfd : ∀ j < 101, ∀ i < 271, numAt file (pos 271 (9 * pts) 4 1 j i) = some (tb.dpdfd j i)
  dpdft : ∀ j < 101, ∀ i < 271, numAt file (pos 271 (9 * pts) 4 2 j i) = some (tb.dpdft j i)
  dpdfdt : ∀ j < 101, ∀ i < 271, numAt file (pos 271 (9 * pts) 4 3 j i) = some (tb.dpdfdt j i)
  ef : ∀ j < 101, ∀ i < 271, numAt file (pos 271 (13 * pts) 4 0 j i) = some (tb.ef j i)
  efd : ∀ j < 101, ∀ i < 271, numAt file (pos 271 (13 * pts) 4 1 j i) = some (tb.efd j i)
  eft : ∀ j < 101, ∀ i < 271, numAt file (pos 271 (13 * pts) 4 2 j i) = some (tb.eft j i)
  efdt : ∀ j < 101, ∀ i < 271, numAt file (pos 271 (13 * pts) 4 3 j i) = some (tb.efdt j i)
  xf : ∀ j < 101, ∀ i < 271, numAt file (pos 271 (17 * pts) 4 0 j i) = some (tb.xf j i)
  xfd : ∀ j < 101, ∀ i < 271, numAt file (pos 271 (17 * pts) 4 1 j i) = some (tb.xfd j i)
  xft : ∀ j < 101, ∀ i < 271, numAt file (pos 271 (17 * pts) 4 2 j i) = some (tb.xft j i)
  xfdt : ∀ j < 101, ∀ i < 271, numAt file (pos 271 (17 * pts) 4 3 j i) = some (tb.xfdt j i)

theorem nums_val {file : File} {N n : Nat} (h : Nums file N) (hn : n < N) : numAt file n = some (val file n) := by
  obtain ⟨v, hv⟩ := h n hn
  simp [val, hv]

/-- The result of `load` when the file is complete. -/
theorem load_some (u : Cols) (file : File) (h : Complete file) :
    ∃ tb, load u file = some tb ∧ IsTableOf file tb ∧ (∀ i, tb.rho i = pow10 (gRho.x i)) ∧ (∀ j, tb.T j = pow10 (gT.x j)) ∧
      tb.rhoMin = (10 ^ 12)⁻¹ ∧ tb.rhoMax = 10 ^ 15 ∧ tb.lRhoMin = -12 ∧ tb.lRhoMax = 15 ∧ tb.lTMin = 3 ∧ tb.lTMax = 13 ∧
      tb.idxRho = gRho.index ∧ tb.idxT = gT.index := by
  have h : Nums file (21 * pts) := h
  have e : 21 * pts = nTemp * (nRho * 9) + (nTemp * (nRho * 4) + (nTemp * (nRho * 4) + nTemp * (nRho * 4))) := rfl
  have h' := h
  rw [e, nums_add, nums_add, nums_add] at h'
  obtain ⟨h1, h2, h3, h4⟩ := h'
  have key : ∀ off cols, (∀ c < cols, ∀ j < 101, ∀ i < 271, pos 271 off cols c j i < 21 * pts) → ∀ c < cols, ∀ j < 101,
      ∀ i < 271, numAt file (pos 271 off cols c j i) =
        some (if c < cols ∧ j < nTemp ∧ i < nRho then val file (off + (j * (nRho * cols) + (i * cols + c))) else u c j i) := by
    intro off cols hb c hc j hj i hi
    rw [if_pos ⟨hc, hj, hi⟩, nums_val h (hb c hc j hj i hi)]
    congr 2
    unfold pos nRho; ring
  have k1 := key 0 9 (fun c hc j hj i hi => by unfold pos pts; omega)
  have k2 := key (9 * pts) 4 (fun c hc j hj i hi => by unfold pos pts; omega)
  have k3 := key (13 * pts) 4 (fun c hc j hj i hi => by unfold pos pts; omega)
  have k4 := key (17 * pts) 4 (fun c hc j hj i hi => by unfold pos pts; omega)
  have o2 : nTemp * (nRho * 9) = 9 * pts := rfl
  have o3 : 9 * pts + nTemp * (nRho * 4) = 13 * pts := rfl
  have o4 : 13 * pts + nTemp * (nRho * 4) = 17 * pts := rfl
  unfold load
  rw [(setTables_spec nRho 9 u file nTemp).1 h1]
  dsimp only
  rw [(setTables_spec nRho 4 u _ nTemp).1 h2]
  dsimp only
  rw [(setTables_spec nRho 4 u _ nTemp).1 h3]
  dsimp only
  rw [(setTables_spec nRho 4 u _ nTemp).1 h4]
  dsimp only
  simp only [List.drop_drop, val_drop, o2, o3, o4]
  simp only [Nat.zero_add] at k1
  refine ⟨_, rfl, ⟨?_, ?_, ?_, ?_, ?_, ?_, ?_, ?_, ?_, ?_, ?_, ?_, ?_, ?_, ?_, ?_, ?_, ?_, ?_, ?_, ?_⟩, fun _ => rfl,
    fun _ => rfl, rfl, rfl, rfl, rfl, rfl, rfl, rfl, rfl⟩
  all_goals first
    | exact k1 _ (by decide)
    | exact k2 _ (by decide)
    | exact k3 _ (by decide)
    | exact k4 _ (by decide)

/-- **C123.** A file with all the numbers of a table is read, each number to its place in its table; whatever follows those
numbers, and what the memory held before, plays no role. -/
theorem C123_reads (u : Cols) (file : File) (h : Complete file) : ∃ tb, load u file = some tb ∧ IsTableOf file tb := by
  obtain ⟨tb, h1, h2, -⟩ := load_some u file h
  exact ⟨tb, h1, h2⟩

/-- **C123.** A file that ends early, or has a word that is not a number where one is needed, is rejected. -/
theorem C123_rejects (u : Cols) (file : File) (h : ¬ Complete file) : load u file = none := by
  have h : ¬ Nums file (21 * pts) := h
  have e : 21 * pts = nTemp * (nRho * 9) + (nTemp * (nRho * 4) + (nTemp * (nRho * 4) + nTemp * (nRho * 4))) := rfl
  rw [e, nums_add, nums_add, nums_add] at h
  unfold load
  by_cases h1 : Nums file (nTemp * (nRho * 9))
  · rw [(setTables_spec nRho 9 u file nTemp).1 h1]
    dsimp only
    by_cases h2 : Nums (file.drop (nTemp * (nRho * 9))) (nTemp * (nRho * 4))
    · rw [(setTables_spec nRho 4 u _ nTemp).1 h2]
      dsimp only
      by_cases h3 : Nums ((file.drop (nTemp * (nRho * 9))).drop (nTemp * (nRho * 4))) (nTemp * (nRho * 4))
      · rw [(setTables_spec nRho 4 u _ nTemp).1 h3]
        dsimp only
        rw [(setTables_spec nRho 4 u _ nTemp).2 fun h4 => h ⟨h1, h2, h3, h4⟩]
      · rw [(setTables_spec nRho 4 u _ nTemp).2 h3]
    · rw [(setTables_spec nRho 4 u _ nTemp).2 h2]
  · rw [(setTables_spec nRho 9 u file nTemp).2 h1]

/-! ## The EOS made of the file -/

theorem pow10_rpow (x : ℝ) : pow10 x = (10 : ℝ) ^ x := by
  unfold pow10; rw [Real.rpow_def_of_pos (by norm_num)]

theorem pow10_lt {x y : ℝ} (h : x < y) : pow10 x < pow10 y :=
  Real.exp_lt_exp.2 (mul_lt_mul_of_pos_left h (Real.log_pos (by norm_num)))

theorem gT_ok : gT.Ok := ⟨by norm_num [gT, nTemp], by norm_num [gT]⟩
theorem gRho_ok : gRho.Ok := ⟨by norm_num [gRho, nRho], by norm_num [gRho]⟩

theorem gT_x (j : Nat) : gT.x j = 3 + j / 10 := by
  simp only [Databox.Grid.x, Databox.Grid.dx, gT, nTemp]; norm_num; ring
theorem gRho_x (j : Nat) : gRho.x j = -12 + j / 10 := by
  simp only [Databox.Grid.x, Databox.Grid.dx, gRho, nRho]; norm_num; ring

/-- In the open interval between two grid points the index is that of the left one. -/
theorem index_between {g : Databox.Grid ℝ} (h : g.Ok) {j : Nat} (hj : j + 1 < g.N) {x : ℝ} (h1 : g.x j ≤ x) (h2 : x < g.x (j + 1)) :
    g.index x = j := by
  have hd := g.dx_pos h
  have hq : ⌊(x - g.min) / g.dx⌋ = (j : ℤ) := by
    rw [Int.floor_eq_iff]
    unfold Databox.Grid.x at h1 h2
    push_cast at h2 ⊢
    constructor
    · rw [le_div_iff₀ hd]; linarith
    · rw [div_lt_iff₀ hd]; linarith
  unfold Databox.Grid.index
  rw [hq]
  simp only [Int.toNat_natCast]
  exact Nat.min_eq_right (by omega)

/-- At the last grid point it is that of the last cell. -/
theorem index_last {g : Databox.Grid ℝ} (h : g.Ok) : g.index (g.x (g.N - 1)) = g.N - 2 := by
  have hd := g.dx_pos h
  have hq : (g.x (g.N - 1) - g.min) / g.dx = ((g.N - 1 : Nat) : ℝ) := by
    unfold Databox.Grid.x; rw [add_sub_cancel_left, mul_div_cancel_right₀ _ hd.ne']
  unfold Databox.Grid.index
  rw [hq, Int.floor_natCast]
  simp only [Int.toNat_natCast]
  exact Nat.min_eq_left (by omega)

/-- At a grid point the index is that of a cell with this corner. -/
theorem index_node {g : Databox.Grid ℝ} (h : g.Ok) {j : Nat} (hj : j < g.N) :
    ∃ a ≤ 1, g.index (g.x j) + a = j := by
  have h2 := h.two
  by_cases hl : j + 1 < g.N
  · refine ⟨0, by omega, ?_⟩
    rw [index_between h hl le_rfl (by rw [Databox.Grid.x_succ]; linarith [g.dx_pos h])]; rfl
  · obtain rfl : j = g.N - 1 := by omega
    exact ⟨1, le_rfl, by rw [index_last h]; omega⟩

/-- **C123.** The loaded EOS has the published grid: `T_j = 10^(3 + j/10)`, `rho_i = 10^(-12 + i/10)`, strictly increasing; and
its limits are the ends of the grid. -/
theorem C123_grid (u : Cols) (file : File) (tb : Tables) (h : load u file = some tb) :
    (∀ j, tb.T j = (10 : ℝ) ^ (3 + j / 10 : ℝ)) ∧ (∀ i, tb.rho i = (10 : ℝ) ^ (-12 + i / 10 : ℝ)) ∧ Verif.Helm.Grid tb ∧
    tb.rhoMin = tb.rho 0 ∧ tb.rhoMax = tb.rho 270 ∧ pow10 tb.lTMin = tb.T 0 ∧ pow10 tb.lTMax = tb.T 100 ∧
    pow10 tb.lRhoMin = tb.rhoMin ∧ pow10 tb.lRhoMax = tb.rhoMax := by
  have hc : Complete file := by
    by_contra hc
    rw [C123_rejects u file hc] at h; cases h
  obtain ⟨tb', h1, -, hr, hT, e1, e2, e3, e4, e5, e6, -⟩ := load_some u file hc
  obtain rfl : tb' = tb := Option.some.inj (h1.symm.trans h)
  have p15 : pow10 (15 : ℝ) = 10 ^ 15 := by rw [pow10_rpow]; exact_mod_cast Real.rpow_natCast 10 15
  have p12 : pow10 (-12 : ℝ) = (10 ^ 12)⁻¹ := by
    rw [pow10_rpow, Real.rpow_neg (by norm_num)]; congr 1; exact_mod_cast Real.rpow_natCast 10 12
  refine ⟨fun j => by rw [hT, gT_x, pow10_rpow], fun i => by rw [hr, gRho_x, pow10_rpow], ⟨fun j => ?_, fun i => ?_⟩,
    ?_, ?_, ?_, ?_, ?_, ?_⟩
  · rw [hT, hT]; exact pow10_lt (by rw [gT_x, gT_x]; push_cast; linarith)
  · rw [hr, hr]; exact pow10_lt (by rw [gRho_x, gRho_x]; push_cast; linarith)
  · rw [e1, hr, gRho_x, ← p12]; norm_num
  · rw [e2, hr, gRho_x, ← p15]; norm_num
  · rw [e5, hT, gT_x]; norm_num
  · rw [e6, hT, gT_x]; norm_num
  · rw [e3, e1, p12]
  · rw [e4, e2, p15]

theorem log10_lt {x y : ℝ} (hx : 0 < x) (h : x < y) : log10 x < log10 y :=
  Real.logb_lt_logb (by norm_num) hx h

theorem pow10_pos (x : ℝ) : 0 < pow10 x := Real.exp_pos _

/-- **C123.** Every state strictly between grid lines is looked up in its own cell; so the theorems about the electron part
(C77, C81) apply to it. -/
theorem C123_cell (u : Cols) (file : File) (tb : Tables) (h : load u file = some tb) (j i : Nat) (hj : j < 100) (hi : i < 270)
    (r T a z : ℝ) (hr1 : tb.rhoMin < r) (hr2 : r < tb.rhoMax) (ha : 0 < a) (hz : 0 < z)
    (hT1 : tb.T j < T) (hT2 : T < tb.T (j + 1)) (hD1 : tb.rho i < r * (z / a)) (hD2 : r * (z / a) < tb.rho (i + 1)) :
    Inside tb j i r T a z := by
  have hc : Complete file := by
    by_contra hc
    rw [C123_rejects u file hc] at h; cases h
  obtain ⟨tb', h1, -, hr, hT, e1, e2, e3, e4, e5, e6, iR, iT⟩ := load_some u file hc
  obtain rfl : tb' = tb := Option.some.inj (h1.symm.trans h)
  obtain ⟨-, -, hg, m1, m2, -, -, m3, m4⟩ := C123_grid u file tb' h
  have hTp : 0 < T := lt_trans (by rw [hT]; exact pow10_pos _) hT1
  have hDp : 0 < r * (z / a) := lt_trans (by rw [hr]; exact pow10_pos _) hD1
  have hmono : StrictMono tb'.rho := strictMono_nat_of_lt_succ hg.rho
  have b1 : tb'.rhoMin < r * (z / a) := by
    rw [m1]; exact lt_of_le_of_lt (hmono.monotone (Nat.zero_le i)) hD1
  have b2 : r * (z / a) < tb'.rhoMax := by
    rw [m2]; exact lt_of_lt_of_le hD2 (hmono.monotone (by omega))
  have lT1 : gT.x j < log10 T := by rw [← log10_pow10 (gT.x j), ← hT]; exact log10_lt (by rw [hT]; exact pow10_pos _) hT1
  have lT2 : log10 T < gT.x (j + 1) := by rw [← log10_pow10 (gT.x (j + 1)), ← hT]; exact log10_lt hTp hT2
  have lR1 : gRho.x i < log10 (r * (z / a)) := by
    rw [← log10_pow10 (gRho.x i), ← hr]; exact log10_lt (by rw [hr]; exact pow10_pos _) hD1
  have lR2 : log10 (r * (z / a)) < gRho.x (i + 1) := by
    rw [← log10_pow10 (gRho.x (i + 1)), ← hr]; exact log10_lt hDp hD2
  have p0 : 0 < tb'.rhoMin := by rw [m1, hr]; exact pow10_pos _
  refine ⟨?_, ?_, hT1, hD1, hr1, hr2, b1, b2, ?_, ?_, p0.trans hr1, hTp, ha, hz⟩
  · filter_upwards [Ioo_mem_nhds lT1 lT2] with x hx
    rw [iT]; exact index_between gT_ok (by show j + 1 < 101; omega) hx.1.le hx.2
  · filter_upwards [Ioo_mem_nhds lR1 lR2] with x hx
    rw [iR]; exact index_between gRho_ok (by show i + 1 < 271; omega) hx.1.le hx.2
  · rw [← log10_pow10 tb'.lRhoMin, m3]; exact log10_lt p0 b1
  · rw [← log10_pow10 tb'.lRhoMax, m4]; exact log10_lt hDp b2

/-- **C123.** At the temperatures and electron densities of the table the electron pressure, energy, entropy, chemical
potential and pair density reported by the EOS are those of the file: with `f`, `fd`, `ft`, `ef` and `xf` of the row,
`P = De^2 fd`, `e = Ye (f - T ft)`, `s = -Ye ft`, `eta = ef`, `n = xf`. -/
theorem C123_nodes (u : Cols) (file : File) (tb : Tables) (h : load u file = some tb) (c : Consts) (j i : Nat) (hj : j < 101)
    (hi : i < 271) (r a z : ℝ) (hD : r * (z / a) = tb.rho i) :
    ∃ f fd ft ef xf, numAt file (pos 271 0 9 0 j i) = some f ∧ numAt file (pos 271 0 9 1 j i) = some fd ∧
      numAt file (pos 271 0 9 2 j i) = some ft ∧ numAt file (pos 271 (13 * pts) 4 0 j i) = some ef ∧
      numAt file (pos 271 (17 * pts) 4 0 j i) = some xf ∧
      (eleAt tb c r (tb.T j) a z).p.val = (tb.rho i) ^ 2 * fd ∧
      (eleAt tb c r (tb.T j) a z).e.val = z / a * (f - tb.T j * ft) ∧
      (eleAt tb c r (tb.T j) a z).s.val = -(z / a) * ft ∧
      (eleAt tb c r (tb.T j) a z).eta.val = ef ∧ (eleAt tb c r (tb.T j) a z).xne.val = xf := by
  have hc : Complete file := by
    by_contra hc
    rw [C123_rejects u file hc] at h; cases h
  obtain ⟨tb', h1, hf, hr, hT, e1, e2, e3, e4, e5, e6, iR, iT⟩ := load_some u file hc
  obtain rfl : tb' = tb := Option.some.inj (h1.symm.trans h)
  obtain ⟨-, -, hg, m1, m2, -, -, m3, m4⟩ := C123_grid u file tb' h
  refine ⟨_, _, _, _, _, hf.f j hj i hi, hf.fd j hj i hi, hf.ft j hj i hi, hf.ef j hj i hi, hf.xf j hj i hi, ?_⟩
  obtain ⟨p, hp, ep⟩ := index_node gT_ok (j := j) hj
  obtain ⟨q, hq, eq⟩ := index_node gRho_ok (j := i) hi
  have hmono : StrictMono tb'.rho := strictMono_nat_of_lt_succ hg.rho
  have hx : -12 ≤ gRho.x i ∧ gRho.x i ≤ 15 := by
    rw [gRho_x]
    have : (i : ℝ) ≤ 270 := by exact_mod_cast (by omega : i ≤ 270)
    have h0 : (0 : ℝ) ≤ i := Nat.cast_nonneg i
    constructor <;> linarith
  have hcl : clampTo tb'.rhoMin tb'.rhoMax (tb'.rho i) = tb'.rho i := by
    unfold clampTo
    rw [m1, m2, max_eq_right (hmono.monotone (Nat.zero_le i)), min_eq_right (hmono.monotone (by omega))]
  have hlcl : clampTo tb'.lRhoMin tb'.lRhoMax (log10 (tb'.rho i)) = gRho.x i := by
    unfold clampTo
    rw [hr, log10_pow10, e3, e4]
    rw [max_eq_right hx.1, min_eq_right hx.2]
  have hye : z * Robust.ratio 0 1 a = z / a := by
    rw [ratio0]; ring
  have he : eleAt tb' c r (tb'.T j) a z = electronsCell 0 tb' (gT.index (gT.x j)) (gRho.index (gRho.x i))
      (clampTo tb'.rhoMin tb'.rhoMax r) (tb'.T j) (z / a) (Robust.ratio 0 1 a) (tb'.rho i) := by
    have hTj : log10 (tb'.T j) = gT.x j := by rw [hT, log10_pow10]
    simp only [eleAt, electrons, dens, hye, hD, hlcl, hcl, hTj, iT, iR]
    rw [← hT]
  rw [he]
  have n5 := C58_nodes tb' hg (gT.index (gT.x j)) (gRho.index (gRho.x i)) p q hp hq
  have nE := C58_nodes_cubic tb' hg tb'.ef tb'.eft tb'.efd tb'.efdt (gT.index (gT.x j)) (gRho.index (gRho.x i)) p q hp hq
  have nX := C58_nodes_cubic tb' hg tb'.xf tb'.xft tb'.xfd tb'.xfdt (gT.index (gT.x j)) (gRho.index (gRho.x i)) p q hp hq
  rw [ep, eq] at n5 nE nX
  obtain ⟨n1, n2, -, n4, -⟩ := n5
  simp only [electronsCell, n1, n2, n4, nE.1, nX.1]
  refine ⟨by ring, by ring, by ring, trivial, trivial⟩

/-- **C123 is violated** for tables of another shape: a complete table with 541 densities and 201 temperatures (such tables
are published too) is accepted, and every number of it is put where it does not belong: what the EOS takes for the free
energy at its second temperature and first density is the file's at the first temperature and 272nd density. -/
theorem C123_shape_violated : ∃ file : File, (∀ n < 21 * (201 * 541), ∃ v, numAt file n = some v) ∧
    ∀ u, ∃ tb, load u file = some tb ∧ some (tb.f 1 0) = numAt file (pos 541 0 9 0 0 271) ∧
      some (tb.f 1 0) ≠ numAt file (pos 541 0 9 0 1 0) := by
  have hn : ∀ n < 21 * (201 * 541), numAt ((List.range (21 * (201 * 541))).map fun n : Nat => some (n : ℝ)) n = some (n : ℝ) := by
    intro n hn
    unfold numAt
    rw [List.getElem?_map, List.getElem?_range hn]; rfl
  refine ⟨(List.range (21 * (201 * 541))).map fun n : Nat => some (n : ℝ), fun n hn' => ⟨_, hn n hn'⟩, fun u => ?_⟩
  obtain ⟨tb, h1, h2⟩ := C123_reads u _ (fun n hn' => ⟨_, hn n (lt_of_lt_of_le hn' (by unfold pts; omega))⟩)
  refine ⟨tb, h1, ?_, ?_⟩
  · rw [← h2.f 1 (by omega) 0 (by omega)]; rfl
  · rw [← h2.f 1 (by omega) 0 (by omega), hn _ (by unfold pos; omega), hn _ (by unfold pos; omega)]
    unfold pos; norm_num

/-- A complete file exists, and the constructor's requirements hold of what is loaded. -/
example : Complete (List.replicate (21 * pts) (some 1)) := by
  intro n hn
  refine ⟨1, ?_⟩
  unfold numAt
  rw [List.getElem?_replicate, if_pos hn]; rfl

end Verif.Helm
