import Verif.Props.Tools.Sesame2Spiner
import Verif.Props.Table.Bounds
import Mathlib.Tactic.NormNum

/-!
# C119: the grids of `sesame2spiner`
-/

set_option linter.unusedSectionVars false

namespace Verif.S2S
open Verif.Spec.S2S

variable {K : Type*} [Field K] [LinearOrder K] [IsStrictOrderedRing K]

theorem getD_none {stod : Str → Option K} {p : Params} {k : Str} {d v : K} (hn : p.get? k = none)
    (h : getD stod p k d = some v) : v = d := by
  unfold getD at h; rw [hn] at h; exact (Option.some.inj h).symm

theorem getD_some {stod : Str → Option K} {p : Params} {k s : Str} {d v w : K} (hn : p.get? k = some s) (hw : stod s = some w)
    (h : getD stod p k d = some v) : v = w := by
  unfold getD at h; rw [hn] at h; dsimp only at h; rw [hw] at h; exact (Option.some.inj h).symm

theorem getI_some (p : Params) (k s : Str) (d : Int) (hn : p.get? k = some s) : getI p k d = stoi s := by
  unfold getI; rw [hn]

theorem tinyShift_ge (ε v : K) : v ≤ tinyShift ε v := by unfold tinyShift; linarith [abs_nonneg (min (10 * v * ε) ε)]

theorem clamp01_mem (x : K) : 0 ≤ clamp01 x ∧ clamp01 x ≤ 1 :=
  ⟨le_min zero_le_one (le_max_right _ _), min_le_left _ _⟩

theorem clamp01_id (x : K) (h0 : 0 ≤ x) (h1 : x ≤ 1) : clamp01 x = x := by
  unfold clamp01; rw [max_eq_left h0, min_eq_right h1]

/-- **C119.** The density grid: its lower end is what the user gave, or at least that of the data, but never below `1e-8`; its
upper end is what the user gave or that of the data; the shrinking factor is that of the user, brought into `[0, 1]`. -/
theorem C119_density_range (stod : Str → Option K) (ε : K) (p : Params) (m : Meta K) (ax : Axis K)
    (h : rhoAxis stod ε p m = some ax) :
    1 / 10 ^ 8 ≤ ax.lo ∧ 0 ≤ ax.shrink ∧ ax.shrink ≤ 1 ∧
      (p.get? "rhomin".toList = none → m.rhoMin ≤ ax.lo) ∧
      (∀ s v, p.get? "rhomin".toList = some s → stod s = some v → ax.lo = max v (1 / 10 ^ 8)) ∧
      (p.get? "rhomax".toList = none → ax.hi = m.rhoMax) ∧
      (∀ s v, p.get? "rhomax".toList = some s → stod s = some v → ax.hi = v) ∧
      (∀ s v, p.get? "shrinklRhoBounds".toList = some s → stod s = some v → 0 ≤ v → v ≤ 1 → ax.shrink = v) ∧
      (p.get? "shrinklRhoBounds".toList = none → ax.shrink = 0) := by
  unfold rhoAxis at h
  simp only [Option.bind_eq_bind, Option.bind_eq_some_iff, Option.pure_def, Option.some.injEq] at h
  obtain ⟨lo, h1, hi, h2, s, h3, rfl⟩ := h
  refine ⟨?_, (clamp01_mem s).1, (clamp01_mem s).2, ?_, ?_, ?_, ?_, ?_, ?_⟩
  · dsimp only; split_ifs with hc
    · exact le_rfl
    · exact not_lt.1 hc
  · intro hn
    simp only [getD, hn, Option.some.injEq] at h1
    have := tinyShift_ge ε m.rhoMin
    dsimp only; split_ifs with hc <;> linarith
  · intro t v ht hv
    simp only [getD, ht, hv, Option.some.injEq] at h1
    subst h1
    dsimp only; split_ifs with hc
    · rw [max_eq_right hc.le]
    · rw [max_eq_left (not_lt.1 hc)]
  · intro hn; exact getD_none hn h2
  · intro t v ht hv; exact getD_some ht hv h2
  · intro t v ht hv h0 h1'
    simp only [getD, ht, hv, Option.some.injEq] at h3
    subst h3; exact clamp01_id _ h0 h1'
  · intro hn
    simp only [getD, hn, Option.some.injEq] at h3
    subst h3; exact clamp01_id _ le_rfl zero_le_one

/-- **C119.** The temperature grid, likewise, with the lower limit `0.01`. -/
theorem C119_temperature_range (stod : Str → Option K) (ε : K) (p : Params) (m : Meta K) (ax : Axis K)
    (h : tAxis stod ε p m = some ax) :
    1 / 10 ^ 2 ≤ ax.lo ∧ 0 ≤ ax.shrink ∧ ax.shrink ≤ 1 ∧
      (p.get? "Tmin".toList = none → m.TMin ≤ ax.lo) ∧
      (∀ s v, p.get? "Tmin".toList = some s → stod s = some v → ax.lo = max v (1 / 10 ^ 2)) ∧
      (p.get? "Tmax".toList = none → ax.hi = m.TMax) ∧
      (∀ s v, p.get? "Tmax".toList = some s → stod s = some v → ax.hi = v) ∧
      (∀ s v, p.get? "shrinklTBounds".toList = some s → stod s = some v → 0 ≤ v → v ≤ 1 → ax.shrink = v) ∧
      (p.get? "shrinklTBounds".toList = none → ax.shrink = 0) := by
  unfold tAxis at h
  simp only [Option.bind_eq_bind, Option.bind_eq_some_iff, Option.pure_def, Option.some.injEq] at h
  obtain ⟨lo, h1, hi, h2, s, h3, rfl⟩ := h
  refine ⟨?_, (clamp01_mem s).1, (clamp01_mem s).2, ?_, ?_, ?_, ?_, ?_, ?_⟩
  · dsimp only; split_ifs with hc
    · exact le_rfl
    · exact not_lt.1 hc
  · intro hn
    simp only [getD, hn, Option.some.injEq] at h1
    have := tinyShift_ge ε m.TMin
    dsimp only; split_ifs with hc <;> linarith
  · intro t v ht hv
    simp only [getD, ht, hv, Option.some.injEq] at h1
    subst h1
    dsimp only; split_ifs with hc
    · rw [max_eq_right hc.le]
    · rw [max_eq_left (not_lt.1 hc)]
  · intro hn; exact getD_none hn h2
  · intro t v ht hv; exact getD_some ht hv h2
  · intro t v ht hv h0 h1'
    simp only [getD, ht, hv, Option.some.injEq] at h3
    subst h3; exact clamp01_id _ h0 h1'
  · intro hn
    simp only [getD, hn, Option.some.injEq] at h3
    subst h3; exact clamp01_id _ le_rfl zero_le_one

/-- **C119.** The energy grid, likewise, without a lower limit (energies may be negative). -/
theorem C119_energy_range (stod : Str → Option K) (ε : K) (p : Params) (m : Meta K) (ax : Axis K)
    (h : eAxis stod ε p m = some ax) :
    0 ≤ ax.shrink ∧ ax.shrink ≤ 1 ∧
      (p.get? "siemin".toList = none → m.sieMin ≤ ax.lo) ∧
      (∀ s v, p.get? "siemin".toList = some s → stod s = some v → ax.lo = v) ∧
      (p.get? "siemax".toList = none → ax.hi = m.sieMax) ∧
      (∀ s v, p.get? "siemax".toList = some s → stod s = some v → ax.hi = v) ∧
      (∀ s v, p.get? "shrinkleBounds".toList = some s → stod s = some v → 0 ≤ v → v ≤ 1 → ax.shrink = v) ∧
      (p.get? "shrinkleBounds".toList = none → ax.shrink = 0) := by
  unfold eAxis at h
  simp only [Option.bind_eq_bind, Option.bind_eq_some_iff, Option.pure_def, Option.some.injEq] at h
  obtain ⟨lo, h1, hi, h2, s, h3, rfl⟩ := h
  refine ⟨(clamp01_mem s).1, (clamp01_mem s).2, ?_, ?_, ?_, ?_, ?_, ?_⟩
  · intro hn
    simp only [getD, hn, Option.some.injEq] at h1
    have := tinyShift_ge ε m.sieMin
    dsimp only; linarith
  · intro t v ht hv
    exact getD_some ht hv h1
  · intro hn; exact getD_none hn h2
  · intro t v ht hv; exact getD_some ht hv h2
  · intro t v ht hv h0 h1'
    simp only [getD, ht, hv, Option.some.injEq] at h3
    subst h3; exact clamp01_id _ h0 h1'
  · intro hn
    simp only [getD, hn, Option.some.injEq] at h3
    subst h3; exact clamp01_id _ le_rfl zero_le_one

/-- A user's lower density of 2, the rest from the data (a conversion that knows the string `2`). -/
example : ∃ ax : Axis ℚ, rhoAxis (fun s => if s = ['2'] then some 2 else none) (1 / 10 ^ 16) [("rhomin".toList, ['2'])]
    ⟨0, 30, 0, 10 ^ 8, 0, 10 ^ 15, 9⟩ = some ax ∧ ax.lo = 2 ∧ ax.hi = 30 := by
  refine ⟨⟨2, 30, 0⟩, ?_, rfl, rfl⟩
  have h : ¬ ((2 : ℚ) < 1 / 10 ^ 8) := by norm_num
  simp [rhoAxis, getD, Params.get?, clamp01]
  norm_num

/-- **C119.** The point the density grid is refined around is what the user gave, or the normal density, if that is a possible
density; otherwise 1. -/
theorem C119_density_centre (stod : Str → Option K) (p : Params) (m : Meta K) (a : K) (h : rhoAnchor stod p m = some a) :
    0 < a ∧ a ≤ 10 ^ 8 ∧ (p.get? "rho_fine_center".toList = none → 0 < m.normalDensity → m.normalDensity ≤ 10 ^ 8 →
      a = m.normalDensity) ∧
      (∀ s v, p.get? "rho_fine_center".toList = some s → stod s = some v → 0 < v → v ≤ 10 ^ 8 → a = v) := by
  unfold rhoAnchor at h
  simp only [Option.bind_eq_bind, Option.bind_eq_some_iff, Option.pure_def, Option.some.injEq] at h
  obtain ⟨x, h1, rfl⟩ := h
  refine ⟨?_, ?_, ?_, ?_⟩
  · split_ifs with hc
    · exact one_pos
    · push Not at hc; exact hc.1
  · split_ifs with hc
    · norm_num
    · push Not at hc; exact hc.2
  · intro hn h0 h8
    simp only [getD, hn, Option.some.injEq] at h1
    subst h1
    simp [not_le.2 h0, not_lt.2 h8]
  · intro s v hs hv h0 h8
    simp only [getD, hs, hv, Option.some.injEq] at h1
    subst h1
    simp [not_le.2 h0, not_lt.2 h8]

example : rhoAnchor (fun _ => none) [] (⟨0, 30, 0, 1, 0, 1, 9⟩ : Meta ℚ) = some 9 := by
  simp [rhoAnchor, getD, Params.get?]; norm_num

/-- **C119, partly.** The ends of the finely resolved density region given by the user are used, if they are whole numbers. -/
theorem C119_fine_region_partial (p : Params) (a b : Nat) (ha : 0 < a) (ha' : a ≤ 2147483647) (hb : b ≤ 2147483647)
    (h1 : p.get? "rhoFineMin".toList = some (decimal a)) (h2 : p.get? "rhoFineMax".toList = some (decimal b)) :
    fineRegion p = some (some ((a : Int), (b : Int))) := by
  have h : ¬ ((a : Int) * b < 0) := by
    have : (0 : Int) ≤ (a : Int) * b := by positivity
    omega
  unfold fineRegion
  rw [getI_some p _ _ _ h1, getI_some p _ _ _ h2, stoi_decimal a ha', stoi_decimal b hb]
  simp [h, ha]

example : fineRegion [("rhoFineMin".toList, "2".toList), ("rhoFineMax".toList, "20".toList)] = some (some (2, 20)) :=
  C119_fine_region_partial _ 2 20 (by decide) (by decide) (by decide) rfl rfl

/-- **C119 is violated**: fractions of the ends of the finely resolved region are cut off. For instance `2.5` and `20.5` are used
as 2 and 20. -/
theorem C119_fine_region_truncated_violated (p : Params) (a b : Nat) (ha : 0 < a) (ha' : a ≤ 2147483647) (hb : b ≤ 2147483647)
    (r s : Str) (h1 : p.get? "rhoFineMin".toList = some (decimal a ++ '.' :: r))
    (h2 : p.get? "rhoFineMax".toList = some (decimal b ++ '.' :: s)) :
    fineRegion p = some (some ((a : Int), (b : Int))) := by
  have h : ¬ ((a : Int) * b < 0) := by
    have : (0 : Int) ≤ (a : Int) * b := by positivity
    omega
  unfold fineRegion
  rw [getI_some p _ _ _ h1, getI_some p _ _ _ h2, C116_matid_trailing_violated a ha' '.' r rfl,
    C116_matid_trailing_violated b hb '.' s rfl]
  simp [h, ha]

/-- **C119 is violated**: a finely resolved region that begins below 1 g/cc is ignored, whatever its upper end; and `1e-3` is taken
as 1. -/
theorem C119_fine_region_ignored_violated (p : Params) (b : Nat) (hb : b ≤ 2147483647) (r s : Str)
    (h1 : p.get? "rhoFineMin".toList = some ('0' :: '.' :: r))
    (h2 : p.get? "rhoFineMax".toList = some (decimal b ++ '.' :: s)) :
    fineRegion p = some none := by
  have h0 := C116_matid_trailing_violated 0 (by decide) '.' r rfl
  have e : decimal 0 ++ '.' :: r = '0' :: '.' :: r := rfl
  rw [e] at h0
  unfold fineRegion
  rw [getI_some p _ _ _ h1, getI_some p _ _ _ h2, h0, C116_matid_trailing_violated b hb '.' s rfl]
  simp

example : fineRegion [("rhoFineMin".toList, "0.5".toList), ("rhoFineMax".toList, "20.5".toList)] = some none ∧
    fineRegion [("rhoFineMin".toList, "1e-3".toList), ("rhoFineMax".toList, "20".toList)] = some (some (1, 20)) := by
  exact ⟨C119_fine_region_ignored_violated _ 20 (by decide) ['5'] ['5'] rfl rfl, rfl⟩

variable [FloorRing K]

theorem bind_some {α β : Type*} (o : Option α) (f : α → Option β) (b : β) (h : o.bind f = some b) :
    ∃ a, o = some a ∧ f a = some b := Option.bind_eq_some_iff.1 h

/-- **C119.** The density grid consists of three pieces that adjoin, and spans the range in the logarithm; the temperature grid of
two. -/
theorem C119_pieces_adjoin (stod : Str → Option K) (lg : K → K) (ε : K) (p : Params) (m : Meta K)
    (g : Bounds.Grid K × Bounds.Grid K × Bounds.Grid K) (hg : rhoGrids stod lg ε p m = some g) :
    ∃ ax, rhoAxis stod ε p m = some ax ∧
      g.1.min = (Bounds.toLogBounds lg ε ax.lo ax.hi ax.shrink).1 ∧ g.1.max = g.2.1.min ∧ g.2.1.max = g.2.2.min ∧
      g.2.2.max = (Bounds.toLogBounds lg ε ax.lo ax.hi ax.shrink).2 := by
  unfold rhoGrids at hg
  obtain ⟨ppd, -, hg⟩ := bind_some _ _ _ hg
  obtain ⟨r, -, hg⟩ := bind_some _ _ _ hg
  simp only [Option.bind_eq_bind, Option.bind_eq_some_iff, Option.pure_def, Option.some.injEq] at hg
  obtain ⟨ax, h1, c, -, fl, -, fh, -, d, -, rfl⟩ := hg
  refine ⟨ax, h1, ?_⟩
  cases r <;> exact ⟨rfl, rfl, rfl, rfl⟩

/-- **C119.** The temperature grid: the same for its two pieces. -/
theorem C119_temperature_pieces_adjoin (stod : Str → Option K) (lg : K → K) (ε : K) (p : Params) (m : Meta K)
    (g : Bounds.Grid K × Bounds.Grid K) (hg : tGrids stod lg ε p m = some g) :
    ∃ ax, tAxis stod ε p m = some ax ∧
      g.1.min = (Bounds.toLogBounds lg ε ax.lo ax.hi ax.shrink).1 ∧ g.1.max = g.2.min ∧
      g.2.max = (Bounds.toLogBounds lg ε ax.lo ax.hi ax.shrink).2 := by
  unfold tGrids at hg
  obtain ⟨ppd, -, hg⟩ := bind_some _ _ _ hg
  simp only [Option.bind_eq_bind, Option.bind_eq_some_iff, Option.pure_def, Option.some.injEq] at hg
  obtain ⟨ax, h1, f, -, sp, -, rfl⟩ := hg
  exact ⟨ax, h1, rfl, rfl, rfl⟩

/-- **C119 is violated** for the energy grid: the energies at the anchor and at the temperature the user chose for the split are in
the units of the data library (a factor `1e10` smaller), the range is in cgs. When these numbers do not exceed the lower end of the
range (air: about 7 against 8.4e8) the grid does not depend on the split temperature at all. -/
theorem C119_energy_split_violated (lg : K → K) (hlg : StrictMonoOn lg (Set.Ioi 0)) (eps : K) (ax : Axis K) (hlo : 0 < ax.lo)
    (hs : ax.shrink = 0) (EofRT : K → K → K) (rhoA T1 T2 fine factor : K) (h0 : 0 < EofRT rhoA (29815 / 100))
    (h0' : EofRT rhoA (29815 / 100) ≤ ax.lo)
    (h1 : 0 < EofRT rhoA T1) (h1' : EofRT rhoA T1 ≤ ax.lo) (h2 : 0 < EofRT rhoA T2) (h2' : EofRT rhoA T2 ≤ ax.lo) :
    energyGrids lg eps ax (energySplit EofRT rhoA T1) fine factor = energyGrids lg eps ax (energySplit EofRT rhoA T2) fine factor := by
  have hb : (Bounds.toLogBounds lg eps ax.lo ax.hi ax.shrink).1 = lg ax.lo := by
    simp [Bounds.toLogBounds, Bounds.toLog, Bounds.offsetOf, not_le.2 hlo, hs, abs_of_pos hlo]
  have hle : ∀ e, 0 < e → e ≤ ax.lo → lg e ≤ lg ax.lo := fun e he h => hlg.monotoneOn he hlo h
  have hc : ∀ e mx, 0 < e → e ≤ ax.lo → Bounds.checkInterval (Bounds.toLog lg e (Bounds.offsetOf eps ax.lo)) (lg ax.lo) mx =
      Bounds.checkInterval (lg ax.lo) (lg ax.lo) mx := by
    intro e mx he h
    have : Bounds.toLog lg e (Bounds.offsetOf eps ax.lo) = lg e := by
      simp [Bounds.toLog, Bounds.offsetOf, not_le.2 hlo, abs_of_pos he]
    rw [this]
    unfold Bounds.checkInterval
    simp [hle e he h]
  unfold energyGrids energySplit Bounds.twoGrids
  dsimp only
  simp only [if_true, hb, hc _ _ h1 h1', hc _ _ h2 h2']

/-- The numbers of air: energies of 0.2, 7 and 70 in the library's units, range from 8.4e8. -/
example : (0:ℚ) < 1 / 5 ∧ (1 / 5 : ℚ) ≤ 84 * 10 ^ 7 ∧ (7 : ℚ) ≤ 84 * 10 ^ 7 ∧ (70 : ℚ) ≤ 84 * 10 ^ 7 := by norm_num

/-- In cgs the same two split temperatures give different grids. -/
example : Bounds.twoGrids (fun x : ℚ => x) (1 / 10 ^ 16) 1 100 2 10 1 1 true 0 ≠
    Bounds.twoGrids (fun x : ℚ => x) (1 / 10 ^ 16) 1 100 2 50 1 1 true 0 := by
  intro h
  have := congrArg (fun g => g.1.max) h
  revert this
  decide +kernel

end Verif.S2S
