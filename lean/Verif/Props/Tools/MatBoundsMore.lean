import Verif.Props.Tools.MatBounds

set_option linter.unusedSectionVars false

/-! # C118, C119: names asked for, nudged bounds, half-given fine regions, resolution of the pieces -/

namespace Verif.S2S

open Verif.Spec.S2S

variable {K : Type*} [Field K] [LinearOrder K] [IsStrictOrderedRing K]

/-- **C118.** The name asked for is the one in the deck, without one that of the library; without either (the library says
`-1` or nothing) it is `material_` and the position in the deck. -/
theorem C118_name_asked (p : Params) (lib : Str) (i : Nat) :
    (∀ n, p.get? "name".toList = some n → n ≠ "-1".toList → n ≠ [] → requestedName p lib i = n) ∧
    (p.get? "name".toList = none → lib ≠ "-1".toList → lib ≠ [] → requestedName p lib i = lib) ∧
    (p.get? "name".toList = none → lib = "-1".toList ∨ lib = [] → requestedName p lib i = "material_".toList ++ decimal i) := by
  have e : "-1".toList = ['-', '1'] := rfl
  rw [kName_eq, e]
  refine ⟨fun n h h1 h2 => ?_, fun h h1 h2 => ?_, fun h h1 => ?_⟩
  · simp only [requestedName, h, Option.getD_some, h1, h2, or_self, if_false]
  · simp only [requestedName, h, Option.getD_none, h1, h2, or_self, if_false]
  · simp only [requestedName, h, Option.getD_none, h1, if_true]; rfl

theorem tinyShift_gt {ε v : K} (hε : 0 < ε) (hv : v ≠ 0) : v < tinyShift ε v := by
  unfold tinyShift
  have : min (10 * v * ε) ε ≠ 0 := by
    rcases min_choice (10 * v * ε) ε with h | h <;> rw [h]
    · exact mul_ne_zero (mul_ne_zero (by norm_num) hv) hε.ne'
    · exact hε.ne'
  have := abs_pos.2 this
  linarith

theorem tinyShift_le {ε v : K} (hε : 0 < ε) (hv : 0 ≤ v) : tinyShift ε v ≤ v + ε := by
  unfold tinyShift
  rw [abs_of_nonneg (le_min (by positivity) hε.le)]
  have := min_le_right (10 * v * ε) ε
  linarith

/-- **C119.** Without a lower end given by the user the grids begin strictly inside the data: lookups at their first point do not
hit the edge of the data. For densities and temperatures they begin at most `ε` later (or at the fixed lower limit). -/
theorem C119_inside_data (stod : Str → Option K) (ε : K) (hε : 0 < ε) (p : Params) (m : Meta K) (ax : Axis K) :
    (rhoAxis stod ε p m = some ax → p.get? "rhomin".toList = none → 0 < m.rhoMin →
      m.rhoMin < ax.lo ∧ ax.lo ≤ max (m.rhoMin + ε) (1 / 10 ^ 8)) ∧
    (tAxis stod ε p m = some ax → p.get? "Tmin".toList = none → 0 < m.TMin →
      m.TMin < ax.lo ∧ ax.lo ≤ max (m.TMin + ε) (1 / 10 ^ 2)) ∧
    (eAxis stod ε p m = some ax → p.get? "siemin".toList = none → m.sieMin ≠ 0 → m.sieMin < ax.lo) := by
  refine ⟨fun h hn h0 => ?_, fun h hn h0 => ?_, fun h hn h0 => ?_⟩
  · unfold rhoAxis at h
    simp only [Option.bind_eq_bind, Option.bind_eq_some_iff, Option.pure_def, Option.some.injEq] at h
    obtain ⟨lo, h1, hi, h2, s, h3, rfl⟩ := h
    have e := getD_none hn h1
    subst e
    have a1 := tinyShift_gt hε h0.ne'
    have a2 := tinyShift_le hε h0.le
    dsimp only; split_ifs with hc
    · exact ⟨a1.trans hc, le_max_right _ _⟩
    · exact ⟨a1, le_max_of_le_left a2⟩
  · unfold tAxis at h
    simp only [Option.bind_eq_bind, Option.bind_eq_some_iff, Option.pure_def, Option.some.injEq] at h
    obtain ⟨lo, h1, hi, h2, s, h3, rfl⟩ := h
    have e := getD_none hn h1
    subst e
    have a1 := tinyShift_gt hε h0.ne'
    have a2 := tinyShift_le hε h0.le
    dsimp only; split_ifs with hc
    · exact ⟨a1.trans hc, le_max_right _ _⟩
    · exact ⟨a1, le_max_of_le_left a2⟩
  · unfold eAxis at h
    simp only [Option.bind_eq_bind, Option.bind_eq_some_iff, Option.pure_def, Option.some.injEq] at h
    obtain ⟨lo, h1, hi, h2, s, h3, rfl⟩ := h
    have e := getD_none hn h1
    subst e
    exact tinyShift_gt hε h0

example : ∃ ax, rhoAxis (fun _ => none) (1 / 10 ^ 16) [] (⟨1, 30, 0, 1, 0, 1, 9⟩ : Meta ℚ) = some ax :=
  ⟨_, rfl⟩

/-- **C119.** A finely resolved region of which only one end is given is not used: centre and diameter decide. -/
theorem C119_half_region (p : Params) (n : Nat) (hn : n ≤ 2147483647) :
    (p.get? "rhoFineMin".toList = some (decimal n) → p.get? "rhoFineMax".toList = none → fineRegion p = some none) ∧
    (p.get? "rhoFineMin".toList = none → p.get? "rhoFineMax".toList = some (decimal n) → fineRegion p = some none) := by
  have hN : ∀ k, p.get? k = none → getI p k (-1) = some (-1) := fun k h => by simp [getI, h]
  constructor
  · intro h1 h2
    unfold fineRegion
    rw [getI_some p _ _ _ h1, hN _ h2, stoi_decimal n hn]
    simp
    split_ifs with h <;> simp; omega
  · intro h1 h2
    unfold fineRegion
    rw [hN _ h1, getI_some p _ _ _ h2, stoi_decimal n hn]
    simp
    split_ifs with h <;> simp

example : fineRegion [("rhoFineMin".toList, "2".toList)] = some none := (C119_half_region _ 2 (by decide)).1 rfl rfl

variable [FloorRing K]

/-- A grid of this length has the resolution asked for: at least `d` points per decade, and not more than are needed. -/
def Resolves (g : Bounds.Grid K) (d : K) : Prop :=
  2 ≤ g.N ∧ d * (g.max - g.min) ≤ g.N ∧ (2 < g.N → (g.N : K) < d * (g.max - g.min) + 1)

theorem resolves_numPoints (a b d : K) : Resolves ⟨a, b, Bounds.numPoints a b d⟩ d := Bounds.C60_num_points a b d

/-- **C119.** The pieces of the density grid below and above the finely resolved region are coarser by the factors the user gave
for them (3 and 5 by default) than the number of points per decade (350 by default). -/
theorem C119_resolution (stod : Str → Option K) (lg : K → K) (ε : K) (p : Params) (m : Meta K)
    (g : Bounds.Grid K × Bounds.Grid K × Bounds.Grid K) (hg : rhoGrids stod lg ε p m = some g) :
    ∃ (n : Int) (fl fh : K), getI p "numrho/decade".toList 350 = some n ∧ getD stod p "rhoCoarseFactorLo".toList 3 = some fl ∧
      getD stod p "rhoCoarseFactorHi".toList 5 = some fh ∧
      (0 < fl → Resolves g.1 (n / fl)) ∧ (0 < fh → Resolves g.2.2 (n / fh)) := by
  unfold rhoGrids at hg
  obtain ⟨ppd, hp, hg⟩ := bind_some _ _ _ hg
  obtain ⟨r, -, hg⟩ := bind_some _ _ _ hg
  simp only [Option.bind_eq_bind, Option.bind_eq_some_iff, Option.pure_def, Option.some.injEq] at hg
  obtain ⟨ax, h1, c, -, fl, hfl, fh, hfh, d, -, rfl⟩ := hg
  refine ⟨ppd, fl, fh, hp, hfl, hfh, fun h0 => ?_, fun h0 => ?_⟩
  · cases r <;> simp only [Bounds.threeGrids, Bounds.threeGridsFine, Bounds.threeFromIntervals, if_pos h0] <;>
      exact resolves_numPoints _ _ _
  · cases r <;> simp only [Bounds.threeGrids, Bounds.threeGridsFine, Bounds.threeFromIntervals, if_pos h0] <;>
      exact resolves_numPoints _ _ _

/-- **C119.** The same for the upper piece of the temperature grid (100 points per decade and the factor 3/2 by default). -/
theorem C119_temperature_resolution (stod : Str → Option K) (lg : K → K) (ε : K) (p : Params) (m : Meta K)
    (g : Bounds.Grid K × Bounds.Grid K) (hg : tGrids stod lg ε p m = some g) :
    ∃ (n : Int) (f : K), getI p "numT/decade".toList 100 = some n ∧ getD stod p "TCoarseFactor".toList (3 / 2) = some f ∧
      (0 < f → Resolves g.2 (n / f)) := by
  unfold tGrids at hg
  obtain ⟨ppd, hp, hg⟩ := bind_some _ _ _ hg
  simp only [Option.bind_eq_bind, Option.bind_eq_some_iff, Option.pure_def, Option.some.injEq] at hg
  obtain ⟨ax, h1, f, hf, sp, -, rfl⟩ := hg
  refine ⟨ppd, f, hp, hf, fun h0 => ?_⟩
  simp only [Bounds.twoGrids, if_pos h0]
  exact resolves_numPoints _ _ _

/-- The anchor adjustment moves the upper end down by less than four times the spacing asked for. -/
theorem adjust_near (mn mx : K) (N : ℤ) (a d : K) (h : mn < mx) (hd : 0 < d) (hN : d * (mx - mn) ≤ N) :
    mx - 4 / d ≤ (Bounds.adjust mn mx N a).1 := by
  have h4 : 0 < 4 / d := by positivity
  by_cases h12 : mn < a ∧ a < mx
  · by_cases h34 : 1 ≤ Bounds.anchorIndex mn mx N a ∧ Bounds.anchorIndex mn mx N a + 1 < N
    · obtain ⟨dx, d0, d1, -, d3, -⟩ := Bounds.C60_range_not_contained_violated mn mx N a h12.1 h12.2 h34.1 h34.2
      have hL : 0 < mx - mn := by linarith
      have hk := Int.le_ceil ((N:K) * ((a - mn) / (mx - mn)))
      have e : ⌈(N:K) * ((a - mn) / (mx - mn))⌉ = Bounds.anchorIndex mn mx N a + 1 := by unfold Bounds.anchorIndex; ring
      rw [e] at hk
      set k := Bounds.anchorIndex mn mx N a
      have hk1 : (1:K) ≤ k := by exact_mod_cast h34.1
      push_cast at hk
      have hk2 : d * (a - mn) ≤ k + 1 := by
        refine le_trans ?_ hk
        rw [mul_div_assoc', le_div_iff₀ hL]
        have := mul_le_mul_of_nonneg_right hN (by linarith [h12.1] : 0 ≤ a - mn)
        linarith
      have hk3 : d * dx ≤ 2 := by
        have h5 : k * (d * dx) ≤ k * 2 := by
          have : k * (d * dx) = d * (a - mn) := by rw [← d1]; ring
          linarith
        exact le_of_mul_le_mul_left h5 (by linarith)
      have : 2 * dx ≤ 4 / d := by rw [le_div_iff₀ hd]; linarith
      linarith
    · have : Bounds.adjust mn mx N a = (mx, N) := by
        unfold Bounds.adjust
        rw [if_pos h12]
        simp only
        rw [if_pos]
        unfold Bounds.anchorIndex at h34
        omega
      rw [this]; simp only; linarith
  · have : Bounds.adjust mn mx N a = (mx, N) := by unfold Bounds.adjust; rw [if_neg h12]
    rw [this]; simp only; linarith

/-- **C119.** The finely resolved piece of the temperature grid ends at the split point of the user (`10^4` K by default), when
that is inside the range: not above it, and at most four grid spacings (`1/n` decades) below it, as the temperature 298.15 K is
made a grid point. -/
theorem C119_temperature_split (stod : Str → Option K) (lg : K → K) (ε : K) (p : Params) (m : Meta K)
    (g : Bounds.Grid K × Bounds.Grid K) (hg : tGrids stod lg ε p m = some g) :
    ∃ (n : Int) (ax : Axis K) (sp : K), getI p "numT/decade".toList 100 = some n ∧ tAxis stod ε p m = some ax ∧
      getD stod p "TSplitPoint".toList (10 ^ 4) = some sp ∧
      (0 < n → 0 < ax.lo → 0 < sp →
        (Bounds.toLogBounds lg ε ax.lo ax.hi ax.shrink).1 < lg sp → lg sp < (Bounds.toLogBounds lg ε ax.lo ax.hi ax.shrink).2 →
        lg sp - 4 / n ≤ g.1.max ∧ g.1.max ≤ lg sp) := by
  unfold tGrids at hg
  obtain ⟨ppd, hp, hg⟩ := bind_some _ _ _ hg
  simp only [Option.bind_eq_bind, Option.bind_eq_some_iff, Option.pure_def, Option.some.injEq] at hg
  obtain ⟨ax, h1, f, -, sp, hsp, rfl⟩ := hg
  refine ⟨ppd, ax, sp, hp, h1, hsp, fun hn hlo hs0 hs1 hs2 => ?_⟩
  have e : Bounds.toLog lg sp (Bounds.offsetOf ε ax.lo) = lg sp := by
    simp only [Bounds.toLog, Bounds.offsetOf, if_neg (not_le.2 hlo), add_zero, abs_of_pos hs0]
  have hN := (Bounds.C60_num_points (Bounds.toLogBounds lg ε ax.lo ax.hi ax.shrink).1 (lg sp) (ppd : K))
  simp only [Bounds.twoGrids, if_true, e, Bounds.C60_check_interval_inside _ _ _ hs1 hs2]
  constructor
  · refine adjust_near _ _ _ _ _ hs1 (by exact_mod_cast hn) ?_
    have := hN.2.1
    push_cast
    linarith
  · exact (Bounds.adjust_range _ _ _ _ (by have := hN.1; omega) hs1).2.1

theorem fineRegion_pos (p : Params) (a b : Int) (h : fineRegion p = some (some (a, b))) : 0 < a := by
  unfold fineRegion at h
  simp only [Option.bind_eq_bind, Option.bind_eq_some_iff, Option.pure_def, Option.some.injEq] at h
  obtain ⟨x, -, y, -, h⟩ := h
  by_cases q : 0 < (if x * y < 0 then ((-1 : Int), (-1 : Int)) else (x, y)).1
  · rw [if_pos q] at h
    rw [Option.some.inj h] at q
    exact q
  · rw [if_neg q] at h
    exact absurd h (by simp)

/-- **C119.** The finely resolved piece of the density grid is where the user put it. If the ends `a < b` are given and inside the
range, it begins at `a` and ends not above `b` and at most four grid spacings (`1/n` decades) below it, as the centre is made a grid
point; without ends it is centred on the centre, with the diameter in decades the user gave (3/2 by default), likewise. -/
theorem C119_fine_region_placed (stod : Str → Option K) (lg : K → K) (ε : K) (p : Params) (m : Meta K)
    (g : Bounds.Grid K × Bounds.Grid K × Bounds.Grid K) (hg : rhoGrids stod lg ε p m = some g) :
    ∃ (n : Int) (ax : Axis K) (c d : K), getI p "numrho/decade".toList 350 = some n ∧ rhoAxis stod ε p m = some ax ∧
      rhoAnchor stod p m = some c ∧ getD stod p "rhoFineDiameterDecades".toList (3 / 2) = some d ∧
      ∀ l h, (Bounds.toLogBounds lg ε ax.lo ax.hi ax.shrink).1 = l → (Bounds.toLogBounds lg ε ax.lo ax.hi ax.shrink).2 = h → 0 < n →
      (∀ a b : Int, fineRegion p = some (some (a, b)) → 0 < b → l < lg a → lg a < lg b → lg b < h →
        g.2.1.min = lg a ∧ lg b - 4 / n ≤ g.2.1.max ∧ g.2.1.max ≤ lg b) ∧
      (fineRegion p = some none → 0 < d → l < lg c - d / 2 → lg c + d / 2 < h →
        g.2.1.min = lg c - d / 2 ∧ lg c + d / 2 - 4 / n ≤ g.2.1.max ∧ g.2.1.max ≤ lg c + d / 2) := by
  unfold rhoGrids at hg
  obtain ⟨ppd, hp, hg⟩ := bind_some _ _ _ hg
  obtain ⟨r, hr, hg⟩ := bind_some _ _ _ hg
  simp only [Option.bind_eq_bind, Option.bind_eq_some_iff, Option.pure_def, Option.some.injEq] at hg
  obtain ⟨ax, h1, c, hc, fl, -, fh, -, d, hd, rfl⟩ := hg
  refine ⟨ppd, ax, c, d, hp, h1, hc, hd, fun l h hl hh hn => ?_⟩
  have hlo : 0 < ax.lo := lt_of_lt_of_le (by positivity) (C119_density_range stod ε p m ax h1).1
  have hc0 : 0 < c := (C119_density_centre stod p m c hc).1
  have e : ∀ x : K, 0 < x → Bounds.toLog lg x (Bounds.offsetOf ε ax.lo) = lg x := by
    intro x hx
    simp only [Bounds.toLog, Bounds.offsetOf, if_neg (not_le.2 hlo), add_zero, abs_of_pos hx]
  have hn' : (0:K) < ppd := by exact_mod_cast hn
  have key : ∀ (u v a : K), u < v → v - 4 / ppd ≤ (Bounds.adjust u v (Bounds.numPoints u v ppd + 1) a).1 ∧
      (Bounds.adjust u v (Bounds.numPoints u v ppd + 1) a).1 ≤ v := by
    intro u v a huv
    have hN := Bounds.C60_num_points u v (ppd : K)
    refine ⟨adjust_near _ _ _ _ _ huv hn' ?_, (Bounds.adjust_range _ _ _ _ (by have := hN.1; omega) huv).2.1⟩
    have := hN.2.1
    push_cast
    linarith
  refine ⟨fun a b hab hb0 ha hab' hb => ?_, fun hno hd0 ha hb => ?_⟩
  · rw [hr] at hab
    have hab := Option.some.inj hab
    subst hab
    have ha0 : (0:K) < a := by exact_mod_cast fineRegion_pos p a b hr
    have hb0' : (0:K) < b := by exact_mod_cast hb0
    simp only [Bounds.threeGridsFine, Bounds.threeFromIntervals, if_true, e _ ha0, e _ hb0', hl, hh, if_neg (not_le.2 ha),
      if_neg (not_le.2 hb)]
    exact ⟨trivial, key _ _ _ hab'⟩
  · rw [hr] at hno
    have hno := Option.some.inj hno
    subst hno
    have e1 : 1 / 2 * d = d / 2 := by ring
    simp only [Bounds.threeGrids, Bounds.threeFromIntervals, if_true, e _ hc0, hl, hh, e1,
      Bounds.C60_check_interval_inside (lg c) l h (by linarith) (by linarith), if_neg (not_le.2 ha), if_neg (not_le.2 hb)]
    exact ⟨trivial, key _ _ _ (by linarith)⟩

end Verif.S2S
