import Verif.Props.Table.StellarCollapseLoad

/-! # C99, C102-C105: `StellarCollapse`, median filter, `FillEos`, reference state, files, inversion -/

namespace Verif.SC

open Verif.RootFind Verif.Robust Verif.Mods Verif.Databox
open Verif.RhoT (invert StoppedOnResidual invert_success)

set_option linter.unusedSectionVars false
set_option linter.unusedSimpArgs false
set_option linter.unusedVariables false

section field
variable {K : Type*} [Field K] [LinearOrder K] [IsStrictOrderedRing K] [FloorRing K]

/-! ## C99: the median filter -/

/-- `M` is the median of a list of odd length: an entry with at most half the entries below it and at most half above. -/
def IsMedian (l : List K) (M : K) : Prop :=
  M ∈ l ∧ 2 * l.countP (fun x => decide (x < M)) < l.length ∧ 2 * l.countP (fun x => decide (M < x)) < l.length

theorem count_lt_sorted {l : List K} (hs : l.Pairwise (· ≤ ·)) {n : Nat} (hn : n < l.length) :
    l.countP (fun x => decide (x < l[n])) ≤ n ∧ l.countP (fun x => decide (l[n] < x)) ≤ l.length - 1 - n := by
  have split : l = l.take n ++ l.drop n := (List.take_append_drop n l).symm
  have split' : l = l.take (n + 1) ++ l.drop (n + 1) := (List.take_append_drop (n + 1) l).symm
  have hle : ∀ i j (hi : i < l.length) (hj : j < l.length), i ≤ j → l[i] ≤ l[j] := by
    intro i j hi hj hij
    rcases Nat.lt_or_eq_of_le hij with h | h
    · exact (List.pairwise_iff_getElem.1 hs) i j hi hj h
    · subst h; exact le_rfl
  constructor
  · have h0 : (l.drop n).countP (fun x => decide (x < l[n])) = 0 := by
      rw [List.countP_eq_zero]
      intro x hx
      obtain ⟨i, hi, rfl⟩ := List.getElem_of_mem hx
      rw [List.getElem_drop]
      have hi' : n + i < l.length := by rw [List.length_drop] at hi; omega
      simpa using hle n (n + i) hn hi' (by omega)
    calc l.countP (fun x => decide (x < l[n]))
        = (l.take n).countP (fun x => decide (x < l[n])) + (l.drop n).countP (fun x => decide (x < l[n])) := by
          rw [← List.countP_append, ← split]
      _ ≤ n := by
          rw [h0, add_zero]; exact (List.countP_le_length).trans (by rw [List.length_take]; exact Nat.min_le_left _ _)
  · have h0 : (l.take (n + 1)).countP (fun x => decide (l[n] < x)) = 0 := by
      rw [List.countP_eq_zero]
      intro x hx
      obtain ⟨i, hi, rfl⟩ := List.getElem_of_mem hx
      rw [List.getElem_take]
      rw [List.length_take] at hi
      have hi' : i < l.length := by omega
      simpa using hle i n hi' hn (by omega)
    calc l.countP (fun x => decide (l[n] < x))
        = (l.take (n + 1)).countP (fun x => decide (l[n] < x)) + (l.drop (n + 1)).countP (fun x => decide (l[n] < x)) := by
          rw [← List.countP_append, ← split']
      _ ≤ l.length - 1 - n := by
          rw [h0, zero_add]; exact (List.countP_le_length).trans (by rw [List.length_drop]; omega)

/-- C99: `findMedian_` of an odd number of entries is their median. -/
theorem C99_median (l : List K) (hodd : l.length % 2 = 1) : IsMedian l (median l) := by
  have hp := List.perm_insertionSort (· ≤ ·) l
  have hlen : (l.insertionSort (· ≤ ·)).length = l.length := hp.length_eq
  have hs : (l.insertionSort (· ≤ ·)).Pairwise (· ≤ ·) := List.pairwise_insertionSort (· ≤ ·) l
  have hn : l.length / 2 < (l.insertionSort (· ≤ ·)).length := by rw [hlen]; omega
  have hm : median l = (l.insertionSort (· ≤ ·))[l.length / 2] := by
    unfold median
    rw [if_neg (by omega)]
    exact (List.getElem_eq_getD 0).symm
  obtain ⟨c1, c2⟩ := count_lt_sorted hs hn
  rw [hm]
  refine ⟨hp.subset (List.getElem_mem hn), ?_, ?_⟩
  · rw [← hp.countP_eq]; omega
  · rw [← hp.countP_eq, ]; rw [hlen] at c2; omega

theorem window_length (tab : Nat → Nat → Nat → K) (iY iT ir : Nat) : (window tab iY iT ir).length = 343 := by
  simp [window, W, List.length_flatMap]

/-- Entry of a table at signed indices. -/
theorem window_mem (tab : Nat → Nat → Nat → K) {iY iT ir : Nat} (hY : W ≤ iY) (hT : W ≤ iT) (hr : W ≤ ir) (v : K) :
    v ∈ window tab iY iT ir ↔ ∃ y t r, iY ≤ y + 3 ∧ y ≤ iY + 3 ∧ iT ≤ t + 3 ∧ t ≤ iT + 3 ∧ ir ≤ r + 3 ∧ r ≤ ir + 3 ∧
      v = tab y t r := by
  unfold W at hY hT hr
  simp only [window, List.mem_flatMap, List.mem_range, List.mem_map, W]
  constructor
  · rintro ⟨a, ha, b, hb, c, hc, rfl⟩
    exact ⟨_, _, _, by omega, by omega, by omega, by omega, by omega, by omega, rfl⟩
  · rintro ⟨y, t, r, h1, h2, h3, h4, h5, h6, rfl⟩
    refine ⟨y + 3 - iY, by omega, t + 3 - iT, by omega, r + 3 - ir, by omega, ?_⟩
    rw [show iY + (y + 3 - iY) - 3 = y by omega, show iT + (t + 3 - iT) - 3 = t by omega,
      show ir + (r + 3 - ir) - 3 = r by omega]

theorem bad_iff (avg point : K) : bad avg point = true ↔ 10 * |avg| < |avg - point| := by
  unfold bad
  by_cases h : avg = 0
  · subst h; simp
  · have := abs_pos.2 h
    simp only [h, if_false, gt_iff_lt, decide_eq_true_eq]
    rw [lt_div_iff₀ this]

/-- Three nested loops that store one entry each, in any order of visits to distinct entries. -/
theorem loops3 (n1 n2 n3 w : Nat) (g : Nat → Nat → Nat → K) (o0 : Nat → Nat → Nat → K) (y t r : Nat) :
    forN n1 (fun (o : Nat → Nat → Nat → K) a => forN n2 (fun (o : Nat → Nat → Nat → K) b => forN n3 (fun (o : Nat → Nat → Nat → K) c =>
      Function.update o (a + w) (Function.update (o (a + w)) (b + w) (Function.update (o (a + w) (b + w)) (c + w) (g (a + w) (b + w) (c + w))))) o) o) o0 y t r
    = if (w ≤ y ∧ y < n1 + w) ∧ (w ≤ t ∧ t < n2 + w) ∧ (w ≤ r ∧ r < n3 + w) then g y t r else o0 y t r := by
  have inner : ∀ (a b : Nat) (o : Nat → Nat → Nat → K) (n3 y t r : Nat), forN n3 (fun (o : Nat → Nat → Nat → K) c =>
      Function.update o (a + w) (Function.update (o (a + w)) (b + w) (Function.update (o (a + w) (b + w)) (c + w) (g (a + w) (b + w) (c + w))))) o y t r
      = if y = a + w ∧ t = b + w ∧ (w ≤ r ∧ r < n3 + w) then g y t r else o y t r := by
    intro a b o n3
    induction n3 with
    | zero => intro y t r; simp only [forN_zero]; rw [if_neg (by omega)]
    | succ n ih =>
      intro y t r
      rw [forN_succ]
      by_cases hy : y = a + w
      · subst hy
        rw [Function.update_self]
        by_cases ht : t = b + w
        · subst ht
          rw [Function.update_self]
          by_cases hr : r = n + w
          · subst hr; rw [Function.update_self, if_pos (by omega)]
          · rw [Function.update_of_ne hr, ih]
            by_cases hc : w ≤ r ∧ r < n + w
            · rw [if_pos (by omega), if_pos (by omega)]
            · rw [if_neg (by omega), if_neg (by omega)]
        · rw [Function.update_of_ne ht, ih, if_neg (by omega), if_neg (by omega)]
      · rw [Function.update_of_ne hy, ih, if_neg (by omega), if_neg (by omega)]
  have middle : ∀ (a : Nat) (o : Nat → Nat → Nat → K) (n2 y t r : Nat), forN n2 (fun (o : Nat → Nat → Nat → K) b => forN n3 (fun (o : Nat → Nat → Nat → K) c =>
      Function.update o (a + w) (Function.update (o (a + w)) (b + w) (Function.update (o (a + w) (b + w)) (c + w) (g (a + w) (b + w) (c + w))))) o) o y t r
      = if y = a + w ∧ (w ≤ t ∧ t < n2 + w) ∧ (w ≤ r ∧ r < n3 + w) then g y t r else o y t r := by
    intro a o n2
    induction n2 with
    | zero => intro y t r; simp only [forN_zero]; rw [if_neg (by omega)]
    | succ n ih =>
      intro y t r
      rw [forN_succ, inner, ih]
      by_cases h1 : y = a + w ∧ t = n + w ∧ (w ≤ r ∧ r < n3 + w)
      · rw [if_pos h1, if_pos (by omega)]
      · rw [if_neg h1]
        by_cases h2 : y = a + w ∧ (w ≤ t ∧ t < n + w) ∧ (w ≤ r ∧ r < n3 + w)
        · rw [if_pos h2, if_pos (by omega)]
        · rw [if_neg h2, if_neg (by omega)]
  induction n1 generalizing y t r with
  | zero => simp only [forN_zero]; rw [if_neg (by omega)]
  | succ n ih =>
    rw [forN_succ, middle, ih]
    by_cases h1 : y = n + w ∧ (w ≤ t ∧ t < n2 + w) ∧ (w ≤ r ∧ r < n3 + w)
    · rw [if_pos h1, if_pos (by omega)]
    · rw [if_neg h1]
      by_cases h2 : (w ≤ y ∧ y < n + w) ∧ (w ≤ t ∧ t < n2 + w) ∧ (w ≤ r ∧ r < n3 + w)
      · rw [if_pos h2, if_pos (by omega)]
      · rw [if_neg h2, if_neg (by omega)]

/-- At least three entries away from every face of the table. -/
def Interior (nY nT nR y t r : Nat) : Prop :=
  (3 ≤ y ∧ y + 3 < nY) ∧ (3 ≤ t ∧ t + 3 < nT) ∧ (3 ≤ r ∧ r + 3 < nR)

theorem filter_apply (nY nT nR : Nat) (tab : Nat → Nat → Nat → K) (y t r : Nat) :
    medianFilter nY nT nR tab y t r = if (W ≤ y ∧ y < (nY - W - W) + W) ∧ (W ≤ t ∧ t < (nT - W - W) + W) ∧
        (W ≤ r ∧ r < (nR - W - W) + W)
      then (if bad (median (window tab y t r)) (tab y t r) then median (window tab y t r) else tab y t r)
      else tab y t r := by
  rw [← loops3 (nY - W - W) (nT - W - W) (nR - W - W) W
    (fun y t r => if bad (median (window tab y t r)) (tab y t r) then median (window tab y t r) else tab y t r) tab y t r]
  unfold medianFilter
  refine congrFun (congrFun (congrFun ?_ y) t) r
  congr 1
  funext o a
  congr 1
  funext o b
  congr 1
  funext o c
  dsimp only
  split_ifs with h
  · simp only [Function.update_self, Function.update_idem]
  · rfl

/-- C99: filtering replaces exactly the interior entries that differ from the median `M` of the 343 entries around them (in
the unfiltered table) by more than ten times `|M|`, by that median; everything else is unchanged. The entries used
exist. Any table sizes. -/
theorem C99_filter (nY nT nR : Nat) (tab : Nat → Nat → Nat → K) (y t r : Nat) :
    (¬ Interior nY nT nR y t r → medianFilter nY nT nR tab y t r = tab y t r) ∧
    (Interior nY nT nR y t r → ∃ (l : List K) (M : K), l.length = 343 ∧ IsMedian l M ∧
      (∀ v, v ∈ l ↔ ∃ y' t' r', y ≤ y' + 3 ∧ y' ≤ y + 3 ∧ t ≤ t' + 3 ∧ t' ≤ t + 3 ∧ r ≤ r' + 3 ∧ r' ≤ r + 3 ∧
        y' < nY ∧ t' < nT ∧ r' < nR ∧ v = tab y' t' r') ∧
      medianFilter nY nT nR tab y t r = if 10 * |M| < |M - tab y t r| then M else tab y t r) := by
  have hiff : Interior nY nT nR y t r ↔ (W ≤ y ∧ y < (nY - W - W) + W) ∧ (W ≤ t ∧ t < (nT - W - W) + W) ∧
        (W ≤ r ∧ r < (nR - W - W) + W) := by unfold Interior W; omega
  rw [filter_apply]
  constructor
  · intro h; rw [if_neg fun hc => h (hiff.2 hc)]
  · intro h
    have h' := hiff.1 h
    refine ⟨window tab y t r, median (window tab y t r), window_length _ _ _ _, C99_median _ (by rw [window_length]), ?_, ?_⟩
    · intro v
      rw [window_mem tab h'.1.1 h'.2.1.1 h'.2.2.1]
      unfold Interior at h
      constructor
      · rintro ⟨y', t', r', h1, h2, h3, h4, h5, h6, rfl⟩
        exact ⟨y', t', r', h1, h2, h3, h4, h5, h6, by omega, by omega, by omega, rfl⟩
      · rintro ⟨y', t', r', h1, h2, h3, h4, h5, h6, -, -, -, rfl⟩
        exact ⟨y', t', r', h1, h2, h3, h4, h5, h6, rfl⟩
    · rw [if_pos h']
      simp only [bad_iff]

/-- C99: a table whose interior entries are all within a factor of eleven of zero of the median, in particular a constant
one, is unchanged; and there are interior entries from seven points per axis on. -/
example : Interior 7 7 7 3 3 3 ∧ ∀ y t r, medianFilter 7 7 7 (fun _ _ _ => (5 : ℚ)) y t r = 5 := by
  refine ⟨by unfold Interior; omega, fun y t r => ?_⟩
  by_cases h : Interior 7 7 7 y t r
  · obtain ⟨l, M, -, hM, hl, he⟩ := (C99_filter 7 7 7 (fun _ _ _ => (5 : ℚ)) y t r).2 h
    obtain ⟨_, _, _, _, _, _, _, _, _, _, _, _, rfl⟩ := (hl M).1 hM.1
    rw [he]; norm_num
  · exact (C99_filter 7 7 7 (fun _ _ _ => (5 : ℚ)) y t r).1 h

/-! ## C102: `FillEos` -/

/-- C102: with temperature an input, every output asked for is the single query at the given density and temperature (the
bulk modulus before its floor), and nothing that is an input changes, whatever the lambda. -/
theorem C102_by_temperature {m : Env K} (s : Eos K) (fl : Flags) (Ye c c' : K) (v : Thermo K)
    (hr : fl.rho = false) (hT : fl.temp = false) (hany : fl.sie || fl.press || fl.cv || fl.bmod) :
    ∃ o, fillEos m s fl Ye c v = some o ∧ Spec.InputsKept fl v o ∧
      (fl.sie = true → o.sie = query m s .eRT Ye c' v.rho v.temp) ∧
      (fl.press = true → o.press = query m s .pRT Ye c' v.rho v.temp) ∧
      (fl.cv = true → o.cv = query m s .cvRT Ye c' v.rho v.temp) ∧
      (fl.bmod = true → query m s .bRT Ye c' v.rho v.temp = max o.bmod m.eps) := by
  have hg : (!(fl.rho || fl.temp || fl.sie || fl.press || fl.cv || fl.bmod)) = false := by
    rw [hr, hT]
    revert hany
    cases fl.sie <;> cases fl.press <;> cases fl.cv <;> cases fl.bmod <;> simp
  unfold fillEos
  rw [hg, hr, hT]
  simp only [Bool.false_eq_true, if_false, Bool.false_and]
  refine ⟨_, rfl, ⟨fun _ => rfl, fun _ => rfl, fun h => by simp [h], fun h => by simp [h], fun h => by simp [h],
    fun h => by simp [h]⟩, fun h => ?_, fun h => ?_, fun h => ?_, fun h => ?_⟩
  · simp [h, query, Q.byEnergy, at_]
  · simp [h, query, Q.byEnergy, at_]
  · simp [h, query, Q.byEnergy, at_]
  · simp only [h, query, Q.byEnergy, at_, flo, if_true, Bool.false_eq_true, if_false, Bool.not_false]
    split_ifs with hx
    · exact (max_eq_left hx.le).symm
    · exact (max_eq_right (not_lt.1 hx)).symm

/-- C102: with temperature an output, pressure, heat capacity and bulk modulus are the single queries at the given density
and energy, and no input changes. -/
theorem C102_by_energy_partial {m : Env K} (s : Eos K) (fl : Flags) (Ye c : K) (v : Thermo K)
    (hr : fl.rho = false) (hT : fl.temp = true) (he : fl.sie = false) :
    ∃ o, fillEos m s fl Ye c v = some o ∧ Spec.InputsKept fl v o ∧
      (fl.press = true → o.press = query m s .pRE Ye c v.rho v.sie) ∧
      (fl.cv = true → o.cv = query m s .cvRE Ye c v.rho v.sie) ∧
      (fl.bmod = true → o.bmod = query m s .bRE Ye c v.rho v.sie) := by
  unfold fillEos
  simp only [hr, hT, he, Bool.false_or, Bool.true_or, Bool.not_true, Bool.false_eq_true, if_false, Bool.and_false]
  refine ⟨_, rfl, ⟨fun _ => rfl, fun h => by simp [hT] at h, fun _ => rfl, fun h => by simp [h], fun h => by simp [h],
    fun h => by simp [h]⟩, fun h => ?_, fun h => ?_, fun h => ?_⟩
  · simp [h, query, Q.byEnergy, at_]
  · simp [h, query, Q.byEnergy, at_]
  · simp [h, query, Q.byEnergy, at_]

/-- C102 fails for the temperature itself: asked for, it is never written; the caller keeps what was in the variable. -/
theorem C102_temperature_violated {m : Env K} (s : Eos K) (fl : Flags) (Ye c : K) (v : Thermo K)
    (hT : fl.temp = true) : ∀ o, fillEos m s fl Ye c v = some o → o.temp = v.temp := by
  intro o ho
  unfold fillEos at ho
  split at ho
  · simp at ho
  split at ho
  · simp at ho
  split at ho
  · simp at ho
  simp only [Option.some.injEq] at ho
  rw [← ho]

/-- C102: the call stops exactly when nothing is asked for, density is, or both temperature and energy are. -/
theorem C102_abort {m : Env K} (s : Eos K) (fl : Flags) (Ye c : K) (v : Thermo K) :
    fillEos m s fl Ye c v = none ↔
      (fl.temp = false ∧ fl.sie = false ∧ fl.press = false ∧ fl.cv = false ∧ fl.bmod = false) ∨
      fl.rho = true ∨ (fl.temp = true ∧ fl.sie = true) := by
  unfold fillEos
  rcases fl with ⟨a, b, c, d, e, f⟩
  cases a <;> cases b <;> cases c <;> cases d <;> cases e <;> cases f <;> simp

/-! ## C103: the reference state -/

/-- C103: the values of the reference state are those the EOS's own queries give at its density, temperature and electron
fraction; `dv/dT` is built from them. -/
theorem C103_reference (m : Env K) (s : Eos K) (c : K) :
    let Ye : K := 3517 / 10000
    let o := refState m s
    o.rho = 2 * 10 ^ 12 ∧
    o.sie = query m s .eRT Ye c o.rho o.temp ∧ o.press = query m s .pRT Ye c o.rho o.temp ∧
    o.cv = query m s .cvRT Ye c o.rho o.temp ∧ o.bmod = query m s .bRT Ye c o.rho o.temp ∧
    query m s .gRT Ye c o.rho o.temp = |o.dpde| / (o.rho + m.eps) := by
  have hy : (3517 / 10000 : K) = YeNormal := rfl
  intro Ye
  simp only [Ye, hy]
  refine ⟨rfl, ?_, ?_, ?_, ?_, ?_⟩
  · simp [refState, query, Q.byEnergy, at_]
  · simp [refState, query, Q.byEnergy, at_]
  · simp [refState, query, Q.byEnergy, at_]
  · simp [refState, query, Q.byEnergy, at_]
  · have h : |(rhoNormal : K)| = rhoNormal := abs_of_pos (by unfold rhoNormal; positivity)
    simp [refState, query, Q.byEnergy, at_, h]

/-- C103 fails for the temperature: the class works in K, the reference temperature of 5 GK is entered in MeV, a factor
`MeV2K` too small, so for every table that starts at 1 K or above the reference state is below the table. -/
theorem C103_temperature_violated (m : Env K) (s : Eos K) :
    (refState m s).temp * MeV2K = 5 * 10 ^ 9 ∧ (refState m s).temp < 1 ∧
    (1 ≤ tOf m s.lTMin → (refState m s).temp < tOf m s.lTMin) := by
  have h1 : (refState m s).temp * MeV2K = 5 * 10 ^ 9 := by
    simp only [refState, TNormal, MeV2K]; norm_num
  have h2 : (refState m s).temp < 1 := by
    simp only [refState, TNormal]; norm_num
  exact ⟨h1, h2, fun h => lt_of_lt_of_le h2 h⟩

/-- C103: `dv/dT` at constant pressure of the reference state has the slope at constant energy where the one at constant
temperature belongs: it is right exactly where the energy does not depend on the density. -/
theorem C103_dvdt_iff (m : Env K) (s : Eos K) (dedr_t : K) :
    let o := refState m s
    let dpdr_e := (s.tab .dPdRho).interp YeNormal (lT m TNormal) (lRho m rhoNormal)
    dpdr_e ≠ 0 → dpdr_e + o.dpde * dedr_t ≠ 0 → o.dpde * o.cv ≠ 0 →
    (o.dvdt = o.dpde * o.cv / (o.rho * o.rho * (dpdr_e + o.dpde * dedr_t)) ↔ dedr_t = 0) := by
  intro o dpdr_e h1 h2 h3
  have hr : (rhoNormal : K) ≠ 0 := by unfold rhoNormal; positivity
  exact RhoSie.C95_dvdt_iff (rho := rhoNormal) (dpde := o.dpde) (cv := o.cv) (dpdr_e := dpdr_e) hr h1 h2 h3

/-! ## C104: saving and loading -/

/-- The bounds agree with the axes of the pressure table. -/
structure Consistent (s : Eos K) : Prop where
  r : (s.tab .lP).g0 = ⟨s.lRhoMin, s.lRhoMax, s.numRho⟩
  t : (s.tab .lP).g1 = ⟨s.lTMin, s.lTMax, s.numT⟩
  y : (s.tab .lP).g2 = ⟨s.YeMin, s.YeMax, s.numYe⟩
  smin : s.sieMin = s.eCold.min
  smax : s.sieMax = s.eHot.max

/-- C104: an EOS loaded from a stellarcollapse.org file, saved and loaded again, is the same EOS: all eighteen tables, the
curves, sizes, bounds and the energy shift. -/
theorem C104_save_load (s : Eos K) (h : Consistent s) : loadSP5 (save s) = some s := by
  rcases s with ⟨tab, eC, eH, nR, nT, nY, r0, r1, t0, t1, y0, y1, s0, s1, off⟩
  obtain ⟨hr, ht, hy, hs0, hs1⟩ := h
  dsimp only at hr ht hy hs0 hs1
  simp only [loadSP5, save, saved, nameOf, get3, get2, List.map, List.cons_append, List.nil_append, List.lookup,
    String.reduceBEq, Option.bind_eq_bind, Option.bind_some, hr, ht, hy, ← hs0, ← hs1]
  simp only [Option.some.injEq, Eos.mk.injEq, and_true, true_and]
  funext f
  cases f <;> rfl

/-- C104: an EOS loaded from an original table file meets the hypothesis of the round trip theorem. -/
theorem C104_loaded_consistent (m : Env K) (b : Bool) (fi : File K) : Consistent (load m b fi) where
  r := by simp only [load, regridded, regrid, raw_axes, gridToNQT]
  t := by simp only [load, regridded, regrid, raw_axes, gridToNQT]
  y := by simp only [load, regridded, regrid, raw_axes, gridToNQT]
  smin := rfl
  smax := rfl

/-- C104: the same for whatever was loaded from a saved file, so any number of rounds gives the same EOS. -/
theorem C104_rounds (s s' : Eos K) (h : Consistent s) (hl : loadSP5 (save s) = some s') : Consistent s' ∧ s' = s := by
  rw [C104_save_load s h] at hl
  simp only [Option.some.injEq] at hl
  subst hl
  exact ⟨h, rfl⟩

/-! ## C105: density and energy from pressure and temperature -/

theorem levelSearch_const {c : K} (hc : c ≠ 0) (a dx g : K) : ∀ i n, levelSearch (fun _ => c) a dx g c i n = none := by
  have h : ¬ (c * c ≤ 0) := not_le.2 (mul_self_pos.2 hc)
  intro i n
  induction n generalizing i with
  | zero => rfl
  | succ n ih => simp [levelSearch, checkBracket, h, ih]

theorem levels_const {c : K} (hc : c ≠ 0) (a dx g : K) : ∀ i n, levels (fun _ => c) a dx g c i n = none := by
  intro i n
  induction n generalizing i with
  | zero => rfl
  | succ n ih => simp [levels, levelSearch_const hc, ih]

theorem invert_const {c y : K} (hc : c ≠ y) (thr g a b fb : K) : invert thr (fun _ => c) y g a b fb = (.fail, fb) := by
  have hne : c - y ≠ 0 := sub_ne_zero.2 hc
  have h : ¬ ((c - y) * (c - y) ≤ 0) := not_le.2 (mul_self_pos.2 hne)
  have hi : initBracket (fun _ : K => c - y) g a b = none := by
    simp [initBracket, checkBracket, h, setBracket, levels_const hne]
  unfold invert regulaFalsi
  simp only [hi]

/-- C105 fails when the isotherm does not take the pressure: the call returns normally, with the incoming density (if it is
on the table) and the energy there. -/
theorem C105_unreachable_violated {m : Env K} (hm : Logs m) (s : Eos K) (Ye P T rho0 p0 : K) (hr : 0 < rho0)
    (hlP : ∀ r, (s.tab .lP).interp Ye (lT m T) r = p0) (hne : p0 ≠ lPOf m P)
    (hon : s.lRhoMin ≤ lRho m rho0 ∧ lRho m rho0 ≤ s.lRhoMax) (c : K) :
    dePT m s Ye P T rho0 = (rho0, query m s .eRT Ye c rho0 T) := by
  unfold dePT
  dsimp only
  rw [if_neg (by push Not; exact hon), show (fun r => (s.tab .lP).interp Ye (lT m T) r) = fun _ => p0 from funext hlP,
    invert_const hne]
  have : rhoOf m (lRho m rho0) = rho0 := by
    unfold rhoOf fromLog lRho
    rw [toLog_pos hm hr, hm.pw_lg _ hr, sub_zero, if_neg (not_lt.2 hr.le)]
  simp [this, query, Q.byEnergy, at_]

end field

/-- C105 (missing: convergence when the root finder stops on its residuals; unreachable pressures, see above): for a
temperature and electron fraction at which the isotherm takes the pressure between the ends of the table, a successful
inversion returns a density of the table whose logarithm is within the threshold of one with exactly this
pressure, and the energy at the returned density and the given temperature. -/
theorem C105_table_partial {m : Env ℝ} (hm : Logs m) (hthr : 0 ≤ m.thr) {s : Eos ℝ} (Ye P T rho0 c : ℝ) (hP : 0 < P)
    (hRn : s.lRhoMin ≤ lRho m rhoNormal ∧ lRho m rhoNormal ≤ s.lRhoMax)
    (okR : (s.tab .lP).g0.Ok)
    (hbr : ((s.tab .lP).interp Ye (lT m T) s.lRhoMin - lPOf m P) * ((s.tab .lP).interp Ye (lT m T) s.lRhoMax - lPOf m P) ≤ 0) :
    let f := fun r => (s.tab .lP).interp Ye (lT m T) r
    let g := if lRho m rho0 < s.lRhoMin ∨ lRho m rho0 > s.lRhoMax then lRho m rhoNormal else lRho m rho0
    let o := dePT m s Ye P T rho0
    o.2 = query m s .eRT Ye c o.1 T ∧
    ((invert m.thr f (lPOf m P) g s.lRhoMin s.lRhoMax g).1 = .success →
      (∃ rho', 0 < rho' ∧ query m s .pRT Ye c rho' T = P ∧ s.lRhoMin ≤ lRho m rho' ∧ lRho m rho' ≤ s.lRhoMax ∧
        |lRho m o.1 - lRho m rho'| ≤ m.thr) ∨
      StoppedOnResidual m.thr f (lPOf m P) g s.lRhoMin s.lRhoMax) := by
  intro f g o
  have hg : s.lRhoMin ≤ g ∧ g ≤ s.lRhoMax := by
    simp only [g]; split_ifs with h
    · exact hRn
    · push Not at h; exact h
  set x := (invert m.thr f (lPOf m P) g s.lRhoMin s.lRhoMax g).2 with hx
  have ho : o = (rhoOf m x, eOf m s ((s.tab .lE).interp Ye (lT m T) x)) := rfl
  have hrx : rhoOf m x = m.pw x := by
    unfold rhoOf fromLog; rw [sub_zero, if_neg (not_lt.2 (hm.pw_pos x).le)]
  have hlx : lRho m o.1 = x := by rw [ho, hrx, lRho_pw hm]
  refine ⟨?_, fun hok => ?_⟩
  · simp only [query, Q.byEnergy, Bool.false_eq_true, if_false, at_, hlx]
    rw [ho]
  · have hc : Continuous f := by
      change Continuous fun r => lin _ (fun k => lin _ (fun j => lin _ ((s.tab .lP).data k j) r) (lT m T)) Ye
      exact lin_continuous_param (fun k => lin_continuous_param (fun j => lin_continuous okR _) _) _
    obtain ⟨q1, q2, q3⟩ := invert_success hthr hg.1 hg.2 hc.continuousOn hbr
      (show invert m.thr f (lPOf m P) g s.lRhoMin s.lRhoMax g = (.success, x) from Prod.ext hok rfl)
    rcases q3 with ⟨r, ⟨r1, r2⟩, hr, hd⟩ | hs
    · refine Or.inl ⟨m.pw r, hm.pw_pos r, ?_, by rw [lRho_pw hm]; exact r1, by rw [lRho_pw hm]; exact r2, by rw [hlx, lRho_pw hm]; exact hd⟩
      simp only [query, Q.byEnergy, Bool.false_eq_true, if_false, at_, lRho_pw hm]
      change pOf m (f r) = P
      rw [hr]
      unfold pOf lPOf fromLog
      rw [toLog_pos hm hP, hm.pw_lg P hP, sub_zero]
    · exact Or.inr hs

end Verif.SC
