import Verif.Model.CInterface
import Verif.Lemmas.Robust
import Verif.Tactics
import Mathlib.Data.Finset.Card
import Mathlib.Algebra.BigOperators.Field

/-! # C25, C26, C27, C63, C64: the host interface -/

namespace Verif.CApi

open PTE

set_option linter.unusedSectionVars false

/-! ## C25: the lambda cache -/

/-- Two half-open index ranges share no index. -/
def Disjoint2 (a b : Nat × Nat) : Prop := a.1 + a.2 ≤ b.1 ∨ b.1 + b.2 ≤ a.1 ∨ a.2 = 0 ∨ b.2 = 0

/-- C25 (what does hold): in (P,T) mode there is no solver and the cache fits the row exactly; in
(rho,e) mode the cache is clear of all solver arrays for one or two participating materials. -/
theorem C25_cache_partial (nmat npte : Nat) (h : npte ≤ nmat) :
    (solverBlocks .pT npte = [] ∧ cacheEnd .pT npte ≤ rowSize .pT nmat) ∧
    (npte ≤ 2 → ∀ b ∈ solverBlocks .rhoE npte, Disjoint2 b (cacheStart .rhoE npte, npte * L)) := by
  refine ⟨⟨rfl, ?_⟩, fun hn b hb => ?_⟩
  · simp only [cacheEnd, cacheStart, rowSize]
    have := Nat.mul_le_mul_right L h
    omega
  · have h2 : npte = 0 ∨ npte = 1 ∨ npte = 2 := by omega
    rcases h2 with rfl | rfl | rfl <;>
      simp [solverBlocks, kernelSolver, blocks, baseBlocks, neqOf, assign] at hb <;>
      rcases hb with rfl | rfl | rfl | rfl | rfl | rfl | rfl | rfl | rfl | rfl <;>
      simp [Disjoint2, cacheStart, kernelNeq]

/-- C25 is violated in (rho,T) and (rho,P) mode for every number of participating materials, and in
(rho,e) mode for three or more: the first lambda slot is a cell of a solver array (`dpdv`, `dpdv`,
`vtemp`). -/
theorem C25_cache_violated (npte : Nat) :
    (1 ≤ npte → ∃ b ∈ solverBlocks .rhoT npte, b.1 ≤ cacheStart .rhoT npte ∧
      cacheStart .rhoT npte < b.1 + b.2) ∧
    (1 ≤ npte → ∃ b ∈ solverBlocks .rhoP npte, b.1 ≤ cacheStart .rhoP npte ∧
      cacheStart .rhoP npte < b.1 + b.2) ∧
    (3 ≤ npte → ∃ b ∈ solverBlocks .rhoE npte, ∃ k < npte * L, b.1 ≤ cacheStart .rhoE npte + k ∧
      cacheStart .rhoE npte + k < b.1 + b.2) := by
  refine ⟨fun h => ?_, fun h => ?_, fun h => ?_⟩
  · refine ⟨(npte * npte + npte + 2 * npte + npte + npte + npte, npte), ?_, ?_⟩
    · simp [solverBlocks, kernelSolver, blocks, baseBlocks, neqOf, assign]
    · simp only [cacheStart, kernelNeq]
      constructor <;> nlinarith
  · refine ⟨((npte + 1) * (npte + 1) + (npte + 1) + 2 * (npte + 1) + (npte + 1) + npte + npte, npte), ?_, ?_⟩
    · simp [solverBlocks, kernelSolver, blocks, baseBlocks, neqOf, assign]
    · simp only [cacheStart, kernelNeq]
      constructor <;> nlinarith
  · refine ⟨(npte * npte + npte + 2 * npte + npte + npte + npte + npte + npte + npte, npte), ?_, npte - 5, ?_, ?_⟩
    · simp [solverBlocks, kernelSolver, blocks, baseBlocks, neqOf, assign]
    · simp only [L]; omega
    · have h5 : npte = 3 ∨ npte = 4 ∨ 5 ≤ npte := by omega
      rcases h5 with rfl | rfl | h5
      · decide
      · decide
      · obtain ⟨m, rfl⟩ : ∃ m, npte = m + 5 := ⟨npte - 5, by omega⟩
        simp only [cacheStart, kernelNeq, Nat.add_sub_cancel]
        constructor <;> nlinarith

/-- C25 is violated: with one or two materials, all participating, the (rho,e) lambda cache runs past the
end of the scratch row (into the next cell's row), and with two materials the (rho,P) solver's own arrays
do. -/
theorem C25_row_overrun_violated :
    (∀ n, 1 ≤ n → n ≤ 2 → rowSize .rhoE n < cacheEnd .rhoE n) ∧
    (∃ b ∈ solverBlocks .rhoP 2, rowSize .rhoP 2 < b.1 + b.2) := by
  constructor
  · intro n h1 h2
    have : n = 1 ∨ n = 2 := by omega
    rcases this with rfl | rfl <;> decide
  · exact ⟨(29, 2), by decide, by decide⟩

/-- C25: the exact condition for the row to be long enough in (rho,e) mode. -/
theorem C25_rhoE_fits_iff (nmat npte : Nat) :
    cacheEnd .rhoE npte ≤ rowSize .rhoE nmat ↔
      npte * npte + 11 * npte + 5 ≤ nmat * nmat + 13 * nmat := by
  simp only [cacheEnd, cacheStart, kernelNeq, rowSize, requiredScratch, L]
  constructor <;> intro h <;> nlinarith

/-- Every array the kernel's solver uses lies in a row of `row` reals. -/
def SolverFits (m : Mode) (npte row : Nat) : Prop := ∀ b ∈ solverBlocks m npte, b.1 + b.2 ≤ row

/-- C25: the solver's own arrays fit their row in (rho,T) and (rho,e) mode; in (rho,P) mode they do exactly
when `npte² + 11 npte + 5 ≤ nmat² + 13 nmat`, so never with one or two materials that all participate and
always with three or more materials. -/
theorem C25_solver_row (nmat npte : Nat) (h1 : 1 ≤ npte) (h : npte ≤ nmat) :
    SolverFits .rhoT npte (rowSize .rhoT nmat) ∧ SolverFits .rhoE npte (rowSize .rhoE nmat) ∧
    (SolverFits .rhoP npte (rowSize .rhoP nmat) ↔
      npte * npte + 11 * npte + 5 ≤ nmat * nmat + 13 * nmat) ∧
    (3 ≤ nmat → SolverFits .rhoP npte (rowSize .rhoP nmat)) ∧
    (nmat ≤ 2 → npte = nmat → ¬ SolverFits .rhoP npte (rowSize .rhoP nmat)) := by
  have hsq : npte * npte ≤ nmat * nmat := Nat.mul_le_mul h h
  have hP : SolverFits .rhoP npte (rowSize .rhoP nmat) ↔
      npte * npte + 11 * npte + 5 ≤ nmat * nmat + 13 * nmat := by
    simp only [SolverFits, solverBlocks, kernelSolver, Option.elim, blocks, baseBlocks, neqOf, assign,
      List.cons_append, List.nil_append, List.mem_cons, List.not_mem_nil, or_false, forall_eq_or_imp,
      forall_eq, rowSize, requiredScratch, L]
    have e : (npte + 1) * (npte + 1) = npte * npte + 2 * npte + 1 := by ring
    rw [e]
    generalize npte * npte = x at *
    generalize nmat * nmat = y at *
    omega
  refine ⟨?_, ?_, hP, fun h3 => hP.2 ?_, fun h2 he hf => ?_⟩
  · simp only [SolverFits, solverBlocks, kernelSolver, Option.elim, blocks, baseBlocks, neqOf, assign,
      List.cons_append, List.nil_append, List.mem_cons, List.not_mem_nil, or_false, forall_eq_or_imp,
      forall_eq, rowSize, requiredScratch, L]
    generalize npte * npte = x at *
    generalize nmat * nmat = y at *
    omega
  · simp only [SolverFits, solverBlocks, kernelSolver, Option.elim, blocks, baseBlocks, neqOf, assign,
      List.cons_append, List.nil_append, List.mem_cons, List.not_mem_nil, or_false, forall_eq_or_imp,
      forall_eq, rowSize, requiredScratch, L]
    generalize npte * npte = x at *
    generalize nmat * nmat = y at *
    omega
  · generalize npte * npte = x at *
    generalize nmat * nmat = y at *
    omega
  · have := hP.1 hf
    subst he
    generalize npte * npte = x at *
    omega

/-- C25: the end of the lambda cache lies in the row in (rho,T) mode always; in (rho,P) and (rho,e) mode
exactly when `npte² + 11 npte + 5 ≤ nmat² + 13 nmat`. -/
theorem C25_cache_row (nmat npte : Nat) (h : npte ≤ nmat) :
    cacheEnd .rhoT npte ≤ rowSize .rhoT nmat ∧
    (cacheEnd .rhoP npte ≤ rowSize .rhoP nmat ↔
      npte * npte + 11 * npte + 5 ≤ nmat * nmat + 13 * nmat) := by
  have hsq : npte * npte ≤ nmat * nmat := Nat.mul_le_mul h h
  simp only [cacheEnd, cacheStart, kernelNeq, rowSize, requiredScratch, L]
  have e : (npte + 1) * (npte + 1 + 4) = npte * npte + 6 * npte + 5 := by ring
  have e2 : npte * (npte + 4) = npte * npte + 4 * npte := by ring
  rw [e, e2]
  generalize npte * npte = x at *
  generalize nmat * nmat = y at *
  omega

/-! ## C63: optional outputs -/

/-- C63 (partial): bulk-modulus and Grüneisen outputs are written exactly when their pointer is given. -/
theorem C63_optional_partial {A : Type*} (fb fd fc : Option A) :
    ((doFlags fb fd fc).1 = true ↔ fb.isSome) ∧ ((doFlags fb fd fc).2.1 = true ↔ fd.isSome) := by
  simp [doFlags]

/-- C63 is violated for the heat capacity: it is written through a null pointer when only the Grüneisen
pointer is given, and not written at all when only its own pointer is. -/
theorem C63_optional_violated {A : Type*} (p : A) :
    (doFlags (none : Option A) (some p) none).2.2 = true ∧
    (doFlags (none : Option A) none (some p)).2.2 = false := by
  simp [doFlags]

variable {K : Type*} [Field K] [LinearOrder K] [IsStrictOrderedRing K]

/-! ## Material selection -/

/-- `selectMats` lists, in increasing order, exactly the materials above the cutoff. -/
theorem selectMats_spec (n : Nat) (cutoff : K) (offs : Nat → Int) (fm : Nat → K) (mats : Nat → Nat)
    (idxs : Nat → Int) :
    let r := selectMats n cutoff offs fm mats idxs
    (∀ k, k < r.1 → r.2.1 k < n ∧ cutoff < fm (r.2.1 k) ∧ r.2.2 k = offs (r.2.1 k) - 1) ∧
    (∀ k l, k < l → l < r.1 → r.2.1 k < r.2.1 l) ∧
    (∀ m, m < n → cutoff < fm m → ∃ k, k < r.1 ∧ r.2.1 k = m) ∧ r.1 ≤ n := by
  unfold selectMats
  refine forN_inv (s := ((0, mats, idxs) : Nat × (Nat → Nat) × (Nat → Int)))
    (fun n (r : Nat × (Nat → Nat) × (Nat → Int)) =>
    (∀ k, k < r.1 → r.2.1 k < n ∧ cutoff < fm (r.2.1 k) ∧ r.2.2 k = offs (r.2.1 k) - 1) ∧
    (∀ k l, k < l → l < r.1 → r.2.1 k < r.2.1 l) ∧
    (∀ m, m < n → cutoff < fm m → ∃ k, k < r.1 ∧ r.2.1 k = m) ∧ r.1 ≤ n)
    ⟨by simp, by simp, by simp, le_rfl⟩ ?_
  rintro m ⟨c, ma, ix⟩ - ⟨h1, h2, h3, h4⟩
  dsimp only at h1 h2 h3 h4 ⊢
  by_cases hc : cutoff < fm m
  · rw [if_pos hc]
    dsimp only
    refine ⟨fun k hk => ?_, fun k l hkl hl => ?_, fun m' hm' hc' => ?_, by omega⟩
    · by_cases hkc : k = c
      · subst hkc; simp [hc]
      · rw [Function.update_of_ne hkc, Function.update_of_ne hkc]
        have := h1 k (by omega)
        exact ⟨by omega, this.2⟩
    · have hkc : k ≠ c := by omega
      rw [Function.update_of_ne hkc]
      by_cases hlc : l = c
      · subst hlc; simpa using (h1 k (by omega)).1
      · rw [Function.update_of_ne hlc]; exact h2 k l hkl (by omega)
    · by_cases hmm : m' = m
      · exact ⟨c, by omega, by simp [hmm]⟩
      · obtain ⟨k, hk, hk2⟩ := h3 m' (by omega) hc'
        exact ⟨k, by omega, by rw [Function.update_of_ne (by omega)]; exact hk2⟩
  · rw [if_neg hc]
    dsimp only
    refine ⟨fun k hk => ⟨by have := (h1 k hk).1; omega, (h1 k hk).2⟩, h2, fun m' hm' hc' => ?_, by omega⟩
    refine h3 m' ?_ hc'
    rcases Nat.lt_succ_iff_lt_or_eq.1 hm' with h | rfl
    · exact h
    · exact absurd hc' hc

/-! ## The final functor in closed form -/

/-- Everything `final_functor`'s loop does, given distinct materials. -/
theorem finalLoop_spec (E : Eos K) (ev2k : K) (flags : Bool × Bool × Bool) (tM sM pM ms : K)
    (r : Row K) (c : Cell K) (npte : Nat) :
    let f := forN npte (finalBody E ev2k flags tM sM pM ms r) c
    f.press = c.press + (∑ k ∈ Finset.range npte, r.press k * r.vfrac k) * pM ∧
    f.temp = c.temp + (∑ k ∈ Finset.range npte, r.temp k * r.vfrac k) * tM ∧
    f.sie = c.sie + (∑ k ∈ Finset.range npte, r.sie k * c.fmass (r.mats k) * ms) * sM ∧
    f.bmod = c.bmod + ∑ k ∈ Finset.range npte, E.bRT (r.idxs k) (r.rho k) (r.temp k) * r.vfrac k ∧
    f.cv = c.cv + ∑ k ∈ Finset.range npte,
      ev2k * E.cvRT (r.idxs k) (r.rho k) (r.temp k) * c.fmass (r.mats k) ∧
    f.dpde = c.dpde + ∑ k ∈ Finset.range npte, E.gRT (r.idxs k) (r.rho k) (r.temp k) * r.vfrac k ∧
    f.fmass = c.fmass ∧ f.vol = c.vol ∧ f.spvol = c.spvol ∧ f.pmax = c.pmax ∧
    (∀ k, k < npte → (∀ l, k < l → l < npte → r.mats l ≠ r.mats k) →
      f.fie (r.mats k) = r.sie k * c.fmass (r.mats k) * ms ∧
      f.fvol (r.mats k) = r.vfrac k * c.vol ∧
      (flags.1 = true → f.fbmod (r.mats k) = E.bRT (r.idxs k) (r.rho k) (r.temp k)) ∧
      (flags.2.2 = true → f.fcv (r.mats k) = ev2k * E.cvRT (r.idxs k) (r.rho k) (r.temp k)) ∧
      (flags.2.1 = true → f.fdpde (r.mats k) = E.gRT (r.idxs k) (r.rho k) (r.temp k))) ∧
    (∀ m, (∀ k, k < npte → r.mats k ≠ m) → f.fie m = c.fie m ∧ f.fvol m = c.fvol m ∧
      f.fbmod m = c.fbmod m ∧ f.fcv m = c.fcv m ∧ f.fdpde m = c.fdpde m) ∧
    (flags.1 = false → f.fbmod = c.fbmod) ∧ (flags.2.2 = false → f.fcv = c.fcv) ∧
    (flags.2.1 = false → f.fdpde = c.fdpde) := by
  induction npte with
  | zero => simp
  | succ n ih =>
    obtain ⟨a1, a2, a3, a4, a5, a6, a7, a8, a9, a10, a11, a12, a13, a14, a15⟩ := ih
    dsimp only at *
    rw [forN_succ]
    set f := forN n (finalBody E ev2k flags tM sM pM ms r) c with hf
    refine ⟨?_, ?_, ?_, ?_, ?_, ?_, a7, a8, a9, a10, ?_, ?_, ?_, ?_, ?_⟩
    · simp only [finalBody, a1, Finset.sum_range_succ]; ring
    · simp only [finalBody, a2, Finset.sum_range_succ]; ring
    · simp only [finalBody, a3, a7, Finset.sum_range_succ]; ring
    · simp only [finalBody, a4, Finset.sum_range_succ]; ring
    · simp only [finalBody, a5, a7, Finset.sum_range_succ]; ring
    · simp only [finalBody, a6, Finset.sum_range_succ]; ring
    · intro k hk hd
      by_cases hkn : k = n
      · subst hkn
        refine ⟨?_, ?_, ?_, ?_, ?_⟩
        · simp [finalBody, a7]
        · simp [finalBody, a8]
        · intro h; simp [finalBody, h]
        · intro h; simp [finalBody, h]
        · intro h; simp [finalBody, h]
      · have hne : r.mats k ≠ r.mats n := (hd n (by omega) (by omega)).symm
        obtain ⟨b1, b2, b3, b4, b5⟩ := a11 k (by omega) fun l h1 h2 => hd l h1 (by omega)
        refine ⟨?_, ?_, ?_, ?_, ?_⟩
        · simpa [finalBody, Function.update_of_ne hne] using b1
        · simpa [finalBody, Function.update_of_ne hne] using b2
        · intro h; simpa [finalBody, h, Function.update_of_ne hne] using b3 h
        · intro h; simpa [finalBody, h, Function.update_of_ne hne] using b4 h
        · intro h; simpa [finalBody, h, Function.update_of_ne hne] using b5 h
    · intro m hm
      have hne : m ≠ r.mats n := (hm n (by omega)).symm
      obtain ⟨b1, b2, b3, b4, b5⟩ := a12 m fun k hk => hm k (by omega)
      refine ⟨?_, ?_, ?_, ?_, ?_⟩
      · simpa [finalBody, Function.update_of_ne hne] using b1
      · simpa [finalBody, Function.update_of_ne hne] using b2
      · by_cases h : flags.1 = true <;> simpa [finalBody, h, Function.update_of_ne hne] using b3
      · by_cases h : flags.2.2 = true <;> simpa [finalBody, h, Function.update_of_ne hne] using b4
      · by_cases h : flags.2.1 = true <;> simpa [finalBody, h, Function.update_of_ne hne] using b5
    · intro h; simpa [finalBody, h] using a13 h
    · intro h; simpa [finalBody, h] using a14 h
    · intro h; simpa [finalBody, h] using a15 h


/-! ## C26: the caller's data -/

theorem mapN_div_mul {n : Nat} {S : K} (hS : S ≠ 0) (a : Nat → K) :
    mapN n (fun _ x => x * S) (mapN n (fun _ x => x / S) a) = a := by
  funext i
  simp only [mapN_apply]
  split_ifs with h
  · exact div_mul_cancel₀ _ hS
  · rfl

/-- The four modes as one function, with the oracle arguments fixed. -/
def kernel (E : Eos K) (S : SolverOracle K) (rootT : Int → K → K → K) (ev2k : K) (n : Nat) (cutoff : K)
    (offs : Nat → Int) (flags : Bool × Bool × Bool) : Mode → Cell K → Row K → Cell K × Row K
  | .rhoT, c, r => kernelRhoT E S ev2k n cutoff offs flags c r
  | .rhoP, c, r => kernelRhoP E S rootT ev2k n cutoff offs flags c r
  | .pT, c, r => kernelPT E ev2k n offs flags c r
  | .rhoE, c, r => kernelRhoE E S ev2k n cutoff offs flags c r

theorem finalFunctor_fields (E : Eos K) (ev2k : K) (n : Nat) (flags : Bool × Bool × Bool)
    (npte : Nat) (ms tM sM pM : K) (r : Row K) (c : Cell K) :
    let f := finalFunctor E ev2k n flags npte ms tM sM pM r c
    f.fmass = mapN n (fun _ x => x * ms) c.fmass ∧ f.vol = c.vol ∧ f.spvol = c.spvol ∧
    (pM = 0 → f.press = c.press) ∧ (tM = 0 → f.temp = c.temp) ∧ (sM = 0 → f.sie = c.sie) ∧
    (pM = 1 → f.press = ∑ k ∈ Finset.range npte, r.press k * r.vfrac k) ∧
    (tM = 1 → f.temp = (∑ k ∈ Finset.range npte, r.temp k * r.vfrac k) / ev2k) ∧
    f.bmod = ∑ k ∈ Finset.range npte, E.bRT (r.idxs k) (r.rho k) (r.temp k) * r.vfrac k ∧
    f.cv = ∑ k ∈ Finset.range npte,
      ev2k * E.cvRT (r.idxs k) (r.rho k) (r.temp k) * c.fmass (r.mats k) ∧
    f.dpde = ∑ k ∈ Finset.range npte, E.gRT (r.idxs k) (r.rho k) (r.temp k) * r.vfrac k ∧
    (∀ k, k < npte → (∀ l, k < l → l < npte → r.mats l ≠ r.mats k) →
      f.fie (r.mats k) = r.sie k * c.fmass (r.mats k) * ms ∧
      f.fvol (r.mats k) = r.vfrac k * c.vol) ∧
    (∀ m, (∀ k, k < npte → r.mats k ≠ m) → f.fie m = c.fie m ∧ f.fvol m = c.fvol m ∧
      f.fbmod m = c.fbmod m ∧ f.fcv m = c.fcv m ∧ f.fdpde m = c.fdpde m) := by
  obtain ⟨a1, a2, a3, a4, a5, a6, a7, a8, a9, a10, a11, a12, a13, a14, a15⟩ :=
    finalLoop_spec E ev2k flags tM sM pM ms r { c with
      temp := if tM = 1 then 0 else c.temp
      press := if pM = 1 then 0 else c.press
      sie := if sM = 1 then 0 else c.sie
      bmod := 0, cv := 0, dpde := 0 } npte
  dsimp only at a1 a2 a3 a4 a5 a6 a7 a8 a9 a10 a11 a12 a13 a14 a15
  dsimp only [finalFunctor]
  refine ⟨by rw [a7], a8, a9, fun h => ?_, fun h => ?_, fun h => ?_, fun h => ?_, fun h => ?_, ?_, ?_, ?_,
    fun k hk hd => ⟨(a11 k hk hd).1, (a11 k hk hd).2.1⟩, a12⟩
  · rw [a1]; simp [h]
  · rw [a2]; simp [h]
  · rw [a3]; simp [h]
  · rw [a1]; simp [h]
  · rw [a2]; simp [h]
  · rw [a4]; simp
  · rw [a5]; simp
  · rw [a6]; simp

/-- C26: whatever the mode, the EOS answers and the solver's result, after the call the mass fractions
hold their original values, provided they do not sum to zero. -/
theorem C26_mass_fractions_restored (E : Eos K) (S : SolverOracle K) (rootT : Int → K → K → K) (ev2k : K)
    (n : Nat) (cutoff : K) (offs : Nat → Int) (flags : Bool × Bool × Bool) (mode : Mode) (c : Cell K)
    (r : Row K) (hsum : ∑ m ∈ Finset.range n, c.fmass m ≠ 0) :
    (kernel E S rootT ev2k n cutoff offs flags mode c r).1.fmass = c.fmass := by
  have hms : forN n (fun s m => s + c.fmass m) 0 ≠ 0 := by rwa [forN_add, zero_add]
  cases mode
  · exact ((finalFunctor_fields E ev2k n flags _ _ 0 0 1 _ _).1).trans (mapN_div_mul hms _)
  · exact ((finalFunctor_fields E ev2k n flags _ _ 1 0 0 _ _).1).trans (mapN_div_mul hms _)
  · exact ((finalFunctor_fields E ev2k n flags _ _ 0 0 0 _ _).1).trans (mapN_div_mul hms _)
  · exact ((finalFunctor_fields E ev2k n flags _ _ 1 0 1 _ _).1).trans (mapN_div_mul hms _)

/-- C26: the quantities that are inputs in the chosen mode are not changed: density (as specific volume)
and temperature in (rho,T), density and pressure in (rho,P), pressure and temperature in (P,T), density
and energy in (rho,e); the volume too in the three density modes. -/
theorem C26_inputs_unchanged (E : Eos K) (S : SolverOracle K) (rootT : Int → K → K → K) (ev2k : K)
    (n : Nat) (cutoff : K) (offs : Nat → Int) (flags : Bool × Bool × Bool) (c : Cell K) (r : Row K) :
    (let o := (kernel E S rootT ev2k n cutoff offs flags .rhoT c r).1;
      o.spvol = c.spvol ∧ o.temp = c.temp ∧ o.vol = c.vol) ∧
    (let o := (kernel E S rootT ev2k n cutoff offs flags .rhoP c r).1;
      o.spvol = c.spvol ∧ o.press = c.press ∧ o.vol = c.vol) ∧
    (let o := (kernel E S rootT ev2k n cutoff offs flags .pT c r).1;
      o.press = c.press ∧ o.temp = c.temp) ∧
    (let o := (kernel E S rootT ev2k n cutoff offs flags .rhoE c r).1;
      o.spvol = c.spvol ∧ o.sie = c.sie ∧ o.vol = c.vol) := by
  refine ⟨?_, ?_, ?_, ?_⟩
  · exact ⟨(finalFunctor_fields E ev2k n flags _ _ 0 0 1 _ _).2.2.1, (finalFunctor_fields E ev2k n flags _ _ 0 0 1 _ _).2.2.2.2.1 rfl, (finalFunctor_fields E ev2k n flags _ _ 0 0 1 _ _).2.1⟩
  · exact ⟨(finalFunctor_fields E ev2k n flags _ _ 1 0 0 _ _).2.2.1, (finalFunctor_fields E ev2k n flags _ _ 1 0 0 _ _).2.2.2.1 rfl, (finalFunctor_fields E ev2k n flags _ _ 1 0 0 _ _).2.1⟩
  · exact ⟨(finalFunctor_fields E ev2k n flags _ _ 0 0 0 _ _).2.2.2.1 rfl, (finalFunctor_fields E ev2k n flags _ _ 0 0 0 _ _).2.2.2.2.1 rfl⟩
  · exact ⟨(finalFunctor_fields E ev2k n flags _ _ 1 0 1 _ _).2.2.1, (finalFunctor_fields E ev2k n flags _ _ 1 0 1 _ _).2.2.2.2.2.1 rfl, (finalFunctor_fields E ev2k n flags _ _ 1 0 1 _ _).2.1⟩

/-- C26: the recorded maximum pressure never decreases and bounds the returned pressure. -/
theorem C26_pmax (E : Eos K) (S : SolverOracle K) (rootT : Int → K → K → K) (ev2k : K)
    (n : Nat) (cutoff : K) (offs : Nat → Int) (flags : Bool × Bool × Bool) (mode : Mode) (c : Cell K)
    (r : Row K) :
    let o := (kernel E S rootT ev2k n cutoff offs flags mode c r).1
    o.pmax = max c.pmax o.press := by
  have key : ∀ d : Cell K, d.pmax = c.pmax → (setPmax d).pmax = max c.pmax (setPmax d).press := by
    intro d hd
    unfold setPmax
    dsimp only
    rw [hd]
    split_ifs with h
    · rw [max_eq_right h.le]
    · rw [max_eq_left (not_lt.1 h)]
  cases mode <;> refine key _ ?_
  · exact (finalLoop_spec E ev2k flags 0 0 1 _ _ _ _).2.2.2.2.2.2.2.2.2.1
  · exact (finalLoop_spec E ev2k flags 1 0 0 _ _ _ _).2.2.2.2.2.2.2.2.2.1
  · exact (finalLoop_spec E ev2k flags 0 0 0 _ _ _ _).2.2.2.2.2.2.2.2.2.1
  · exact (finalLoop_spec E ev2k flags 1 0 1 _ _ _ _).2.2.2.2.2.2.2.2.2.1

/-- C26: at least one material participates whenever the cutoff is below the reciprocal of the number of
materials and the mass fractions do not sum to zero, so no scratch value is read before it is written. -/
theorem C26_some_material (ev2k : K) (n : Nat) (cutoff : K) (offs : Nat → Int) (tM sM pM : K) (c : Cell K)
    (r : Row K) (hsum : ∑ m ∈ Finset.range n, c.fmass m ≠ 0) (hc : cutoff * n < 1) :
    1 ≤ (initFunctor ev2k n cutoff offs tM sM pM c r).npte := by
  set S := forN n (fun s m => s + c.fmass m) 0 with hS
  have hms : S = ∑ m ∈ Finset.range n, c.fmass m := by rw [hS, forN_add, zero_add]
  set fm := mapN n (fun _ x => x / S) c.fmass with hfm
  obtain ⟨_, _, h3, _⟩ := selectMats_spec n cutoff offs fm r.mats (fill n (fun m => offs m - 1) r.idxs)
  have hex : ∃ m, m < n ∧ cutoff < fm m := by
    by_contra hno
    push Not at hno
    have h1 : ∑ m ∈ Finset.range n, fm m ≤ ∑ _m ∈ Finset.range n, cutoff :=
      Finset.sum_le_sum fun m hm => hno m (Finset.mem_range.1 hm)
    have h2 : ∑ m ∈ Finset.range n, fm m = 1 := by
      have : ∀ m ∈ Finset.range n, fm m = c.fmass m / S := by
        intro m hm
        rw [hfm, mapN_apply, if_pos (Finset.mem_range.1 hm)]
      rw [Finset.sum_congr rfl this, ← Finset.sum_div, ← hms]
      exact div_self (by rwa [hms])
    rw [h2, Finset.sum_const, Finset.card_range, nsmul_eq_mul] at h1
    linarith
  obtain ⟨m, hm, hmc⟩ := hex
  obtain ⟨k, hk, _⟩ := h3 m hm hmc
  exact le_trans (by omega) (Nat.succ_le_of_lt hk)

/-- C26: with participating materials selected by the kernel, their internal energies written to the
per-material array sum to `sie * (total mass)` in (rho,T) mode with more than one material: the cell
energy and the material energies agree. -/
theorem C26_energy_sum_rhoT (E : Eos K) (S : SolverOracle K) (rootT : Int → K → K → K) (ev2k : K)
    (n : Nat) (cutoff : K) (offs : Nat → Int) (flags : Bool × Bool × Bool) (c : Cell K) (r : Row K)
    (hn : 1 < (initFunctor ev2k n cutoff offs 1 0 0 c r).npte) :
    let o := (kernel E S rootT ev2k n cutoff offs flags .rhoT c r).1
    let i := initFunctor ev2k n cutoff offs 1 0 0 c r
    ∑ k ∈ Finset.range i.npte, o.fie (i.row.mats k) =
      o.sie * ∑ m ∈ Finset.range n, c.fmass m := by
  intro o i
  have hsp := selectMats_spec n cutoff offs
    (mapN n (fun _ x => x / forN n (fun s m => s + c.fmass m) 0) c.fmass) r.mats
    (fill n (fun m => offs m - 1) r.idxs)
  set r1 := runSolver S i.npte i.vfracSum (i.row.temp 0) i.row with hr1
  set c1 : Cell K := { i.cell with sie := sieTotal i.npte r1 i.cell.fmass } with hc1
  have ho : o = setPmax (finalFunctor E ev2k n flags i.npte i.massSum 0 0 1 r1 c1) := by
    change (setPmax (finalFunctor E ev2k n flags i.npte i.massSum 0 0 1
      (if 1 < i.npte then _ else _ : K × Row K).2
      { i.cell with sie := (if 1 < i.npte then _ else _ : K × Row K).1 })) = _
    rw [if_pos hn]
  have hf := finalFunctor_fields E ev2k n flags i.npte i.massSum 0 0 1 r1 c1
  have hmats : r1.mats = i.row.mats := rfl
  have hie : ∀ k ∈ Finset.range i.npte, o.fie (i.row.mats k) =
      r1.sie k * i.cell.fmass (i.row.mats k) * i.massSum := by
    intro k hk
    rw [ho]
    have := (hf.2.2.2.2.2.2.2.2.2.2.2.1 k (Finset.mem_range.1 hk) (fun l h1 h2 => by
      have := hsp.2.1 k l h1 h2
      rw [hmats]
      exact ne_of_gt this)).1
    exact this
  rw [Finset.sum_congr rfl hie, ← Finset.sum_mul]
  have hs : o.sie = sieTotal i.npte r1 i.cell.fmass := by
    rw [ho]
    exact hf.2.2.2.2.2.1 rfl
  rw [hs]
  unfold sieTotal
  rw [forN_add, zero_add]
  congr 1
  change forN n (fun s m => s + c.fmass m) 0 = _
  rw [forN_add, zero_add]

/-- C26: in (P,T) mode material volumes add up to the cell volume, the specific volume is volume per mass,
and material energies add up to `sie * mass`; each material's volume is its mass over its density. -/
theorem C26_PT_totals (E : Eos K) (S : SolverOracle K) (rootT : Int → K → K → K) (ev2k : K)
    (n : Nat) (cutoff : K) (offs : Nat → Int) (flags : Bool × Bool × Bool) (c : Cell K) (r : Row K)
    (hsum : ∑ m ∈ Finset.range n, c.fmass m ≠ 0)
    (hvol : (kernel E S rootT ev2k n cutoff offs flags .pT c r).1.vol ≠ 0) :
    let o := (kernel E S rootT ev2k n cutoff offs flags .pT c r).1
    (∑ m ∈ Finset.range n, o.fvol m = o.vol) ∧
    (o.spvol * ∑ m ∈ Finset.range n, c.fmass m = o.vol) ∧
    (∑ m ∈ Finset.range n, o.fie m = o.sie * ∑ m ∈ Finset.range n, c.fmass m) ∧
    (∀ m, m < n → o.fvol m = c.fmass m / (E.rePT (offs m - 1) c.press (c.temp * ev2k)).1 ∧
      o.fie m = c.fmass m * (E.rePT (offs m - 1) c.press (c.temp * ev2k)).2) := by
  intro o
  set M := forN n (fun s m => s + c.fmass m) 0 with hM
  have hMs : M = ∑ m ∈ Finset.range n, c.fmass m := by rw [hM, forN_add, zero_add]
  have hM0 : M ≠ 0 := by rwa [hMs]
  have hf := finalFunctor_fields E ev2k n flags n M 0 0 0
    (kernelPT E ev2k n offs flags c r).2
    { c with fmass := mapN n (fun _ x => x / M) c.fmass
             sie := forN n (fun s m => s + (kernelPT E ev2k n offs flags c r).2.sie m *
               mapN n (fun _ x => x / M) c.fmass m) 0
             vol := o.vol, spvol := o.vol / M }
  have hmats : ∀ k, k < n → (kernelPT E ev2k n offs flags c r).2.mats k = k := by
    intro k hk
    change fill n (fun m => m) r.mats k = k
    rw [fill_apply, if_pos hk]
  have hrho : ∀ k, k < n → (kernelPT E ev2k n offs flags c r).2.rho k =
      (E.rePT (offs k - 1) c.press (c.temp * ev2k)).1 := by
    intro k hk
    change fill n _ r.rho k = _
    rw [fill_apply, if_pos hk, fill_apply, if_pos hk, fill_apply, if_pos hk, fill_apply, if_pos hk]
  have hsie : ∀ k, k < n → (kernelPT E ev2k n offs flags c r).2.sie k =
      (E.rePT (offs k - 1) c.press (c.temp * ev2k)).2 := by
    intro k hk
    change fill n _ r.sie k = _
    rw [fill_apply, if_pos hk, fill_apply, if_pos hk, fill_apply, if_pos hk, fill_apply, if_pos hk]
  have hvoldef : o.vol = ∑ m ∈ Finset.range n,
      fill n (fun m => mapN n (fun _ x => x / M) c.fmass m /
        (kernelPT E ev2k n offs flags c r).2.rho m * M) r.vfrac m := by
    rw [show o.vol = forN n (fun s m => s + fill n (fun m => mapN n (fun _ x => x / M) c.fmass m /
        (kernelPT E ev2k n offs flags c r).2.rho m * M) r.vfrac m) 0 from
      (finalFunctor_fields E ev2k n flags _ _ 0 0 0 _ _).2.1]
    rw [forN_add, zero_add]
  have hvolsum : o.vol = ∑ m ∈ Finset.range n,
      c.fmass m / (E.rePT (offs m - 1) c.press (c.temp * ev2k)).1 := by
    rw [hvoldef]
    refine Finset.sum_congr rfl fun m hm => ?_
    have hm := Finset.mem_range.1 hm
    rw [fill_apply, if_pos hm, mapN_apply, if_pos hm, hrho m hm]
    field_simp
  have hvf : ∀ k, k < n → (kernelPT E ev2k n offs flags c r).2.vfrac k =
      c.fmass k / (E.rePT (offs k - 1) c.press (c.temp * ev2k)).1 / o.vol := by
    intro k hk
    have h1 : (kernelPT E ev2k n offs flags c r).2.vfrac k = mapN n (fun _ x => x / o.vol)
      (fill n (fun m => mapN n (fun _ x => x / M) c.fmass m /
        (kernelPT E ev2k n offs flags c r).2.rho m * M) r.vfrac) k := by
      rw [show o.vol = forN n (fun s m => s + fill n (fun m => mapN n (fun _ x => x / M) c.fmass m /
          (kernelPT E ev2k n offs flags c r).2.rho m * M) r.vfrac m) 0 from
        (finalFunctor_fields E ev2k n flags _ _ 0 0 0 _ _).2.1]
      rfl
    rw [h1, mapN_apply, if_pos hk, fill_apply, if_pos hk, mapN_apply, if_pos hk, hrho k hk]
    field_simp
  have hdist : ∀ k, k < n → ∀ l, k < l → l < n → (kernelPT E ev2k n offs flags c r).2.mats l ≠
      (kernelPT E ev2k n offs flags c r).2.mats k := by
    intro k hk l h1 h2
    rw [hmats k hk, hmats l h2]; omega
  have hfinal := (finalFunctor_fields E ev2k n flags n M 0 0 0 (kernelPT E ev2k n offs flags c r).2
    { c with fmass := mapN n (fun _ x => x / M) c.fmass
             sie := o.sie, vol := o.vol, spvol := o.vol / M }).2.2.2.2.2.2.2.2.2.2.2.1
  have ho : o = setPmax (finalFunctor E ev2k n flags n M 0 0 0 (kernelPT E ev2k n offs flags c r).2
    { c with fmass := mapN n (fun _ x => x / M) c.fmass
             sie := o.sie, vol := o.vol, spvol := o.vol / M }) := by
    rw [show o.sie = forN n (fun s m => s + (kernelPT E ev2k n offs flags c r).2.sie m *
               mapN n (fun _ x => x / M) c.fmass m) 0 from
      (finalFunctor_fields E ev2k n flags _ _ 0 0 0 _ _).2.2.2.2.2.1 rfl,
      show o.vol = forN n (fun s m => s + fill n (fun m => mapN n (fun _ x => x / M) c.fmass m /
        (kernelPT E ev2k n offs flags c r).2.rho m * M) r.vfrac m) 0 from
      (finalFunctor_fields E ev2k n flags _ _ 0 0 0 _ _).2.1]
    rfl
  have hper : ∀ m, m < n → o.fvol m = c.fmass m / (E.rePT (offs m - 1) c.press (c.temp * ev2k)).1 ∧
      o.fie m = c.fmass m * (E.rePT (offs m - 1) c.press (c.temp * ev2k)).2 := by
    intro m hm
    have h := hfinal m hm (hdist m hm)
    rw [hmats m hm] at h
    constructor
    · rw [ho]
      refine h.2.trans ?_
      rw [hvf m hm]
      exact div_mul_cancel₀ _ hvol
    · rw [ho]
      refine h.1.trans ?_
      dsimp only
      rw [mapN_apply, if_pos hm, hsie m hm]
      field_simp
  refine ⟨?_, ?_, ?_, hper⟩
  · rw [hvolsum]
    exact Finset.sum_congr rfl fun m hm => (hper m (Finset.mem_range.1 hm)).1
  · have : o.spvol = o.vol / M := by
      rw [show o.vol = forN n (fun s m => s + fill n (fun m => mapN n (fun _ x => x / M) c.fmass m /
        (kernelPT E ev2k n offs flags c r).2.rho m * M) r.vfrac m) 0 from
        (finalFunctor_fields E ev2k n flags _ _ 0 0 0 _ _).2.1]
      exact (finalFunctor_fields E ev2k n flags _ _ 0 0 0 _ _).2.2.1
    rw [this, ← hMs]
    exact div_mul_cancel₀ _ hM0
  · have : o.sie = ∑ m ∈ Finset.range n, (E.rePT (offs m - 1) c.press (c.temp * ev2k)).2 * (c.fmass m / M) := by
      rw [show o.sie = forN n (fun s m => s + (kernelPT E ev2k n offs flags c r).2.sie m *
               mapN n (fun _ x => x / M) c.fmass m) 0 from
        (finalFunctor_fields E ev2k n flags _ _ 0 0 0 _ _).2.2.2.2.2.1 rfl, forN_add, zero_add]
      refine Finset.sum_congr rfl fun m hm => ?_
      have hm := Finset.mem_range.1 hm
      rw [mapN_apply, if_pos hm, hsie m hm]
    rw [this, ← hMs, Finset.sum_mul]
    refine Finset.sum_congr rfl fun m hm => ?_
    rw [(hper m (Finset.mem_range.1 hm)).2]
    field_simp

/-- The C26 hypotheses are met by a two-material cell with unnormalised masses. -/
example : ∑ m ∈ Finset.range 2, (fun i : Nat => (i : ℚ) + 1) m ≠ 0 ∧ (1 / 10 : ℚ) * (2 : Nat) < 1 := by
  norm_num [Finset.sum_range_succ]

/-- A concrete (rho,T) cell with two participating materials: `C26_energy_sum_rhoT` applies. -/
example : 1 < (initFunctor (1 : ℚ) 2 (1 / 10) (fun i => i + 1) 1 0 0
    ⟨0, 0, 1, 1, 0, 1, 0, 0, 0, fun i => if i = 0 then 1 else 3, fun _ => 0, fun _ => 0, fun _ => 0,
      fun _ => 0, fun _ => 0⟩
    ⟨fun _ => 0, fun _ => 0, fun _ => 0, fun _ => 0, fun _ => 0, fun _ => 0, fun _ => 0⟩).npte := by
  norm_num [initFunctor, selectMats, forN, mapN]

/-- A concrete (P,T) cell: mass fractions 1 and 3, densities 2: volume 2. -/
example : (kernel (K := ℚ) ⟨fun _ _ _ => 0, fun _ _ _ => 0, fun _ _ _ => 0, fun _ _ _ => 0,
      fun _ _ _ => 0, fun _ _ _ => 0, fun _ _ _ => (2, 5)⟩ (fun _ _ _ r => r) (fun _ _ _ => 0) 1 2 0
    (fun i => i + 1) (false, false, false) .pT
    ⟨7, 0, 0, 0, 0, 1, 0, 0, 0, fun i => if i = 0 then 1 else 3, fun _ => 0, fun _ => 0, fun _ => 0,
      fun _ => 0, fun _ => 0⟩
    ⟨fun _ => 0, fun _ => 0, fun _ => 0, fun _ => 0, fun _ => 0, fun _ => 0, fun _ => 0⟩).1.vol = 2 := by
  norm_num [kernel, kernelPT, setPmax, finalFunctor, finalBody, fill, forN, mapN]

/-! ## C64: cells with a single participating material -/

/-- What (rho,e) mode computes for a cell with exactly one participating material `m`, whose normalised
mass fraction is `x`: the EOS is asked at the cell's density but at the energy `sie * x`, and the
temperature and pressure reported are the EOS's answers times `x`. -/
theorem pure_rhoE (E : Eos K) (S : SolverOracle K) (rootT : Int → K → K → K) (ev2k : K)
    (n : Nat) (cutoff : K) (offs : Nat → Int) (flags : Bool × Bool × Bool) (c : Cell K) (r : Row K)
    (hc0 : 0 ≤ cutoff) (hv : c.spvol ≠ 0)
    (hn : (initFunctor ev2k n cutoff offs 0 1 0 c r).npte = 1) :
    ∃ m, m < n ∧ cutoff < c.fmass m / (∑ k ∈ Finset.range n, c.fmass k) ∧
      (let x := c.fmass m / (∑ k ∈ Finset.range n, c.fmass k);
       let t := E.tRE (offs m - 1) (1 / c.spvol) (c.sie * x);
       let o := (kernel E S rootT ev2k n cutoff offs flags .rhoE c r).1;
       o.temp = t * x / ev2k ∧ o.press = E.pRT (offs m - 1) (1 / c.spvol) t * x) := by
  set M := forN n (fun s m => s + c.fmass m) 0 with hM
  have hMs : M = ∑ m ∈ Finset.range n, c.fmass m := by rw [hM, forN_add, zero_add]
  set fm := mapN n (fun _ x => x / M) c.fmass with hfm
  set sel := selectMats n cutoff offs fm r.mats (fill n (fun m => offs m - 1) r.idxs) with hsel
  obtain ⟨h1, _, _, _⟩ := selectMats_spec n cutoff offs fm r.mats (fill n (fun m => offs m - 1) r.idxs)
  have hn' : sel.1 = 1 := hn
  obtain ⟨hm, hx, hid⟩ := h1 0 (by rw [← hsel, hn']; norm_num)
  rw [← hsel] at hm hx hid
  set m := sel.2.1 0 with hmdef
  have hfmm : fm m = c.fmass m / M := by rw [hfm, mapN_apply, if_pos hm]
  refine ⟨m, hm, by rw [← hMs, ← hfmm]; exact hx, ?_⟩
  rw [← hMs, ← hfmm]
  have hx0 : fm m ≠ 0 := ne_of_gt (lt_of_le_of_lt hc0 hx)
  set i := initFunctor ev2k n cutoff offs 0 1 0 c r with hi
  have hvf : i.row.vfrac 0 = fm m := by
    change fill sel.1 (fun mp => fm (sel.2.1 mp)) _ 0 = _
    rw [fill_apply, if_pos (by omega)]
  have hrho : i.row.rho 0 = 1 / c.spvol := by
    change fill sel.1 (fun mp => fm (sel.2.1 mp) / c.spvol / i.row.vfrac mp) _ 0 = _
    rw [fill_apply, if_pos (by omega), hvf, ← hmdef]
    field_simp
  have hsie : i.row.sie 0 = c.sie * fm m := by
    change fill sel.1 (fun mp => c.sie * fm (sel.2.1 mp) * 1) _ 0 = _
    rw [fill_apply, if_pos (by omega), ← hmdef, mul_one]
  have hidx : i.row.idxs 0 = offs m - 1 := hid
  set r2 : Row K := { i.row with
    temp := Function.update i.row.temp 0 (E.tRE (i.row.idxs 0) (i.row.rho 0) (i.row.sie 0))
    press := Function.update i.row.press 0 (E.pRT (i.row.idxs 0) (i.row.rho 0)
      (E.tRE (i.row.idxs 0) (i.row.rho 0) (i.row.sie 0))) } with hr2
  have ho : (kernel E S rootT ev2k n cutoff offs flags .rhoE c r).1 =
      setPmax (finalFunctor E ev2k n flags i.npte i.massSum 1 0 1 r2 i.cell) := by
    change setPmax (finalFunctor E ev2k n flags i.npte i.massSum 1 0 1
      (if 1 < i.npte then _ else _ : Row K) i.cell) = _
    rw [if_neg (by omega)]
  intro x t o
  have hf := finalFunctor_fields E ev2k n flags i.npte i.massSum 1 0 1 r2 i.cell
  have hot : o.temp = (finalFunctor E ev2k n flags i.npte i.massSum 1 0 1 r2 i.cell).temp := by
    change (kernel E S rootT ev2k n cutoff offs flags .rhoE c r).1.temp = _
    rw [ho]; rfl
  have hop : o.press = (finalFunctor E ev2k n flags i.npte i.massSum 1 0 1 r2 i.cell).press := by
    change (kernel E S rootT ev2k n cutoff offs flags .rhoE c r).1.press = _
    rw [ho]; rfl
  rw [hot, hop, hf.2.2.2.2.2.2.2.1 rfl, hf.2.2.2.2.2.2.1 rfl, hn, Finset.sum_range_one, Finset.sum_range_one]
  have e1 : r2.vfrac 0 = fm m := hvf
  have e2 : r2.temp 0 = t := by
    change Function.update i.row.temp 0 (E.tRE (i.row.idxs 0) (i.row.rho 0) (i.row.sie 0)) 0 = _
    rw [Function.update_self, hidx, hrho, hsie]
  have e3 : r2.press 0 = E.pRT (offs m - 1) (1 / c.spvol) t := by
    change Function.update i.row.press 0 (E.pRT (i.row.idxs 0) (i.row.rho 0)
      (E.tRE (i.row.idxs 0) (i.row.rho 0) (i.row.sie 0))) 0 = _
    rw [Function.update_self, hidx, hrho, hsie]
  rw [e1, e2, e3]
  exact ⟨rfl, rfl⟩

/-- C64 (partial): when the only participating material carries all the mass, (rho,e) mode returns that
material's EOS temperature and pressure at the cell's density and energy. -/
theorem C64_pure_cell_partial (E : Eos K) (S : SolverOracle K) (rootT : Int → K → K → K) (ev2k : K)
    (n : Nat) (cutoff : K) (offs : Nat → Int) (flags : Bool × Bool × Bool) (c : Cell K) (r : Row K)
    (hc0 : 0 ≤ cutoff) (hv : c.spvol ≠ 0)
    (hn : (initFunctor ev2k n cutoff offs 0 1 0 c r).npte = 1)
    (hall : ∀ m, m < n → cutoff < c.fmass m / (∑ k ∈ Finset.range n, c.fmass k) →
      c.fmass m / (∑ k ∈ Finset.range n, c.fmass k) = 1) :
    ∃ m, m < n ∧ cutoff < c.fmass m / (∑ k ∈ Finset.range n, c.fmass k) ∧
      (let o := (kernel E S rootT ev2k n cutoff offs flags .rhoE c r).1;
       let t := E.tRE (offs m - 1) (1 / c.spvol) c.sie;
       o.temp = t / ev2k ∧ o.press = E.pRT (offs m - 1) (1 / c.spvol) t) := by
  obtain ⟨m, hm, hx, h⟩ := pure_rhoE E S rootT ev2k n cutoff offs flags c r hc0 hv hn
  refine ⟨m, hm, hx, ?_⟩
  rw [hall m hm hx] at h
  simpa using h

/-- C64 is violated when negligible materials are present: an ideal-gas-like EOS (`T = e`, `P = rho T`),
mass fractions 9/10 and 1/10, cutoff 1/2. At unit density and energy 1 the material's temperature is 1,
but the call reports 81/100, and pressure 81/100. -/
theorem C64_pure_cell_violated :
    let E : Eos ℚ := ⟨fun _ r t => r * t, fun _ _ t => t, fun _ _ e => e, fun _ _ _ => 1,
      fun _ _ _ => 1, fun _ _ _ => 1, fun _ _ _ => (1, 1)⟩
    let c : Cell ℚ := ⟨0, 0, 1, 1, 1, 0, 0, 0, 0, fun i => if i = 0 then 9 / 10 else 1 / 10, fun _ => 0,
      fun _ => 0, fun _ => 0, fun _ => 0, fun _ => 0⟩
    let r : Row ℚ := ⟨fun _ => 0, fun _ => 0, fun _ => 0, fun _ => 0, fun _ => 0, fun _ => 0, fun _ => 0⟩
    let o := (kernel E (fun _ _ _ r => r) (fun _ _ _ => 0) 1 2 (1 / 2) (fun i => i + 1)
      (false, false, false) .rhoE c r).1
    E.tRE 0 (1 / c.spvol) c.sie = 1 ∧ o.temp = 81 / 100 ∧ o.press = 81 / 100 := by
  refine ⟨rfl, ?_, ?_⟩ <;>
  norm_num [kernel, kernelRhoE, initFunctor, selectMats, setPmax, finalFunctor, finalBody, fill, forN, mapN]

/-! ## C27: initialisation -/

/-- The modifiers `init_sg_*` should produce, as a plain specification: shift innermost, then scale, then
ramp. -/
def specDesc (scaled shifted : Bool) (scale shift : K) (ramp : Option (K × K × K × K)) : Desc K :=
  let e0 : Desc K := .base
  let e1 := if shifted then .shifted e0 shift else e0
  let e2 := if scaled then .scaled e1 scale else e1
  ramp.elim e2 fun p => .ramp e2 p.1 p.2.1 p.2.2.1 p.2.2.2

/-- C27: the EOS stored is the base EOS under the enabled modifiers in the documented order, with the ramp
parameters given by the caller, or converted from P-alpha parameters when flag 3 is set (flag 3 wins). -/
theorem C27_modifiers (σ : K) (rho0 : Desc K → K) (rmid r1 : Desc K → K → K → K → K)
    (enabled : Nat → Int) (vals : Nat → K) :
    (initSg σ rho0 rmid r1 enabled vals).1 =
      specDesc (enabled 0 == 1) (enabled 1 == 1) (vals 0) (vals 1)
        (if enabled 3 = 1 then
          some (pAlpha σ rho0 rmid r1 (specDesc (enabled 0 == 1) (enabled 1 == 1) (vals 0) (vals 1) none)
            (vals 2) (vals 3) (vals 4))
        else if enabled 2 = 1 then some (vals 2, vals 3, vals 4, vals 5) else none) := by
  have hb : ∀ a b : Bool, applyShiftAndScale (.base : Desc K) a b (vals 0) (vals 1) =
      specDesc a b (vals 0) (vals 1) none := by
    intro a b; cases a <;> cases b <;> rfl
  have ha : ∀ (a b : Bool) (s t r0 x y z : K), applyAll (.base : Desc K) a b true s t r0 x y z =
      specDesc a b s t (some (r0, x, y, z)) := by
    intro a b s t r0 x y z; cases a <;> cases b <;> rfl
  unfold initSg
  by_cases h3 : enabled 3 = 1
  · simp only [h3, if_true, hb, BEq.rfl, Bool.or_true, ha]
    simp [Function.update_apply]
  · have h3' : (enabled 3 == 1) = false := by simpa using h3
    simp only [h3, if_false, h3', Bool.or_false]
    by_cases h2 : enabled 2 = 1
    · simp only [h2, BEq.rfl, if_true, ha]
    · have h2' : (enabled 2 == 1) = false := by simpa using h2
      simp only [h2, h2', if_false, applyAll, Bool.false_eq_true, hb]

/-- C27 (partial): without flag 3 the caller's parameter array is untouched, so a second identical call
stores the same EOS. -/
theorem C27_repeatable_partial (σ : K) (rho0 : Desc K → K) (rmid r1 : Desc K → K → K → K → K)
    (enabled : Nat → Int) (vals : Nat → K) (h3 : enabled 3 ≠ 1) :
    (initSg σ rho0 rmid r1 enabled vals).2 = vals := by
  unfold initSg; simp [h3]

/-- C27: entries 0 and 1 (scale and shift) are never modified. -/
theorem C27_scale_shift_kept (σ : K) (rho0 : Desc K → K) (rmid r1 : Desc K → K → K → K → K)
    (enabled : Nat → Int) (vals : Nat → K) (i : Nat) (hi : i < 2 ∨ 5 < i) :
    (initSg σ rho0 rmid r1 enabled vals).2 i = vals i := by
  unfold initSg
  by_cases h3 : enabled 3 = 1
  · simp only [h3, if_true]
    rw [Function.update_of_ne (by omega), Function.update_of_ne (by omega),
      Function.update_of_ne (by omega), Function.update_of_ne (by omega)]
  · simp [h3]

/-- C27 is violated with flag 3: whatever the root finder returns, for a reference density 2 and a P-alpha
parameter 4 the first call overwrites the parameter by a density close to 1/2, and the same call repeated
with the same array stores a ramp with a different initial density (close to 4). -/
theorem C27_repeatable_violated (rmid r1 : Desc ℚ → ℚ → ℚ → ℚ → ℚ) (vals : Nat → ℚ) (h2 : vals 2 = 4)
    (enabled : Nat → Int) (h3 : enabled 3 = 1) (h0 : enabled 0 = 0) (h1 : enabled 1 = 0) :
    let σ : ℚ := 1 / 10 ^ 100
    let f := initSg σ (fun _ => 2) rmid r1 enabled vals
    let g := initSg σ (fun _ => 2) rmid r1 enabled f.2
    f.2 2 ≠ vals 2 ∧ f.1 ≠ g.1 := by
  have key : ∀ v : Nat → ℚ, ∃ a b c, (initSg (1 / 10 ^ 100) (fun _ => 2) rmid r1 enabled v).1 =
      .ramp .base (Robust.ratio (1 / 10 ^ 100) 2 (v 2)) a b c := by
    intro v
    rw [C27_modifiers]
    simp only [h3, if_true, h0, h1, specDesc, pAlpha]
    exact ⟨_, _, _, rfl⟩
  have hv : (initSg (1 / 10 ^ 100) (fun _ => 2) rmid r1 enabled vals).2 2 =
      Robust.ratio (1 / 10 ^ 100) 2 4 := by
    unfold initSg
    simp [h3, pAlpha, h2, Function.update_apply]
  intro σ f g
  constructor
  · change (initSg (1 / 10 ^ 100) (fun _ => 2) rmid r1 enabled vals).2 2 ≠ _
    rw [hv, h2]
    norm_num [Robust.ratio, Robust.sgn]
  · obtain ⟨a, b, c, hf⟩ := key vals
    obtain ⟨a', b', c', hg⟩ := key (initSg (1 / 10 ^ 100) (fun _ => 2) rmid r1 enabled vals).2
    change (initSg (1 / 10 ^ 100) (fun _ => 2) rmid r1 enabled vals).1 ≠
      (initSg (1 / 10 ^ 100) (fun _ => 2) rmid r1 enabled
        (initSg (1 / 10 ^ 100) (fun _ => 2) rmid r1 enabled vals).2).1
    rw [hf, hg, hv, h2]
    intro he
    injection he with _ he
    norm_num [Robust.ratio, Robust.sgn] at he

end Verif.CApi
