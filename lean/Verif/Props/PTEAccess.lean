import Verif.Spec.PTEAccess
import Mathlib.Tactic.Linarith
import Mathlib.Tactic.Ring
import Mathlib.Tactic.NormNum
import Mathlib.Tactic.IntervalCases

/-!
# C160: a PTE solver touches only the cells of its own arrays
-/

namespace Verif.PTE.Acc

open Spec

section lemmas

variable {s : Solver} {n : Nat}

theorem ib_nil : InBounds s n [] := by
  intro a h
  simp at h

theorem ib_append {t u : List Cell} (ht : InBounds s n t) (hu : InBounds s n u) : InBounds s n (t ++ u) := by
  intro a h
  rcases List.mem_append.mp h with h | h
  · exact ht a h
  · exact hu a h

theorem ib_cons {c : Cell} {t : List Cell} (hc : c.idx < size s n c.arr) (ht : InBounds s n t) :
    InBounds s n (c :: t) := by
  intro a h
  rcases List.mem_cons.mp h with h | h
  · exact h ▸ hc
  · exact ht a h

theorem ib_flatMap {α : Type} {l : List α} {f : α → List Cell} (h : ∀ x ∈ l, InBounds s n (f x)) :
    InBounds s n (l.flatMap f) := by
  intro a ha
  obtain ⟨x, hx, hax⟩ := List.mem_flatMap.mp ha
  exact h x hx a hax

theorem ib_for0 {k : Nat} {f : Nat → List Cell} (h : ∀ m, m < k → InBounds s n (f m)) : InBounds s n (for0 k f) :=
  ib_flatMap fun x hx => h x (List.mem_range.mp hx)

theorem ib_forFrom {lo k : Nat} {f : Nat → List Cell} (h : ∀ m, lo ≤ m → m < k → InBounds s n (f m)) :
    InBounds s n (forFrom lo k f) :=
  ib_flatMap fun x hx => by
    have := List.mem_range'_1.mp hx
    exact h x this.1 (by omega)

theorem ib_ite {p : Prop} [Decidable p] {t u : List Cell} (ht : InBounds s n t) (hu : InBounds s n u) :
    InBounds s n (if p then t else u) := by
  split
  · exact ht
  · exact hu

theorem ib_ite' {p : Prop} [Decidable p] {t u : List Cell} (ht : p → InBounds s n t) (hu : ¬p → InBounds s n u) :
    InBounds s n (if p then t else u) := by
  split
  · exact ht ‹_›
  · exact hu ‹_›

theorem ib_replicate {k : Nat} {t : List Cell} (ht : InBounds s n t) :
    InBounds s n (List.replicate k t).flatten := by
  intro a ha
  obtain ⟨u, hu, hau⟩ := List.mem_flatten.mp ha
  rw [(List.mem_replicate.mp hu).2] at hau
  exact ht a hau

/-- The counter of a counting loop runs over as many values as materials are not stepped over. -/
theorem ib_countLoop {skip : Nat → Bool} {f : Nat → Nat → List Cell} :
    ∀ {l : List Nat} {c hi : Nat}, c + (l.filter fun m => !skip m).length ≤ hi →
      (∀ m ∈ l, skip m = false → ∀ i, c ≤ i → i < hi → InBounds s n (f m i)) → InBounds s n (countLoop skip f l c)
  | [], _, _, _, _ => ib_nil
  | m :: l, c, hi, hc, h => by
    rw [countLoop]
    by_cases hm : skip m = true
    · rw [if_pos hm]
      exact ib_countLoop (by simpa [hm] using hc) fun k hk => h k (List.mem_cons_of_mem _ hk)
    · rw [if_neg hm]
      have hm' : skip m = false := by simpa using hm
      have hlen : c + 1 + (l.filter fun m => !skip m).length ≤ hi := by
        simp [hm'] at hc
        omega
      exact ib_append (h m (by simp) hm' c (le_refl _) (by omega))
        (ib_countLoop hlen fun k hk hs i hi1 hi2 => h k (List.mem_cons_of_mem _ hk) hs i (by omega) hi2)

/-- A range with one index below `n` stepped over has fewer than `n` left. -/
theorem filter_lt {skip : Nat → Bool} {n ms : Nat} (hms : ms < n) (hs : skip ms = true) :
    ((List.range n).filter fun m => !skip m).length + 1 ≤ n := by
  have h := List.length_filter_lt_length_iff_exists (p := fun m => !skip m) (l := List.range n) |>.mpr
    ⟨ms, List.mem_range.mpr hms, by simp [hs]⟩
  simpa using h

end lemmas

attribute [local irreducible] Spec.InBounds

/-- Takes a list of accesses apart. -/
macro "ib" : tactic => `(tactic| repeat'
  first
  | exact ib_nil
  | apply ib_append
  | (apply ib_for0; intro _ _)
  | (apply ib_forFrom; intro _ _ _)
  | (apply ib_ite' <;> intro _)
  | apply ib_replicate
  | (apply ib_flatMap; intro _ _)
  | apply ib_cons)

/-- Closes the linear bounds. -/
macro "ibl" : tactic => `(tactic| (ib <;> (simp [R, W, size, equations] <;> omega)))

theorem cell_lt {k i j : Nat} (hi : i < k) (hj : j < k) : i * k + j < k ^ 2 := by
  have h : (i + 1) * k ≤ k * k := Nat.mul_le_mul_right k hi
  have e : (i + 1) * k = i * k + k := by ring
  rw [pow_two]
  omega

theorem neqOf_eq (s : Solver) (n : Nat) : neqOf s n = equations s n := by
  cases s <;> simp [neqOf, equations] <;> omega

section base

variable {s : Solver} {n : Nat}

theorem ib_sum {a : Arr} {k off : Nat} {sk : Option Nat} (h : k + off ≤ size s n a) :
    InBounds s n (sumReads a k off sk) := by
  unfold sumReads
  ib
  simp only [R]
  omega

theorem ib_initRhoBar : InBounds s n (initRhoBar n) := by
  unfold initRhoBar
  refine ib_append ?_ (ib_sum (by simp [size]))
  ibl

theorem ib_normalizeVfrac : InBounds s n (normalizeVfrac n) := by
  unfold normalizeVfrac
  refine ib_append (ib_sum (by simp [size])) ?_
  ibl

theorem ib_fillRound : InBounds s n (fillRound n) := by
  unfold fillRound
  ibl

theorem ib_setVfrac {fail : Bool} {rounds : Nat} : InBounds s n (setVfracFromT n fail rounds) := by
  unfold setVfracFromT
  refine ib_append ?_ (ib_ite ib_nil (ib_append (ib_append ib_normalizeVfrac (ib_replicate ib_fillRound))
    ib_normalizeVfrac))
  ibl

theorem ib_tguessPass {it fail : Bool} {rounds : Nat} : InBounds s n (tguessPass n it fail rounds) := by
  unfold tguessPass
  refine ib_append (ib_append (ib_append ?_ ?_) ib_setVfrac) ?_ <;> ibl

theorem ib_getTguess {given it : Bool} {passes : List (Bool × Nat)} :
    InBounds s n (getTguess n given it passes) := by
  unfold getTguess
  refine ib_append ?_ (ib_flatMap fun _ _ => ib_tguessPass)
  ibl

theorem ib_initBase {given it : Bool} {passes : List (Bool × Nat)} : InBounds s n (initBase n given it passes) := by
  unfold initBase
  refine ib_append (ib_append (ib_append ib_initRhoBar ib_getTguess) ?_) ?_ <;> ibl

theorem ib_residualNorm : InBounds s n (residualNorm (equations s n)) := by
  unfold residualNorm
  exact ib_sum (by simp [size])

theorem ib_finalizeBase : InBounds s n (finalizeBase n) := by
  unfold finalizeBase
  ibl

theorem ib_solve : InBounds s n (solve (neqOf s n)) := by
  rw [neqOf_eq]
  unfold solve
  ib
  all_goals simp only [R, W, size]
  all_goals first
    | exact cell_lt (by assumption) (by assumption)
    | assumption
    | (simp_all; done)
    | omega

end base

/-! ## RhoT -/

section rhoT

variable {n ms : Nat}

theorem count_ms {skip : Nat → Bool} (hms : ms < n) (hs : skip ms = true) :
    1 + ((List.range n).filter fun m => !skip m).length ≤ n := by
  have := filter_lt hms hs
  omega

theorem rhoT_residual (hms : ms < n) : InBounds .rhoT n (rhoTResidual n ms) := by
  unfold rhoTResidual
  refine ib_append (ib_append (ib_sum (by simp [size])) ?_) (ib_countLoop (count_ms hms (by simp)) ?_)
  · ibl
  · intro m hm _ i _ hi
    have := List.mem_range.mp hm
    ibl

theorem rhoT_init (hms : ms < n) {given it : Bool} {passes : List (Bool × Nat)} :
    InBounds .rhoT n (rhoTInit n ms given it passes) := by
  unfold rhoTInit
  refine ib_append (ib_append (ib_append (ib_append ib_initBase ?_) (rhoT_residual hms)) ?_) ib_residualNorm
  · ibl
  · ibl

theorem rhoT_check (hn : 0 < n) : InBounds .rhoT n (rhoTCheck n) := by
  unfold rhoTCheck
  refine ib_append (ib_append ?_ (ib_sum (by simp [size, equations]; omega))) ?_ <;> ibl

theorem rhoT_jacobian (hms : ms < n) : InBounds .rhoT n (rhoTJacobian n ms) := by
  unfold rhoTJacobian
  refine ib_append (ib_append (ib_append (ib_append ?_ ?_) ?_) (ib_countLoop (count_ms hms (by simp)) ?_))
    (ib_countLoop (count_ms hms (by simp)) ?_)
  · ibl
  · ib
    simpa [W, size, equations, pow_two] using ‹_›
  · ib
    simp only [W, size, equations]
    exact Nat.pow_pos (by omega)
  · intro m hm _ i _ hi
    have := List.mem_range.mp hm
    have h : i < n ^ 2 := lt_of_lt_of_le hi (Nat.le_self_pow (by norm_num) n)
    ib <;> simp [R, W, size, equations] <;> omega
  · intro m hm _ i _ hi
    have hm' := List.mem_range.mp hm
    refine ib_append ?_ (ib_countLoop (count_ms hms (by simp)) ?_)
    · refine ib_cons ?_ (ib_cons ?_ (ib_cons ?_ ib_nil))
      · simpa [R, size] using hm'
      · simpa [R, size] using hms
      · simp only [W, size, equations, matIndex]
        exact cell_lt hi (by omega)
    · intro k hk _ j _ hj
      have hk' := List.mem_range.mp hk
      ib
      all_goals simp only [R, W, size, equations, matIndex]
      all_goals first
        | exact cell_lt hi hj
        | (simp; omega)

theorem rhoT_scaleDx (hms : ms < n) {unstable : Nat → Bool} : InBounds .rhoT n (rhoTScaleDx n ms unstable) := by
  unfold rhoTScaleDx
  refine ib_append (ib_append (ib_append (ib_append (ib_append (ib_append (ib_append
    (ib_sum (by simp [size, equations]; omega)) (ib_countLoop (count_ms hms (by simp)) ?_)) ?_) ?_) ?_)
    (ib_countLoop (count_ms hms (by simp)) ?_)) ?_) ?_
  · intro m hm _ i _ hi
    ibl
  · ibl
  · ibl
  · ibl
  · intro m hm _ i _ hi
    ibl
  · ibl
  · ibl

theorem rhoT_testUpdate (hms : ms < n) {cache : Bool} : InBounds .rhoT n (rhoTTestUpdate n ms cache) := by
  unfold rhoTTestUpdate
  refine ib_append (ib_append (ib_append (ib_append (ib_append (ib_append (ib_append ?_ ?_)
    (ib_countLoop (count_ms hms (by simp)) ?_)) (ib_sum (by simp [size]))) ?_) ?_) (rhoT_residual hms)) ib_residualNorm
  · ibl
  · ibl
  · intro m hm _ i _ hi
    have := List.mem_range.mp hm
    ibl
  · ibl
  · ibl

theorem rhoT_fixup (hms : ms < n) {fixed : Bool} : InBounds .rhoT n (rhoTFixup n ms fixed) := by
  unfold rhoTFixup
  refine ib_ite ib_nil (ib_append ?_ (rhoT_residual hms))
  ibl

theorem pickMax_lt (hn : 0 < n) (better : Nat → Bool) : pickMax n better < n := by
  have h : ∀ (l : List Nat) (a : Nat), a < n → (∀ m ∈ l, m < n) →
      l.foldl (fun ms m => if better m then m else ms) a < n := by
    intro l
    induction l with
    | nil =>
      intro a ha _
      simpa using ha
    | cons m l ih =>
      intro a ha hl
      refine ih _ ?_ fun k hk => hl k (List.mem_cons_of_mem _ hk)
      dsimp only
      split
      · exact hl m (by simp)
      · exact ha
  exact h _ 0 hn fun m hm => List.mem_range.mp hm

end rhoT

/-! ## PT, FixedT, FixedP -/

section others

variable {n : Nat}

theorem pt_residual : InBounds .pT n (ptResidual n) := by
  unfold ptResidual
  refine ib_append (ib_append (ib_sum (by simp [size])) (ib_sum (by simp [size]))) ?_
  ibl

theorem pt_init {given it : Bool} {passes : List (Bool × Nat)} : InBounds .pT n (ptInit n given it passes) := by
  unfold ptInit
  refine ib_append (ib_append (ib_append (ib_append (ib_append (ib_append ib_initBase pt_residual) ?_)
    (ib_sum (by simp [size]))) ?_) pt_residual) ib_residualNorm
  · ibl
  · ibl

theorem pt_jacobian : InBounds .pT n (ptJacobian n) := by
  unfold ptJacobian
  ibl

theorem pt_scaleDx : InBounds .pT n (ptScaleDx n) := by
  unfold ptScaleDx
  ibl

theorem pt_testUpdate : InBounds .pT n (ptTestUpdate n) := by
  unfold ptTestUpdate
  refine ib_append (ib_append (ib_append ?_ ?_) pt_residual) ib_residualNorm
  · ibl
  · ibl

theorem pt_finalize : InBounds .pT n (ptFinalize n) := by
  unfold ptFinalize
  ibl

theorem fixedT_residual (hn : 0 < n) : InBounds .fixedT n (fixedTResidual n) := by
  unfold fixedTResidual
  refine ib_append (ib_append (ib_sum (by simp [size])) ?_) ?_
  · ibl
  · ibl

theorem fixedT_init (hn : 0 < n) {fail : Bool} {rounds : Nat} : InBounds .fixedT n (fixedTInit n fail rounds) := by
  unfold fixedTInit
  refine ib_append (ib_append (ib_append (ib_append (ib_append ib_initRhoBar ib_setVfrac) ?_) ?_)
    (fixedT_residual hn)) ib_residualNorm
  · ibl
  · ibl

theorem fixedT_check (hn : 0 < n) : InBounds .fixedT n (fixedTCheck n) := by
  unfold fixedTCheck
  ibl

theorem fixedT_jacobian : InBounds .fixedT n (fixedTJacobian n) := by
  unfold fixedTJacobian
  have h2 : n ≤ n ^ 2 := Nat.le_self_pow (by norm_num) n
  ib
  all_goals simp only [R, W, size, equations, matIndex]
  all_goals first
    | exact cell_lt (by omega) (by omega)
    | omega
    | (simp; omega)
    | (rw [pow_two]; assumption)

theorem fixedT_scaleDx {unstable : Nat → Bool} : InBounds .fixedT n (fixedTScaleDx n unstable) := by
  unfold fixedTScaleDx
  ibl

theorem fixedT_testUpdate (hn : 0 < n) {cache : Bool} : InBounds .fixedT n (fixedTTestUpdate n cache) := by
  unfold fixedTTestUpdate
  refine ib_append (ib_append (ib_append ?_ ?_) (fixedT_residual hn)) ib_residualNorm
  · ibl
  · ibl

theorem fixedP_residual : InBounds .fixedP n (fixedPResidual n) := by
  unfold fixedPResidual
  refine ib_append (ib_append (ib_sum (by simp [size])) ?_) ?_
  · ibl
  · ibl

theorem fixedP_init (hn : 0 < n) {given it : Bool} {passes : List (Bool × Nat)} :
    InBounds .fixedP n (fixedPInit n given it passes) := by
  unfold fixedPInit
  refine ib_append (ib_append (ib_append (ib_append (ib_append (ib_append ib_initRhoBar ib_getTguess) ?_) ?_)
    fixedP_residual) ?_) ib_residualNorm
  · ibl
  · ibl
  · ibl

theorem fixedP_check : InBounds .fixedP n (fixedPCheck n) := by
  unfold fixedPCheck
  ibl

theorem fixedP_jacobian : InBounds .fixedP n (fixedPJacobian n) := by
  unfold fixedPJacobian
  ib
  all_goals simp only [R, W, size, equations, matIndex]
  all_goals first
    | assumption
    | exact cell_lt (by omega) (by omega)
    | (simp; omega)
    | (rw [pow_two]; assumption)

theorem fixedP_scaleDx {unstable : Nat → Bool} : InBounds .fixedP n (fixedPScaleDx n unstable) := by
  unfold fixedPScaleDx
  ibl

theorem fixedP_testUpdate {cache : Bool} : InBounds .fixedP n (fixedPTestUpdate n cache) := by
  unfold fixedPTestUpdate
  refine ib_append (ib_append (ib_append (ib_append ?_ ?_) ?_) fixedP_residual) ib_residualNorm
  · ibl
  · ibl
  · ibl

end others

/-! ## RhoU -/

section rhoU

variable {n : Nat}

theorem rhoU_residual (hn : 0 < n) : InBounds .rhoU n (rhoUResidual n) := by
  unfold rhoUResidual
  refine ib_append (ib_append (ib_append (ib_append (ib_sum (by simp [size])) (ib_sum (by simp [size]))) ?_) ?_) ?_
  · ibl
  · ibl
  · ibl

theorem sixn_le (hn : 2 ≤ n) : 6 * n ≤ (n + n) ^ 2 := by nlinarith

theorem rhoU_tryIdeal (hn : 2 ≤ n) {abort : Option Nat} {reject : Bool} :
    InBounds .rhoU n (tryIdeal n abort reject) := by
  have h6 := sixn_le hn
  unfold tryIdeal
  cases abort with
  | some m =>
    dsimp only
    ib <;> simp only [R, W, size, equations] <;> omega
  | none =>
    dsimp only
    refine ib_append (ib_append (ib_append ?_ ?_) ?_)
      (ib_append (ib_append (ib_append (ib_append ?_ ?_) (rhoU_residual (by omega))) ?_) ?_)
    all_goals (ib <;> simp only [R, W, size, equations] <;> omega)

theorem rhoU_init (hn : 2 ≤ n) {given it : Bool} {passes : List (Bool × Nat)} {abort : Option Nat} {reject : Bool} :
    InBounds .rhoU n (rhoUInit n given it passes abort reject) := by
  unfold rhoUInit
  refine ib_append (ib_append (ib_append ib_initBase (rhoU_residual (by omega))) (rhoU_tryIdeal hn)) ?_
  have h : 2 * n = equations .rhoU n := by simp [equations]; omega
  rw [h]
  exact ib_residualNorm

theorem rhoU_check (hn : 0 < n) : InBounds .rhoU n (rhoUCheck n) := by
  unfold rhoUCheck
  ibl

/-- Row `i` of a `2n` by `2n` matrix written as the code does. -/
theorem row_lt {i j : Nat} (hi : i < 2 * n) (hj : j < 2 * n) : i * 2 * n + j < (n + n) ^ 2 := by
  have h := cell_lt hi hj
  have e : i * 2 * n = i * (2 * n) := by ring
  have e2 : (n + n) ^ 2 = (2 * n) ^ 2 := by ring
  rw [e, e2]
  exact h

theorem rhoU_jacobian (hn : 2 ≤ n) : InBounds .rhoU n (rhoUJacobian n) := by
  have h6 := sixn_le hn
  unfold rhoUJacobian
  refine ib_append (ib_append (ib_append (ib_append ?_ ?_) ?_) ?_) ?_
  · ibl
  · ib
    simp only [W, size, equations]
    calc _ < 2 * n * (2 * n) := by assumption
      _ = _ := by ring
  · ib <;> simp only [W, size, equations] <;> omega
  · ib
    all_goals simp only [R, W, size, equations]
    · simp; omega
    · simpa using row_lt (n := n) (i := 2) (j := 0) (by omega) (by omega)
    · simp; omega
    · have := row_lt (n := n) (i := n) (j := n - 1) (by omega) (by omega)
      omega
    · simp; omega
    · simpa using row_lt (n := n) (i := n + 1) (j := 0) (by omega) (by omega)
    · simp; omega
    · have := row_lt (n := n) (i := 2 * n - 1) (j := n - 1) (by omega) (by omega)
      omega
    · simp; omega
    · exact row_lt (n := n) (i := 2) (j := n) (by omega) (by omega)
    · simp; omega
    · have := row_lt (n := n) (i := n) (j := 2 * n - 1) (by omega) (by omega)
      omega
    · simp; omega
    · exact row_lt (n := n) (i := n + 1) (j := n) (by omega) (by omega)
    · simp; omega
    · have := row_lt (n := n) (i := 2 * n - 1) (j := 2 * n - 1) (by omega) (by omega)
      omega
  · ib
    all_goals simp only [R, W, size, equations]
    all_goals first
      | exact row_lt (by omega) (by omega)
      | (rw [Nat.add_assoc]; exact row_lt (by omega) (by omega))
      | (simp; omega)

theorem rhoU_scaleDx {unstable : Nat → Bool} : InBounds .rhoU n (rhoUScaleDx n unstable) := by
  unfold rhoUScaleDx
  ibl

theorem rhoU_testUpdate (hn : 0 < n) {cache : Bool} : InBounds .rhoU n (rhoUTestUpdate n cache) := by
  have h : 2 * n = equations .rhoU n := by simp [equations]; omega
  unfold rhoUTestUpdate
  rw [h]
  refine ib_append (ib_append (ib_append ?_ ?_) (rhoU_residual hn)) ib_residualNorm
  · ibl
  · ibl

end rhoU

/-! ## All calls -/

theorem ib_call {s : Solver} {n : Nat} (hn : 0 < n) (h2 : s = .rhoU → 2 ≤ n) {exclude : Option Nat} {ms : Nat}
    (hms : ms < n) (c : Call) : InBounds s n (callCells s n exclude ms c) := by
  cases c <;> cases s <;> simp only [callCells]
  · exact rhoT_init hms
  · exact pt_init
  · exact fixedT_init hn
  · exact fixedP_init hn
  · exact rhoU_init (h2 rfl)
  · exact rhoT_check hn
  · unfold ptCheck
    ibl
  · exact fixedT_check hn
  · exact fixedP_check
  · exact rhoU_check hn
  · exact rhoT_jacobian hms
  · exact pt_jacobian
  · exact fixedT_jacobian
  · exact fixedP_jacobian
  · exact rhoU_jacobian (h2 rfl)
  · exact ib_solve
  · exact ib_solve
  · exact ib_solve
  · exact ib_solve
  · exact ib_solve
  · exact rhoT_scaleDx hms
  · exact pt_scaleDx
  · exact fixedT_scaleDx
  · exact fixedP_scaleDx
  · exact rhoU_scaleDx
  · exact rhoT_testUpdate hms
  · exact pt_testUpdate
  · exact fixedT_testUpdate hn
  · exact fixedP_testUpdate
  · exact rhoU_testUpdate hn
  · exact rhoT_fixup hms
  · exact ib_nil
  · exact ib_nil
  · exact ib_nil
  · exact ib_nil
  · exact ib_finalizeBase
  · exact pt_finalize
  · exact ib_finalizeBase
  · exact ib_finalizeBase
  · exact ib_finalizeBase

theorem nextMs_lt {n : Nat} (hn : 0 < n) {exclude : Option Nat} (he : ∀ x, exclude = some x → x < n) {ms : Nat}
    (c : Call) (h : ms < n ∨ ∃ a b p q d r x y, c = .init a b p q d r x y) : nextMs n exclude ms c < n := by
  cases c with
  | init a b p q d r x y =>
    simp only [nextMs]
    cases exclude with
    | none => exact pickMax_lt hn q
    | some x => exact he x rfl
  | fixup better =>
    have hm : ms < n := by
      rcases h with h | ⟨_, _, _, _, _, _, _, _, h⟩
      · exact h
      · exact absurd h (by simp)
    simp only [nextMs]
    split
    · exact hm
    · exact pickMax_lt hn better
  | check => simpa [nextMs] using h
  | jacobian => simpa [nextMs] using h
  | solve => simpa [nextMs] using h
  | scaleDx u => simpa [nextMs] using h
  | testUpdate b => simpa [nextMs] using h
  | finalize => simpa [nextMs] using h

theorem ib_run {s : Solver} {n : Nat} (hn : 0 < n) (h2 : s = .rhoU → 2 ≤ n) {exclude : Option Nat}
    (he : ∀ x, exclude = some x → x < n) : ∀ (cs : List Call) {ms : Nat}, ms < n →
      InBounds s n (runCells s n exclude ms cs)
  | [], _, _ => ib_nil
  | c :: cs, ms, hms => by
    rw [runCells]
    have h := nextMs_lt hn he c (Or.inl hms)
    exact ib_append (ib_call hn h2 h c) (ib_run hn h2 he cs h)

/-- C160: whatever values come up, and in whatever order the driver makes its calls after `Init`, a solver for
at least one material (two for RhoU) reads and writes only existing entries of its own scratch blocks and of
the caller's arrays. `ms₀` is what the memory of the member held before `Init`. The caller's index to exclude, if
any, must name a material. -/
theorem C160_in_bounds (s : Solver) {n : Nat} (hn : 0 < n) (h2 : s = .rhoU → 2 ≤ n) {exclude : Option Nat}
    (he : ∀ x, exclude = some x → x < n) (ms₀ : Nat) (given iterate fail reject : Bool) (passes : List (Bool × Nat))
    (better : Nat → Bool) (rounds : Nat) (abort : Option Nat) (cs : List Call) :
    ∀ a ∈ runCells s n exclude ms₀ (.init given iterate passes better fail rounds abort reject :: cs),
      a.idx < size s n a.arr := by
  have h := nextMs_lt hn he (ms := ms₀) (.init given iterate passes better fail rounds abort reject)
    (Or.inr ⟨_, _, _, _, _, _, _, _, rfl⟩)
  have hb := ib_append (ib_call (exclude := exclude) hn h2 h (.init given iterate passes better fail rounds abort reject))
    (ib_run hn h2 he cs h)
  unfold InBounds at hb
  exact hb

example : ∃ a ∈ runCells .rhoT 3 none 7 [.init true true [] (fun m => m == 1) false 0 none false, .jacobian],
    a = W .jacobian 8 := by
  refine ⟨W .jacobian 8, ?_, rfl⟩
  decide

/-! ## What is written -/

section written

theorem written_append (a : Arr) (t u : List Cell) : written a (t ++ u) = written a t ++ written a u := by
  simp [written]

theorem written_sum (a b : Arr) (k off : Nat) (sk : Option Nat) : written a (sumReads b k off sk) = [] := by
  unfold sumReads for0 written
  simp only [List.map_eq_nil_iff, List.filter_eq_nil_iff, List.mem_flatMap]
  rintro c ⟨i, _, hc⟩
  split at hc
  · simp at hc
  · simp at hc
    simp [hc, R]

theorem written_flatMap (a : Arr) {α : Type} (l : List α) (f : α → List Cell) :
    written a (l.flatMap f) = l.flatMap fun x => written a (f x) := by
  induction l with
  | nil => rfl
  | cons x l ih => rw [List.flatMap_cons, written_append, ih, List.flatMap_cons]

theorem written_for0 (a : Arr) (k : Nat) (f : Nat → List Cell) :
    written a (for0 k f) = (List.range k).flatMap fun m => written a (f m) := written_flatMap _ _ _

theorem written_forFrom (a : Arr) (lo k : Nat) (f : Nat → List Cell) :
    written a (forFrom lo k f) = (List.range' lo (k - lo)).flatMap fun m => written a (f m) :=
  written_flatMap _ _ _

theorem flatMap_one (l : List Nat) (g : Nat → Nat) : (l.flatMap fun m => [g m]) = l.map g := by
  induction l with
  | nil => rfl
  | cons x l ih => simp [List.flatMap_cons, ih]

theorem flatMap_nil' (l : List Nat) : (l.flatMap fun _ => ([] : List Nat)) = [] := by simp

theorem written_countLoop (a : Arr) {skip : Nat → Bool} {f : Nat → Nat → List Cell}
    (h : ∀ m c, written a (f m c) = [c]) : ∀ (l : List Nat) (c : Nat),
      written a (countLoop skip f l c) = List.range' c (l.filter fun m => !skip m).length
  | [], c => by simp [countLoop, written]
  | m :: l, c => by
    rw [countLoop]
    by_cases hm : skip m = true
    · rw [if_pos hm, written_countLoop a h l c]
      simp [hm]
    · have hm' : skip m = false := by simpa using hm
      rw [if_neg hm, written_append, h, written_countLoop a h l (c + 1)]
      simp [hm', List.range'_succ]

theorem filter_ms {n ms : Nat} (hms : ms < n) : ((List.range n).filter fun m => !(m == ms)).length = n - 1 := by
  have h1 : ((List.range n).filter fun m => m == ms).length = 1 := by
    rw [← List.countP_eq_length_filter]
    have h := List.count_eq_one_of_mem (List.nodup_range (n := n)) (List.mem_range.mpr hms)
    simpa [List.count] using h
  have h2 := List.length_eq_length_filter_add (l := List.range n) (fun m => m == ms)
  simp only [List.length_range] at h2
  omega

theorem range_eq (n : Nat) (hn : 0 < n) : List.range n = 0 :: List.range' 1 (n - 1) := by
  obtain ⟨k, rfl⟩ : ∃ k, n = k + 1 := ⟨n - 1, by omega⟩
  rw [List.range_eq_range', List.range'_succ]
  simp

theorem map_add_range (k a : Nat) : (List.range k).map (fun m => a + m) = List.range' a k := by
  simpa using (List.range'_eq_map_range (s := a) (n := k)).symm

/-- C160: `Residual` of every solver writes each entry of the residual exactly once, in order, and nothing else of
it. -/
theorem C160_residual_once (s : Solver) {n : Nat} (hn : 0 < n) {ms : Nat} (hms : ms < n) :
    written .residual (residualCells s n ms) = List.range (equations s n) := by
  cases s with
  | rhoT =>
    simp only [residualCells, rhoTResidual, equations]
    rw [written_append, written_append, written_sum,
      written_countLoop _ (fun m c => by simp [written, R, W]), filter_ms hms, range_eq n hn]
    simp [written, W]
  | pT =>
    simp only [residualCells, ptResidual, equations]
    rw [written_append, written_append, written_sum, written_sum]
    simp [written, W]
    rfl
  | fixedT =>
    simp only [residualCells, fixedTResidual, equations]
    rw [written_append, written_append, written_sum, written_for0, range_eq n hn, ← map_add_range, ← flatMap_one]
    simp [written, R, W]
  | fixedP =>
    simp only [residualCells, fixedPResidual, equations]
    rw [written_append, written_append, written_sum, written_for0, List.range_succ]
    simp [written, R, W]
  | rhoU =>
    simp only [residualCells, rhoUResidual, equations]
    rw [written_append, written_append, written_append, written_append, written_sum, written_sum, written_for0,
      written_forFrom]
    have e1 : ((List.range (n - 1)).flatMap fun m => written .residual [R .press (m + 1), R .press m, W .residual (2 + m)])
        = List.range' 2 (n - 1) := by
      rw [← map_add_range, ← flatMap_one]
      simp [written, R, W]
    have e2 : ((List.range' (n + 1) (2 * n - (n + 1))).flatMap fun m =>
        written .residual [R .temp (m - n), R .temp (m - n - 1), W .residual m]) = List.range' (n + 1) (n - 1) := by
      rw [show 2 * n - (n + 1) = n - 1 by omega]
      have : ∀ l : List Nat, (l.flatMap fun m =>
          written .residual [R .temp (m - n), R .temp (m - n - 1), W .residual m]) = l := by
        intro l
        induction l with
        | nil => rfl
        | cons x l ih =>
          rw [List.flatMap_cons, ih]
          simp [written, R, W]
      exact this _
    rw [e1, e2]
    have e3 : List.range (n + n) = [0, 1] ++ List.range' 2 (n - 1) ++ List.range' (n + 1) (n - 1) := by
      have e4 : n + 1 = 2 + 1 * (n - 1) := by omega
      have e5 : List.range' 2 (n - 1) ++ List.range' (n + 1) (n - 1) = List.range' 2 (n + n - 2) := by
        rw [e4, List.range'_append]
        congr 1
        omega
      rw [List.append_assoc, e5, List.range_eq_range', show n + n = (n + n - 2) + 1 + 1 by omega, List.range'_succ,
        List.range'_succ]
      simp
    rw [e3]
    simp [written, W]

example : written .residual (residualCells .rhoT 4 2) = [0, 1, 2, 3] := by decide

/-- C160: `Jacobian` writes every entry of the Jacobian, so `Solve` reads none that is left over. -/
theorem C160_jacobian_filled (s : Solver) {n : Nat} (exclude : Option Nat) (ms : Nat) :
    WritesAll s n .jacobian (callCells s n exclude ms .jacobian) := by
  intro i hi
  refine ⟨W .jacobian i, ?_, rfl, rfl, rfl⟩
  cases s with
  | rhoT =>
    simp only [callCells, rhoTJacobian, List.mem_append]
    refine Or.inl (Or.inl (Or.inl (Or.inr ?_)))
    exact List.mem_flatMap.mpr ⟨i, List.mem_range.mpr (by simpa [size, equations, pow_two] using hi), by simp⟩
  | pT =>
    simp only [size, equations] at hi
    simp only [callCells, ptJacobian, List.mem_append]
    right
    interval_cases i <;> simp
  | fixedT =>
    simp only [callCells, fixedTJacobian, List.mem_append]
    refine Or.inl (Or.inl (Or.inr ?_))
    exact List.mem_flatMap.mpr ⟨i, List.mem_range.mpr (by simpa [size, equations, pow_two] using hi), by simp⟩
  | fixedP =>
    simp only [callCells, fixedPJacobian, List.mem_append]
    refine Or.inl (Or.inl (Or.inr ?_))
    exact List.mem_flatMap.mpr ⟨i, List.mem_range.mpr (by simpa [size, equations, pow_two] using hi), by simp⟩
  | rhoU =>
    simp only [callCells, rhoUJacobian, List.mem_append]
    refine Or.inl (Or.inl (Or.inl (Or.inr ?_)))
    refine List.mem_flatMap.mpr ⟨i, List.mem_range.mpr ?_, by simp⟩
    have e : (n + n) ^ 2 = 2 * n * (2 * n) := by ring
    rw [← e]
    exact hi

theorem for0_writes {k i : Nat} (hi : i < k) {f : Nat → List Cell} {c : Cell} (hc : c ∈ f i) : c ∈ for0 k f :=
  List.mem_flatMap.mpr ⟨i, List.mem_range.mpr hi, hc⟩

theorem countLoop_mem {skip : Nat → Bool} {f : Nat → Nat → List Cell} {c : Cell} {m : Nat} (hs : skip m = false)
    (hc : ∀ i, c ∈ f m i) : ∀ {l : List Nat} {i : Nat}, m ∈ l → c ∈ countLoop skip f l i
  | k :: l, i, hm => by
    rw [countLoop]
    rcases List.mem_cons.mp hm with h | h
    · subst h
      rw [if_neg (by simp [hs])]
      exact List.mem_append_left _ (hc i)
    · split
      · exact countLoop_mem hs hc h
      · exact List.mem_append_right _ (countLoop_mem hs hc h)

/-- C160: one `TestUpdate` rewrites the volume fraction, density, energy, pressure and internal energy density of
every material, and, except for FixedT, the temperature. -/
theorem C160_update_complete (s : Solver) {n : Nat} (exclude : Option Nat) {ms : Nat} (hms : ms < n) (cache : Bool)
    {a : Arr} (ha : a ∈ [Arr.vfrac, .rho, .u, .sie, .press] ∨ (a = .temp ∧ s ≠ .fixedT)) :
    WritesAll s n a (callCells s n exclude ms (.testUpdate cache)) := by
  intro i hi
  refine ⟨W a i, ?_, rfl, rfl, rfl⟩
  have hin : i < n := by
    rcases ha with h | ⟨rfl, _⟩
    · simp only [List.mem_cons, List.not_mem_nil, or_false] at h
      rcases h with rfl | rfl | rfl | rfl | rfl <;> simpa [size] using hi
    · simpa [size] using hi
  cases s with
  | rhoT =>
    simp only [callCells, rhoTTestUpdate]
    by_cases hv : a = .vfrac
    · subst hv
      by_cases him : i = ms
      · subst him
        refine List.mem_append_left _ (List.mem_append_left _ (List.mem_append_left _ (List.mem_append_right _ ?_)))
        simp
      · refine List.mem_append_left _ (List.mem_append_left _ (List.mem_append_left _ (List.mem_append_left _
          (List.mem_append_left _ (List.mem_append_right _ ?_)))))
        exact countLoop_mem (m := i) (by simpa using him) (by simp) (List.mem_range.mpr hin)
    · refine List.mem_append_left _ (List.mem_append_left _ (List.mem_append_right _ (for0_writes hin ?_)))
      rcases ha with h | ⟨rfl, _⟩
      · simp only [List.mem_cons, List.not_mem_nil, or_false] at h
        rcases h with rfl | rfl | rfl | rfl | rfl <;> simp at hv ⊢
      · simp
  | pT =>
    simp only [callCells, ptTestUpdate]
    refine List.mem_append_left _ (List.mem_append_left _ (List.mem_append_right _ (for0_writes hin ?_)))
    rcases ha with h | ⟨rfl, _⟩
    · simp only [List.mem_cons, List.not_mem_nil, or_false] at h
      rcases h with rfl | rfl | rfl | rfl | rfl <;> simp
    · simp
  | fixedT =>
    simp only [callCells, fixedTTestUpdate]
    refine List.mem_append_left _ (List.mem_append_left _ (List.mem_append_right _ (for0_writes hin ?_)))
    rcases ha with h | ⟨_, h⟩
    · simp only [List.mem_cons, List.not_mem_nil, or_false] at h
      rcases h with rfl | rfl | rfl | rfl | rfl <;> simp
    · exact absurd rfl h
  | fixedP =>
    simp only [callCells, fixedPTestUpdate]
    refine List.mem_append_left _ (List.mem_append_left _ (List.mem_append_right _ (for0_writes hin ?_)))
    rcases ha with h | ⟨rfl, _⟩
    · simp only [List.mem_cons, List.not_mem_nil, or_false] at h
      rcases h with rfl | rfl | rfl | rfl | rfl <;> simp
    · simp
  | rhoU =>
    simp only [callCells, rhoUTestUpdate]
    refine List.mem_append_left _ (List.mem_append_left _ (List.mem_append_right _ (for0_writes hin ?_)))
    rcases ha with h | ⟨rfl, _⟩
    · simp only [List.mem_cons, List.not_mem_nil, or_false] at h
      rcases h with rfl | rfl | rfl | rfl | rfl <;> simp
    · simp

example : W .vfrac 2 ∈ callCells .rhoT 4 none 2 (.testUpdate true) ∧ W .temp 3 ∈ callCells .rhoT 4 none 2 (.testUpdate true) := by
  decide

end written

/-! ## The whole scratch memory, and what falls outside a block -/

/-- C160: a scratch block begins where the blocks before it end and is followed by the next, so an index inside
the block is an address inside the memory the caller was told to provide. -/
theorem C160_in_memory (s : Solver) (n : Nat) {a : Arr} {st i : Nat} (h : arrStart s n a = some st)
    (hi : i < size s n a) : st + i < requiredScratch s n := by
  cases s <;> cases a <;>
    simp [arrStart, carveOrder, assign, blocks, baseBlocks, neqOf] at h <;>
    simp only [size, equations, pow_two] at hi <;> (try simp at hi) <;>
    simp only [requiredScratch] <;> first | omega | nlinarith

example : arrStart .rhoU 3 .utemp = some (36 + 24 + 6 + 15) ∧ requiredScratch .rhoU 3 = 36 + 24 + 24 := by decide

/-- C160 violation: RhoU with one material. `Jacobian` writes six numbers into a Jacobian of four; the two others
are the first two of `dx`, which `Solve` overwrites next, so nothing outside the solver's memory is hit. But the
second row, the energy equation (written with 0 and 1), is overwritten by what is meant for the rows of the pressure
and temperature differences, which do not exist with one material. -/
theorem C160_rhoU_one_violated :
    W .jacobian 4 ∈ rhoUJacobian 1 ∧ W .jacobian 5 ∈ rhoUJacobian 1 ∧ size .rhoU 1 .jacobian = 4 ∧
    arrStart .rhoU 1 .dx = some 4 ∧
    ((written .jacobian (rhoUJacobian 1)).drop 4) = [0, 3, 4, 2, 4, 2, 5, 3, 5, 3] := by
  decide

/-- C160 violation: RhoT told to exclude a material that does not exist (`PORTABLE_REQUIRE` only looks in debug
builds). `Residual` then has one equation too many: it writes one past the residual, onto the internal energy of the
first material, and reads a pressure the caller never provided; every trial step writes a volume fraction past the
caller's array. -/
theorem C160_exclude_violated {n x : Nat} (hn : 0 < n) (hx : n ≤ x) (ms₀ : Nat) (given iterate fail reject : Bool)
    (passes : List (Bool × Nat)) (better : Nat → Bool) (rounds : Nat) (abort : Option Nat) (cache : Bool) :
    let t := runCells .rhoT n (some x) ms₀
      [.init given iterate passes better fail rounds abort reject, .testUpdate cache]
    W .residual n ∈ t ∧ R .press x ∈ t ∧ W .vfrac x ∈ t ∧
      size .rhoT n .residual = n ∧ size .rhoT n .press = n ∧ size .rhoT n .vfrac = n ∧
      arrStart .rhoT n .u = (arrStart .rhoT n .residual).map (· + n) := by
  have hcount : ((List.range n).filter fun m => !(m == x)).length = n := by
    rw [List.filter_eq_self.mpr]
    · simp
    · intro m hm
      have := List.mem_range.mp hm
      simp
      omega
  have hres : W .residual n ∈ rhoTResidual n x ∧ R .press x ∈ rhoTResidual n x := by
    constructor
    · have h1 : n ∈ written .residual (rhoTResidual n x) := by
        simp only [rhoTResidual]
        rw [written_append, written_append, written_sum,
          written_countLoop _ (fun m c => by simp [written, R, W]), hcount]
        refine List.mem_append_right _ ?_
        simp
        omega
      simp only [written, List.mem_map, List.mem_filter] at h1
      obtain ⟨c, ⟨hc, hc2⟩, hc3⟩ := h1
      have : c = W .residual n := by
        obtain ⟨a, i, w⟩ := c
        simp at hc2 hc3
        simp [W, hc2, hc3]
      exact this ▸ hc
    · refine List.mem_append_right _ (countLoop_mem (m := 0) ?_ (by simp) (List.mem_range.mpr hn))
      simp
      omega
  have hinit : ∀ c ∈ rhoTResidual n x, c ∈ runCells .rhoT n (some x) ms₀
      [.init given iterate passes better fail rounds abort reject, .testUpdate cache] := by
    intro c hc
    refine List.mem_append_left _ ?_
    simp only [callCells, rhoTInit, nextMs, Option.getD_some]
    exact List.mem_append_left _ (List.mem_append_left _ (List.mem_append_right _ hc))
  refine ⟨hinit _ hres.1, hinit _ hres.2, ?_, rfl, rfl, rfl, ?_⟩
  · refine List.mem_append_right _ (List.mem_append_left _ ?_)
    simp only [callCells, rhoTTestUpdate, nextMs, Option.getD_some]
    refine List.mem_append_left _ (List.mem_append_left _ (List.mem_append_left _ (List.mem_append_right _ ?_)))
    simp
  · simp [arrStart, carveOrder, assign, blocks, baseBlocks, neqOf]

example : W .residual 2 ∈ runCells .rhoT 2 (some 2) 0 [.init true false [] (fun _ => false) false 0 none false] := by
  decide

end Verif.PTE.Acc
