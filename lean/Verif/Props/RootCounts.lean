import Verif.Model.RootCounts
import Verif.Spec.RootCounts
import Verif.Props.RootFind
import Mathlib.Tactic.NormNum
import Mathlib.Tactic.IntervalCases

set_option linter.unusedSectionVars false

/-! # C142: the statistics a root finder records describe the iterations it made -/

namespace Verif.RootFind

open Verif.RootCountSpec

variable {K : Type*} [Field K] [LinearOrder K] [IsStrictOrderedRing K]

theorem record_eq (c : Nat → Nat) (i : Nat) :
    record c i = some (fun j => if j = min i 14 then c j + 1 else c j) := by
  unfold record increment
  by_cases h : i < nbins
  · have e : min i 14 = i := by simp only [nbins] at h; omega
    rw [if_pos h, if_pos h, e]
  · have e : min i 14 = more := by simp only [nbins] at h; simp only [more, nbins]; omega
    rw [if_neg h, if_pos (by simp [more, nbins]), e]

/-- How many of the calls record the bin `j`. -/
def binCount (dv : K → K → K) (xs : List (Call K)) (j : Nat) : Nat :=
  xs.countP fun x => decide ((x.iters dv).map (fun i => min i 14) = some j)

theorem runCalls_eq (dv : K → K → K) (xs : List (Call K)) : ∀ c : Nat → Nat,
    runCalls dv c xs = some (fun j => c j + binCount dv xs j) := by
  induction xs with
  | nil => intro c; simp [runCalls, binCount]
  | cons x xs ih =>
    intro c
    rw [runCalls, runCall]
    cases h : x.iters dv with
    | none =>
      simp only [Option.bind_some]
      rw [ih]
      congr 1; funext j
      simp [binCount, h]
    | some i =>
      simp only [record_eq, Option.bind_some]
      rw [ih]
      congr 1; funext j
      simp only [binCount, List.countP_cons, h, Option.map_some, Option.some.injEq, decide_eq_true_eq]
      by_cases e : j = min i 14
      · rw [if_pos e, if_pos e.symm]; omega
      · rw [if_neg e, if_neg (fun e' => e e'.symm)]; omega

theorem foldl_add (l : List Nat) (c : Nat → Nat) : ∀ t : K,
    l.foldl (fun t i => t + (c i : K)) t = t + ((l.map c).sum : Nat) := by
  induction l with
  | nil => intro t; simp
  | cons a l ih => intro t; rw [List.foldl_cons, ih]; simp only [List.map_cons, List.sum_cons, Nat.cast_add]; ring

theorem indicator_sum (o : Option Nat) :
    ((List.range 15).map fun j => if o.map (fun i => min i 14) = some j then 1 else 0).sum = if o.isSome then 1 else 0 := by
  cases o with
  | none =>
    have : (fun j : Nat => if (none : Option Nat).map (fun i => min i 14) = some j then 1 else 0) = fun _ => 0 := by
      funext j; simp
    rw [this]; rfl
  | some i =>
    have hlt : min i 14 < 15 := by omega
    simp only [Option.map_some, Option.some.injEq, Option.isSome_some, if_true]
    generalize min i 14 = m at hlt
    interval_cases m <;> rfl

theorem sum_add' (l : List Nat) (g h : Nat → Nat) :
    (l.map fun j => g j + h j).sum = (l.map g).sum + (l.map h).sum := by
  induction l with
  | nil => rfl
  | cons a l ihl => simp only [List.map_cons, List.sum_cons, ihl]; omega

theorem sum_bins (dv : K → K → K) (xs : List (Call K)) :
    ((List.range 15).map (binCount dv xs)).sum = xs.countP fun x => (x.iters dv).isSome := by
  induction xs with
  | nil =>
    have : binCount dv ([] : List (Call K)) = fun _ => 0 := by funext j; simp [binCount]
    rw [this]; rfl
  | cons x xs ih =>
    have e : binCount dv (x :: xs) = fun j => binCount dv xs j +
        (if (x.iters dv).map (fun i => min i 14) = some j then 1 else 0) := by
      funext j
      simp [binCount, List.countP_cons]
    rw [e, sum_add', ih, List.countP_cons, indicator_sum]

/-- C142: after a reset and any sequence of root-finder calls sharing the counters, no increment was out of bounds,
bin `i < 14` holds the number of calls that took exactly `i` iterations, the last bin those that took 14 or more,
`total()` is the number of calls that recorded something (plus the `1e-20` it starts from), and memory outside the
array is untouched. -/
theorem C142_histogram (dv : K → K → K) (c0 : Nat → Nat) (xs : List (Call K)) :
    ∃ c, runCalls dv (countsReset c0) xs = some c ∧
      (∀ i, i < 14 → c i = xs.countP fun x => decide (x.iters dv = some i)) ∧
      c 14 = (xs.countP fun x => decide (∃ i, x.iters dv = some i ∧ 14 ≤ i)) ∧
      (∀ i, 15 ≤ i → c i = c0 i) ∧
      (countsTotal c : K) = 1 / 10 ^ 20 + (xs.countP fun x => (x.iters dv).isSome : ℕ) := by
  refine ⟨_, runCalls_eq dv xs _, fun i hi => ?_, ?_, fun i hi => ?_, ?_⟩
  · have h0 : countsReset c0 i = 0 := by rw [countsReset, if_pos (by simp only [nbins]; omega)]
    simp only [h0, zero_add, binCount]
    congr 1; funext x
    cases x.iters dv with
    | none => simp
    | some k => simp only [Option.map_some, Option.some.injEq]; congr 1; simp only [eq_iff_iff]; omega
  · have h0 : countsReset c0 14 = 0 := by rw [countsReset, if_pos (by simp [nbins])]
    simp only [h0, zero_add, binCount]
    congr 1; funext x
    cases x.iters dv with
    | none => simp
    | some k =>
      simp only [Option.map_some, Option.some.injEq, exists_eq_left']
      congr 1; simp only [eq_iff_iff]; omega
  · have h0 : countsReset c0 i = c0 i := by rw [countsReset, if_neg (by simp only [nbins]; omega)]
    have : binCount dv xs i = 0 := by
      rw [binCount, List.countP_eq_zero]
      intro x _
      cases x.iters dv with
      | none => simp
      | some k => simp only [Option.map_some, Option.some.injEq, decide_eq_true_eq]; omega
    simp only [h0, this, add_zero]
  · rw [countsTotal, foldl_add]
    congr 2
    rw [← sum_bins]
    refine congrArg List.sum (List.map_congr_left fun i hi => ?_)
    have : i < nbins := List.mem_range.1 hi
    rw [countsReset, if_pos this, zero_add]

/-- C142: a call records nothing exactly when it is a `bisect` call or a `regula_falsi` call that returns without a
root (no bracket found). -/
theorem C142_recorded (dv : K → K → K) (x : Call K)
    (hx : ∀ f yt g a b xt yl, x = .regulaFalsi f yt g a b xt yl → 0 ≤ xt) :
    x.iters dv = none ↔ (∃ f yt g x0 x1 xt, x = .bisect f yt g x0 x1 xt) ∨
      ∃ f yt g a b xt yl, x = .regulaFalsi f yt g a b xt yl ∧
        regulaFalsi 1000 f yt g a b xt yl = some (⟨.fail, none⟩, none) := by
  cases x with
  | regulaFalsi f yt g a b xt yl =>
    have h0 := hx f yt g a b xt yl rfl
    have key : (∃ r s, regulaFalsi 1000 f yt g a b xt yl = some (r, some s)) ∨
        regulaFalsi 1000 f yt g a b xt yl = some (⟨.fail, none⟩, none) := by
      unfold regulaFalsi
      cases hb : initBracket (fun x => f x - yt) g a b with
      | none => right; simp only [hb]
      | some br =>
        left
        obtain ⟨t, ht⟩ := rfLoop_terminates (func := fun x => f x - yt) (sign := (rfStart br).1) (ytol := yl) h0 1000
          (rfStart br).2 (by simp [rfStart])
        simp only [hb, ht]
        exact ⟨_, _, rfl⟩
    constructor
    · intro h
      right
      rcases key with ⟨r, s, e⟩ | e
      · simp [Call.iters, e] at h
      · exact ⟨f, yt, g, a, b, xt, yl, rfl, e⟩
    · rintro (⟨f', yt', g', x0, x1, xt', h⟩ | ⟨f', yt', g', a', b', xt', yl', h, e⟩)
      · simp at h
      · simp only [Call.regulaFalsi.injEq] at h
        obtain ⟨rfl, rfl, rfl, rfl, rfl, rfl, rfl⟩ := h
        simp [Call.iters, e]
  | newton f yt g a b yl => simp [Call.iters]
  | secant f yt g x0 x1 xt yl => simp [Call.iters]
  | findRoot f yt g x0 x1 xt yl =>
    simp only [Call.iters]
    split_ifs <;> simp
  | bisect f yt g x0 x1 xt => simp [Call.iters]

theorem nrIter_spec (dv : K → K → K) (f : K → K × K) (yt a b yl g : K) : ∀ n i : Nat,
    (∀ j, j < i → ¬ NewtonEnds dv f yt a b yl (newtonSeq dv f yt a b g j)) →
    FirstOr (fun j => NewtonEnds dv f yt a b yl (newtonSeq dv f yt a b g j)) (i + n)
      (nrIter dv f yt a b yl n i (newtonSeq dv f yt a b g i)) := by
  intro n
  induction n with
  | zero => intro i h; exact ⟨le_rfl, h, fun h' => absurd h' (by simp [nrIter])⟩
  | succ n ih =>
    intro i h
    unfold nrIter
    simp only
    split_ifs with h1 h2
    · exact ⟨by omega, h, fun _ => Or.inl h1⟩
    · exact ⟨by omega, h, fun _ => Or.inr h2⟩
    · have := ih (i + 1) (fun j hj => by
        rcases Nat.lt_succ_iff_lt_or_eq.mp hj with hj | rfl
        · exact h j hj
        · exact fun he => he.elim h1 h2)
      rw [show i + (n + 1) = i + 1 + n by omega]
      exact this

/-- C142: the number a `newton_raphson` call records is the index of the first Newton iterate at which the iteration
ends, 100 when there is none before. -/
theorem C142_newton_iterations (dv : K → K → K) (f : K → K × K) (yt g a b yl : K) (k : Nat) :
    (Call.newton f yt g a b yl).iters dv = some k ↔
      FirstOr (fun j => NewtonEnds dv f yt a b yl (newtonSeq dv f yt a b g j)) 100 k := by
  have h := nrIter_spec dv f yt a b yl g 100 0 (fun j hj => absurd hj (Nat.not_lt_zero _))
  rw [zero_add] at h
  simp only [Call.iters, Option.some.injEq]
  constructor
  · rintro rfl; exact h
  · intro h'; exact h.unique h'

theorem nrLoop_spec (dv : K → K → K) (f : K → K × K) (yt a b yl : K) : ∀ (n i : Nat) (x : K),
    (nrLoop dv f yt a b yl n x).2 = none ↔ nrIter dv f yt a b yl n i x = i + n := by
  intro n
  induction n with
  | zero => intro i x; simp [nrLoop, nrIter]
  | succ n ih =>
    intro i x
    unfold nrLoop nrIter
    simp only
    split_ifs with h1 h2
    · simp
    · simp
    · rw [ih (i + 1)]
      have e : i + 1 + n = i + (n + 1) := by omega
      rw [e]

theorem nrIter_le (dv : K → K → K) (f : K → K × K) (yt a b yl : K) : ∀ (n i : Nat) (x : K),
    nrIter dv f yt a b yl n i x ≤ i + n := by
  intro n
  induction n with
  | zero => intro i x; simp [nrIter]
  | succ n ih =>
    intro i x
    unfold nrIter
    simp only
    split_ifs
    · omega
    · omega
    · have := ih (i + 1) (max (min (x - dv ((f x).1 - yt) (f x).2) b) a); omega

/-- C142: a `newton_raphson` call that may end at a bound is reported as a failure exactly when it records 100. -/
theorem C142_newton_failed (dv : K → K → K) (f : K → K × K) (yt g a b yl : K) :
    (newtonRaphson dv f yt g a b yl false).1 = .fail ↔ (Call.newton f yt g a b yl).iters dv = some 100 := by
  have h := nrLoop_spec dv f yt a b yl 100 0 g
  rw [zero_add] at h
  simp only [Call.iters, Option.some.injEq, ← h, newtonRaphson]
  cases hh : (nrLoop dv f yt a b yl 100 g).2 with
  | none => simp
  | some s => cases s <;> simp

theorem secantIter_spec (dv : K → K → K) (f : K → K) (yt x0 x1 xt g : K) : ∀ n i : Nat,
    (∀ j, j < i → ¬ |(secantStep dv f yt x0 x1 xt)^[j + 1] g - (secantStep dv f yt x0 x1 xt)^[j] g| /
      (|(secantStep dv f yt x0 x1 xt)^[j + 1] g| + xt) < xt) →
    ∃ k, secantIter dv f yt x0 x1 xt n i ((secantStep dv f yt x0 x1 xt)^[i] g) = k + 1 ∧
      FirstOr (fun j => |(secantStep dv f yt x0 x1 xt)^[j + 1] g - (secantStep dv f yt x0 x1 xt)^[j] g| /
      (|(secantStep dv f yt x0 x1 xt)^[j + 1] g| + xt) < xt) (i + n) k ∧
      (secantLoop dv f yt x0 x1 xt n ((secantStep dv f yt x0 x1 xt)^[i] g, g)).1 =
        (secantStep dv f yt x0 x1 xt)^[min (k + 1) (i + n)] g := by
  set S := secantStep dv f yt x0 x1 xt with hS
  intro n
  induction n with
  | zero =>
    intro i h
    exact ⟨i, rfl, ⟨le_rfl, h, fun h' => absurd h' (by omega)⟩, by simp [secantLoop]⟩
  | succ n ih =>
    intro i h
    have hstep : S (S^[i] g) = S^[i + 1] g := (Function.iterate_succ_apply' S i g).symm
    unfold secantIter
    simp only [← hS, hstep]
    split_ifs with h1
    · refine ⟨i, rfl, ⟨by omega, h, fun _ => h1⟩, ?_⟩
      unfold secantLoop
      simp only [← hS, hstep, if_pos h1]
      rw [min_eq_left (by omega)]
    · obtain ⟨k, e1, e2, e3⟩ := ih (i + 1) (fun j hj => by
        rcases Nat.lt_succ_iff_lt_or_eq.mp hj with hj | rfl
        · exact h j hj
        · exact h1)
      rw [show i + (n + 1) = i + 1 + n by omega]
      refine ⟨k, e1, e2, ?_⟩
      rw [← e3]
      have hind : ∀ (m : Nat) (x y y' : K), (secantLoop dv f yt x0 x1 xt m (x, y)).1 =
          (secantLoop dv f yt x0 x1 xt m (x, y')).1 := by
        intro m x y y'
        cases m with
        | zero => rfl
        | succ m => rfl
      conv_lhs => unfold secantLoop
      simp only [← hS, hstep, if_neg h1]
      exact hind n _ _ _

/-- C142: the number a `secant` call records is the number of secant updates after which the relative change first fell
below the tolerance — 1001 when 1000 updates did not — and the value returned is the iterate after those updates. -/
theorem C142_secant_iterations (dv : K → K → K) (f : K → K) (yt g x0 x1 xt yl : K) :
    let x := fun j => (secantStep dv f yt x0 x1 xt)^[j] g
    ∃ k, (Call.secant f yt g x0 x1 xt yl).iters dv = some (k + 1) ∧
      FirstOr (fun j => |x (j + 1) - x j| / (|x (j + 1)| + xt) < xt) 1000 k ∧
      (secant dv f yt g x0 x1 xt yl).2 = x (min (k + 1) 1000) := by
  intro x
  obtain ⟨k, e1, e2, e3⟩ := secantIter_spec dv f yt x0 x1 xt g 1000 0 (fun j hj => absurd hj (Nat.not_lt_zero _))
  rw [zero_add] at e2 e3
  exact ⟨k, by simpa [Call.iters] using e1, e2, e3⟩

/-- C142: a `regula_falsi` call that found a bracket records a number of at most 1000, and exactly 1000 when it reports
failure. -/
theorem C142_regulaFalsi_failed (dv : K → K → K) (f : K → K) (yt g a b xt yl : K) (k : Nat)
    (h : (Call.regulaFalsi f yt g a b xt yl).iters dv = some k) :
    ∃ r s, regulaFalsi 1000 f yt g a b xt yl = some (r, some s) ∧ (r.status = .fail ↔ k = 1000) ∧
      r.xroot = some ((s.a + s.b) / 2) := by
  revert h
  simp only [Call.iters]
  unfold regulaFalsi
  cases hb : initBracket (fun x => f x - yt) g a b with
  | none => simp [hb]
  | some br =>
    simp only [hb]
    cases hl : rfLoop (fun x => f x - yt) (rfStart br).1 xt yl 1000 (rfStart br).2 with
    | none => simp
    | some s =>
      simp only [Option.some.injEq]
      rintro rfl
      refine ⟨_, s, rfl, ?_, rfl⟩
      dsimp only
      split_ifs with h' <;> simp [h']

/-- Non-vacuity: two calls, one that converges at once and one that takes a step, fill bins 0 and 1. -/
example : ∃ c, runCalls (fun x y => x / y) (countsReset fun _ => 7)
    [Call.newton (fun x : ℚ => (x, 1)) 1 1 0 2 (1 / 10), Call.newton (fun x : ℚ => (x, 1)) 1 (1 / 2) 0 2 (1 / 10)] = some c ∧
      c 0 = 1 ∧ c 1 = 1 ∧ c 14 = 0 ∧ c 15 = 7 := by
  obtain ⟨c, h1, h2, h3, h4, -⟩ := C142_histogram (K := ℚ) (fun x y => x / y) (fun _ => 7)
    [Call.newton (fun x : ℚ => (x, 1)) 1 1 0 2 (1 / 10), Call.newton (fun x : ℚ => (x, 1)) 1 (1 / 2) 0 2 (1 / 10)]
  have cnt : ∀ (p : Call ℚ → Bool) (x y : Call ℚ), [x, y].countP p = (if p y then 1 else 0) + (if p x then 1 else 0) := by
    intro p x y; simp [List.countP_cons]
  have e1 : (Call.newton (fun x : ℚ => (x, 1)) 1 1 0 2 (1 / 10)).iters (fun x y => x / y) = some 0 := by
    rw [C142_newton_iterations]
    refine ⟨by norm_num, fun j hj => absurd hj (Nat.not_lt_zero _), fun _ => Or.inl ?_⟩
    simp only [newtonSeq]
    norm_num
  have e2 : (Call.newton (fun x : ℚ => (x, 1)) 1 (1 / 2) 0 2 (1 / 10)).iters (fun x y => x / y) = some 1 := by
    rw [C142_newton_iterations]
    refine ⟨by norm_num, fun j hj => ?_, fun _ => Or.inl ?_⟩
    · obtain rfl : j = 0 := by omega
      simp only [newtonSeq, NewtonEnds]
      norm_num [abs_of_pos, abs_of_neg]
    · simp only [newtonSeq]
      norm_num
  refine ⟨c, h1, ?_, ?_, ?_, h4 15 le_rfl⟩
  · rw [h2 0 (by norm_num)]; rw [cnt, e1, e2]; simp
  · rw [h2 1 (by norm_num)]; rw [cnt, e1, e2]; simp
  · rw [h3]; rw [cnt, e1, e2]; simp

end Verif.RootFind
