import Verif.Props.Eos.Eospac

set_option linter.unusedSectionVars false

/-! # EOSPAC: several threads query the same object -/

namespace Verif.Eospac

open Verif.Mods Verif.Robust Verif.Spec.Eospac

universe u
variable {K : Type u} [Field K] [LinearOrder K] [IsStrictOrderedRing K] {α β : Type u}

/-! ## A thread running alone -/

theorem run_bind (T : Tabs K) (p : Prog K α) (f : α → Prog K β) (s : Sess K) :
    (p >>= f).run T s = (f (p.run T s).1).run T (p.run T s).2 := by
  change (Prog.bind p f).run T s = _
  induction p generalizing s with
  | done a => rfl
  | call a k ih =>
    rw [Prog.bind, Prog.run, Prog.run]
    exact ih _ _

theorem run_pure (T : Tabs K) (a : α) (s : Sess K) : (pure a : Prog K α).run T s = (a, s) := rfl

theorem st_bind (m : StateM (Sess K) α) (f : α → StateM (Sess K) β) (s : Sess K) :
    (m >>= f) s = f (m s).1 (m s).2 := rfl

theorem st_pure (a : α) (s : Sess K) : (pure a : StateM (Sess K) α) s = (a, s) := rfl

theorem run_sets (T : Tabs K) (t : Tid) (os : List (Opt × K)) (p : Prog K α) (s : Sess K) :
    (Prog.calls (os.map (fun o => .set t o.1 o.2)) p).run T s = p.run T (setOpts s t os) := by
  induction os generalizing s with
  | nil => rfl
  | cons o os ih =>
    simp only [List.map_cons, Prog.calls, Prog.run]
    rw [ih]; rfl

theorem run_resets (T : Tabs K) (t : Tid) (os : List (Opt × K)) (p : Prog K α) (s : Sess K) :
    (Prog.calls (os.map (fun o => .reset t o.1)) p).run T s = p.run T (resetOpts s t os) := by
  induction os generalizing s with
  | nil => rfl
  | cons o os ih =>
    simp only [List.map_cons, Prog.calls, Prog.run]
    rw [ih]; rfl

theorem run_interpP (T : Tabs K) (t : Tid) (os : List (Opt × K)) (x y : K) (s : Sess K) :
    (interpP t os x y).run T s = safeInterp T t os x y s := by
  unfold interpP safeInterp
  rw [run_sets, Prog.run, run_resets]
  rfl

/-- The program, run alone, does what the state transformer does. -/
def Sim (T : Tabs K) (p : Prog K α) (m : StateM (Sess K) α) : Prop := ∀ s, p.run T s = m s

theorem sim_bind (T : Tabs K) {p : Prog K α} {m : StateM (Sess K) α} {f : α → Prog K β}
    {h : α → StateM (Sess K) β} (hp : Sim T p m) (hf : ∀ a, Sim T (f a) (h a)) :
    Sim T (p >>= f) (m >>= h) := by
  intro s
  rw [run_bind, hp s, hf]
  rfl

theorem sim_pure (T : Tabs K) (a : α) : Sim T (pure a) (pure a) := fun _ => rfl

theorem sim_fill (T : Tabs K) (o : Flags) (v : Thermo K) :
    Sim T (fillBody interpP o v) (fillBody (safeInterp T) o v) := by
  have hi : ∀ t os (x y : K), Sim T (interpP t os x y) (safeInterp T t os x y) := fun t os x y =>
    run_interpP T t os x y
  unfold fillBody
  refine sim_bind T ?_ (fun R => sim_bind T ?_ (fun Tt => sim_bind T ?_
    (fun e => sim_bind T ?_ (fun p => sim_pure T _))))
  · unfold fillDensity
    split_ifs
    · exact sim_bind T (hi _ _ _ _) (fun _ => sim_pure T _)
    · exact sim_pure T _
  · generalize (if o.rho = true then R else v.rho) = rho'
    unfold fillTemp
    split_ifs
    · exact sim_bind T (sim_bind T (hi _ _ _ _) (fun _ => sim_pure T _)) (fun _ => sim_pure T _)
    · exact sim_bind T (hi _ _ _ _) (fun _ => sim_pure T _)
    · exact sim_pure T _
  · unfold lookIf
    split_ifs
    · exact hi _ _ _ _
    · exact sim_pure T _
  · unfold lookIf
    split_ifs
    · exact hi _ _ _ _
    · exact sim_pure T _

/-- C107: the sequence of library calls of an operation, made without interruption from any state, does what the
operation does. -/
theorem C107_alone (σ : K) (T : Tabs K) (g : Thermo K) (c : Call K) (s : Sess K) :
    (c.run σ interpP g : Prog K (List K)).run T s = (c.run σ (safeInterp T) g : StateM (Sess K) (List K)) s := by
  have hi : ∀ t os (x y : K), Sim T (interpP t os x y) (safeInterp T t os x y) := fun t os x y =>
    run_interpP T t os x y
  have ht : ∀ a b : K, Sim T (tRE interpP a b) (tRE (safeInterp T) a b) := fun a b =>
    sim_bind T (hi _ _ _ _) (fun _ => sim_pure T _)
  have hs : ∀ a b : K, Sim T (sRT interpP a b) (sRT (safeInterp T) a b) := fun a b =>
    sim_bind T (hi _ _ _ _) (fun _ => sim_pure T _)
  have hg : ∀ a b : K, Sim T (gRT σ interpP a b) (gRT σ (safeInterp T) a b) := fun a b =>
    sim_bind T (hi _ _ _ _) (fun _ => sim_bind T (hi _ _ _ _) (fun _ => sim_pure T _))
  have hf : ∀ o v (f : Thermo K → K), Sim T (do let r ← fillBody interpP o v; return f r)
      (do let r ← fillBody (safeInterp T) o v; return f r) := fun o v f =>
    sim_bind T (sim_fill T o v) (fun _ => sim_pure T _)
  revert s
  change Sim T (c.run σ interpP g) (c.run σ (safeInterp T) g)
  cases c with
  | query k a b =>
    refine sim_bind T ?_ (fun _ => sim_pure T _)
    cases k
    · exact ht a b
    · exact hf _ _ _
    · exact sim_bind T (hi _ _ _ _) (fun _ => sim_pure T _)
    · exact sim_bind T (hi _ _ _ _) (fun _ => sim_pure T _)
    · exact hs a b
    · exact sim_bind T (ht a b) (fun _ => hs _ _)
    · exact hf _ _ _
    · exact sim_bind T (ht a b) (fun _ => hf _ _ _)
    · exact hf _ _ _
    · exact sim_bind T (ht a b) (fun _ => hf _ _ _)
    · exact hg a b
    · exact sim_bind T (ht a b) (fun _ => hg _ _)
  | minE u rho =>
    exact sim_bind T (sim_bind T (hi _ _ _ _) (fun _ => sim_pure T _)) (fun _ => sim_pure T _)
  | fill o v => exact sim_bind T (sim_fill T o v) (fun _ => sim_pure T _)
  | rePT p t =>
    exact sim_bind T (sim_bind T (hi _ _ _ _) (fun _ => sim_bind T (hi _ _ _ _) (fun _ => sim_pure T _)))
      (fun _ => sim_pure T _)
  | ptd rho t =>
    exact sim_bind T (sim_bind T (hi _ _ _ _) (fun _ => sim_bind T (hi _ _ _ _) (fun _ => sim_pure T _)))
      (fun _ => sim_pure T _)

/-! ## Which calls an operation makes -/

/-- Every library call the program can make satisfies `P`. -/
def Prog.All (P : Act K → Prop) : Prog K α → Prop
  | .done _ => True
  | .call a k => P a ∧ ∀ r, (k r).All P

theorem all_bind (P : Act K → Prop) (p : Prog K α) (f : α → Prog K β) (hp : p.All P)
    (hf : ∀ a, (f a).All P) : (p >>= f).All P := by
  change (Prog.bind p f).All P
  induction p with
  | done a => exact hf a
  | call a k ih => exact ⟨hp.1, fun r => ih r (hp.2 r)⟩

theorem all_pure (P : Act K → Prop) (a : α) : (pure a : Prog K α).All P := trivial

theorem all_calls (P : Act K → Prop) (as : List (Act K)) (p : Prog K α) (h : ∀ a ∈ as, P a) (hp : p.All P) :
    (Prog.calls as p).All P := by
  induction as with
  | nil => exact hp
  | cons a as ih =>
    exact ⟨h a (by simp), fun _ => ih (fun b hb => h b (by simp [hb]))⟩

/-- The table on which an operation sets options, if any. -/
def Call.optTable : Call K → Option Tid
  | .query .pRE _ _ => some .PofRE
  | .minE _ _ => some .EcofD
  | _ => none

/-- The tables an operation may look at. -/
def Call.Reads (c : Call K) (t : Tid) : Prop := (t ≠ .PofRE ∧ t ≠ .EcofD) ∨ c.optTable = some t

/-- The library calls an operation may make: look at its tables, change options of its option table. -/
def Call.May (c : Call K) : Act K → Prop
  | .look t _ _ => c.Reads t
  | .set t _ _ => c.optTable = some t
  | .reset t _ => c.optTable = some t

theorem all_interpP (c : Call K) (t : Tid) (os : List (Opt × K)) (x y : K) (h : c.Reads t)
    (h2 : os ≠ [] → c.optTable = some t) : (interpP t os x y : Prog K (Res K)).All c.May := by
  refine all_calls _ _ _ ?_ ⟨h, fun r => all_calls _ _ _ ?_ trivial⟩ <;>
  · intro a ha
    simp only [List.mem_map] at ha
    obtain ⟨o, ho, rfl⟩ := ha
    exact h2 (List.ne_nil_of_mem ho)

theorem all_plain (c : Call K) (t : Tid) (x y : K) (h : c.Reads t) :
    (interpP t [] x y : Prog K (Res K)).All c.May := all_interpP c t [] x y h (fun h => absurd rfl h)

theorem all_fill (c : Call K) (o : Flags) (v : Thermo K) : (fillBody interpP o v : Prog K (Thermo K)).All c.May := by
  have hr : ∀ t, t ≠ .PofRE → t ≠ .EcofD → c.Reads t := fun t h1 h2 => Or.inl ⟨h1, h2⟩
  have hp : ∀ (t : Tid) (x y : K), t ≠ .PofRE → t ≠ .EcofD →
      (interpP t [] x y : Prog K (Res K)).All c.May := fun t x y h1 h2 => all_plain c t x y (hr t h1 h2)
  unfold fillBody
  refine all_bind _ _ _ ?_ (fun R => all_bind _ _ _ ?_ (fun Tt => all_bind _ _ _ ?_
    (fun e => all_bind _ _ _ ?_ (fun p => all_pure _ _))))
  · unfold fillDensity
    split_ifs
    · exact all_bind _ _ _ (hp _ _ _ (by decide) (by decide)) (fun _ => trivial)
    · trivial
  · generalize (if o.rho = true then R else v.rho) = rho'
    unfold fillTemp
    split_ifs
    · exact all_bind _ _ _ (all_bind _ _ _ (hp _ _ _ (by decide) (by decide)) (fun _ => trivial))
        (fun _ => trivial)
    · exact all_bind _ _ _ (hp _ _ _ (by decide) (by decide)) (fun _ => trivial)
    · trivial
  · unfold lookIf
    split_ifs
    · exact hp _ _ _ (by decide) (by decide)
    · trivial
  · unfold lookIf
    split_ifs
    · exact hp _ _ _ (by decide) (by decide)
    · trivial

theorem all_run (σ : K) (g : Thermo K) (c : Call K) :
    (c.run σ interpP g : Prog K (List K)).All c.May := by
  have hp : ∀ (c : Call K) (t : Tid) (x y : K), t ≠ .PofRE → t ≠ .EcofD →
      (interpP t [] x y : Prog K (Res K)).All c.May := fun c t x y h1 h2 =>
    all_plain c t x y (Or.inl ⟨h1, h2⟩)
  have ht : ∀ (c : Call K) (a b : K), (tRE interpP a b : Prog K K).All c.May := fun c a b =>
    all_bind _ _ _ (hp _ _ _ _ (by decide) (by decide)) (fun _ => trivial)
  have hs : ∀ (c : Call K) (a b : K), (sRT interpP a b : Prog K K).All c.May := fun c a b =>
    all_bind _ _ _ (hp _ _ _ _ (by decide) (by decide)) (fun _ => trivial)
  have hg : ∀ (c : Call K) (a b : K), (gRT σ interpP a b : Prog K K).All c.May := fun c a b =>
    all_bind _ _ _ (hp _ _ _ _ (by decide) (by decide))
      (fun _ => all_bind _ _ _ (hp _ _ _ _ (by decide) (by decide)) (fun _ => trivial))
  have hf : ∀ (c : Call K) o v (f : Thermo K → K),
      (do let r ← fillBody interpP o v; return f r : Prog K K).All c.May := fun c o v f =>
    all_bind _ _ _ (all_fill c o v) (fun _ => trivial)
  cases c with
  | query k a b =>
    refine all_bind _ _ _ ?_ (fun _ => trivial)
    cases k
    · exact ht _ a b
    · exact hf _ _ _ _
    · exact all_bind _ _ _ (hp _ _ _ _ (by decide) (by decide)) (fun _ => trivial)
    · exact all_bind _ _ _ (all_interpP _ _ _ _ _ (Or.inr rfl) (fun _ => rfl)) (fun _ => trivial)
    · exact hs _ a b
    · exact all_bind _ _ _ (ht _ a b) (fun _ => hs _ _ _)
    · exact hf _ _ _ _
    · exact all_bind _ _ _ (ht _ a b) (fun _ => hf _ _ _ _)
    · exact hf _ _ _ _
    · exact all_bind _ _ _ (ht _ a b) (fun _ => hf _ _ _ _)
    · exact hg _ a b
    · exact all_bind _ _ _ (ht _ a b) (fun _ => hg _ _ _)
  | minE u rho =>
    exact all_bind _ _ _ (all_bind _ _ _ (all_interpP _ _ _ _ _ (Or.inr rfl) (fun _ => rfl))
      (fun _ => trivial)) (fun _ => trivial)
  | fill o v => exact all_bind _ _ _ (all_fill _ o v) (fun _ => trivial)
  | rePT p t =>
    exact all_bind _ _ _ (all_bind _ _ _ (hp _ _ _ _ (by decide) (by decide))
      (fun _ => all_bind _ _ _ (hp _ _ _ _ (by decide) (by decide)) (fun _ => trivial))) (fun _ => trivial)
  | ptd rho t =>
    exact all_bind _ _ _ (all_bind _ _ _ (hp _ _ _ _ (by decide) (by decide))
      (fun _ => all_bind _ _ _ (hp _ _ _ _ (by decide) (by decide)) (fun _ => trivial))) (fun _ => trivial)

/-! ## Interleavings -/

/-- Number of library calls a thread makes when it runs alone. -/
def Prog.steps (T : Tabs K) : Prog K α → Sess K → Nat
  | .done _, _ => 0
  | .call a k, s => (k (a.step T s).2).steps T (a.step T s).1 + 1

theorem optTable_cases (c : Call K) (t : Tid) (h : c.optTable = some t) : t = .PofRE ∨ t = .EcofD := by
  unfold Call.optTable at h
  split at h <;> simp_all

/-- The table a library call concerns. -/
def Act.table : Act K → Tid
  | .look t _ _ => t
  | .set t _ _ => t
  | .reset t _ => t

theorem step_agree (T : Tabs K) (A : Tid → Prop) (s s' : Sess K) (h : ∀ t, A t → s t = s' t) (a : Act K)
    (ha : A a.table) :
    (∀ t, A t → (a.step T s).1 t = (a.step T s').1 t) ∧ (a.step T s).2 = (a.step T s').2 := by
  cases a with
  | look t x y => exact ⟨h, by simp only [Act.step]; rw [h t ha]⟩
  | set t o v =>
    refine ⟨fun u hu => ?_, rfl⟩
    simp only [Act.step, setOpt, Function.update_apply]
    split_ifs with e
    · rw [h t ha]
    · exact h u hu
  | reset t o =>
    refine ⟨fun u hu => ?_, rfl⟩
    simp only [Act.step, resetOpt, Function.update_apply]
    split_ifs with e
    · rw [h t ha]
    · exact h u hu

/-- C107: any number of threads perform operations on the same object, their library calls interleaved in any
order.  If no other thread performs an operation that sets options on the table on which thread `i` sets
options, then thread `i`, once scheduled often enough, has the answer it would have got alone; up to then it is
not finished with any other answer.  (Every operation but the pressure of density and energy and the minimum
energy sets no options.) -/
theorem C107_interleaved_partial (σ : K) (T : Tabs K) (g : Nat → Thermo K) (cs : Nat → Call K) (i : Nat)
    (h : ∀ j, j ≠ i → (cs j).optTable ≠ none → (cs j).optTable ≠ (cs i).optTable) (sched : List Nat) :
    let p : Prog K (List K) := (cs i).run σ interpP (g i)
    let right := ((cs i).run σ (safeInterp T) (g i) : StateM (Sess K) (List K)) fresh |>.1
    let c := Cfg.runSched T ⟨fresh, fun j => (cs j).run σ interpP (g j)⟩ sched
    (∀ r, c.th i = .done r → r = right) ∧
    (p.steps T fresh ≤ sched.count i → c.th i = .done right) := by
  intro p right c
  -- the invariant: thread `i` is where it would be alone, in a state that agrees on its tables
  let Inv (c : Cfg K (List K)) (n : Nat) : Prop :=
    ∃ si : Sess K, (∀ t, (cs i).Reads t → si t = c.sess t) ∧ ((c.th i).run T si).1 = right ∧
      (c.th i).All (cs i).May ∧ (∀ j, j ≠ i → (c.th j).All (cs j).May) ∧
      ((c.th i).steps T si ≤ p.steps T fresh - n)
  have hstep : ∀ (c : Cfg K (List K)) (n : Nat) (j : Nat), Inv c n →
      Inv (c.step T j) (if j = i then n + 1 else n) := by
    rintro c n j ⟨si, h1, h2, h3, h4, h5⟩
    by_cases hj : j = i
    · subst hj
      rw [if_pos rfl]
      unfold Cfg.step
      cases hth : c.th j with
      | done a =>
        refine ⟨si, h1, h2, h3, h4, ?_⟩
        simp only [hth, Prog.steps]; omega
      | call a k =>
        rw [hth] at h2 h3 h5
        have ha : (cs j).Reads a.table := by
          have := h3.1
          cases a with
          | look t x y => exact this
          | set t o v => exact Or.inr this
          | reset t o => exact Or.inr this
        obtain ⟨e1, e2⟩ := step_agree T (cs j).Reads si c.sess h1 a ha
        refine ⟨(a.step T si).1, e1, ?_, ?_, ?_, ?_⟩
        · simp only [Function.update_self]; rw [← e2]; exact h2
        · simp only [Function.update_self]; exact h3.2 _
        · intro l hl
          simp only [Function.update_of_ne hl]
          exact h4 l hl
        · simp only [Function.update_self]; rw [← e2]
          simp only [Prog.steps] at h5; omega
    · rw [if_neg hj]
      unfold Cfg.step
      cases hth : c.th j with
      | done a => exact ⟨si, h1, h2, h3, h4, h5⟩
      | call a k =>
        have hj4 := h4 j hj
        rw [hth] at hj4
        have hne : ∀ t, (cs j).optTable = some t → ∀ u, (cs i).Reads u → u ≠ t := by
          rintro t ht u hu rfl
          have hc := optTable_cases _ _ ht
          rcases hu with ⟨hu1, hu2⟩ | hu
          · rcases hc with hc | hc
            · exact hu1 hc
            · exact hu2 hc
          · exact h j hj (by rw [ht]; simp) (by rw [ht, hu])
        refine ⟨si, ?_, ?_, ?_, ?_, ?_⟩
        · intro u hu
          rw [h1 u hu]
          have := hj4.1
          cases a with
          | look t x y => rfl
          | set t o v =>
            simp only [Act.step, setOpt]
            rw [Function.update_of_ne (hne t this u hu)]
          | reset t o =>
            simp only [Act.step, resetOpt]
            rw [Function.update_of_ne (hne t this u hu)]
        · simp only [Function.update_of_ne (Ne.symm hj)]; exact h2
        · simp only [Function.update_of_ne (Ne.symm hj)]; exact h3
        · intro l hl
          simp only [Function.update_apply]
          split_ifs with e
          · subst e; exact hj4.2 _
          · exact h4 l hl
        · simp only [Function.update_of_ne (Ne.symm hj)]; exact h5
  have hrun : ∀ (sched : List Nat) (c : Cfg K (List K)) (n : Nat), Inv c n →
      Inv (Cfg.runSched T c sched) (n + sched.count i) := by
    intro sched
    induction sched with
    | nil => intro c n hc; simpa [Cfg.runSched] using hc
    | cons j js ih =>
      intro c n hc
      have := ih _ _ (hstep c n j hc)
      simp only [Cfg.runSched, List.foldl_cons] at this ⊢
      rw [List.count_cons]
      by_cases hj : j = i
      · subst hj; simpa [Nat.add_comm, Nat.add_left_comm, Nat.add_assoc] using this
      · simpa [hj] using this
  have h0 : Inv ⟨fresh, fun j => (cs j).run σ interpP (g j)⟩ 0 :=
    ⟨fresh, fun _ _ => rfl, by
      change (((cs i).run σ interpP (g i) : Prog K (List K)).run T fresh).1 = _
      rw [C107_alone], all_run σ (g i) (cs i), fun j _ => all_run σ (g j) (cs j), le_refl _⟩
  obtain ⟨si, -, h2, -, -, h5⟩ := hrun sched _ 0 h0
  have hfin : ∀ r, c.th i = .done r → r = right := by
    intro r hr
    have h2' : ((c.th i).run T si).1 = right := h2
    rw [hr] at h2'
    exact h2'
  refine ⟨hfin, fun hc => ?_⟩
  have h5' : (c.th i).steps T si ≤ p.steps T fresh - (0 + sched.count i) := h5
  cases hth : c.th i with
  | done r => rw [hfin r hth]
  | call a k =>
    rw [hth] at h5'
    simp only [Prog.steps] at h5'
    omega

/-- a table for the example below: the square of the second argument -/
def sq : Tabs ℚ := fun _ => ⟨fun _ y => y ^ 2, fun _ _ => 0, fun _ y => 2 * y⟩

/-- C107 is violated: two threads ask for the pressure at the same density and energy; one thread's options are
cleared by the other before its lookup, and it returns `10^20` instead of `10^10`. -/
theorem C107_pressure_race_violated :
    let c : Call ℚ := .query .pRE 1 (10 ^ 10)
    let g : Thermo ℚ := ⟨0, 0, 0, 0, 0, 0⟩
    let final := Cfg.runSched sq ⟨fresh, fun _ => c.run 0 interpP g⟩ [0, 0, 1, 1, 0, 0, 0, 1, 1, 1]
    final.th 0 = .done [10 ^ 10] ∧ final.th 1 = .done [10 ^ 20] ∧
    ((c.run 0 (safeInterp sq) g : StateM (Sess ℚ) (List ℚ)) fresh).1 = [10 ^ 10] := by
  refine ⟨?_, ?_, ?_⟩ <;>
    simp [Cfg.runSched, Cfg.step, Call.run, query, pRE, interpP, Prog.calls, bind, Prog.bind, pure, Act.step,
      setOpt, resetOpt, Conv.set, Conv.reset, lookup, sq, fresh, Conv.none, sieU, presU, StateT.bind, StateT.pure,
      safeInterp, setOpts, resetOpts] <;> norm_num

end Verif.Eospac
