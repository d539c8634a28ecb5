import Verif.Spec.SpinerRhoSieCalls
import Verif.Props.Table.SpinerRhoTCalls
import Verif.Props.Table.Converge
import Verif.Props.Table.SpinerRhoSie

/-! # C159: the calls on a `SpinerEOSDependsRhoSie` object and the lambda -/

namespace Verif.RhoSie

open Verif.RootFind Verif.Mods
open Verif.RhoT (Slot Lam Call Ans statusCode get_set phases_val invert_at_root Rises)
open Verif.Spec.RhoSieCalls

set_option linter.unusedSectionVars false
set_option linter.unusedSimpArgs false
set_option linter.unusedVariables false

section order
variable {K : Type} [Field K] [LinearOrder K]

/-- Beyond the last tabulated density the inversion does not read the cache. -/
theorem lRhoOfPT_any {t : Tab K} {P T : K} (h : Beyond t P T) (c c' : K) : lRhoOfPT t c P (t.lT T) = lRhoOfPT t c' P (t.lT T) := by
  have h' : t.dPdRhoMax (t.lT T) > 0 ∧ P > t.PMaxRho (t.lT T) := h
  unfold lRhoOfPT
  rw [if_pos h', if_pos h']

/-- C159: a call that has nothing to search for gives the same answer, and aborts in the same cases, with any two lambdas, a null pointer
included, hence after any history of calls; whatever uninitialised memory contains. -/
theorem C159_any_lambda (o : Obj K) (c : Call K) (hc : ¬ Searches o.t c) (u u' : K) (l l' : Lam K) :
    answer o u c l = answer o u' c l' := by
  unfold answer
  cases c with
  | query k rho y => cases k <;> rfl
  | minE rho => rfl
  | fill fl v =>
    simp only [Searches, not_and, not_not] at hc
    have key : fillEos o.t fl (l.get .lRho u) v = fillEos o.t fl (l'.get .lRho u') v := by
      unfold fillEos
      by_cases hr : fl.rho = true
      · rw [lRhoOfPT_any (hc hr) (l.get .lRho u) (l'.get .lRho u')]
      · simp [hr]
    simp only [step, Option.map_map, key]
    cases fillEos o.t fl (l'.get .lRho u') v <;> rfl
  | ref => rfl
  | pt P T =>
    simp only [Searches, not_not] at hc
    simp only [step, Option.map_some, dePT, lRhoOfPT_any hc (l.get .lRho u) (l'.get .lRho u')]
  | massT rho T => simp only [step]; split_ifs <;> rfl
  | massE rho e => simp only [step]; split_ifs <;> rfl

/-- C159: whole histories. A run of calls none of which searches gives the same list of answers with any two lambdas to begin with and any contents of uninitialised
memory; and each answer is the one the call gives alone. -/
theorem C159_history (o : Obj K) (cs : List (K × Call K)) (hc : ∀ p ∈ cs, ¬ Searches o.t p.2) (l : Lam K) (r : List (Ans K) × Lam K)
    (h : run o cs l = some r) :
    (∀ (vs : List K) (l' : Lam K), vs.length = cs.length → ∃ l'', run o (vs.zip (cs.map (·.2))) l' = some (r.1, l'')) ∧
    ∀ (i : Nat) (u' : K) (l' : Lam K) (hi : i < cs.length), answer o u' (cs[i]).2 l' = r.1[i]? := by
  induction cs generalizing l r with
  | nil =>
    simp only [run, Option.some.injEq] at h
    subst h
    exact ⟨fun vs l' hv => ⟨l', by simp [run]⟩, fun i u' l' hi => absurd hi (by simp)⟩
  | cons p cs ih =>
    obtain ⟨u, c⟩ := p
    simp only [run, Option.bind_eq_bind, Option.bind_eq_some_iff] at h
    obtain ⟨a, ha, q, hq, he⟩ := h
    simp only [Option.some.injEq] at he
    subst he
    have h0 : ∀ u' l', answer o u' c l' = some a.1 := fun u' l' => by
      rw [C159_any_lambda o c (hc (u, c) List.mem_cons_self) u' u l' l]; simp [answer, ha]
    obtain ⟨ih1, ih2⟩ := ih (fun p hp => hc p (List.mem_cons_of_mem _ hp)) a.2 q hq
    constructor
    · intro vs l' hv
      cases vs with
      | nil => simp at hv
      | cons v vs =>
        have := h0 v l'
        simp only [answer, Option.map_eq_some_iff] at this
        obtain ⟨b, hb, hb1⟩ := this
        obtain ⟨l'', hl⟩ := ih1 vs b.2 (by simpa using hv)
        exact ⟨l'', by simp only [List.map_cons, List.zip_cons_cons, run, hb, Option.bind_eq_bind, Option.bind_some, hl, hb1]⟩
    · intro i u' l' hi
      cases i with
      | zero => simpa using h0 u' l'
      | succ i => simpa using ih2 i u' l' (by simpa using hi)

/-- What the search leaves in the lambda. -/
theorem afterSearch_val (r : K × Status) (l : Lam K) (s : Slot) :
    (afterSearch r l).val s = if s = .root then (l.val s).map fun _ => statusCode r.2
      else if s = .lRho then (l.val s).map fun _ => r.1 else l.val s := by
  unfold afterSearch
  rw [get_set, get_set]
  by_cases h1 : s = .root
  · subst h1; simp
  · rw [if_neg h1, if_neg h1]

/-- C159: the mass fractions. With phase data, entry `n` of the lambda becomes the fraction of phase `n` at the given density and
temperature, for every phase there is; without phase data entry 0 becomes 1. No other mass fraction is touched, and no other call touches any; and
an array given instead of a lambda receives the same numbers. -/
theorem C159_mass_fractions (o : Obj K) (u : K) (l : Lam K) (n : Nat) (x : K) (hx : l.val (.mf n) = some x) :
    (∀ rho T, ∃ l', step o u (.massT rho T) l = some (.unit, l') ∧
      l'.val (.mf n) = some (if o.t.hasMf then (if n < o.phases then o.t.mf n (o.t.lRho rho) (o.t.lT T) else x) else if n = 0 then 1 else x) ∧
      ∀ a : Nat → K, a n = x → l'.val (.mf n) = some (massArray o (massT o.t rho T) a n)) ∧
    (∀ rho e, ∃ l', step o u (.massE rho e) l = some (.unit, l') ∧
      l'.val (.mf n) = some (if o.t.hasMf then (if n < o.phases then
        o.t.mf n (o.t.lRho rho) (o.t.lT (o.t.TE (o.t.lRho rho) (o.t.lE e))) else x) else if n = 0 then 1 else x) ∧
      ∀ a : Nat → K, a n = x → l'.val (.mf n) = some (massArray o (massE o.t rho e) a n)) ∧
    (∀ c r, (∀ a b, c ≠ .massT a b) → (∀ a b, c ≠ .massE a b) → step o u c l = some r → r.2.val (.mf n) = some x) := by
  have arr : ∀ (f : Nat → K) (a : Nat → K), a n = x →
      massArray o f a n = if o.t.hasMf then (if n < o.phases then f n else x) else if n = 0 then 1 else x := by
    intro f a ha
    have loop : ∀ N, (forN N (fun a k => Function.update a k (f k)) a) n = if n < N then f n else x := by
      intro N
      induction N with
      | zero => simpa using ha
      | succ N ih =>
        rw [forN_succ]
        by_cases hn : n = N
        · subst hn; simp
        · rw [Function.update_of_ne hn, ih]
          by_cases h2 : n < N
          · rw [if_pos h2, if_pos (by omega)]
          · rw [if_neg h2, if_neg (by omega)]
    unfold massArray
    by_cases hm : o.t.hasMf = true
    · simp only [hm, if_true, loop]
    · simp only [hm, Bool.false_eq_true, if_false]
      by_cases hn : n = 0
      · subst hn; simp
      · rw [Function.update_of_ne hn, if_neg hn, ha]
  refine ⟨fun rho T => ?_, fun rho e => ?_, fun c r h1 h2 h => ?_⟩
  · by_cases hm : o.t.hasMf = true
    · refine ⟨_, by simp only [step, hm, if_true]; rfl, ?_, fun a ha => ?_⟩
      · simp only [phases_val, get_set, reduceCtorEq, if_false, hx, hm, if_true, massT]; split_ifs <;> simp
      · rw [arr _ a ha]; simp only [phases_val, get_set, reduceCtorEq, if_false, hx, hm, if_true, massT]; split_ifs <;> simp
    · refine ⟨_, by simp only [step, hm, Bool.false_eq_true, if_false]; rfl, ?_, fun a ha => ?_⟩
      · simp only [get_set, Slot.mf.injEq, hx, hm, Bool.false_eq_true, if_false]; split_ifs <;> simp
      · rw [arr _ a ha]; simp only [get_set, Slot.mf.injEq, hx, hm, Bool.false_eq_true, if_false]; split_ifs <;> simp
  · by_cases hm : o.t.hasMf = true
    · refine ⟨_, by simp only [step, hm, if_true]; rfl, ?_, fun a ha => ?_⟩
      · simp only [phases_val, get_set, reduceCtorEq, if_false, hx, hm, if_true, massE]; split_ifs <;> simp
      · rw [arr _ a ha]; simp only [phases_val, get_set, reduceCtorEq, if_false, hx, hm, if_true, massE]; split_ifs <;> simp
    · refine ⟨_, by simp only [step, hm, Bool.false_eq_true, if_false]; rfl, ?_, fun a ha => ?_⟩
      · simp only [get_set, Slot.mf.injEq, hx, hm, Bool.false_eq_true, if_false]; split_ifs <;> simp
      · rw [arr _ a ha]; simp only [get_set, Slot.mf.injEq, hx, hm, Bool.false_eq_true, if_false]; split_ifs <;> simp
  · cases c with
    | query k rho y =>
      cases k <;> simp only [step, reduceCtorEq, Option.some.injEq] at h <;> subst h <;> simp [get_set, hx]
    | minE rho => simp only [step, Option.some.injEq] at h; subst h; exact hx
    | fill fl v =>
      simp only [step, Option.map_eq_some_iff] at h
      obtain ⟨w, -, rfl⟩ := h
      simp only
      split_ifs <;> simp [afterSearch_val, get_set, hx]
    | ref => simp only [step, Option.some.injEq] at h; subst h; exact hx
    | pt P T => simp only [step, Option.some.injEq] at h; subst h; simp [afterSearch_val, hx]
    | massT a b => exact absurd rfl (h1 a b)
    | massE a b => exact absurd rfl (h2 a b)

/-- A call that does not find a density leaves the root status alone. -/
theorem root_kept {o : Obj K} {u : K} {c : Call K} {l : Lam K} {r : Ans K × Lam K} (h : step o u c l = some r)
    (hc : ¬ ByPressure c) : r.2.val .root = l.val .root := by
  cases c with
  | query k rho y => cases k <;> simp only [step, reduceCtorEq, Option.some.injEq] at h <;> subst h <;> simp [get_set]
  | minE rho => simp only [step, Option.some.injEq] at h; subst h; rfl
  | fill fl v =>
    have hr : fl.rho = false := by simpa [ByPressure] using hc
    simp only [step, Option.map_eq_some_iff] at h
    obtain ⟨w, -, rfl⟩ := h
    simp [hr, get_set]
  | ref => simp only [step, Option.some.injEq] at h; subst h; rfl
  | pt P T => exact absurd trivial hc
  | massT rho T =>
    simp only [step] at h
    split_ifs at h <;> simp only [Option.some.injEq] at h <;> subst h <;> simp [phases_val, get_set]
  | massE rho e =>
    simp only [step] at h
    split_ifs at h <;> simp only [Option.some.injEq] at h <;> subst h <;> simp [phases_val, get_set]

/-- C159: the entry `RootStatus`. After `DensityEnergyFromPressureTemperature` and then any run of calls none of which finds a density from a pressure, it is 0 if
the search succeeded, or was not needed, and 1 if it failed, which it can do only for a pressure not beyond the table. -/
theorem C159_root_status [IsStrictOrderedRing K] (o : Obj K) (u : K) (P T : K) (l l1 l2 : Lam K) (a : Ans K) (cs : List (K × Call K))
    (as : List (Ans K)) (hroot : (l.val .root).isSome) (h1 : step o u (.pt P T) l = some (a, l1))
    (h2 : run o cs l1 = some (as, l2)) (hd : ∀ p ∈ cs, ¬ ByPressure p.2) :
    ∃ r, l2.val .root = some r ∧ (r = 0 ∨ r = 1) ∧
      (r = 0 ↔ (lRhoOfPT o.t (l.get .lRho u) P (o.t.lT T)).2 = .success) ∧ (r = 1 → ¬ Beyond o.t P T) := by
  have hrun : l2.val .root = l1.val .root := by
    clear h1
    induction cs generalizing l1 as with
    | nil => simp only [run, Option.some.injEq, Prod.mk.injEq] at h2; obtain ⟨-, rfl⟩ := h2; rfl
    | cons p cs ih =>
      obtain ⟨u, c⟩ := p
      simp only [run, Option.bind_eq_bind, Option.bind_eq_some_iff] at h2
      obtain ⟨r, hr, q, hq, he⟩ := h2
      simp only [Option.some.injEq, Prod.mk.injEq] at he
      obtain ⟨-, rfl⟩ := he
      exact (ih r.2 q.1 hq fun p hp => hd p (List.mem_cons_of_mem _ hp)).trans (root_kept hr (hd (u, c) List.mem_cons_self))
  obtain ⟨x, hx⟩ := Option.isSome_iff_exists.1 hroot
  simp only [step, Option.some.injEq, Prod.mk.injEq] at h1
  obtain ⟨-, rfl⟩ := h1
  refine ⟨statusCode (lRhoOfPT o.t (l.get .lRho u) P (o.t.lT T)).2, by rw [hrun]; simp [afterSearch_val, hx], ?_, ?_, ?_⟩
  · cases (lRhoOfPT o.t (l.get .lRho u) P (o.t.lT T)).2 <;> simp [statusCode]
  · cases (lRhoOfPT o.t (l.get .lRho u) P (o.t.lT T)).2 <;> simp [statusCode]
  · intro hr hb
    have : (lRhoOfPT o.t (l.get .lRho u) P (o.t.lT T)).2 = .success := by
      unfold lRhoOfPT; rw [if_pos (show o.t.dPdRhoMax (o.t.lT T) > 0 ∧ P > o.t.PMaxRho (o.t.lT T) from hb)]
    rw [this] at hr; simp [statusCode] at hr

/-- C159 is violated for the entry `TableStatus`: no call ever writes it, so a caller reads what was there before, also after a call for a pressure beyond
the table. -/
theorem C159_table_status_violated (o : Obj K) (cs : List (K × Call K)) (l : Lam K) (r : List (Ans K) × Lam K) (h : run o cs l = some r) :
    r.2.val .loc = l.val .loc ∧ r.2.val .lT = l.val .lT := by
  have one : ∀ (u : K) (c : Call K) (l : Lam K) (r : Ans K × Lam K), step o u c l = some r →
      r.2.val .loc = l.val .loc ∧ r.2.val .lT = l.val .lT := by
    intro u c l r h
    cases c with
    | query k rho y => cases k <;> simp only [step, reduceCtorEq, Option.some.injEq] at h <;> subst h <;> simp [get_set]
    | minE rho => simp only [step, Option.some.injEq] at h; subst h; exact ⟨rfl, rfl⟩
    | fill fl v =>
      simp only [step, Option.map_eq_some_iff] at h
      obtain ⟨w, -, rfl⟩ := h
      simp only
      split_ifs <;> simp [afterSearch_val, get_set]
    | ref => simp only [step, Option.some.injEq] at h; subst h; exact ⟨rfl, rfl⟩
    | pt P T => simp only [step, Option.some.injEq] at h; subst h; simp [afterSearch_val]
    | massT rho T =>
      simp only [step] at h
      split_ifs at h <;> simp only [Option.some.injEq] at h <;> subst h <;> simp [phases_val, get_set]
    | massE rho e =>
      simp only [step] at h
      split_ifs at h <;> simp only [Option.some.injEq] at h <;> subst h <;> simp [phases_val, get_set]
  induction cs generalizing l r with
  | nil => simp only [run, Option.some.injEq] at h; subst h; exact ⟨rfl, rfl⟩
  | cons p cs ih =>
    obtain ⟨u, c⟩ := p
    simp only [run, Option.bind_eq_bind, Option.bind_eq_some_iff] at h
    obtain ⟨a, ha, q, hq, he⟩ := h
    simp only [Option.some.injEq] at he
    subst he
    have i1 := ih a.2 q hq
    have i2 := one u c l a ha
    exact ⟨i1.1.trans i2.1, i1.2.trans i2.2⟩

/-- A call at a density leaves its log in the cache. -/
theorem at_cache {o : Obj K} {u : K} {c : Call K} {l : Lam K} {r : Ans K × Lam K} {rho : K} (h : step o u c l = some r)
    (hc : AtDensity rho c) : r.2.val .lRho = (l.val .lRho).map fun _ => o.t.lRho rho := by
  cases c with
  | query k rr y =>
    obtain ⟨rfl, h1⟩ := hc
    cases k <;> simp only [step, reduceCtorEq, Option.some.injEq, ne_eq, not_true_eq_false] at h h1 <;> subst h <;> simp [get_set]
  | fill fl v =>
    obtain ⟨h1, rfl⟩ := hc
    simp only [step, Option.map_eq_some_iff] at h
    obtain ⟨w, -, rfl⟩ := h
    simp [h1, get_set]
  | minE _ => exact hc.elim
  | ref => exact hc.elim
  | pt _ _ => exact hc.elim
  | massT _ _ => exact hc.elim
  | massE _ _ => exact hc.elim

/-- A quiet call leaves the cache alone. -/
theorem quiet_cache {o : Obj K} {u : K} {c : Call K} {l : Lam K} {r : Ans K × Lam K} (h : step o u c l = some r)
    (hc : Quiet c) : r.2.val .lRho = l.val .lRho := by
  cases c with
  | query k rr y =>
    change k = .gRE at hc
    subst hc
    simp only [step, Option.some.injEq] at h; subst h; rfl
  | minE _ => simp only [step, Option.some.injEq] at h; subst h; rfl
  | ref => simp only [step, Option.some.injEq] at h; subst h; rfl
  | massE rho e =>
    simp only [step] at h
    split_ifs at h <;> simp only [Option.some.injEq] at h <;> subst h <;> simp [phases_val, get_set]
  | fill _ _ => exact hc.elim
  | pt _ _ => exact hc.elim
  | massT _ _ => exact hc.elim

/-- What a run of quiet calls leaves. -/
theorem run_quiet {o : Obj K} {cs : List (K × Call K)} {l : Lam K} {r : List (Ans K) × Lam K} (h : run o cs l = some r)
    (hc : ∀ p ∈ cs, Quiet p.2) : r.2.val .lRho = l.val .lRho := by
  induction cs generalizing l r with
  | nil => simp only [run, Option.some.injEq] at h; subst h; rfl
  | cons p cs ih =>
    obtain ⟨u, c⟩ := p
    simp only [run, Option.bind_eq_bind, Option.bind_eq_some_iff] at h
    obtain ⟨a, ha, q, hq, he⟩ := h
    simp only [Option.some.injEq] at he
    subst he
    exact (ih hq fun p hp => hc p (List.mem_cons_of_mem _ hp)).trans (quiet_cache ha (hc (u, c) List.mem_cons_self))

end order

section field
variable {K : Type} [Field K] [LinearOrder K] [IsStrictOrderedRing K]

/-- C159: the cache makes the round trip exact. After any call at a density, by temperature or by energy, and then any run of calls that do not note a density, the
density of the pressure at this density and any temperature is the density of that call, without error and whatever the shape of the isotherm; and the energy is
the one there. Required are a lambda with a cache, a pressure not beyond the table, and a density distinguishable by the tolerance of the search from that of
least pressure. `FillEos` finds the same. -/
theorem C159_cached_round_trip (o : Obj K) (heps : 0 ≤ o.t.eps) {rho T : K} (c : Call K) (hc : AtDensity rho c) (u u' : K)
    (l : Lam K) (r : Ans K × Lam K) (h : step o u c l = some r) (cs : List (K × Call K)) (q : List (Ans K) × Lam K)
    (hq : run o cs r.2 = some q) (hcs : ∀ p ∈ cs, Quiet p.2) (hs : (l.val .lRho).isSome) (hR : o.t.rho (o.t.lRho rho) = rho)
    (hB : ¬ Beyond o.t (o.t.PT (o.t.lRho rho) (o.t.lT T)) T)
    (hR1 : o.t.lRho (o.t.rhoAtPmin (o.t.lT T)) + 2 * o.t.eps < o.t.lRho rho) (hR2 : o.t.lRho rho ≤ o.t.lRhoMax)
    (hP : o.t.eps < |o.t.PT (o.t.lRho (o.t.rhoAtPmin (o.t.lT T))) (o.t.lT T) - o.t.PT (o.t.lRho rho) (o.t.lT T)|) :
    answer o u' (.pt (query o.t .pRT rho T) T) q.2 = some (.pair rho (query o.t .eRT rho T)) ∧
    ∀ v : Thermo K, v.press = query o.t .pRT rho T → v.temp = T → ∀ fl : Flags, fl.rho = true → fl.press = false → fl.temp = false →
      ∃ w, answer o u' (.fill fl v) q.2 = some (.thermo w) ∧ w.rho = rho ∧ w.temp = T ∧ (fl.sie = true → w.sie = query o.t .eRT rho T) := by
  obtain ⟨x, hx⟩ := Option.isSome_iff_exists.1 hs
  have hg : q.2.get .lRho u' = o.t.lRho rho := by
    simp [Lam.get, run_quiet hq hcs, at_cache h hc, hx]
  have hi : lRhoOfPT o.t (o.t.lRho rho) (o.t.PT (o.t.lRho rho) (o.t.lT T)) (o.t.lT T) = (o.t.lRho rho, .success) := by
    unfold lRhoOfPT
    rw [if_neg (show ¬ (o.t.dPdRhoMax (o.t.lT T) > 0 ∧ o.t.PT (o.t.lRho rho) (o.t.lT T) > o.t.PMaxRho (o.t.lT T)) from hB)]
    have hgu : ∀ d, RhoT.guessOf (o.t.lRho rho) (o.t.lRho (o.t.rhoAtPmin (o.t.lT T))) o.t.lRhoMax d = o.t.lRho rho := by
      intro d
      unfold RhoT.guessOf
      rw [if_pos ⟨by linarith, hR2⟩]
    simp only [hgu]
    rw [invert_at_root (f := fun x => o.t.PT x (o.t.lT T)) rfl heps (by linarith) hP]
  constructor
  · simp only [answer, step, Option.map_some, hg, dePT, query, interpRhoT, hi, hR]
  · intro v h1 h2 fl f1 f2 f3
    have h1' : v.press = o.t.PT (o.t.lRho rho) (o.t.lT T) := h1
    simp only [answer, step, Option.map_map, hg, fillEos, f1, f2, f3, h1', h2, hi]
    by_cases f4 : fl.sie = true
    · simp only [f4, hR]
      exact ⟨_, rfl, by simp [hR], rfl, fun _ => by simp [query, interpRhoT]⟩
    · simp only [f4, hR]
      exact ⟨_, rfl, by simp [hR], by simp, fun h => absurd h (by simp)⟩

/-- C159: density from pressure and temperature, with any lambda. If `RootStatus` reads 0 afterwards then, along an isotherm rising at least at rate `m` above the
density of least pressure, the density found for the pressure at log density `x` has a log within the tolerance of the search of `x`; so two lambdas lead to log densities
within twice that. -/
theorem C159_pressure_temperature (o : Obj K) (heps : 0 ≤ o.t.eps) {m T x : K} (hm : 0 < m)
    (hP : o.t.PT x (o.t.lT T) ≤ o.t.PMaxRho (o.t.lT T))
    (hrise : Rises (fun x => o.t.PT x (o.t.lT T)) m (o.t.lRho (o.t.rhoAtPmin (o.t.lT T))) o.t.lRhoMax)
    (hx1 : o.t.lRho (o.t.rhoAtPmin (o.t.lT T)) ≤ x) (hx2 : x ≤ o.t.lRhoMax)
    (u u' : K) (l l' l1 l1' : Lam K) (a a' : Ans K)
    (h : step o u (.pt (o.t.PT x (o.t.lT T)) T) l = some (a, l1)) (hr : l1.val .root = some 0)
    (h' : step o u' (.pt (o.t.PT x (o.t.lT T)) T) l' = some (a', l1')) (hr' : l1'.val .root = some 0) :
    ∃ y y', a = .pair (o.t.rho y) (o.t.sie y (o.t.lT T)) ∧ a' = .pair (o.t.rho y') (o.t.sie y' (o.t.lT T)) ∧
      |y - x| ≤ max o.t.eps (2 * o.t.eps / m) ∧ |y' - x| ≤ max o.t.eps (2 * o.t.eps / m) ∧
      |y - y'| ≤ 2 * max o.t.eps (2 * o.t.eps / m) := by
  have one : ∀ (u : K) (l l1 : Lam K) (a : Ans K), step o u (.pt (o.t.PT x (o.t.lT T)) T) l = some (a, l1) → l1.val .root = some 0 →
      ∃ y, a = .pair (o.t.rho y) (o.t.sie y (o.t.lT T)) ∧ |y - x| ≤ max o.t.eps (2 * o.t.eps / m) := by
    intro u l l1 a h hr
    simp only [step, Option.some.injEq, Prod.mk.injEq] at h
    obtain ⟨rfl, rfl⟩ := h
    have hs : (lRhoOfPT o.t (l.get .lRho u) (o.t.PT x (o.t.lT T)) (o.t.lT T)).2 = .success := by
      rw [afterSearch_val, if_pos rfl] at hr
      cases hv : l.val .root with
      | none => rw [hv] at hr; simp at hr
      | some z =>
        rw [hv] at hr
        simp only [Option.map_some, Option.some.injEq] at hr
        cases hs : (lRhoOfPT o.t (l.get .lRho u) (o.t.PT x (o.t.lT T)) (o.t.lT T)).2 with
        | success => rfl
        | fail => rw [hs] at hr; simp [statusCode] at hr
    obtain ⟨e1, e2, -⟩ := C94_round_trip o.t heps (l.get .lRho u) hm hP hrise hx1 hx2
    exact ⟨_, by rw [e1], e2 hs⟩
  obtain ⟨y, e1, b1⟩ := one u l l1 a h hr
  obtain ⟨y', e2, b2⟩ := one u' l' l1' a' h' hr'
  refine ⟨y, y', e1, e2, b1, b2, ?_⟩
  rw [abs_le] at *
  constructor <;> linarith [b1.1, b1.2, b2.1, b2.2]

end field

/-- A table with `P = rho` on `0 ≤ log rho ≤ 1`, threshold `10^-14`, in reproducible mode. -/
noncomputable def reproTab : Tab ℝ :=
  { linTab with
    lRho := id
    rho := id
    PT := fun x _ => x
    rhoAtPmin := fun _ => 0
    dPdRhoMax := fun _ => 0
    lRhoMax := 1
    eps := 1 / 10 ^ 14
    repro := true }

/-- The two searches of the next theorem. -/
theorem two_searches :
    RhoT.invert (1 / 10 ^ 14 : ℝ) (fun x => x) (1 / 10 ^ 14) 1 0 1 1 = (.success, 1 / 10 ^ 14) ∧
    RhoT.invert (1 / 10 ^ 14 : ℝ) (fun x => x) (1 / 10 ^ 14) (3 / 2 / 10 ^ 14) 0 1 1 = (.success, 3 / 4 / 10 ^ 14) := by
  constructor
  · have hib : initBracket (fun x : ℝ => x - 1 / 10 ^ 14) 1 0 1 = some ⟨0, 1, 0 - 1 / 10 ^ 14, 1 - 1 / 10 ^ 14⟩ := by
      norm_num [initBracket, checkBracket]
    have hc1 : rfCond (1 / 10 ^ 14 : ℝ) (1 / 10 ^ 14) ⟨0, 1, (0 - 1 / 10 ^ 14) * 1, (1 - 1 / 10 ^ 14) * 1, 0, 0, 0⟩ := by
      refine ⟨by norm_num, Or.inr ?_, by norm_num⟩
      rw [abs_of_pos] <;> norm_num
    have hb : rfBody (fun x : ℝ => x - 1 / 10 ^ 14) 1 ⟨0, 1, (0 - 1 / 10 ^ 14) * 1, (1 - 1 / 10 ^ 14) * 1, 0, 0, 0⟩
        = ⟨1 / 10 ^ 14, 1 / 10 ^ 14, (0 - 1 / 10 ^ 14) * 1, (1 - 1 / 10 ^ 14) * 1, 0, 0, 1⟩ := by
      norm_num [rfBody]
    have hc2 : ¬ rfCond (1 / 10 ^ 14 : ℝ) (1 / 10 ^ 14)
        ⟨1 / 10 ^ 14, 1 / 10 ^ 14, (0 - 1 / 10 ^ 14) * 1, (1 - 1 / 10 ^ 14) * 1, 0, 0, 1⟩ := fun h => by
      have := h.1; norm_num at this
    unfold RhoT.invert regulaFalsi
    simp only [hib]
    have hst : rfStart (⟨0, 1, 0 - 1 / 10 ^ 14, 1 - 1 / 10 ^ 14⟩ : Br ℝ)
        = (1, ⟨0, 1, (0 - 1 / 10 ^ 14) * 1, (1 - 1 / 10 ^ 14) * 1, 0, 0, 0⟩) := by
      have h0 : (0 : ℝ) - 1 / 10 ^ 14 < 0 := by norm_num
      simp only [rfStart, if_pos h0]
    rw [hst]
    simp only
    rw [show (1000 : Nat) = 998 + 1 + 1 from rfl, rfLoop, if_pos hc1, hb, rfLoop, if_neg hc2]
    norm_num
  · have hib : initBracket (fun x : ℝ => x - 1 / 10 ^ 14) (3 / 2 / 10 ^ 14) 0 1
        = some ⟨0, 3 / 2 / 10 ^ 14, 0 - 1 / 10 ^ 14, 3 / 2 / 10 ^ 14 - 1 / 10 ^ 14⟩ := by
      norm_num [initBracket, checkBracket]
    have hc2 : ∀ s : RF ℝ, s.a = 0 → s.b = 3 / 2 / 10 ^ 14 → ¬ rfCond (1 / 10 ^ 14 : ℝ) (1 / 10 ^ 14) s := fun s h1 h2 h => by
      have := h.1; rw [h1, h2] at this; norm_num at this
    unfold RhoT.invert regulaFalsi
    simp only [hib]
    rw [show (1000 : Nat) = 999 + 1 from rfl, rfLoop, if_neg (hc2 _ rfl rfl)]
    norm_num [rfStart]

/-- C159 is violated by `reproducibility_mode`: it replaces the default guess but still prefers the one in the lambda, so the answer depends on what was
asked before. For the pressure `10^-14` a fresh lambda gives the density `10^-14`, one with `1.5 10^-14` in the cache gives `0.75 10^-14`. -/
theorem C159_reproducible_violated (n : Nat) (rf : RefState ℝ) (v : Slot → Option ℝ) (u : ℝ)
    (hv : ∀ x, v .lRho = some x → x < 0) (hv' : (v .lRho).isSome) :
    let o : Obj ℝ := ⟨reproTab, n, rf⟩
    let l : Lam ℝ := ⟨false, v⟩
    o.t.repro = true ∧ (∃ e, answer o u (.pt (1 / 10 ^ 14) 1) l = some (.pair (1 / 10 ^ 14) e)) ∧
    ∃ r, step o u (.query .pRT (3 / 2 / 10 ^ 14) 1) l = some r ∧
      ∃ e, answer o u (.pt (1 / 10 ^ 14) 1) r.2 = some (.pair (3 / 4 / 10 ^ 14) e) := by
  intro o l
  obtain ⟨x, hx⟩ := Option.isSome_iff_exists.1 hv'
  have hxn := hv x hx
  have hB : ¬ (reproTab.dPdRhoMax (reproTab.lT 1) > 0 ∧ 1 / 10 ^ 14 > reproTab.PMaxRho (reproTab.lT 1)) := by
    simp [reproTab]
  have hpt : ∀ c, lRhoOfPT reproTab c (1 / 10 ^ 14) (reproTab.lT 1) =
      ((RhoT.invert (1 / 10 ^ 14 : ℝ) (fun x => x) (1 / 10 ^ 14) (RhoT.guessOf c 0 1 1) 0 1 1).2,
       (RhoT.invert (1 / 10 ^ 14 : ℝ) (fun x => x) (1 / 10 ^ 14) (RhoT.guessOf c 0 1 1) 0 1 1).1) := by
    intro c
    unfold lRhoOfPT
    rw [if_neg hB]
    simp [reproTab]
  refine ⟨rfl, ?_, _, rfl, ?_⟩
  · have hg : l.get .lRho u = x := by simp [Lam.get, l, hx]
    have hgu : RhoT.guessOf x 0 1 1 = (1 : ℝ) := by
      unfold RhoT.guessOf; rw [if_neg (fun h => by linarith [h.1])]
    refine ⟨reproTab.sie (1 / 10 ^ 14) (reproTab.lT 1), ?_⟩
    simp only [answer, step, Option.map_some, hg, o, dePT, hpt, hgu, two_searches.1]
    rfl
  · have hg : (l.set .lRho (reproTab.lRho (3 / 2 / 10 ^ 14))).get .lRho u = 3 / 2 / 10 ^ 14 := by
      simp [Lam.get, get_set, l, hx, reproTab]
    have hgu : RhoT.guessOf (3 / 2 / 10 ^ 14) 0 1 1 = (3 / 2 / 10 ^ 14 : ℝ) := by
      unfold RhoT.guessOf; rw [if_pos (by norm_num)]
    refine ⟨reproTab.sie (3 / 4 / 10 ^ 14) (reproTab.lT 1), ?_⟩
    simp only [answer, step, Option.map_some, hg, o, dePT, hpt, hgu, two_searches.2]
    rfl

/-- The hypotheses are met: a type-indexed lambda with all entries and nothing usable in the cache. -/
example : let v : Slot → Option ℝ := fun _ => some (-1)
    (∀ x, v .lRho = some x → x < 0) ∧ (v .lRho).isSome := by
  refine ⟨fun x h => ?_, rfl⟩
  simp only [Option.some.injEq] at h; linarith

/-- Those of C159_cached_round_trip, with a Grüneisen parameter by energy in between, and of C159_root_status. -/
example (rf : RefState ℝ) (u : ℝ) : let o : Obj ℝ := ⟨linTab, 2, rf⟩
    let l : Lam ℝ := ⟨false, fun _ => some 7⟩
    AtDensity (5 / 2 : ℝ) (.query .pRE (5 / 2) 4) ∧ (∃ r, step o u (.query .pRE (5 / 2) 4) l = some r ∧
      ∃ q, run o [(u, .query .gRE 1 2), (u, .minE 3)] r.2 = some q) ∧
    (∀ p ∈ [(u, Call.query .gRE (1:ℝ) 2), (u, .minE 3)], Quiet p.2 ∧ ¬ ByPressure p.2 ∧ ¬ Searches o.t p.2) ∧
    linTab.rho (linTab.lRho (5 / 2)) = 5 / 2 ∧ ¬ Beyond linTab (linTab.PT (linTab.lRho (5 / 2)) (linTab.lT 1)) 1 ∧
    linTab.lRho (linTab.rhoAtPmin (linTab.lT 1)) + 2 * linTab.eps < linTab.lRho (5 / 2) ∧ linTab.lRho (5 / 2) ≤ linTab.lRhoMax ∧
    linTab.eps < |linTab.PT (linTab.lRho (linTab.rhoAtPmin (linTab.lT 1))) (linTab.lT 1) - linTab.PT (linTab.lRho (5 / 2)) (linTab.lT 1)| := by
  intro o l
  refine ⟨⟨rfl, by simp⟩, ⟨_, rfl, _, rfl⟩, ?_, ?_, ?_, ?_, ?_, ?_⟩
  · intro p hp
    simp only [List.mem_cons, List.not_mem_nil, or_false] at hp
    rcases hp with rfl | rfl
    · exact ⟨rfl, fun h => h, fun h => h⟩
    · exact ⟨trivial, fun h => h, fun h => h⟩
  · norm_num [linTab]
  · norm_num [Beyond, linTab]
  · norm_num [linTab]
  · norm_num [linTab]
  · norm_num [linTab, abs_of_neg]

end Verif.RhoSie
