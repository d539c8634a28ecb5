import Verif.Spec.SpinerRhoTCalls
import Verif.Props.Table.Cached

/-! # C158: the calls on a `SpinerEOSDependsRhoT` object and the lambda -/

namespace Verif.RhoT

open Verif.RootFind Verif.Mods
open Verif.Spec.RhoTCalls

set_option linter.unusedSectionVars false
set_option linter.unusedSimpArgs false
set_option linter.unusedVariables false

section order
variable {K : Type} [Field K] [LinearOrder K]

theorem locE_onTable (t : Tab K) (rho e : K) : locE t (t.lRho rho) e = .onTable ↔ EnergyOn t rho e := by
  unfold locE EnergyOn
  split_ifs with h1 h2
  · simp only [reduceCtorEq, false_iff, not_and, not_lt]; exact fun _ => h1
  · simp only [reduceCtorEq, false_iff, not_and, not_lt]; exact fun h => absurd h (not_lt.2 h2)
  · simp only [true_iff]; exact ⟨not_le.1 h2, not_le.1 h1⟩

theorem locE_offTop (t : Tab K) (rho e : K) : locE t (t.lRho rho) e = .offTop ↔ EnergyAbove t rho e := by
  unfold locE EnergyAbove
  split_ifs with h1 h2
  · simp only [true_iff]; exact h1
  · simp only [reduceCtorEq, false_iff]; exact h1
  · simp only [reduceCtorEq, false_iff]; exact h1

/-- Off the table the inversion does not read the cache. -/
theorem lTOfE_any {t : Tab K} {lR e : K} (h : locE t lR e ≠ .onTable) (c c' : K) : lTOfE t c lR e = lTOfE t c' lR e := by
  unfold lTOfE
  cases hl : locE t lR e with
  | onTable => exact absurd hl h
  | offBottom => rfl
  | offTop => rfl

/-- C158: a call that has nothing to search for gives the same answer, and aborts in the same cases, with any two lambdas, a null pointer
included, hence after any history of calls; whatever uninitialised memory contains. -/
theorem C158_any_lambda (o : Obj K) (c : Call K) (hc : ¬ Searches o.t c) (j j' : Junk K) (l l' : Lam K) :
    answer o j c l = answer o j' c l' := by
  unfold answer
  cases c with
  | query k rho y =>
    have hq : query o.t k (l.get .lT j.lT) rho y = query o.t k (l'.get .lT j'.lT) rho y := by
      refine C91_off_table o.t k _ _ rho y ?_
      by_cases hk : k.byEnergy = true
      · right
        intro h
        exact hc ⟨hk, (locE_onTable o.t rho y).1 h⟩
      · left; simpa using hk
    cases k <;> simp only [step, Option.map_none, Option.map_some, hq]
  | minE rho => rfl
  | fill fl v =>
    simp only [Searches, not_or, not_and] at hc
    obtain ⟨h1, h2⟩ := hc
    have h1 : fl.rho = false := by simpa using h1
    have key : ∀ cR cR' cT cT', fillEos o.t fl cR (if !fl.sie then cT else cT') v = fillEos o.t fl cR' (if !fl.sie then l'.get .lT j'.lT
        else l'.cacheP j') v := by
      intro cR cR' cT cT'
      unfold fillEos
      rw [h1]
      by_cases hT : fl.temp = true
      · have h2 := h2 hT
        cases hs : fl.sie with
        | true =>
          rw [hs, if_pos rfl] at h2
          have : ∀ a b, lTOfP o.t a (o.t.lRho v.rho) v.press = lTOfP o.t b (o.t.lRho v.rho) v.press := by
            intro a b
            unfold lTOfP
            by_cases hp : v.press ≤ o.t.PCold (o.t.lRho v.rho)
            · rw [if_pos hp, if_pos hp]
            · by_cases hp' : v.press ≥ o.t.PMax (o.t.lRho v.rho)
              · rw [if_neg hp, if_neg hp, if_pos hp', if_pos hp']
              · exact absurd ⟨not_le.1 hp, not_le.1 hp'⟩ h2
          simp [this cT' (l'.cacheP j')]
        | false =>
          rw [hs] at h2
          simp only [Bool.false_eq_true, if_false] at h2
          have : ∀ a b, lTOfE o.t a (o.t.lRho v.rho) v.sie = lTOfE o.t b (o.t.lRho v.rho) v.sie :=
            fun a b => lTOfE_any (fun h => h2 ((locE_onTable o.t v.rho v.sie).1 h)) a b
          simp [this cT (l'.get .lT j'.lT)]
      · simp [hT]
    simp only [step, Option.map_map]
    rw [key (l.get .lRho j.lRho) (l'.get .lRho j'.lRho) (l.get .lT j.lT) (l.cacheP j)]
    cases fillEos o.t fl (l'.get .lRho j'.lRho) (if !fl.sie then l'.get .lT j'.lT else l'.cacheP j') v <;> rfl
  | ref => rfl
  | pt P T => exact absurd trivial hc
  | massT rho T => simp only [step]; cases o.mf <;> rfl
  | massE rho e => simp only [step]; cases o.mf <;> rfl

/-! ### What the writes do -/

theorem get_set (l : Lam K) (s s' : Slot) (v : K) :
    (l.set s v).val s' = if s' = s then (l.val s').map fun _ => v else l.val s' := rfl

theorem logs_val (l : Lam K) (a b : K) (s : Slot) :
    (l.logs a b).val s = if s = .lT then (l.val s).map fun _ => b else if s = .lRho then (l.val s).map fun _ => a else l.val s := by
  unfold Lam.logs
  rw [get_set, get_set]
  by_cases h1 : s = .lT
  · subst h1; simp
  · rw [if_neg h1, if_neg h1]

theorem diag_val (l : Lam K) (i : Inv K) (s : Slot) :
    (l.diag i).val s = if s = .loc then (l.val s).map fun _ => locCode i.loc
      else if s = .root then (l.val s).map fun _ => statusCode i.status else l.val s := by
  unfold Lam.diag
  rw [get_set, get_set]
  by_cases h1 : s = .loc
  · subst h1; simp
  · rw [if_neg h1, if_neg h1]

theorem phases_val (l : Lam K) (n : Nat) (f : Nat → K) (s : Slot) :
    (l.phases n f).val s = match s with
      | .mf k => if k < n then (l.val s).map fun _ => f k else l.val s
      | _ => l.val s := by
  unfold Lam.phases
  induction n with
  | zero => cases s <;> simp
  | succ n ih =>
    rw [forN_succ, get_set]
    cases s with
    | mf k =>
      by_cases h : k = n
      · subst h
        simp only [if_true, ih, lt_irrefl, if_false, Nat.lt_succ_self]
      · simp only [Slot.mf.injEq, h, if_false, ih]
        by_cases h2 : k < n
        · rw [if_pos h2, if_pos (by omega)]
        · rw [if_neg h2, if_neg (by omega)]
    | _ => simpa using ih

/-- C158: the mass fractions. With phase data, entry `n` of the lambda becomes the fraction of phase `n` at the given density and
temperature, for every phase there is, at the log temperature found when the energy is given; without phase data entry 0 becomes 1.
No other mass fraction is touched, and no other call touches any. -/
theorem C158_mass_fractions (o : Obj K) (j : Junk K) (l : Lam K) (n : Nat) (x : K) (hx : l.val (.mf n) = some x) :
    (∀ rho T, ∃ l', step o j (.massT rho T) l = some (.unit, l') ∧ l'.val (.mf n) = match o.mf with
      | none => some (if n = 0 then 1 else x)
      | some (N, f) => some (if n < N then f n (o.t.lRho rho) (o.t.lT T) else x)) ∧
    (∀ rho e, ∃ l', step o j (.massE rho e) l = some (.unit, l') ∧ l'.val (.mf n) = match o.mf with
      | none => some (if n = 0 then 1 else x)
      | some (N, f) => some (if n < N then f n (o.t.lRho rho) (lTOfE o.t (l.get .lT j.lT) (o.t.lRho rho) e).x else x)) ∧
    (∀ c r, (∀ a b, c ≠ .massT a b) → (∀ a b, c ≠ .massE a b) → step o j c l = some r → r.2.val (.mf n) = some x) := by
  refine ⟨fun rho T => ?_, fun rho e => ?_, fun c r h1 h2 h => ?_⟩
  · simp only [step]
    cases o.mf with
    | none => exact ⟨_, rfl, by simp only [get_set, Slot.mf.injEq, hx]; split_ifs <;> simp⟩
    | some p =>
      obtain ⟨N, f⟩ := p
      exact ⟨_, rfl, by simp only [phases_val, logs_val, hx]; split_ifs <;> simp_all⟩
  · simp only [step]
    cases o.mf with
    | none => exact ⟨_, rfl, by simp only [get_set, Slot.mf.injEq, hx]; split_ifs <;> simp⟩
    | some p =>
      obtain ⟨N, f⟩ := p
      exact ⟨_, rfl, by simp only [phases_val, diag_val, logs_val, hx]; split_ifs <;> simp_all⟩
  · cases c with
    | query k rho y =>
      cases k <;> simp only [step, reduceCtorEq, Option.some.injEq] at h <;> subst h <;>
        simp [Q.byEnergy, diag_val, logs_val, hx]
    | minE rho => simp only [step, Option.some.injEq] at h; subst h; exact hx
    | fill fl v =>
      simp only [step, Option.map_eq_some_iff] at h
      obtain ⟨w, -, rfl⟩ := h
      simp only [afterFill]
      split_ifs <;> simp [diag_val, logs_val, hx]
    | ref => simp only [step, Option.some.injEq] at h; subst h; exact hx
    | pt P T => simp only [step, Option.some.injEq] at h; subst h; simp [diag_val, logs_val, hx]
    | massT a b => exact absurd rfl (h1 a b)
    | massE a b => exact absurd rfl (h2 a b)

/-- A direct call leaves the diagnostics alone. -/
theorem direct_diag {o : Obj K} {j : Junk K} {c : Call K} {l : Lam K} {r : Ans K × Lam K} (h : step o j c l = some r)
    (hc : Direct o c) : r.2.val .root = l.val .root ∧ r.2.val .loc = l.val .loc := by
  cases c with
  | query k rho y =>
    change k.byEnergy = false at hc
    cases k <;> simp only [Q.byEnergy, reduceCtorEq] at hc <;> simp only [step, reduceCtorEq, Option.some.injEq] at h <;> subst h <;>
      simp [Q.byEnergy, diag_val, logs_val]
  | minE rho => simp only [step, Option.some.injEq] at h; subst h; exact ⟨rfl, rfl⟩
  | fill fl v =>
    obtain ⟨h1, h2⟩ := hc
    simp only [step, Option.map_eq_some_iff] at h
    obtain ⟨w, -, rfl⟩ := h
    simp [afterFill, h1, h2, logs_val]
  | ref => simp only [step, Option.some.injEq] at h; subst h; exact ⟨rfl, rfl⟩
  | pt P T => exact hc.elim
  | massT rho T =>
    simp only [step] at h
    cases hm : o.mf with
    | none => rw [hm] at h; simp only [Option.some.injEq] at h; subst h; simp [get_set]
    | some p => rw [hm] at h; simp only [Option.some.injEq] at h; subst h; simp [phases_val, logs_val]
  | massE rho e =>
    simp only [step] at h
    rw [show o.mf = none from hc] at h
    simp only [Option.some.injEq] at h; subst h; simp [get_set]

/-- C158: the diagnostics. After a query by energy followed by any run of direct calls, the entry `TableStatus` of the lambda says where the
energy lay (2: above the hottest isotherm, 0: on the table, 1: below), and `RootStatus` whether the search succeeded (0) or failed (1),
which it can do only on the table. -/
theorem C158_diagnostics [IsStrictOrderedRing K] (o : Obj K) (j : Junk K) (k : Q) (rho e : K) (l l1 l2 : Lam K) (a : Ans K) (cs : List (Junk K × Call K))
    (as : List (Ans K)) (hk : k.byEnergy = true) (hroot : (l.val .root).isSome) (hloc : (l.val .loc).isSome)
    (h1 : step o j (.query k rho e) l = some (a, l1)) (h2 : run o cs l1 = some (as, l2)) (hd : ∀ p ∈ cs, Direct o p.2) :
    ∃ d r, l2.val .loc = some d ∧ l2.val .root = some r ∧ (d = 0 ∨ d = 1 ∨ d = 2) ∧
      (d = 2 ↔ EnergyAbove o.t rho e) ∧ (d = 0 ↔ EnergyOn o.t rho e) ∧
      (r = 0 ↔ (lTOfE o.t (l.get .lT j.lT) (o.t.lRho rho) e).status = .success) ∧ (r = 0 ∨ r = 1) ∧
      (r = 1 → EnergyOn o.t rho e) := by
  have hrun : l2.val .root = l1.val .root ∧ l2.val .loc = l1.val .loc := by
    clear h1
    induction cs generalizing l1 as with
    | nil => simp only [run, Option.some.injEq, Prod.mk.injEq] at h2; obtain ⟨-, rfl⟩ := h2; exact ⟨rfl, rfl⟩
    | cons p cs ih =>
      obtain ⟨u, c⟩ := p
      simp only [run, Option.bind_eq_bind, Option.bind_eq_some_iff] at h2
      obtain ⟨r, hr, q, hq, he⟩ := h2
      simp only [Option.some.injEq, Prod.mk.injEq] at he
      obtain ⟨-, rfl⟩ := he
      have i1 := ih r.2 q.1 hq fun p hp => hd p (List.mem_cons_of_mem _ hp)
      have i2 := direct_diag hr (hd (u, c) List.mem_cons_self)
      exact ⟨i1.1.trans i2.1, i1.2.trans i2.2⟩
  set i := lTOfE o.t (l.get .lT j.lT) (o.t.lRho rho) e with hi
  have hl1 : l1.val .root = some (statusCode i.status) ∧ l1.val .loc = some (locCode i.loc) := by
    obtain ⟨x, hx⟩ := Option.isSome_iff_exists.1 hroot
    obtain ⟨y, hy⟩ := Option.isSome_iff_exists.1 hloc
    cases k <;> simp only [Q.byEnergy, reduceCtorEq] at hk <;>
      simp only [step, reduceCtorEq, Option.some.injEq, Prod.mk.injEq] at h1 <;> obtain ⟨-, rfl⟩ := h1 <;>
      simp [Q.byEnergy, diag_val, logs_val, hx, hy, hi]
  have hil : i.loc = locE o.t (o.t.lRho rho) e := by
    rw [hi]; unfold lTOfE
    cases locE o.t (o.t.lRho rho) e <;> rfl
  refine ⟨locCode i.loc, statusCode i.status, hrun.2.trans hl1.2, hrun.1.trans hl1.1, ?_, ?_, ?_, ?_, ?_, ?_⟩
  · cases i.loc <;> simp [locCode]
  · rw [← locE_offTop, ← hil]
    cases i.loc <;> norm_num [locCode, reduceCtorEq] <;> exact fun h => by cases h
  · rw [← locE_onTable, ← hil]
    cases i.loc <;> norm_num [locCode, reduceCtorEq] <;> exact fun h => by cases h
  · cases i.status <;> simp [statusCode]
  · cases i.status <;> simp [statusCode]
  · intro hr
    have hs : i.status = .fail := by
      cases hs : i.status with
      | success => rw [hs] at hr; simp [statusCode] at hr
      | fail => rfl
    rw [← locE_onTable]
    by_contra hne
    have : i.status = .success := by
      rw [hi]; unfold lTOfE
      cases hl : locE o.t (o.t.lRho rho) e with
      | onTable => exact absurd hl hne
      | offBottom => rfl
      | offTop => rfl
    rw [hs] at this
    exact absurd this (by simp)

/-- C158: `FillEos` leaves in the lambda what the single query does: by density and temperature what a pressure query does, by density and energy what a
temperature query does, and by pressure and temperature what `DensityEnergyFromPressureTemperature` does, which however recomputes the log density from
the density it returns. -/
theorem C158_fill_lambda (o : Obj K) (j : Junk K) (fl : Flags) (v : Thermo K) (l : Lam K) (r : Ans K × Lam K)
    (h : step o j (.fill fl v) l = some r) :
    (fl.rho = false → fl.temp = false → ∀ q, step o j (.query .pRT v.rho v.temp) l = some q → r.2.val = q.2.val) ∧
    (fl.rho = false → fl.temp = true → fl.sie = false → ∀ q, step o j (.query .tRE v.rho v.sie) l = some q → r.2.val = q.2.val) ∧
    (fl.rho = true → ∀ q, step o j (.pt v.press v.temp) l = some q →
      (∀ s, s ≠ .lRho → r.2.val s = q.2.val s) ∧
      ∀ x y, r.2.val .lRho = some x → q.2.val .lRho = some y → y = o.t.lRho (o.t.rho x)) := by
  simp only [step, Option.map_eq_some_iff] at h
  obtain ⟨w, -, rfl⟩ := h
  refine ⟨fun h1 h2 q hq => ?_, fun h1 h2 h3 q hq => ?_, fun h1 q hq => ?_⟩
  · simp only [step, Q.byEnergy, Bool.false_eq_true, if_false, Option.some.injEq] at hq
    subst hq
    simp [afterFill, h1, h2]
  · simp only [step, Q.byEnergy, if_true, Option.some.injEq] at hq
    subst hq
    simp only [afterFill, h1, h2, h3, Bool.false_eq_true, if_false, if_true, Bool.not_false]
    funext s
    simp only [logs_val, diag_val]
    cases s <;> simp [Option.map_map, Function.comp_def]
  · simp only [step, Option.some.injEq] at hq
    subst hq
    simp only [afterFill, h1, if_true]
    refine ⟨fun s hs => ?_, fun x y hx hy => ?_⟩
    · simp only [logs_val, diag_val]
      cases s <;> simp_all
    · simp only [logs_val, diag_val, reduceCtorEq, if_false, if_true, Option.map_map, Function.comp_def] at hx hy
      cases hv : l.val .lRho with
      | none => rw [hv] at hx; simp at hx
      | some z =>
        rw [hv] at hx hy
        simp only [Option.map_some, Option.some.injEq] at hx hy
        rw [← hx, ← hy]

/-- C158 is violated by the calls made with a temperature: they leave `TableStatus` as the last inversion left it. A state beyond the hottest
isotherm, whose pressure is extrapolated, is still reported as being on the table after an earlier query on the table. -/
theorem C158_table_status_violated (o : Obj K) (j : Junk K) (rho T : K) (l : Lam K) (hl : l.val .loc = some 0)
    (htop : locT o.t (o.t.lT T) = .offTop) :
    ∃ l', step o j (.query .pRT rho T) l = some (.num (o.t.gm1Max (o.t.lRho rho) * rho *
        (o.t.sielTMax (o.t.lRho rho) + o.t.dEdTMax (o.t.lRho rho) * (T - o.t.TMax))), l') ∧ l'.val .loc = some 0 := by
  refine ⟨l.logs (o.t.lRho rho) (o.t.lT T), ?_, ?_⟩
  · simp only [step, query, htop, pAt, Q.byEnergy, Bool.false_eq_true, if_false]
  · simp [logs_val, hl]

/-- What a call at `(rho, T)` leaves in the cache. -/
theorem at_logs {o : Obj K} {j : Junk K} {c : Call K} {l : Lam K} {r : Ans K × Lam K} {rho T : K} (h : step o j c l = some r)
    (hc : At rho T c) : r.2 = l.logs (o.t.lRho rho) (o.t.lT T) := by
  cases c with
  | query k rr y =>
    obtain ⟨h1, rfl, rfl⟩ := hc
    cases k <;> simp only [Q.byEnergy, reduceCtorEq] at h1 <;> simp only [step, reduceCtorEq, Option.some.injEq] at h <;> subst h <;>
      simp [Q.byEnergy]
  | fill fl v =>
    obtain ⟨h1, h2, rfl, rfl⟩ := hc
    simp only [step, Option.map_eq_some_iff] at h
    obtain ⟨w, -, rfl⟩ := h
    simp [afterFill, h1, h2]
  | minE _ => exact hc.elim
  | ref => exact hc.elim
  | pt _ _ => exact hc.elim
  | massT _ _ => exact hc.elim
  | massE _ _ => exact hc.elim

end order

section field
variable {K : Type} [Field K] [LinearOrder K] [IsStrictOrderedRing K]

/-- C158: the temperature of an energy on the table depends on the lambda by no more than the tolerance of the search, on an isochore that rises at
least at rate `m`; the reported `RootStatus` 0 is what makes it hold. -/
theorem C158_any_lambda_energy (o : Obj K) (hthr : 0 ≤ o.t.thr) {m rho x : K} (hm : 0 < m)
    (hrise : Rises (o.t.sie (o.t.lRho rho)) m o.t.lTMin o.t.lTMax) (hx1 : o.t.lTMin ≤ x) (hx2 : x ≤ o.t.lTMax)
    (j j' : Junk K) (l l' l1 l1' : Lam K) (a a' : Ans K)
    (hon : EnergyOn o.t rho (o.t.sie (o.t.lRho rho) x))
    (h : step o j (.query .tRE rho (o.t.sie (o.t.lRho rho) x)) l = some (a, l1)) (hr : l1.val .root = some 0)
    (h' : step o j' (.query .tRE rho (o.t.sie (o.t.lRho rho) x)) l' = some (a', l1')) (hr' : l1'.val .root = some 0) :
    ∃ y y', a = .num (o.t.T y) ∧ a' = .num (o.t.T y') ∧ |y - x| ≤ max o.t.thr (2 * o.t.thr / m) ∧
      |y' - x| ≤ max o.t.thr (2 * o.t.thr / m) ∧ |y - y'| ≤ 2 * max o.t.thr (2 * o.t.thr / m) := by
  have one : ∀ (j : Junk K) (l l1 : Lam K) (a : Ans K), step o j (.query .tRE rho (o.t.sie (o.t.lRho rho) x)) l = some (a, l1) →
      l1.val .root = some 0 → ∃ y, a = .num (o.t.T y) ∧ |y - x| ≤ max o.t.thr (2 * o.t.thr / m) := by
    intro j l l1 a h hr
    simp only [step, Q.byEnergy, if_true, Option.some.injEq, Prod.mk.injEq] at h
    obtain ⟨rfl, rfl⟩ := h
    have hs : (lTOfE o.t (l.get .lT j.lT) (o.t.lRho rho) (o.t.sie (o.t.lRho rho) x)).status = .success := by
      simp only [diag_val, logs_val, reduceCtorEq, if_false, if_true] at hr
      cases hv : l.val .root with
      | none => rw [hv] at hr; simp at hr
      | some z =>
        rw [hv] at hr
        simp only [Option.map_some, Option.some.injEq] at hr
        cases hs : (lTOfE o.t (l.get .lT j.lT) (o.t.lRho rho) (o.t.sie (o.t.lRho rho) x)).status with
        | success => rfl
        | fail => rw [hs] at hr; simp [statusCode] at hr
    have := C85_round_trip o.t hthr (l.get .lT j.lT) hm hrise hx1 hx2 ((locE_onTable o.t rho _).2 hon) hs
    exact ⟨_, by rw [this.1], this.2⟩
  obtain ⟨y, e1, b1⟩ := one j l l1 a h hr
  obtain ⟨y', e2, b2⟩ := one j' l' l1' a' h' hr'
  refine ⟨y, y', e1, e2, b1, b2, ?_⟩
  rw [abs_le] at *
  constructor <;> linarith [b1.1, b1.2, b2.1, b2.2]

/-- C158: density from pressure and temperature, with any lambda. `TableStatus` says whether the temperature was below (1), above (2) or on the table (0);
and if `RootStatus` is 0 then, on the table or on the cold curve, along an isotherm rising at least at rate `m` above the density of least pressure, the density
found for the pressure at log density `x` has a log within the tolerance of the search of `x`. -/
theorem C158_pressure_temperature (o : Obj K) (hthr : 0 ≤ o.t.thr) {m T x : K} (hm : 0 < m) (f : K → K)
    (hlT : (o.t.lT T ≤ o.t.lTMin ∧ f = o.t.PCold) ∨ (o.t.lTMin < o.t.lT T ∧ o.t.lT T < o.t.lTMax ∧ f = fun x => o.t.P x (o.t.lT T)))
    (hrise : Rises f m (o.t.lRho (o.t.rhoAtPmin (o.t.lT T))) o.t.lRhoMax)
    (hx1 : o.t.lRho (o.t.rhoAtPmin (o.t.lT T)) ≤ x) (hx2 : x ≤ o.t.lRhoMax)
    (j : Junk K) (l l1 : Lam K) (a : Ans K) (h : step o j (.pt (f x) T) l = some (a, l1)) :
    (∀ d, l1.val .loc = some d → (d = 1 ↔ o.t.lT T ≤ o.t.lTMin) ∧ (d = 0 ↔ o.t.lTMin < o.t.lT T)) ∧
    (l1.val .root = some 0 → ∃ y, a = .pair (o.t.rho y) (query o.t .eRT 0 (o.t.rho y) T) ∧
      |y - x| ≤ max o.t.thr (2 * o.t.thr / m)) := by
  simp only [step, Option.some.injEq, Prod.mk.injEq] at h
  obtain ⟨rfl, rfl⟩ := h
  set i := lRhoOfPT o.t (l.get .lRho j.lRho) (f x) (o.t.lT T) with hi
  constructor
  · intro d hd
    simp only [logs_val, diag_val, reduceCtorEq, if_false, if_true] at hd
    cases hv : l.val .loc with
    | none => rw [hv] at hd; simp at hd
    | some z =>
      rw [hv] at hd
      simp only [Option.map_some, Option.some.injEq] at hd
      subst hd
      rcases hlT with ⟨h1, -⟩ | ⟨h1, h2, -⟩
      · have : i.loc = .offBottom := by rw [hi]; simp only [lRhoOfPT, h1, if_true]
        rw [this]; norm_num [locCode, h1]
      · have : i.loc = .onTable := by
          rw [hi]; simp only [lRhoOfPT, not_le.2 h1, if_false, ge_iff_le, not_le.2 h2]
        rw [this]; norm_num [locCode, h1]
  · intro hr
    have hs : i.status = .success := by
      simp only [logs_val, diag_val, reduceCtorEq, if_false, if_true] at hr
      cases hv : l.val .root with
      | none => rw [hv] at hr; simp at hr
      | some z =>
        rw [hv] at hr
        simp only [Option.map_some, Option.some.injEq] at hr
        cases hs : i.status with
        | success => rfl
        | fail => rw [hs] at hr; simp [statusCode] at hr
    obtain ⟨e1, e2, -⟩ := C86_round_trip o.t hthr (l.get .lRho j.lRho) hm f hlT hrise hx1 hx2
    refine ⟨i.x, ?_, e2 hs⟩
    rfl

/-- C158: the cache makes the round trips exact. After any call at a density and temperature on the table, the temperature of the energy there is the
temperature of the call, and the density of the pressure there at this temperature is the density of the call, without error and whatever the
shape of the table. Required are a lambda with a cache, and a state distinguishable by the tolerance of the search from the lowest temperature,
respectively from the density of least pressure. -/
theorem C158_cached_round_trip (o : Obj K) (hthr : 0 ≤ o.t.thr) {rho T : K} (c : Call K) (hc : At rho T c) (j j' : Junk K)
    (l : Lam K) (r : Ans K × Lam K) (h : step o j c l = some r) :
    ((l.val .lT).isSome → o.t.T (o.t.lT T) = T → o.t.lTMin + 2 * o.t.thr < o.t.lT T → o.t.lT T ≤ o.t.lTMax →
      o.t.thr < |o.t.sie (o.t.lRho rho) o.t.lTMin - o.t.sie (o.t.lRho rho) (o.t.lT T)| →
      EnergyOn o.t rho (o.t.sie (o.t.lRho rho) (o.t.lT T)) →
      answer o j' (.query .tRE rho (o.t.sie (o.t.lRho rho) (o.t.lT T))) r.2 = some (.num T)) ∧
    ((l.val .lRho).isSome → o.t.rho (o.t.lRho rho) = rho → o.t.lTMin < o.t.lT T → o.t.lT T < o.t.lTMax →
      o.t.lRho (o.t.rhoAtPmin (o.t.lT T)) + 2 * o.t.thr < o.t.lRho rho → o.t.lRho rho ≤ o.t.lRhoMax →
      o.t.thr < |o.t.P (o.t.lRho (o.t.rhoAtPmin (o.t.lT T))) (o.t.lT T) - o.t.P (o.t.lRho rho) (o.t.lT T)| →
      answer o j' (.pt (o.t.P (o.t.lRho rho) (o.t.lT T)) T) r.2 = some (.pair rho (query o.t .eRT 0 rho T))) := by
  have hr := at_logs h hc
  constructor
  · intro hs hT h1 h2 hE hon
    obtain ⟨x, hx⟩ := Option.isSome_iff_exists.1 hs
    have hg : r.2.get .lT j'.lT = o.t.lT T := by rw [hr]; simp [Lam.get, logs_val, hx]
    have := (C91_cached_temperature o.t hthr (rho := rho) hT h1 h2 hE ((locE_onTable o.t rho _).2 hon)).1
    simp only [answer, step, hg, Option.map_some, this]
  · intro hs hR h1 h2 hR1 hR2 hP
    obtain ⟨x, hx⟩ := Option.isSome_iff_exists.1 hs
    have hg : r.2.get .lRho j'.lRho = o.t.lRho rho := by rw [hr]; simp [Lam.get, logs_val, hx]
    have := C91_cached_density o.t hthr hR h1 h2 hR1 hR2 hP
    simp only [answer, step, hg, Option.map_some, this]
    rfl

end field

/-- A table with `e = T` on `0 ≤ log T ≤ 1`, threshold `10^-14`, in reproducible mode. -/
noncomputable def reproTab : Tab ℝ :=
  { linTab with
    sie := fun _ T => T
    sielTMax := fun _ => 1
    lTMin := 0
    lTMax := 1
    thr := 1 / 10 ^ 14
    soft := 0
    repro := true }

/-- C158 is violated by `reproducibility_mode`: it replaces the default guess but still prefers the one in the lambda, so the answer depends on what was
asked before. For the energy `10^-14` a fresh lambda gives the temperature `10^-14`, one with `1.5 10^-14` in the cache gives `0.75 10^-14`. -/
theorem C158_reproducible_violated (mf : Option (Nat × (Nat → ℝ → ℝ → ℝ))) (rf : RefState ℝ) (v : Slot → Option ℝ) (j : Junk ℝ)
    (hv : ∀ x, v .lT = some x → x < 0) (hv' : (v .lT).isSome) :
    let o : Obj ℝ := ⟨reproTab, mf, rf⟩
    let l : Lam ℝ := ⟨false, v⟩
    o.t.repro = true ∧ answer o j (.query .tRE 1 (1 / 10 ^ 14)) l = some (.num (1 / 10 ^ 14)) ∧
    ∃ r, step o j (.query .pRT 1 (3 / 2 / 10 ^ 14)) l = some r ∧
      answer o j (.query .tRE 1 (1 / 10 ^ 14)) r.2 = some (.num (3 / 4 / 10 ^ 14)) := by
  intro o l
  obtain ⟨x, hx⟩ := Option.isSome_iff_exists.1 hv'
  have hxn := hv x hx
  have hloc : locE reproTab (reproTab.lRho 1) (1 / 10 ^ 14) = .onTable := by
    norm_num [locE, reproTab, linTab]
  refine ⟨rfl, ?_, ?_⟩
  · have hg : l.get .lT j.lT = x := by simp [Lam.get, l, hx]
    simp only [answer, step, Option.map_some, hg, o]
    have hq : query reproTab .tRE x 1 (1 / 10 ^ 14) = 1 / 10 ^ 14 := by
      simp only [query, lTOfE_onTable reproTab x _ _ hloc]
      have hgu : guessOf x reproTab.lTMin reproTab.lTMax (if reproTab.repro then reproTab.lTMin
          else 1 / 2 * (reproTab.lTMin + reproTab.lTMax)) = 0 := by
        unfold guessOf
        rw [if_neg (by simp only [reproTab]; intro h; linarith [h.1])]
        simp [reproTab]
      rw [hgu]
      have : invert reproTab.thr (reproTab.sie (reproTab.lRho 1)) (1 / 10 ^ 14) 0 reproTab.lTMin reproTab.lTMax
          (if reproTab.repro then reproTab.lTMin else 0) = (.success, 1 / 10 ^ 14) := by
        have hf : reproTab.sie (reproTab.lRho 1) = fun T => T := rfl
        rw [hf, show reproTab.lTMin = 0 from rfl, show reproTab.lTMax = 1 from rfl, show reproTab.thr = 1 / 10 ^ 14 from rfl]
        have hib : initBracket (fun x : ℝ => x - 1 / 10 ^ 14) 0 0 1 = some ⟨0, 1, 0 - 1 / 10 ^ 14, 1 - 1 / 10 ^ 14⟩ := by
          norm_num [initBracket, checkBracket]
        have hc1 : rfCond (1 / 10 ^ 14 : ℝ) (1 / 10 ^ 14) ⟨0, 1, (0 - 1 / 10 ^ 14) * 1, (1 - 1 / 10 ^ 14) * 1, 0, 0, 0⟩ := by
          refine ⟨by norm_num, Or.inr ?_, by norm_num⟩
          rw [abs_of_pos] <;> norm_num
        have hb : rfBody (fun x : ℝ => x - 1 / 10 ^ 14) 1 ⟨0, 1, (0 - 1 / 10 ^ 14) * 1, (1 - 1 / 10 ^ 14) * 1, 0, 0, 0⟩
            = ⟨1 / 10 ^ 14, 1 / 10 ^ 14, (0 - 1 / 10 ^ 14) * 1, (1 - 1 / 10 ^ 14) * 1, 0, 0, 1⟩ := by
          norm_num [rfBody]
        have hc2 : ¬ rfCond (1 / 10 ^ 14 : ℝ) (1 / 10 ^ 14)
            ⟨1 / 10 ^ 14, 1 / 10 ^ 14, (0 - 1 / 10 ^ 14) * 1, (1 - 1 / 10 ^ 14) * 1, 0, 0, 1⟩ := fun h => by
          have := h.1; norm_num at this
        unfold invert regulaFalsi
        simp only [hib]
        have hst : rfStart (⟨0, 1, 0 - 1 / 10 ^ 14, 1 - 1 / 10 ^ 14⟩ : Br ℝ)
            = (1, ⟨0, 1, (0 - 1 / 10 ^ 14) * 1, (1 - 1 / 10 ^ 14) * 1, 0, 0, 0⟩) := by
          have h0 : (0 : ℝ) - 1 / 10 ^ 14 < 0 := by norm_num
          simp only [rfStart, if_pos h0]
        rw [hst]
        simp only
        rw [show (1000 : Nat) = 998 + 1 + 1 from rfl, rfLoop, if_pos hc1, hb, rfLoop, if_neg hc2]
        norm_num
      rw [this]; rfl
    rw [hq]
  · refine ⟨_, rfl, ?_⟩
    have hg : (l.logs (reproTab.lRho 1) (reproTab.lT (3 / 2 / 10 ^ 14))).get .lT j.lT = 3 / 2 / 10 ^ 14 := by
      simp [Lam.get, logs_val, l, hx, reproTab, linTab]
    simp only [answer, step, Option.map_some, Q.byEnergy, Bool.false_eq_true, if_false, o, hg]
    have hq : query reproTab .tRE (3 / 2 / 10 ^ 14) 1 (1 / 10 ^ 14) = 3 / 4 / 10 ^ 14 := by
      simp only [query, lTOfE_onTable reproTab _ _ _ hloc]
      have hgu : guessOf (3 / 2 / 10 ^ 14) reproTab.lTMin reproTab.lTMax (if reproTab.repro then reproTab.lTMin
          else 1 / 2 * (reproTab.lTMin + reproTab.lTMax)) = 3 / 2 / 10 ^ 14 := by
        unfold guessOf
        rw [if_pos (by simp only [reproTab]; norm_num)]
      rw [hgu]
      have : invert reproTab.thr (reproTab.sie (reproTab.lRho 1)) (1 / 10 ^ 14) (3 / 2 / 10 ^ 14) reproTab.lTMin reproTab.lTMax
          (if reproTab.repro then reproTab.lTMin else 3 / 2 / 10 ^ 14) = (.success, 3 / 4 / 10 ^ 14) := by
        have hf : reproTab.sie (reproTab.lRho 1) = fun T => T := rfl
        rw [hf, show reproTab.lTMin = 0 from rfl, show reproTab.lTMax = 1 from rfl, show reproTab.thr = 1 / 10 ^ 14 from rfl]
        have hib : initBracket (fun x : ℝ => x - 1 / 10 ^ 14) (3 / 2 / 10 ^ 14) 0 1
            = some ⟨0, 3 / 2 / 10 ^ 14, 0 - 1 / 10 ^ 14, 3 / 2 / 10 ^ 14 - 1 / 10 ^ 14⟩ := by
          norm_num [initBracket, checkBracket]
        have hc2 : ∀ s : RF ℝ, s.a = 0 → s.b = 3 / 2 / 10 ^ 14 → ¬ rfCond (1 / 10 ^ 14 : ℝ) (1 / 10 ^ 14) s := fun s h1 h2 h => by
          have := h.1; rw [h1, h2] at this; norm_num at this
        unfold invert regulaFalsi
        simp only [hib]
        rw [show (1000 : Nat) = 999 + 1 from rfl, rfLoop, if_neg (hc2 _ rfl rfl)]
        norm_num [rfStart]
      rw [this]; rfl
    rw [hq]

/-- The hypotheses are met: a type-indexed lambda with all entries and nothing usable in the cache. -/
example : let v : Slot → Option ℝ := fun _ => some (-1)
    (∀ x, v .lT = some x → x < 0) ∧ (v .lT).isSome := by
  refine ⟨fun x h => ?_, rfl⟩
  simp only [Option.some.injEq] at h; linarith

/-- And those of C158_diagnostics and C158_cached_round_trip, by `linTab`: an energy query on the table followed by a pressure. -/
example (rf : RefState ℝ) (j : Junk ℝ) : let o : Obj ℝ := ⟨linTab, none, rf⟩
    let l : Lam ℝ := ⟨false, fun _ => some 7⟩
    EnergyOn linTab 1 4 ∧ (∃ a l1, step o j (.query .pRE 1 4) l = some (a, l1) ∧
      ∃ as l2, run o [(j, .query .pRT 1 2), (j, .minE 3)] l1 = some (as, l2)) ∧
    (∀ p ∈ [(j, Call.query .pRT 1 2), (j, .minE 3)], Direct o p.2) ∧ At (1 : ℝ) 2 (.query .pRT 1 2) := by
  intro o l
  refine ⟨?_, ⟨_, _, rfl, _, _, rfl⟩, ?_, ⟨rfl, rfl, rfl⟩⟩
  · norm_num [EnergyOn, linTab]
  · intro p hp
    simp only [List.mem_cons, List.not_mem_nil, or_false] at hp
    rcases hp with rfl | rfl
    · rfl
    · trivial

end Verif.RhoT
