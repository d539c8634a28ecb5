import Verif.Spec.StellarCollapseCalls
import Verif.Props.Table.Cached

/-! # C157: the calls on a `StellarCollapse` object and the lambda -/

namespace Verif.SC

open Verif.RootFind Verif.Robust Verif.Mods Verif.Databox
open Verif.RhoT (invert invert_at_root)
open Verif.Spec.SCCalls

set_option linter.unusedSectionVars false
set_option linter.unusedSimpArgs false
set_option linter.unusedVariables false

section field
variable {K : Type} [Field K] [LinearOrder K] [IsStrictOrderedRing K] [FloorRing K]

/-- C157: without a lambda every call aborts, also that of the reference state, which needs none for its answer. -/
theorem C157_null (m : Env K) (s : Eos K) (u : K) (c : Call K) : call m s u c none = none := rfl

/-- C157: with a lambda, every call answers for the electron fraction in it; the calls other than `FillEos` never abort, and `FillEos`
aborts exactly when it does so by itself (C102). -/
theorem C157_answers (m : Env K) (s : Eos K) (u : K) (l : Lam K) :
    (∀ k rho y, answer m s u (.query k rho y) l = some (.num (query m s k l.ye (l.cache u) rho y))) ∧
    (∀ rho, answer m s u (.minE rho) l = some (.num (minE m s l.ye rho))) ∧
    (∀ f rho T, answer m s u (.comp f rho T) l = some (.num (composition m s f l.ye rho T))) ∧
    (∀ fl v, answer m s u (.fill fl v) l = (fillEos m s fl l.ye (l.cache u) v).map .thermo) ∧
    answer m s u .ref l = some (.ref (refState m s)) ∧
    (∀ P T rho0, answer m s u (.pt P T rho0) l = some (.pair (dePT m s l.ye P T rho0).1 (dePT m s l.ye P T rho0).2)) := by
  refine ⟨fun k rho y => rfl, fun _ => rfl, fun _ _ _ => rfl, fun fl v => ?_, rfl, fun _ _ _ => rfl⟩
  simp only [answer, call, step, Option.bind_eq_bind, Option.bind_some]
  cases fillEos m s fl l.ye (l.cache u) v <;> rfl

/-- What a call leaves in the lambda: only the reference state changes the electron fraction. -/
theorem step_ye {m : Env K} {s : Eos K} {u : K} {c : Call K} {l : Lam K} {r : Ans K × Lam K} (h : step m s u c l = some r)
    (hc : c ≠ .ref) : r.2.ye = l.ye ∧ r.2.lT.isSome = l.lT.isSome := by
  cases c with
  | query k rho y => simp only [step, Option.some.injEq] at h; subst h; simp [Lam.store]
  | minE rho => simp only [step, Option.some.injEq] at h; subst h; simp
  | comp f rho T => simp only [step, Option.some.injEq] at h; subst h; simp [Lam.store]
  | fill fl v =>
    simp only [step, Option.map_eq_some_iff] at h
    obtain ⟨w, -, rfl⟩ := h
    simp [Lam.store]
  | ref => exact absurd rfl hc
  | pt P T rho0 => simp only [step, Option.some.injEq] at h; subst h; simp [Lam.store]

/-- C157: a run of calls, of any length, that does not ask for the reference state leaves the electron fraction of the caller alone, and
answers one by one as many calls as were made. -/
theorem C157_electron_fraction (m : Env K) (s : Eos K) (cs : List (K × Call K)) (a b : Lam K) (as : List (Ans K))
    (h : run m s cs a = some (as, b)) (hn : NoReference cs) : b.ye = a.ye ∧ as.length = cs.length := by
  induction cs generalizing a as with
  | nil => simp only [run, Option.some.injEq, Prod.mk.injEq] at h; obtain ⟨rfl, rfl⟩ := h; exact ⟨rfl, rfl⟩
  | cons p cs ih =>
    obtain ⟨u, c⟩ := p
    simp only [run, Option.bind_eq_bind, Option.bind_eq_some_iff] at h
    obtain ⟨r, hr, q, hq, he⟩ := h
    simp only [Option.some.injEq, Prod.mk.injEq] at he
    obtain ⟨rfl, rfl⟩ := he
    obtain ⟨h1, h2⟩ := ih r.2 q.1 hq fun p hp => hn p (List.mem_cons_of_mem _ hp)
    have := step_ye hr (hn (u, c) List.mem_cons_self)
    exact ⟨h1.trans this.1, by simp [h2]⟩

/-- The temperature found for an energy off the table does not depend on the cache. -/
theorem lTOfE_off {m : Env K} {s : Eos K} {Ye rho e : K} (h : ¬ Between m s Ye rho e) (c c' : K) :
    lTOfE m s Ye c (lRho m rho) e = lTOfE m s Ye c' (lRho m rho) e := by
  unfold lTOfE
  by_cases h1 : e ≤ s.eCold.interp Ye (lRho m rho)
  · rw [if_pos h1, if_pos h1]
  · by_cases h2 : e ≥ s.eHot.interp Ye (lRho m rho)
    · rw [if_neg h1, if_neg h1, if_pos h2, if_pos h2]
    · exact absurd ⟨not_le.1 h1, not_le.1 h2⟩ h

/-- C157: a call that has no temperature to search for (made with a temperature, or an energy off the table, or with neither) gives after any
run of calls without the reference state exactly the answer it would have given before, also in what it aborts on and whatever the
uninitialised variables contain. -/
theorem C157_history (m : Env K) (s : Eos K) (cs : List (K × Call K)) (a b : Lam K) (as : List (Ans K)) (u u' : K) (c : Call K)
    (h : run m s cs a = some (as, b)) (hn : NoReference cs) (hc : ¬ Searches m s a.ye c) :
    answer m s u c b = answer m s u' c a := by
  have hy := (C157_electron_fraction m s cs a b as h hn).1
  obtain ⟨q1, q2, q3, q4, q5, q6⟩ := C157_answers m s u b
  obtain ⟨p1, p2, p3, p4, p5, p6⟩ := C157_answers m s u' a
  cases c with
  | query k rho y =>
    rw [q1, p1, hy]
    simp only [Searches, not_and] at hc
    unfold query
    by_cases hk : k.byEnergy = true
    · rw [if_pos hk, if_pos hk, lTOfE_off (hc hk) (b.cache u) (a.cache u')]
    · rw [if_neg hk, if_neg hk]
  | minE rho => rw [q2, p2, hy]
  | comp f rho T => rw [q3, p3, hy]
  | fill fl v =>
    rw [q4, p4, hy]
    simp only [Searches, not_and] at hc
    unfold fillEos
    by_cases hk : fl.temp = true
    · simp only [lTOfE_off (hc hk) (b.cache u) (a.cache u')]
    · simp [hk]
  | ref => rw [q5, p5]
  | pt P T rho0 => rw [q6, p6, hy]

/-- C157: the temperature of an energy on the table depends on the calls before it by no more than the search tolerance. At the densities
and electron fractions of the table, where the stored log energy rises by at least `r > 0` grid spacings from one temperature to the
next, two runs without the reference state lead to temperatures for the energy of `T` that differ by at most `2 max thr (2 thr / r)`
in the logarithm, when the search succeeds both times (C97_round_trip: certain if the energy does not rise too unevenly). -/
theorem C157_history_energy {m : Env K} (hm : Logs m) (hthr : 0 ≤ m.thr) {s : Eos K} (hs : Loaded m s) {k i : Nat}
    (hk : k < (s.tab .lE).g2.N) (hi : i < (s.tab .lE).g0.N) (T r : K) (hr : 0 < r)
    (hmono : ∀ j, j + 1 < s.numT → r * (s.tab .lE).g1.dx ≤ (s.tab .lE).data k (j + 1) i - (s.tab .lE).data k j i)
    (hT1 : tOf m s.lTMin < T) (hT2 : T < tOf m s.lTMax) (a : Lam K) (ha : a.ye = (s.tab .lE).g2.x k)
    (cs cs' : List (K × Call K)) (b b' : Lam K) (as as' : List (Ans K)) (u u' T1 T2 : K)
    (h : run m s cs a = some (as, b)) (hn : NoReference cs) (h' : run m s cs' a = some (as', b')) (hn' : NoReference cs') :
    let rho := m.pw ((s.tab .lE).g0.x i)
    let e := query m s .eRT a.ye 0 rho T
    answer m s u (.query .tRE rho e) b = some (.num T1) → answer m s u' (.query .tRE rho e) b' = some (.num T2) →
    (lTOfE m s a.ye (b.cache u) (lRho m rho) e).1 = .success → (lTOfE m s a.ye (b'.cache u') (lRho m rho) e).1 = .success →
    |lT m T1 - lT m T2| ≤ 2 * max m.thr (2 * m.thr / r) := by
  intro rho e e1 e2 s1 s2
  have hy := (C157_electron_fraction m s cs a b as h hn).1
  have hy' := (C157_electron_fraction m s cs' a b' as' h' hn').1
  rw [(C157_answers m s u b).1, hy] at e1
  rw [(C157_answers m s u' b').1, hy'] at e2
  simp only [Option.some.injEq, Ans.num.injEq] at e1 e2
  have hrho : lRho m rho = (s.tab .lE).g0.x i := lRho_pw hm _
  have g1 := (C97_round_trip hm hthr hs hk hi (b.cache u) 0 T r hr hmono hT1 hT2).1
  have g2 := (C97_round_trip hm hthr hs hk hi (b'.cache u') 0 T r hr hmono hT1 hT2).1
  rw [← ha] at g1 g2
  rw [hrho] at s1 s2
  have d1 := g1 s1
  have d2 := g2 s2
  change |lT m (query m s .tRE a.ye (b.cache u) rho e) - lT m T| ≤ _ at d1
  change |lT m (query m s .tRE a.ye (b'.cache u') rho e) - lT m T| ≤ _ at d2
  rw [e1] at d1
  rw [e2] at d2
  rw [abs_le] at d1 d2 ⊢
  constructor <;> linarith [d1.1, d1.2, d2.1, d2.2]

/-- What a call made with a temperature leaves in the cache. -/
theorem step_at {m : Env K} {s : Eos K} {u : K} {c : Call K} {l : Lam K} {r : Ans K × Lam K} {T : K} (h : step m s u c l = some r)
    (hc : At T c) : r.2 = l.store (lT m T) := by
  cases c with
  | query k rho y =>
    obtain ⟨h1, rfl⟩ := hc
    simp only [step, h1, Bool.false_eq_true, if_false, Option.some.injEq] at h; subst h; rfl
  | minE rho => exact hc.elim
  | comp f rho y => cases hc; simp only [step, Option.some.injEq] at h; subst h; rfl
  | fill fl v =>
    obtain ⟨h1, rfl⟩ := hc
    simp only [step, Option.map_eq_some_iff, h1] at h
    obtain ⟨w, -, rfl⟩ := h
    rfl
  | ref => exact hc.elim
  | pt P y rho0 => cases hc; simp only [step, Option.some.injEq] at h; subst h; rfl

/-- C157: the cache makes the round trip exact. After any call made with the temperature `T` (at whatever density, `FillEos` and the
composition included), the temperature of the energy that any density has at `T` is found to be `T` itself, without error and whatever
the shape of the table: it need not even rise with the temperature. Required are a lambda with a cache, `T` in the table, an energy strictly
between the curves, and `T` distinguishable from the lowest temperature by the tolerance of the search, in itself and in energy. -/
theorem C157_cached_round_trip {m : Env K} (hm : Logs m) (hthr : 0 ≤ m.thr) (s : Eos K) (l : Lam K) (hl : l.lT.isSome)
    (u u' T rho : K) (hT : 0 < T) (c : Call K) (hc : At T c) (r : Ans K × Lam K) (h : step m s u c l = some r)
    (hT1 : s.lTMin + 2 * m.thr < lT m T) (hT2 : lT m T ≤ s.lTMax)
    (hE : m.thr < |(s.tab .lE).interp l.ye s.lTMin (lRho m rho) - (s.tab .lE).interp l.ye (lT m T) (lRho m rho)|) :
    let e := query m s .eRT l.ye 0 rho T
    Between m s l.ye rho e → answer m s u' (.query .tRE rho e) r.2 = some (.num T) := by
  intro e hb
  have hr := step_at h hc
  rw [(C157_answers m s u' r.2).1, hr]
  obtain ⟨x0, hx0⟩ := Option.isSome_iff_exists.1 hl
  have hca : (l.store (lT m T)).cache u' = lT m T := by simp [Lam.store, Lam.cache, hx0]
  have hye : (l.store (lT m T)).ye = l.ye := rfl
  rw [hca, hye]
  have he : lEOf m s e = (s.tab .lE).interp l.ye (lT m T) (lRho m rho) := by
    set z := (s.tab .lE).interp l.ye (lT m T) (lRho m rho) with hz
    have hq : e = m.pw z - s.lEOffset := by
      simp only [e, query, Q.byEnergy, Bool.false_eq_true, if_false, at_, eOf, fromLog, hz]
    have hp := hm.pw_pos z
    unfold lEOf toLog
    rw [hm.small, hq, max_eq_left (by linarith), add_zero, sub_add_cancel, abs_of_pos hp, hm.lg_pw]
  have hg : s.lTMin ≤ lT m T ∧ lT m T ≤ s.lTMax := ⟨by linarith, hT2⟩
  have : lTOfE m s l.ye (lT m T) (lRho m rho) e = (.success, lT m T) := by
    unfold lTOfE
    rw [if_neg (not_le.2 hb.1), if_neg (not_le.2 hb.2)]
    simp only [if_pos hg]
    exact invert_at_root he.symm hthr (by linarith) (by rw [he]; exact hE)
  simp only [query, Q.byEnergy, if_true, at_, this, tOf_lT hm hT]

/-- C157 is violated by the reference state: after it the caller's electron fraction is that of the reference state, 0.3517, and every later
call answers for that composition, until the caller restores his own. -/
theorem C157_reference_violated (m : Env K) (s : Eos K) (u : K) (l : Lam K) :
    ∃ b, call m s u .ref (some l) = some (.ref (refState m s), some b) ∧ b.ye = 3517 / 10000 ∧
      (∀ v k rho y, k.byEnergy = false → answer m s v (.query k rho y) b = some (.num (query m s k (3517 / 10000) 0 rho y))) ∧
      (∀ v rho, answer m s v (.minE rho) b = some (.num (minE m s (3517 / 10000) rho))) ∧
      ∀ (v v' rho T : K), StrictMono m.pw →
        (answer m s v (.query .pRT rho T) b = answer m s v' (.query .pRT rho T) l ↔
          (s.tab .lP).interp (3517 / 10000) (lT m T) (lRho m rho) = (s.tab .lP).interp l.ye (lT m T) (lRho m rho)) := by
  refine ⟨(l.setYe YeNormal).store (lT m TNormal), rfl, rfl, fun v k rho y hk => ?_, fun v rho => rfl, fun v v' rho T hp => ?_⟩
  · rw [(C157_answers m s v _).1]
    unfold query
    rw [if_neg (by rw [hk]; exact Bool.false_ne_true), if_neg (by rw [hk]; exact Bool.false_ne_true)]
    rfl
  · rw [(C157_answers m s v _).1, (C157_answers m s v' l).1]
    simp only [Option.some.injEq, Ans.num.injEq, query, Q.byEnergy, Bool.false_eq_true, if_false, at_, pOf, fromLog, sub_zero]
    exact hp.injective.eq_iff

end field

/-- A table whose log pressure is the electron fraction. -/
noncomputable def byYe : Eos ℝ :=
  { steep with tab := fun _ => ⟨⟨0, 1, 2⟩, ⟨0, 1, 2⟩, ⟨0, 1, 2⟩, fun k _ _ => k⟩ }

theorem byYe_interp (f : F) (x y z : ℝ) : (byYe.tab f).interp x y z = x := by
  change lin (⟨0, 1, 2⟩ : Grid ℝ) (fun k => lin (⟨0, 1, 2⟩ : Grid ℝ) (fun _ => lin (⟨0, 1, 2⟩ : Grid ℝ)
    (fun _ => (k : ℝ)) z) y) x = _
  have hx : ∀ i : Nat, (⟨0, 1, 2⟩ : Grid ℝ).x i = i := fun i => by simp [Grid.x, Grid.dx]; norm_num
  have e0 : ∀ k : Nat, lin (⟨0, 1, 2⟩ : Grid ℝ) (fun _ => lin (⟨0, 1, 2⟩ : Grid ℝ) (fun _ => (k : ℝ)) z) y = k := fun k => by
    simp only [lin_const unit_ok]
  simp only [e0]
  have := lin_affine unit_ok 0 1 x
  simp only [hx, one_mul, zero_add] at this
  exact this

/-- C157 is violated: on this table the pressure of one and the same state is 10 before the reference state is asked for and
`10^0.3517` after it. -/
theorem C157_reference_pressure_violated (u : ℝ) :
    ∃ b, call trueLogs byYe u .ref (some ⟨1, some 0⟩) = some (.ref (refState trueLogs byYe), some b) ∧
      answer trueLogs byYe u (.query .pRT 1 1) ⟨1, some 0⟩ = some (.num 10) ∧
      answer trueLogs byYe u (.query .pRT 1 1) b = some (.num ((10 : ℝ) ^ (0.3517 : ℝ))) ∧ (10 : ℝ) ^ (0.3517 : ℝ) < 10 := by
  obtain ⟨b, h1, -, h3, -, -⟩ := C157_reference_violated trueLogs byYe u ⟨1, some 0⟩
  refine ⟨b, h1, ?_, ?_, ?_⟩
  · rw [(C157_answers _ _ _ _).1]
    simp only [query, Q.byEnergy, Bool.false_eq_true, if_false, at_, pOf, fromLog, sub_zero, byYe_interp, trueLogs, Real.rpow_one]
  · rw [h3 u .pRT 1 1 rfl]
    simp only [query, Q.byEnergy, Bool.false_eq_true, if_false, at_, pOf, fromLog, sub_zero, byYe_interp, trueLogs]
    norm_num
  · have : (10 : ℝ) ^ (0.3517 : ℝ) < 10 ^ (1 : ℝ) := Real.rpow_lt_rpow_of_exponent_lt (by norm_num) (by norm_num)
    rwa [Real.rpow_one] at this

/-- The hypotheses of C157_history are met by a run of three calls, one of them by energy. -/
example : ∃ as b, run trueLogs steep [((0 : ℝ), .query .pRT 1 2), (0, .minE 3), (0, .query .pRE 1 0)] ⟨1 / 2, some 7⟩ = some (as, b) ∧
    NoReference [((0 : ℝ), Call.query .pRT 1 2), (0, .minE 3), (0, .query .pRE 1 0)] ∧
    ¬ Searches trueLogs steep (1 / 2) (.query .bRT 1 2) := by
  refine ⟨_, _, rfl, ?_, ?_⟩
  · intro p hp
    simp only [List.mem_cons, List.not_mem_nil, or_false] at hp
    rcases hp with rfl | rfl | rfl <;> exact fun h => by cases h
  · exact fun h => by simp [Searches, Q.byEnergy] at h

/-- Those of C157_cached_round_trip by the table `steep` (between 1 and 10 in temperature) at `T = sqrt 10`, density and electron fraction
at the nodes 1 and 0, after a pressure at another density. -/
example (u : ℝ) : let T : ℝ := (10 : ℝ) ^ (1 / 2 : ℝ)
    let l : Lam ℝ := ⟨0, some 0⟩
    At T (.query .pRT 3 T) ∧ (∃ r, step trueLogs steep u (.query .pRT 3 T) l = some r) ∧ 0 < T ∧
      steep.lTMin + 2 * trueLogs.thr < lT trueLogs T ∧ lT trueLogs T ≤ steep.lTMax ∧
      trueLogs.thr < |(steep.tab .lE).interp l.ye steep.lTMin (lRho trueLogs 1)
        - (steep.tab .lE).interp l.ye (lT trueLogs T) (lRho trueLogs 1)| ∧
      Between trueLogs steep l.ye 1 (query trueLogs steep .eRT l.ye 0 1 T) := by
  intro T l
  have hT : 0 < T := Real.rpow_pos_of_pos (by norm_num) _
  have hl : lT trueLogs T = 1 / 2 := by
    unfold lT; rw [toLog_pos trueLogs_ok hT]; exact trueLogs_ok.lg_pw _
  have h1 : (1 : ℝ) = trueLogs.pw ((steep.tab .lE).g0.x 0) := by
    simp only [trueLogs, steep, Grid.x_zero, Real.rpow_zero]
  have hy : l.ye = (steep.tab .lE).g2.x 0 := by simp [l, steep, Grid.x_zero]
  have hr : lRho trueLogs 1 = 0 := by unfold lRho; rw [toLog_pos trueLogs_ok one_pos]; simp [trueLogs]
  have hc : steep.eCold.interp l.ye (lRho trueLogs 1) = 1 := by
    have := minE_node trueLogs_ok steep_loaded (k := 0) (i := 0) (by norm_num [steep]) (by norm_num [steep])
    rw [← h1, ← hy] at this
    unfold minE at this
    rw [this]
    simp [eOf, fromLog, trueLogs, steep]
  have hh : steep.eHot.interp l.ye (lRho trueLogs 1) = 10 := by
    have := hot_node trueLogs_ok steep_loaded (k := 0) (i := 0) (by norm_num [steep]) (by norm_num [steep])
    rw [← hy, show (steep.tab .lE).g0.x 0 = lRho trueLogs 1 by rw [hr]; simp [steep, Grid.x_zero]] at this
    rw [this]
    simp [eOf, fromLog, trueLogs, steep]
  have he : query trueLogs steep .eRT l.ye 0 1 T = (10 : ℝ) ^ (1 / 2 : ℝ) := by
    simp only [query, Q.byEnergy, Bool.false_eq_true, if_false, at_, hl, hr, steep_interp, eOf, fromLog]
    simp [trueLogs, steep]
  refine ⟨⟨rfl, rfl⟩, ⟨_, rfl⟩, hT, ?_, ?_, ?_, ?_⟩
  · rw [hl]; norm_num [steep, trueLogs]
  · rw [hl]; norm_num [steep]
  · rw [steep_interp, steep_interp, hl, hr]; norm_num [steep, trueLogs, abs_of_neg]
  · unfold Between
    rw [hc, hh, he]
    constructor
    · exact Real.one_lt_rpow (by norm_num) (by norm_num)
    · have : (10 : ℝ) ^ (1 / 2 : ℝ) < 10 ^ (1 : ℝ) := Real.rpow_lt_rpow_of_exponent_lt (by norm_num) (by norm_num)
      rwa [Real.rpow_one] at this

end Verif.SC
