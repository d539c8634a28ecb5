import Verif.Spec.Eospac
import Mathlib.Tactic.Ring
import Mathlib.Tactic.FieldSimp
import Mathlib.Tactic.Positivity
import Mathlib.Tactic.Linarith
import Mathlib.Tactic.NormNum

set_option linter.unusedSectionVars false

/-! # EOSPAC: scalar queries, the shared state of the library -/

namespace Verif.Eospac

open Verif.Mods Verif.Robust Verif.Spec.Eospac

universe u
variable {K : Type u} [Field K] [LinearOrder K] [IsStrictOrderedRing K]

/-! ## Options -/

theorem setOpts_eq (s : Sess K) (t : Tid) (opts : List (Opt × K)) :
    setOpts s t opts = Function.update s t (opts.foldl (fun c o => c.set o.1 o.2) (s t)) := by
  unfold setOpts
  induction opts generalizing s with
  | nil => simp
  | cons o os ih =>
    rw [List.foldl_cons, ih, List.foldl_cons]
    simp [setOpt]

theorem resetOpts_eq (s : Sess K) (t : Tid) (opts : List (Opt × K)) :
    resetOpts s t opts = Function.update s t (opts.foldl (fun c o => c.reset o.1) (s t)) := by
  unfold resetOpts
  induction opts generalizing s with
  | nil => simp
  | cons o os ih =>
    rw [List.foldl_cons, ih, List.foldl_cons]
    simp [resetOpt]

/-- What a list of resets does, field by field. -/
theorem reset_fields (c : Conv K) (os : List (Opt × K)) :
    let d := os.foldl (fun c o => c.reset o.1) c
    d.x = (if os.any (fun o => o.1 = .X ∨ o.1 = .XY) then 1 else c.x) ∧
    d.y = (if os.any (fun o => o.1 = .Y ∨ o.1 = .XY) then 1 else c.y) ∧
    d.f = (if os.any (fun o => o.1 = .F) then 1 else c.f) := by
  induction os generalizing c with
  | nil => simp
  | cons o os ih =>
    obtain ⟨o, v⟩ := o
    simp only [List.foldl_cons, List.any_cons]
    obtain ⟨h1, h2, h3⟩ := ih (c.reset o)
    refine ⟨h1.trans ?_, h2.trans ?_, h3.trans ?_⟩ <;> cases o <;> simp [-List.any_eq_true, Conv.reset]

/-- What a list of settings leaves alone. -/
theorem set_fields (c : Conv K) (os : List (Opt × K)) :
    let d := os.foldl (fun c o => c.set o.1 o.2) c
    (os.any (fun o => o.1 = .X ∨ o.1 = .XY) = false → d.x = c.x) ∧
    (os.any (fun o => o.1 = .Y ∨ o.1 = .XY) = false → d.y = c.y) ∧
    (os.any (fun o => o.1 = .F) = false → d.f = c.f) := by
  induction os generalizing c with
  | nil => simp
  | cons o os ih =>
    obtain ⟨o, v⟩ := o
    simp only [List.foldl_cons, List.any_cons]
    obtain ⟨h1, h2, h3⟩ := ih (c.set o v)
    refine ⟨fun h => ?_, fun h => ?_, fun h => ?_⟩
    · simp only [Bool.or_eq_false_iff] at h
      rw [h1 h.2]; cases o <;> simp_all [Conv.set]
    · simp only [Bool.or_eq_false_iff] at h
      rw [h2 h.2]; cases o <;> simp_all [Conv.set]
    · simp only [Bool.or_eq_false_iff] at h
      rw [h3 h.2]; cases o <;> simp_all [Conv.set]

theorem set_reset (os : List (Opt × K)) :
    os.foldl (fun c o => c.reset o.1) (os.foldl (fun c o => c.set o.1 o.2) (Conv.none : Conv K))
      = Conv.none := by
  obtain ⟨r1, r2, r3⟩ := reset_fields (os.foldl (fun c o => c.set o.1 o.2) (Conv.none : Conv K)) os
  obtain ⟨s1, s2, s3⟩ := set_fields (Conv.none : Conv K) os
  have hx : ∀ a b : Conv K, a.x = b.x → a.y = b.y → a.f = b.f → a = b := by
    rintro ⟨⟩ ⟨⟩ h1 h2 h3; simp_all
  refine hx _ _ (r1.trans ?_) (r2.trans ?_) (r3.trans ?_)
  · split_ifs with h
    · rfl
    · rw [s1 (by revert h; cases os.any _ <;> simp)]
  · split_ifs with h
    · rfl
    · rw [s2 (by revert h; cases os.any _ <;> simp)]
  · split_ifs with h
    · rfl
    · rw [s3 (by revert h; cases os.any _ <;> simp)]

theorem resetOpts_setOpts (t : Tid) (os : List (Opt × K)) :
    resetOpts (setOpts (fresh : Sess K) t os) t os = fresh := by
  rw [resetOpts_eq, setOpts_eq]
  simp only [Function.update_self, Function.update_idem]
  rw [show (fresh : Sess K) t = Conv.none from rfl, set_reset]
  exact Function.update_eq_self t _

theorem safeInterp_fresh (T : Tabs K) (t : Tid) (os : List (Opt × K)) (x y : K) :
    safeInterp T t os x y fresh =
      (lookup (T t) (os.foldl (fun c o => c.set o.1 o.2) Conv.none) x y, fresh) := by
  unfold safeInterp
  refine Prod.ext ?_ (resetOpts_setOpts t os)
  simp only [setOpts_eq, Function.update_self]
  rfl

theorem lookup_none (t : Tab K) (x y : K) :
    lookup t Conv.none x y = ⟨t.f x y, t.fx x y, t.fy x y⟩ := by
  simp [lookup, Conv.none]

theorem safeInterp_plain (T : Tabs K) (t : Tid) (x y : K) :
    safeInterp T t [] x y fresh = (⟨(T t).f x y, (T t).fx x y, (T t).fy x y⟩, fresh) := by
  rw [safeInterp_fresh, List.foldl_nil, lookup_none]

theorem bind_run {α β : Type u} (m : StateM (Sess K) α) (f : α → StateM (Sess K) β) (s s' : Sess K) (a : α)
    (h : m s = (a, s')) : (m >>= f) s = f a s' := by
  change (match m s with | (a, s) => f a s) = _
  rw [h]

theorem pure_run {α : Type u} (a : α) (s : Sess K) : (pure a : StateM (Sess K) α) s = (a, s) := rfl

theorem ten : (0 : K) < 10 ^ 10 := by positivity

theorem toU (e : K) : (1 / 10 ^ 10 : K) * e = e / 10 ^ 10 := by ring

theorem bulk_eq (T : Tabs K) (rho temp : K) :
    10 ^ 10 * bulkOf 1 rho ((T .PofRT).f rho temp) ((T .PofRT).fx rho temp) ((T .PofRT).fy rho temp)
      ((T .EofRT).fx rho temp) ((T .EofRT).fy rho temp) = bulk T rho temp := by
  have h10 : (0 : K) < 10 ^ 10 := ten
  generalize hc : (10 ^ 10 : K) = c at *
  unfold bulkOf bulk press
  rw [hc]
  simp only
  by_cases hr : rho ≤ 0
  · have : ¬ rho > 0 := not_lt.mpr hr
    simp [hr, this]
  · have hr' : rho > 0 := not_le.mp hr
    simp only [hr, hr', if_false, and_true, if_true, gt_iff_lt]
    split_ifs with h
    · rw [mul_max_of_nonneg _ _ h10.le, mul_zero]
      congr 1
      simp only [mul_one]
      field_simp
    · rw [max_eq_left (le_max_right _ _), mul_max_of_nonneg _ _ h10.le, mul_zero]
      congr 1; ring

theorem fill_at (T : Tabs K) (o : Flags) (v : Thermo K) (h1 : o.rho = false) (h2 : o.temp = false) :
    fillBody (safeInterp T) o v fresh =
      ({ rho := v.rho, temp := v.temp
         sie := if o.sie then sie T v.rho v.temp else v.sie
         press := if o.press then press T v.rho v.temp else v.press
         cv := if o.cv then cv T v.rho v.temp else v.cv
         bmod := if o.bmod then bulk T v.rho v.temp else v.bmod }, fresh) := by
  have hcv : ∀ a : K, (10 : K) ^ 10 * max a 0 = max (10 ^ 10 * a) 0 := fun a => by
    rw [mul_max_of_nonneg _ _ ten.le, mul_zero]
  obtain ⟨or, ot, os, op, oc, ob⟩ := o
  simp only at h1 h2
  subst h1 h2
  cases os <;> cases op <;> cases oc <;> cases ob <;>
    simp [fillBody, fillDensity, fillTemp, lookIf, bind, StateT.bind, pure, StateT.pure, safeInterp_plain, sieU, presU, cvU, bmodU, bulk_eq,
      sie, press, cv, hcv]

/-- C106: every scalar query returns the tabulated value in cgs units (see `Spec.Eospac.answer`) and leaves the
shared state of the library as it found it; the contents of uninitialised local variables (`g`, `u`) are
irrelevant. -/
theorem C106_queries (σ : K) (T : Tabs K) (g : Thermo K) (u : K) (k : Q) (a b : K) :
    query σ (safeInterp T) g k a b fresh = (answer σ T k a b, fresh) ∧
    ((∀ x y y', (T .EcofD).f x y = (T .EcofD).f x y') →
      minE (safeInterp T) u a fresh = (10 ^ 10 * (T .EcofD).f a 0, fresh)) ∧
    rePT (safeInterp T) a b fresh = ((density T a b, sie T (density T a b) b), fresh) := by
  have h10 : (10 : K) ^ 10 ≠ 0 := ten.ne'
  have hg : ∀ x : K, (10 : K) ^ 10 * (1 / 10 ^ 10 * x) = x := fun x => by field_simp
  have htre : ∀ a b : K, tRE (safeInterp T) a b fresh = (temp T a b, fresh) := by
    intro a b
    simp [tRE, bind, StateT.bind, pure, StateT.pure, safeInterp_plain, toSieU, temp, div_eq_inv_mul]
  have hcv : ∀ a b : K, cvRT (safeInterp T) g a b fresh = (cv T a b, fresh) := by
    intro a b
    unfold cvRT
    rw [bind_run _ _ _ _ _ (fill_at T (only false true false) _ rfl rfl)]
    simp [pure_run, only]
  have hb : ∀ a b : K, bRT (safeInterp T) g a b fresh = (bulk T a b, fresh) := by
    intro a b
    unfold bRT
    rw [bind_run _ _ _ _ _ (fill_at T (only false false true) _ rfl rfl)]
    simp [pure_run, only]
  have hs : ∀ a b : K, sRT (safeInterp T) a b fresh = (entropy T a b, fresh) := by
    intro a b
    simp [sRT, bind, StateT.bind, pure, StateT.pure, safeInterp_plain, entU, entropy]
  have hgr : ∀ a b : K, gRT σ (safeInterp T) a b fresh = (gru σ T a b, fresh) := by
    intro a b
    simp only [gRT, bind, StateT.bind, pure, StateT.pure, safeInterp_plain, presU, toSieU, gru, hg]
  refine ⟨?_, ?_, ?_⟩
  · cases k
    · exact htre a b
    · simp only [query, answer, eRT]
      rw [bind_run _ _ _ _ _ (fill_at T (only true false false) _ rfl rfl)]
      simp [pure_run, only]
    · simp [query, pRT, bind, StateT.bind, pure, StateT.pure, safeInterp_plain, presU, answer, press]
    · simp only [query, pRE, bind, StateT.bind, pure, StateT.pure, safeInterp_fresh, answer, pressE, lookup,
        List.foldl_cons, List.foldl_nil, Conv.set, Conv.none, presU, sieU, div_one]
    · exact hs a b
    · simp only [query, answer, sRE]
      rw [bind_run _ _ _ _ _ (htre a b)]
      exact hs _ _
    · exact hcv a b
    · simp only [query, answer, cvRE]
      rw [bind_run _ _ _ _ _ (htre a b)]
      exact hcv _ _
    · exact hb a b
    · simp only [query, answer, bRE]
      rw [bind_run _ _ _ _ _ (htre a b)]
      exact hb _ _
    · exact hgr a b
    · simp only [query, answer, gRE]
      rw [bind_run _ _ _ _ _ (htre a b)]
      exact hgr _ _
  · intro hE
    simp only [minE, bind, StateT.bind, pure, StateT.pure, safeInterp_fresh, lookup, List.foldl_cons,
      List.foldl_nil, Conv.set, Conv.none, sieU, div_one]
    rw [hE a u 0]
  · simp [rePT, bind, StateT.bind, pure, StateT.pure, safeInterp_plain, toPresU, sieU, density, sie,
      div_eq_inv_mul]

theorem call_fresh (σ : K) (T : Tabs K) (g : Thermo K) (c : Call K) : ((c.run σ (safeInterp T) g : StateM (Sess K) (List K)) fresh).2 = fresh := by
  cases c with
  | query k a b =>
    simp only [Call.run]
    rw [bind_run _ _ _ _ _ (C106_queries σ T g 0 k a b).1]; rfl
  | minE u rho =>
    simp only [Call.run, Eospac.minE, bind, StateT.bind, pure, StateT.pure, safeInterp_fresh]
  | fill o v =>
    obtain ⟨or, ot, os, op, oc, ob⟩ := o
    cases or <;> cases ot <;> cases os <;> cases op <;> cases oc <;> cases ob <;>
      simp [Call.run, fillBody, fillDensity, fillTemp, lookIf, tRE, bind, StateT.bind, pure, StateT.pure, safeInterp_fresh]
  | rePT p t =>
    simp [Call.run, Eospac.rePT, bind, StateT.bind, pure, StateT.pure, safeInterp_fresh]
  | ptd rho t =>
    simp [Call.run, Eospac.ptd, bind, StateT.bind, pure, StateT.pure, safeInterp_fresh]

/-- C106: what the operations of a history give on their own: every query its answer, the density and energy at a pressure and
temperature both, the combined call the six entries of the state it returns, the derivatives all four. -/
theorem C106_operations (σ : K) (T : Tabs K) (g : Thermo K) :
    (∀ k a b, ((Call.query k a b).run σ (safeInterp T) g : StateM (Sess K) (List K)) fresh = ([answer σ T k a b], fresh)) ∧
    (∀ u a, (∀ x y y', (T .EcofD).f x y = (T .EcofD).f x y') →
      ((Call.minE u a).run σ (safeInterp T) g : StateM (Sess K) (List K)) fresh = ([10 ^ 10 * (T .EcofD).f a 0], fresh)) ∧
    (∀ p t, ((Call.rePT p t).run σ (safeInterp T) g : StateM (Sess K) (List K)) fresh =
      ([density T p t, sie T (density T p t) t], fresh)) ∧
    (∀ o v, (((Call.fill o v).run σ (safeInterp T) g : StateM (Sess K) (List K)) fresh).1 =
      let r := (fillBody (safeInterp T) o v fresh).1
      [r.rho, r.temp, r.sie, r.press, r.cv, r.bmod]) ∧
    (∀ rho t, (((Call.ptd rho t).run σ (safeInterp T) g : StateM (Sess K) (List K)) fresh).1 =
      let r := (Eospac.ptd σ (safeInterp T) rho t fresh).1
      [r.dedP_T, r.drdP_T, r.dedT_P, r.drdT_P]) := by
  refine ⟨fun k a b => ?_, fun u a h => ?_, fun p t => ?_, fun o v => ?_, fun rho t => ?_⟩
  · simp only [Call.run]
    rw [bind_run _ _ _ _ _ (C106_queries σ T g 0 k a b).1]; rfl
  · simp only [Call.run]
    rw [bind_run _ _ _ _ _ ((C106_queries σ T g u .pRT a 0).2.1 h)]; rfl
  · simp only [Call.run]
    rw [bind_run _ _ _ _ _ (C106_queries σ T g 0 .pRT p t).2.2]; rfl
  · simp only [Call.run]
    rw [bind_run _ _ _ _ _ (Prod.mk.eta (p := fillBody (safeInterp T) o v fresh)).symm]; rfl
  · simp only [Call.run]
    rw [bind_run _ _ _ _ _ (Prod.mk.eta (p := Eospac.ptd σ (safeInterp T) rho t fresh)).symm]; rfl

/-- C106: for every history of operations by one thread, each answer is what the operation gives on its own
right after loading, and the library ends up in the state after loading. -/
theorem C106_history (σ : K) (T : Tabs K) (g : Thermo K) (cs : List (Call K)) :
    runCalls σ T g cs fresh = (cs.map (fun c => ((c.run σ (safeInterp T) g : StateM (Sess K) (List K)) fresh).1), fresh) := by
  induction cs with
  | nil => rfl
  | cons c cs ih =>
    have h := call_fresh σ T g c
    have h2 : (c.run σ (safeInterp T) g : StateM (Sess K) (List K)) fresh = (((c.run σ (safeInterp T) g : StateM (Sess K) (List K)) fresh).1, fresh) := Prod.ext rfl h
    rw [runCalls, h2]
    simp only [ih, List.map_cons]

end Verif.Eospac
