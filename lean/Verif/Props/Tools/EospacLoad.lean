import Verif.Lemmas.EospacLoad
import Mathlib.Tactic.NormNum
import Mathlib.Tactic.IntervalCases
import Mathlib.Algebra.Order.Archimedean.Basic
import Mathlib.Data.Rat.Floor

/-! # Property C125: tables are loaded with the options asked for, and released -/

set_option linter.unusedSectionVars false

namespace Verif.EospacLoad

variable {K : Type} [Field K] [LinearOrder K] [IsStrictOrderedRing K]

theorem mem_active (o : LoadOpts K) (t : TT) (op : LOpt) (v : Option K) :
    (∃ acc, (op, acc, v) ∈ active o ∧ acc t = true) ↔ Wanted o t op v := by
  unfold active
  simp only [List.mem_append]
  constructor
  · rintro ⟨acc, h, ht⟩
    rcases h with h | h | h | h | h | h | h
    · split at h
      · simp only [List.mem_singleton, Prod.mk.injEq] at h
        obtain ⟨rfl, rfl, rfl⟩ := h
        refine ⟨by assumption, ?_, rfl⟩
        simpa [mayInvert, not_or] using ht
      · simp at h
    · split at h
      · simp only [List.mem_singleton, Prod.mk.injEq] at h
        obtain ⟨rfl, rfl, rfl⟩ := h
        exact ⟨by assumption, rfl⟩
      · simp at h
    · split at h
      · simp only [List.mem_singleton, Prod.mk.injEq] at h
        obtain ⟨rfl, rfl, rfl⟩ := h
        refine ⟨by assumption, ?_, rfl⟩
        simpa [mayFix, not_or] using ht
      · simp at h
    · split at h
      · rename_i hc
        simp only [List.mem_singleton, Prod.mk.injEq] at h
        obtain ⟨rfl, rfl, rfl⟩ := h
        exact ⟨hc.symm, rfl⟩
      · simp at h
    · split at h
      · simp only [List.mem_singleton, Prod.mk.injEq] at h
        obtain ⟨rfl, rfl, rfl⟩ := h
        refine ⟨by assumption, ?_, rfl⟩
        simpa [mayFix, not_or] using ht
      · simp at h
    · split at h
      · simp only [List.mem_singleton, Prod.mk.injEq] at h
        obtain ⟨rfl, rfl, rfl⟩ := h
        exact ⟨by assumption, rfl⟩
      · split at h
        · simp only [List.mem_singleton, Prod.mk.injEq] at h
          obtain ⟨rfl, rfl, rfl⟩ := h
          exact ⟨by assumption, rfl⟩
        · split at h
          · simp only [List.mem_singleton, Prod.mk.injEq] at h
            obtain ⟨rfl, rfl, rfl⟩ := h
            exact ⟨by assumption, rfl⟩
          · simp at h
    · split at h
      · simp only [List.mem_singleton, Prod.mk.injEq] at h
        obtain ⟨rfl, rfl, rfl⟩ := h
        exact ⟨by assumption, rfl⟩
      · simp at h
  · intro h
    cases op with
    | invertAtSetup =>
      obtain ⟨h1, h2, rfl⟩ := h
      exact ⟨mayInvert, by simp [h1], by simpa [mayInvert, not_or] using h2⟩
    | insertData =>
      obtain ⟨h1, rfl⟩ := h
      exact ⟨fun _ => true, by simp [h1], rfl⟩
    | monotonicInX =>
      obtain ⟨h1, h2, rfl⟩ := h
      exact ⟨mayFix, by simp [h1], by simpa [mayFix, not_or] using h2⟩
    | monotonicInY =>
      obtain ⟨h1, rfl⟩ := h
      exact ⟨fun _ => true, by simp [h1.symm], rfl⟩
    | smooth =>
      obtain ⟨h1, h2, rfl⟩ := h
      exact ⟨mayFix, by simp [h1], by simpa [mayFix, not_or] using h2⟩
    | splitNumProp =>
      obtain ⟨h1, rfl⟩ := h
      exact ⟨fun _ => true, by simp [h1], rfl⟩
    | splitIdealGas =>
      obtain ⟨h1, rfl⟩ := h
      exact ⟨fun _ => true, by simp [h1], rfl⟩
    | splitCowan =>
      obtain ⟨h1, rfl⟩ := h
      exact ⟨fun _ => true, by simp [h1], rfl⟩
    | linear =>
      obtain ⟨h1, rfl⟩ := h
      exact ⟨fun _ => true, by simp [h1], rfl⟩

theorem active_ops_nodup (o : LoadOpts K) : ((active o).map (fun a => a.1)).Nodup := by
  have h7 : (List.map (fun a => a.1) (if o.linear = true then
      [((LOpt.linear, fun _ => true, none) : LOpt × (TT → Bool) × Option K)] else [])).Sublist [LOpt.linear] := by
    split <;> simp
  have key : ((active o).map (fun a => a.1)).Sublist
      [LOpt.invertAtSetup, .insertData, .monotonicInX, .monotonicInY, .smooth, .splitNumProp, .splitIdealGas,
        .splitCowan, .linear] := by
    unfold active
    simp only [List.map_append]
    have one : ∀ (c : Prop) [Decidable c] (op : LOpt) (acc : TT → Bool) (v : Option K),
        (List.map (fun a => a.1) (if c then [((op, acc, v) : LOpt × (TT → Bool) × Option K)] else [])).Sublist [op] := by
      intro c _ op acc v
      split <;> simp
    refine List.Sublist.append (l₂ := [LOpt.invertAtSetup]) (one _ _ _ _) ?_
    refine List.Sublist.append (l₂ := [LOpt.insertData]) (one _ _ _ _) ?_
    refine List.Sublist.append (l₂ := [LOpt.monotonicInX]) (one _ _ _ _) ?_
    refine List.Sublist.append (l₂ := [LOpt.monotonicInY]) (one _ _ _ _) ?_
    refine List.Sublist.append (l₂ := [LOpt.smooth]) (one _ _ _ _) ?_
    refine List.Sublist.append (l₂ := [LOpt.splitNumProp, .splitIdealGas, .splitCowan]) ?_ (one _ _ _ _)
    split
    · simp
    · split
      · simp
      · split <;> simp
  exact key.nodup (by decide)

theorem zip_newHandles (s : Hist K) (types : List TT) :
    types.zip (newHandles s types) = types.zipIdx.map (fun p => (p.1, (creates s, p.2))) := by
  rw [newHandles, List.zip_map_right, List.zipIdx_eq_zip_range', List.range_eq_range']
  rfl

theorem mem_loopCalls (s : Hist K) (types : List TT) (a : LOpt × (TT → Bool) × Option K) (c : Call K) :
    c ∈ loopCalls (types.zip (newHandles s types)) a ↔
      ∃ i t, types[i]? = some t ∧ a.2.1 t = true ∧ c = .setOption (creates s, i) a.1 a.2.2 := by
  rw [zip_newHandles, loopCalls]
  simp only [List.mem_map, List.mem_filter]
  constructor
  · rintro ⟨p, ⟨⟨q, hq, rfl⟩, hp⟩, rfl⟩
    exact ⟨q.2, q.1, (List.mem_zipIdx_iff_getElem? (x := q)).1 hq, hp, rfl⟩
  · rintro ⟨i, t, hi, ht, rfl⟩
    exact ⟨(t, (creates s, i)), ⟨⟨(t, i), List.mem_zipIdx_iff_getElem?.2 hi, rfl⟩, ht⟩, rfl⟩

/-- C125: if the tables can be created, `eosSafeLoad` sets on each table exactly the options its type should get,
each once and with the right value, and nothing else, before loading all tables; it returns the handles, and the
code of the load. -/
theorem C125_options (L : Lib K) (mat : Int) (types : List TT) (o : LoadOpts K) (s : Hist K)
    (hc : L.code (.create mat types ((List.range types.length).map (fun i => (creates s, i))) :: s) = 0) :
    ∃ (hs : List Handle) (mid : List (Call K)),
      hs = (List.range types.length).map (fun i => (creates s, i)) ∧
      (safeLoad L mat types o s).2 = .load hs :: (mid ++ .create mat types hs :: s) ∧
      (safeLoad L mat types o s).1 = (L.code (.load hs :: (mid ++ .create mat types hs :: s)), hs) ∧
      mid.Nodup ∧
      ∀ c, c ∈ mid ↔ ∃ i t op v, types[i]? = some t ∧ c = .setOption (creates s, i) op v ∧ Wanted o t op v := by
  refine ⟨_, ((active o).flatMap (loopCalls (types.zip (newHandles s types)))).reverse, rfl, ?_, ?_, ?_, ?_⟩
  · rw [safeLoad_run]
    show loadHist L mat types o s = _
    unfold loadHist
    simp only []
    rw [if_neg (by simpa [newHandles] using hc)]
    rfl
  · rw [safeLoad_run]
    unfold loadHist
    simp only []
    rw [if_neg (by simpa [newHandles] using hc)]
    rfl
  · rw [List.nodup_reverse, List.nodup_flatMap]
    refine ⟨?_, ?_⟩
    · intro a _
      rw [zip_newHandles, loopCalls]
      rw [List.filter_map, List.map_map]
      refine List.Nodup.map_on ?_ (List.Nodup.filter _ ?_)
      · intro x hx y hy hxy
        simp only [Function.comp, Call.setOption.injEq, Prod.mk.injEq, true_and, and_true] at hxy
        rw [List.mem_filter] at hx hy
        have h1 := List.mem_zipIdx_iff_getElem?.1 hx.1
        have h2 := List.mem_zipIdx_iff_getElem?.1 hy.1
        rw [hxy, h2] at h1
        exact Prod.ext (Option.some.inj h1).symm hxy
      · have := List.nodup_range (n := types.length)
        apply List.Nodup.of_map (fun p => p.2)
        rw [List.zipIdx_map_snd]
        exact List.nodup_range'
    · have := active_ops_nodup o
      rw [List.Nodup, List.pairwise_map] at this
      refine this.imp ?_
      intro a b hab
      intro c h1 h2
      rw [mem_loopCalls] at h1 h2
      obtain ⟨i, t, _, _, rfl⟩ := h1
      obtain ⟨j, u, _, _, h⟩ := h2
      rw [Call.setOption.injEq] at h
      exact hab h.2.1
  · intro c
    rw [List.mem_reverse, List.mem_flatMap]
    constructor
    · rintro ⟨⟨op, acc, v⟩, ha, hm⟩
      rw [mem_loopCalls] at hm
      obtain ⟨i, t, hi, ht, rfl⟩ := hm
      exact ⟨i, t, op, v, hi, rfl, (mem_active o t op v).1 ⟨acc, ha, ht⟩⟩
    · rintro ⟨i, t, op, v, hi, rfl, hw⟩
      obtain ⟨acc, ha, ht⟩ := (mem_active o t op v).2 hw
      exact ⟨(op, acc, v), ha, (mem_loopCalls s types _ _).2 ⟨i, t, hi, ht, rfl⟩⟩

example : ∃ L : Lib ℚ, ∀ (mat : Int) (types : List TT) (s : Hist ℚ),
    L.code (.create mat types ((List.range types.length).map (fun i => (creates s, i))) :: s) = 0 :=
  ⟨⟨fun _ => 0, fun _ _ => 0, fun _ _ _ => none, fun _ _ => []⟩, fun _ _ _ => rfl⟩

/-- If the tables cannot be created the code says so, no option is set and nothing is loaded. -/
theorem C125_create_fails (L : Lib K) (mat : Int) (types : List TT) (o : LoadOpts K) (s : Hist K)
    (hc : L.code (.create mat types ((List.range types.length).map (fun i => (creates s, i))) :: s) ≠ 0) :
    let hs := (List.range types.length).map (fun i => (creates s, i))
    (safeLoad L mat types o s).2 = .create mat types hs :: s ∧
    (safeLoad L mat types o s).1.1 = L.code (.create mat types hs :: s) ∧ (safeLoad L mat types o s).1.1 ≠ 0 := by
  have h : loadHist L mat types o s = .create mat types ((List.range types.length).map (fun i => (creates s, i))) :: s := by
    unfold loadHist
    simp only []
    rw [if_pos (by simpa [newHandles] using hc)]
    rfl
  rw [safeLoad_run, h]
  exact ⟨rfl, rfl, hc⟩

/-- A library that refuses every option but creates and loads. -/
def refusing : Lib K where
  code := fun s => match s with
    | .setOption _ _ _ :: _ => 7
    | _ => 0
  handleCode := fun _ _ => 0
  info := fun _ _ _ => none
  comments := fun _ _ => []

/-- Violation: an option the library refuses is not reported: `eosSafeLoad` returns the success code although the
option asked for was refused. -/
theorem C125_refused_option_violated :
    ∃ (L : Lib K) (types : List TT) (o : LoadOpts K) (h : Handle) (r : List (Call K)),
      (safeLoad L 2020 types o []).2 = .load [h] :: .setOption h .invertAtSetup (some 1) :: r ∧
      L.code (.setOption h .invertAtSetup (some 1) :: r) ≠ 0 ∧
      (safeLoad L 2020 types o []).1.1 = 0 := by
  refine ⟨refusing, [.T_DUt], ⟨true, 0, .none, false, .none, false⟩, (0, 0), [.create 2020 [.T_DUt] [(0, 0)]], ?_, ?_, ?_⟩
  · rw [safeLoad_run]
    simp [loadHist, refusing, newHandles, creates, active, loopCalls, mayInvert]
  · simp [refusing]
  · rw [safeLoad_run]
    simp [loadHist, refusing]

/-- Violation: the exclusions are for the tables of the total only.  For an electron or ion part, inversion at
setup is also set on the pressure, energy and entropy tables on (density, temperature), and monotonicity and
smoothing on the energy and entropy tables. -/
theorem C125_parts_not_excluded_violated (p : Part) (hp : p ≠ .total) (o : LoadOpts K) (hi : o.invert = true)
    (hs : o.smooth = true) :
    (∀ i ∈ [0, 2, 7], ∃ t, (ctorTypes p)[i]? = some t ∧ Wanted o t .invertAtSetup (some 1)) ∧
    (∀ i ∈ [2, 7], ∃ t, (ctorTypes p)[i]? = some t ∧ Wanted o t .smooth none) ∧
    (∀ i ∈ [0, 2, 7], ∃ t, (ctorTypes .total)[i]? = some t ∧ ¬ Wanted o t .invertAtSetup (some 1)) ∧
    (∀ i ∈ [2, 7], ∃ t, (ctorTypes .total)[i]? = some t ∧ ¬ Wanted o t .smooth none) := by
  cases p <;> simp_all [ctorTypes, sel, Wanted]

/-! ### Existence -/

/-- C125: `eosCheckTableExistence` answers 1 exactly when the table could be loaded, 0 exactly when the library says
there is no such table, −1 otherwise; and the table is released. -/
theorem C125_exists (L : Lib K) (noData : Int) (hn : noData ≠ 0) (mat : Int) (t : TT) (s : Hist K)
    (hf : ∀ h, Live L s h → h.1 < creates s) :
    let c := L.code (.load [(creates s, 0)] :: .create mat [t] [(creates s, 0)] :: s)
    let r := tableExists L noData mat t s
    (r.1 = 1 ↔ c = 0) ∧ (r.1 = 0 ↔ c = noData) ∧ (r.1 = -1 ↔ c ≠ 0 ∧ c ≠ noData) ∧
    ∀ h, Live L r.2 h ↔ Live L s h := by
  intro c r
  have hr : r = (if c ≠ 0 then (if c = noData then 0 else -1) else 1,
      .destroy (newHandles s [t]) :: .load (newHandles s [t]) :: .create mat [t] (newHandles s [t]) :: s) := rfl
  rw [hr]
  simp only []
  refine ⟨?_, ?_, ?_, ?_⟩
  · by_cases h : c = 0
    · simp [h]
    · by_cases h2 : c = noData
      · subst h2; simp [h]
      · simp [h, h2]
  · by_cases h : c = 0
    · simp [h, hn.symm]
    · by_cases h2 : c = noData
      · subst h2; simp [h]
      · simp [h, h2]
  · by_cases h : c = 0
    · simp [h]
    · by_cases h2 : c = noData
      · subst h2; simp [h]
      · simp [h, h2]
  · apply live_destroyed L s _ _ hf
    · rintro h (hl | hl)
      · exact Or.inl hl.1
      · exact Or.inr hl
    · intro h hl
      exact Or.inr hl

example : ∃ L : Lib ℚ, (tableExists L 3 2020 .M_DT []).1 = 0 :=
  ⟨⟨fun s => match s with
    | .load _ :: _ => 3
    | _ => 0, fun _ _ => 0, fun _ _ _ => none, fun _ _ => []⟩, rfl⟩

/-! ### Release -/

section release
variable [FloorRing K]

/-- The operation ends normally: an aborted construction ends the program. -/
theorem op_live (L : Lib K) (hL : CommentsLoad L) (p : Op K) (s : Hist K) (hf : Fresh L s) :
    (∀ h, Live L (p.run L s).2 h → Live L s h) ∧ Fresh L (p.run L s).2 := by
  have hmeta : ∀ (mat : Int) (s : Hist K), Fresh L s → ∀ h, Live L (metaHist L mat s) h ↔ Live L s h := by
    intro mat s hf h
    rw [live_metaHist L mat s hf]
    constructor
    · rintro (h1 | ⟨rfl, h2, h3⟩)
      · exact h1
      · exfalso
        have := hL _ _ _ h3
        apply h2
        rw [metaHist2, loadHist, newHandles_meta, if_neg (by simpa using h3), active_none]
        exact this
    · exact Or.inl
  have hld : ∀ (mat : Int) (types : List TT) (o : LoadOpts K) (is : List Nat) (s : Hist K), Fresh L s →
      (∀ h, Live L (loadUseDestroy L mat types o is s).2 h ↔ Live L s h) ∧
      creates (loadUseDestroy L mat types o is s).2 = creates s + 1 := by
    intro mat types o is s hf
    have hr : (loadUseDestroy L mat types o is s).2
        = .destroy (newHandles s types) ::
          ((is.map (fun i => Call.lookup ((newHandles s types).getD i (0, 0)))).reverse ++ loadHist L mat types o s) := by
      unfold loadUseDestroy
      rw [bind_run, safeLoad_run]
      simp only []
      rw [bind_run, lookups_run]
      rfl
    rw [hr]
    refine ⟨?_, ?_⟩
    · apply live_destroyed L s _ _ hf
      · intro h hl
        rw [live_lookups, live_loadHist] at hl
        exact hl.imp (fun x => x.1) id
      · intro h hl
        rw [live_lookups, live_loadHist]
        exact Or.inr hl
    · show creates (_ ++ _) = _
      rw [creates_lookups, creates_loadHist]
  have hex : ∀ (n mat : Int) (t : TT) (s : Hist K), Fresh L s →
      (∀ h, Live L (EospacLoad.tableExists L n mat t s).2 h ↔ Live L s h) ∧
      creates (EospacLoad.tableExists L n mat t s).2 = creates s + 1 := by
    intro n mat t s hf
    refine ⟨?_, rfl⟩
    apply live_destroyed L s (.load (newHandles s [t]) :: .create mat [t] (newHandles s [t]) :: s) [t] hf
    · rintro h (hl | hl)
      · exact Or.inl hl.1
      · exact Or.inr hl
    · intro h hl
      exact Or.inr hl
  cases p with
  | metadata m str =>
    have hr : ((Op.metadata m str).run L s).2 = metaHist L m s := getMetadata_hist L m str s
    rw [hr]
    refine ⟨fun h hl => (hmeta m s hf h).1 hl, ?_⟩
    intro h hl
    have := hf h ((hmeta m s hf h).1 hl)
    rw [creates_metaHist]; omega
  | tableExists n m t =>
    have hr : ((Op.tableExists n m t).run L s).2 = (EospacLoad.tableExists L n m t s).2 := rfl
    rw [hr]
    obtain ⟨h1, h2⟩ := hex n m t s hf
    refine ⟨fun h hl => (h1 h).1 hl, ?_⟩
    intro h hl
    have := hf h ((h1 h).1 hl)
    omega
  | tabulate m ts o is =>
    have hr : ((Op.tabulate m ts o is).run L s).2 = (loadUseDestroy L m ts o is s).2 := rfl
    rw [hr]
    obtain ⟨h1, h2⟩ := hld m ts o is s hf
    refine ⟨fun h hl => (h1 h).1 hl, ?_⟩
    intro h hl
    have := hf h ((h1 h).1 hl)
    omega
  | massFraction n m =>
    have hr : ((Op.massFraction n m).run L s).2 =
        if (EospacLoad.tableExists L n m .M_DT s).1 > 0 then
          (loadUseDestroy L m [.M_DT, .Comment] noOpts [0] (EospacLoad.tableExists L n m .M_DT s).2).2
        else (EospacLoad.tableExists L n m .M_DT s).2 := by
      show (EospacLoad.massFraction L n m s).2 = _
      unfold EospacLoad.massFraction
      rw [bind_run, ite_run]
      split <;> rfl
    rw [hr]
    obtain ⟨h1, h2⟩ := hex n m .M_DT s hf
    have hf1 : Fresh L (EospacLoad.tableExists L n m .M_DT s).2 := by
      intro h hl
      have := hf h ((h1 h).1 hl)
      omega
    split
    · obtain ⟨h3, h4⟩ := hld m [.M_DT, .Comment] noOpts [0] _ hf1
      refine ⟨fun h hl => (h1 h).1 ((h3 h).1 hl), ?_⟩
      intro h hl
      have := hf1 h ((h3 h).1 hl)
      omega
    · exact ⟨fun h hl => (h1 h).1 hl, hf1⟩
  | object m str p o is =>
    have hr : ((Op.object m str p o is).run L s).2 = [] ∨
        ((Op.object m str p o is).run L s).2 =
          .destroy (newHandles s (ctorTypes p)) ::
            ((is.map (fun i => Call.lookup ((newHandles s (ctorTypes p)).getD i (0, 0)))).reverse ++
            (([2, 0].map (fun i => Call.lookup ((newHandles s (ctorTypes p)).getD i (0, 0)))).reverse ++
              metaHist L m (loadHist L m (ctorTypes p) o s))) := by
      rw [Op.run]
      by_cases hb : L.code (loadHist L m (ctorTypes p) o s) ≠ 0 ∧
          ((newHandles s (ctorTypes p)).take 7).any (fun h => L.handleCode (loadHist L m (ctorTypes p) o s) h ≠ 0)
      · left
        have hc : ctor L m str p o s = (none, loadHist L m (ctorTypes p) o s) := by
          unfold ctor
          rw [bind_run, safeLoad_run]
          simp only []
          rw [bind_run, get_run]
          simp only []
          rw [if_pos hb]
          rfl
        show (((ctor L m str p o) >>= _) s).2 = []
        rw [bind_run, hc]
      · right
        have hc : ∃ e, ctor L m str p o s = (some ⟨newHandles s (ctorTypes p), e⟩,
            ([2, 0].map (fun i => Call.lookup ((newHandles s (ctorTypes p)).getD i (0, 0)))).reverse ++
              metaHist L m (loadHist L m (ctorTypes p) o s)) := by
          refine ⟨!(decide (L.code (loadHist L m (ctorTypes p) o s) ≠ 0) &&
            decide (L.handleCode (loadHist L m (ctorTypes p) o s) ((newHandles s (ctorTypes p)).getD 7 (0, 0)) ≠ 0)), ?_⟩
          unfold ctor
          rw [bind_run, safeLoad_run]
          simp only []
          rw [bind_run, get_run]
          simp only []
          rw [if_neg hb, bind_run, getMetadata_hist, bind_run, lookups_run]
          rfl
        obtain ⟨e, hc⟩ := hc
        show (((ctor L m str p o) >>= _) s).2 = _
        rw [bind_run, hc]
        simp only []
        rw [bind_run, lookups_run]
        rfl
    rcases hr with hr | hr
    · rw [hr]
      exact ⟨fun h hl => hl.elim, fun h hl => hl.elim⟩
    · rw [hr]
      have hf1 : Fresh L (loadHist L m (ctorTypes p) o s) := by
        intro h hl
        rw [creates_loadHist]
        rw [live_loadHist] at hl
        rcases hl with hl | hl
        · have := (mem_newHandles _ _ _).1 hl.1
          omega
        · have := hf h hl
          omega
      have hd := live_destroyed L s
        ((is.map (fun i => Call.lookup ((newHandles s (ctorTypes p)).getD i (0, 0)))).reverse ++
            (([2, 0].map (fun i => Call.lookup ((newHandles s (ctorTypes p)).getD i (0, 0)))).reverse ++
              metaHist L m (loadHist L m (ctorTypes p) o s))) (ctorTypes p) hf
        (by
          intro h hl
          rw [live_lookups, live_lookups, hmeta _ _ hf1, live_loadHist] at hl
          exact hl.imp (fun x => x.1) id)
        (by
          intro h hl
          rw [live_lookups, live_lookups, hmeta _ _ hf1, live_loadHist]
          exact Or.inr hl)
      refine ⟨fun h hl => (hd h).1 hl, ?_⟩
      intro h hl
      have := hf h ((hd h).1 hl)
      show h.1 < creates (_ ++ _)
      rw [creates_lookups, creates_lookups, creates_metaHist, creates_loadHist]
      omega

/-- C125: whatever metadata requests, existence checks, tabulations, phase tables and objects (constructed, queried,
finalized) a program makes, in whatever order and whatever fails, no table is left in the library — provided comment
tables that can be created can be loaded. -/
theorem C125_released (L : Lib K) (hL : CommentsLoad L) (ops : List (Op K)) (h : Handle) :
    ¬ Live L (runOps L ops []).2 h := by
  have key : ∀ (ops : List (Op K)) (s : Hist K), Fresh L s → (∀ h, ¬ Live L s h) → ∀ h, ¬ Live L (runOps L ops s).2 h := by
    intro ops
    induction ops with
    | nil => intro s _ h; exact h
    | cons p ps ih =>
      intro s hf hs
      obtain ⟨h1, h2⟩ := op_live L hL p s hf
      exact ih _ h2 (fun h hl => hs h (h1 h hl))
  exact key ops [] (fun h hl => hl.elim) (fun h hl => hl) h

/-- A library without faults. -/
def faultless : Lib K := ⟨fun _ => 0, fun _ _ => 0, fun _ _ _ => none, fun _ _ => []⟩

example : CommentsLoad (faultless : Lib ℚ) := fun _ _ _ _ => rfl

/-- The object of the example: in its lifetime its eight tables are alive. -/
example : Live (faultless : Lib ℚ) (ctor faultless 2020 [] .total noOpts []).2 (0, 7) := by
  have hr : (ctor (faultless : Lib ℚ) 2020 [] .total noOpts []).2 =
      ([2, 0].map (fun i => Call.lookup ((newHandles ([] : Hist ℚ) (ctorTypes .total)).getD i (0, 0)))).reverse ++
        metaHist faultless 2020 (loadHist faultless 2020 (ctorTypes .total) noOpts []) := by
    unfold ctor
    rw [bind_run, safeLoad_run]
    simp only []
    rw [bind_run, get_run]
    simp only []
    rw [if_neg (by simp [faultless]), bind_run, getMetadata_hist, bind_run, lookups_run]
    rfl
  rw [hr, live_lookups, live_metaHist _ _ _ (by
    intro h hl
    rw [live_loadHist] at hl
    rw [creates_loadHist]
    rcases hl with hl | hl
    · have := (mem_newHandles _ _ _).1 hl.1
      omega
    · exact absurd hl (by simp [Live])), live_loadHist]
  exact Or.inl (Or.inl ⟨(mem_newHandles _ _ _).2 ⟨rfl, by simp [ctorTypes]⟩, rfl⟩)

/-- Violation: if the comment table can be created but not loaded, `eosGetMetadata` never releases it. -/
theorem C125_comments_leak_violated :
    ∃ L : Lib K, ∀ (mat : Int) (str : List Char), Live L (getMetadata L mat str []).2 (1, 0) := by
  refine ⟨⟨fun s => match s with
    | .load [(1, 0)] :: _ => 5
    | _ => 0, fun _ _ => 0, fun _ _ _ => none, fun _ _ => []⟩, ?_⟩
  intro mat str
  rw [getMetadata_hist, live_metaHist _ _ _ (by intro h hl; exact absurd hl (by simp [Live]))]
  right
  refine ⟨rfl, ?_, rfl⟩
  rw [metaHist2, loadHist, newHandles_meta, if_neg (by simp), active_none]
  simp [creates]

/-- Violation: the cold curves never release their two tables: after n of them 2n tables are left in the library. -/
theorem C125_cold_curves_leak_violated (L : Lib K) (mat : Int) (hL : ∀ s hs, L.code (.create mat [.Pc_D, .Uc_D] hs :: s) = 0)
    (n : Nat) :
    ∀ h : Handle, Live L ((fun s => (coldCurves L mat s).2)^[n] []) h ↔ h.1 < n ∧ h.2 < 2 := by
  have hr : ∀ s, (coldCurves L mat s).2 =
      ([0, 1].map (fun i => Call.lookup ((newHandles s [TT.Pc_D, .Uc_D]).getD i (0, 0)))).reverse ++
        loadHist L mat [.Pc_D, .Uc_D] noOpts s := by
    intro s
    unfold coldCurves
    rw [bind_run, safeLoad_run]
    simp only []
    rw [lookups_run]
  have hcr : ∀ n, creates ((fun s => (coldCurves L mat s).2)^[n] []) = n := by
    intro n
    induction n with
    | zero => rfl
    | succ n ih => rw [Function.iterate_succ_apply', hr, creates_lookups, creates_loadHist, ih]
  induction n with
  | zero => intro h; simp [Live]
  | succ n ih =>
    intro h
    rw [Function.iterate_succ_apply', hr, live_lookups, live_loadHist, ih, mem_newHandles, hcr]
    simp only [hL, and_true, List.length_cons, List.length_nil]
    omega

/-! ### The constructor -/

/-- C125: a constructed object has all tables loaded, up to entropy; and says so about entropy exactly when the library has
no complaint about that table — provided the library created all tables. -/
theorem C125_ctor_partial (L : Lib K) (mat : Int) (str : List Char) (p : Part) (o : LoadOpts K) (s : Hist K)
    (hc : L.code (.create mat (ctorTypes p) ((List.range 8).map (fun i => (creates s, i))) :: s) = 0)
    (x : Obj) (hx : (ctor L mat str p o s).1 = some x) :
    x.handles = (List.range 8).map (fun i => (creates s, i)) ∧
    ∃ r : Hist K, (Call.load x.handles :: r) <:+ (ctor L mat str p o s).2 ∧ s <:+ r ∧
      (L.code (.load x.handles :: r) = 0 → x.entropy = true) ∧
      (L.code (.load x.handles :: r) ≠ 0 →
        (∀ i < 7, L.handleCode (.load x.handles :: r) (creates s, i) = 0) ∧
        (x.entropy = true ↔ L.handleCode (.load x.handles :: r) (creates s, 7) = 0)) := by
  have hlen : (ctorTypes p).length = 8 := by cases p <;> rfl
  have hnh : newHandles s (ctorTypes p) = (List.range 8).map (fun i => (creates s, i)) := by
    rw [newHandles, hlen]
  have hlh : loadHist L mat (ctorTypes p) o s = .load (newHandles s (ctorTypes p)) ::
      (((active o).flatMap (loopCalls ((ctorTypes p).zip (newHandles s (ctorTypes p))))).reverse ++
        .create mat (ctorTypes p) (newHandles s (ctorTypes p)) :: s) := by
    unfold loadHist
    simp only []
    rw [if_neg (by rw [hnh]; simpa using hc)]
  have hmeta : ∀ s, s <:+ metaHist L mat s := by
    intro s
    have h0 : ∀ (types : List TT) (s : Hist K), s <:+ loadHist L mat types noOpts s := by
      intro types s
      unfold loadHist
      simp only []
      rw [active_none]
      split
      · exact List.suffix_cons _ _
      · exact (List.suffix_cons _ _).trans ((List.suffix_cons _ _))
    have h1 : s <:+ metaHist1 L mat s := (h0 _ s).trans (List.suffix_cons _ _)
    have h2 : s <:+ metaHist2 L mat s := h1.trans (h0 _ _)
    unfold metaHist
    split
    · exact h2.trans (List.suffix_cons _ _)
    · exact h2
  have hrun : ctor L mat str p o s =
      if L.code (loadHist L mat (ctorTypes p) o s) ≠ 0 ∧
          ((newHandles s (ctorTypes p)).take 7).any (fun h => L.handleCode (loadHist L mat (ctorTypes p) o s) h ≠ 0)
      then (none, loadHist L mat (ctorTypes p) o s)
      else (some ⟨newHandles s (ctorTypes p), !(decide (L.code (loadHist L mat (ctorTypes p) o s) ≠ 0) &&
            decide (L.handleCode (loadHist L mat (ctorTypes p) o s) ((newHandles s (ctorTypes p)).getD 7 (0, 0)) ≠ 0))⟩,
            ([2, 0].map (fun i => Call.lookup ((newHandles s (ctorTypes p)).getD i (0, 0)))).reverse ++
              metaHist L mat (loadHist L mat (ctorTypes p) o s)) := by
    unfold ctor
    rw [bind_run, safeLoad_run]
    simp only []
    rw [bind_run, get_run]
    simp only []
    split
    · rfl
    · rw [bind_run, getMetadata_hist, bind_run, lookups_run]
      rfl
  rw [hrun] at hx ⊢
  split at hx
  · simp at hx
  · rename_i hb
    rw [if_neg hb]
    simp only [Option.some.injEq] at hx
    subst hx
    refine ⟨hnh, ((active o).flatMap (loopCalls ((ctorTypes p).zip (newHandles s (ctorTypes p))))).reverse ++
          .create mat (ctorTypes p) (newHandles s (ctorTypes p)) :: s, ?_, ?_, ?_, ?_⟩
    · simp only []
      rw [← hlh]
      exact (hmeta _).trans (List.suffix_append _ _)
    · exact (List.suffix_cons _ _).trans (List.suffix_append _ _)
    · simp only []
      rw [← hlh]
      intro h0
      simp [h0]
    · simp only []
      rw [← hlh]
      intro h0
      refine ⟨?_, ?_⟩
      · intro i hi
        by_contra hne
        apply hb
        refine ⟨h0, ?_⟩
        rw [List.any_eq_true]
        refine ⟨(creates s, i), ?_, by simpa using hne⟩
        rw [hnh, ← List.map_take, List.take_range, List.mem_map]
        exact ⟨i, by simp; omega, rfl⟩
      · rw [hnh]
        simp [h0]

/-- A library in which creating the eight tables reports the missing entropy table at once. -/
def noEntropy : Lib K where
  code := fun s => match s with
    | .create _ ts _ :: _ => if TT.St_DT ∈ ts ∧ ts.length = 8 then 9 else 0
    | _ => 0
  handleCode := fun _ h => if h = (0, 7) then 9 else 0
  info := fun _ _ _ => none
  comments := fun _ _ => []

/-- Violation: if the library reports the missing entropy table when tables are created (not when they are loaded), the
constructor goes on with an object none of whose tables was ever loaded, although it looks like one that merely lacks
the entropy. -/
theorem C125_ctor_unloaded_violated :
    ∃ (L : Lib K) (x : Obj), (ctor L 2020 [] .total noOpts []).1 = some x ∧ x.entropy = false ∧
      ∀ hs, (∃ h ∈ hs, h ∈ x.handles) → Call.load hs ∉ (ctor L 2020 [] .total noOpts []).2 := by
  have hl : loadHist (noEntropy : Lib K) 2020 (ctorTypes .total) noOpts [] =
      [.create 2020 (ctorTypes .total) (newHandles ([] : Hist K) (ctorTypes .total))] := by
    simp [loadHist, noEntropy, ctorTypes, sel]
  have hrun : ctor (noEntropy : Lib K) 2020 [] .total noOpts [] =
      (some ⟨newHandles ([] : Hist K) (ctorTypes .total), false⟩,
        ([2, 0].map (fun i => Call.lookup ((newHandles ([] : Hist K) (ctorTypes .total)).getD i (0, 0)))).reverse ++
              metaHist noEntropy 2020 [.create 2020 (ctorTypes .total) (newHandles ([] : Hist K) (ctorTypes .total))]) := by
    unfold ctor
    rw [bind_run, safeLoad_run, hl]
    simp only []
    rw [bind_run, get_run]
    simp only []
    rw [if_neg (by simp [noEntropy, newHandles, ctorTypes, List.range_succ])]
    rw [bind_run, getMetadata_hist, bind_run, lookups_run, pure_run]
    simp [noEntropy, newHandles, ctorTypes, sel, List.range_succ, creates]
  refine ⟨noEntropy, _, by rw [hrun], rfl, ?_⟩
  rintro hs ⟨h, h1, h2⟩ hm
  rw [hrun] at hm
  simp only [mem_newHandles] at h2
  have hh : h.1 = 0 := h2.1
  simp [metaHist, metaHist2, metaHist1, loadHist, noEntropy, active_none, newHandles, creates, List.range_succ, ctorTypes,
    sel] at hm
  rcases hm with rfl | rfl
  · simp at h1
    rw [h1] at hh
    simp at hh
  · simp at h1
    rcases h1 with h1 | h1 | h1 | h1 <;> rw [h1] at hh <;> simp at hh

/-! ### Metadata -/

/-- C125: the metadata of a material are the entries of the data file in cgs units, whatever happened before, if the library
answers info requests from a data file. -/
theorem C125_metadata_cgs (L : Lib K) (D : Int → TT → Item → K) (hL : AnswersFrom L D) (mat : Int) (str : List Char)
    (s : Hist K) : Cgs D mat (getMetadata L mat str s).1 ∧ Points D mat (getMetadata L mat str s).1 := by
  have htab : ∀ i t, [TT.Info, .Ut_DT, .Pt_DT, .St_DT][i]? = some t →
      tableOf (loadHist L mat [.Info, .Ut_DT, .Pt_DT, .St_DT] noOpts s) (creates s, i) = some (mat, t) := by
    intro i t hi
    have h0 : tableOf (.create mat [.Info, .Ut_DT, .Pt_DT, .St_DT] (newHandles s [TT.Info, .Ut_DT, .Pt_DT, .St_DT]) :: s)
        (creates s, i) = some (mat, t) := by
      have : i < 4 := by
        have := List.getElem?_eq_some_iff.1 hi
        obtain ⟨h, _⟩ := this
        simpa using h
      interval_cases i <;> simp at hi <;> subst hi <;>
        simp [tableOf, newHandles, List.range_succ, List.find?]
    unfold loadHist
    simp only []
    rw [active_none]
    split
    · exact h0
    · exact h0
  have hv : ∀ i t it, [TT.Info, .Ut_DT, .Pt_DT, .St_DT][i]? = some t →
      (L.info (loadHist L mat [.Info, .Ut_DT, .Pt_DT, .St_DT] noOpts s)
        ((newHandles s [TT.Info, .Ut_DT, .Pt_DT, .St_DT]).getD i (0, 0)) it).getD 0 = D mat t it := by
    intro i t it hi
    have hlt : i < 4 := by
      obtain ⟨h, _⟩ := List.getElem?_eq_some_iff.1 hi
      simpa using h
    have : (newHandles s [TT.Info, .Ut_DT, .Pt_DT, .St_DT]).getD i (0, 0) = (creates s, i) := by
      interval_cases i <;> simp [newHandles, List.range_succ]
    rw [this, hL, htab i t hi]
    rfl
  have hu : (unit : K) = 10000000000 := by unfold unit; norm_num
  have htr : ∀ n : Nat, truncI (n : K) = n := by
    intro n
    have : ¬ ((n : K) < 0) := not_lt.2 (Nat.cast_nonneg n)
    simp [truncI, this]
  unfold getMetadata
  rw [bind_run, safeLoad_run]
  simp only [bind_run, infoOr_run]
  rw [hv 0 .Info .exchangeCoeff rfl, hv 0 .Info .meanAtomicMass rfl, hv 0 .Info .meanAtomicNum rfl, hv 0 .Info .modulus rfl,
    hv 0 .Info .normalDensity rfl, hv 1 .Ut_DT .Rmin rfl, hv 1 .Ut_DT .Rmax rfl, hv 1 .Ut_DT .Tmin rfl,
    hv 1 .Ut_DT .Tmax rfl, hv 1 .Ut_DT .Fmin rfl, hv 1 .Ut_DT .Fmax rfl, hv 1 .Ut_DT .NR rfl, hv 1 .Ut_DT .NT rfl,
    hv 1 .Ut_DT .xConvert rfl, hv 1 .Ut_DT .yConvert rfl, hv 1 .Ut_DT .fConvert rfl,
    hv 2 .Pt_DT .Fmin rfl, hv 2 .Pt_DT .Fmax rfl, hv 3 .St_DT .Fmin rfl, hv 3 .St_DT .Fmax rfl, hu]
  refine ⟨⟨rfl, rfl, rfl, rfl, rfl, rfl, rfl, rfl, rfl, rfl, rfl, rfl, rfl, rfl, rfl, rfl, rfl, rfl, rfl⟩, ?_, ?_⟩
  · intro n hn
    show truncI (D mat .Ut_DT .NR) = n
    rw [hn, htr]
  · intro n hn
    show truncI (D mat .Ut_DT .NT) = n
    rw [hn, htr]

example : ∃ L : Lib ℚ, AnswersFrom L (fun m _ _ => (m : ℚ)) :=
  ⟨⟨fun _ => 0, fun _ _ => 0, fun s h _ => (tableOf s h).map (fun mt => (mt.1 : ℚ)), fun _ _ => []⟩, fun _ _ _ => rfl⟩

end release

/-! ### The name -/

theorem ahead_no_paren (s : List Char) (h : '(' ∉ s) : ahead s = false := by
  cases s with
  | nil => rfl
  | cons c r =>
    have : ∀ l : List Char, '(' ∉ l → ['(', 'z'].isPrefixOf l = false := by
      intro l hl
      cases l with
      | nil => rfl
      | cons d l =>
        have : '(' ≠ d := fun e => hl (e ▸ List.mem_cons_self ..)
        simp [List.isPrefixOf, this]
    rw [ahead, this _ (fun hm => h (List.mem_cons_of_mem _ ((List.dropWhile_sublist _).mem hm)))]
    simp

theorem greedy_none (s : List Char) (h : '(' ∉ s) : greedy s = none := by
  induction s with
  | nil => rfl
  | cons c r ih =>
    rw [greedy, ih (fun hm => h (List.mem_cons_of_mem _ hm)), ahead_no_paren _ h]
    simp

/-- White space of a regular expression. -/
def White (c : Char) : Prop := c ∈ [' ', '\t', '\n', '\x0b', '\x0c', '\r']

theorem isSpace_iff (c : Char) : isSpace c = true ↔ White c := by
  simp [isSpace, White]

theorem dropWhile_white (ws r : List Char) (h : ∀ c ∈ ws, White c) (hr : ∀ c ∈ r.head?, ¬ White c) :
    (ws ++ r).dropWhile isSpace = r := by
  induction ws with
  | nil =>
    cases r with
    | nil => rfl
    | cons c r =>
      have : isSpace c = false := by
        have := hr c (by simp)
        rw [← isSpace_iff] at this
        simpa using this
      simp [List.dropWhile, this]
  | cons c ws ih =>
    have hc : isSpace c = true := (isSpace_iff c).2 (h c (List.mem_cons_self ..))
    rw [List.cons_append, List.dropWhile_cons, if_pos hc]
    exact ih (fun d hd => h d (List.mem_cons_of_mem _ hd))

/-- The text before "(z": the name and the white space; what is found is all but the last white character, up to the first line
end in the white space. -/
theorem greedy_name (name bl ws : List Char) (w : Char) (rest : List Char) (hn : ∀ c ∈ name, isDot c = true)
    (hbl : ∀ c ∈ bl, White c ∧ isDot c = true) (hw : White w) (hws : ∀ c ∈ ws, White c)
    (hlast : isDot w = true → ws = [])
    (hr : '(' ∉ rest) :
    greedy (name ++ bl ++ w :: (ws ++ '(' :: 'z' :: rest)) = some (name ++ bl) := by
  have hp : ∀ c ∈ ('(' :: 'z' :: rest).head?, ¬ White c := by
    intro c hc
    simp only [List.head?_cons, Option.mem_some_iff] at hc
    subst hc
    simp [White]
  have htail : greedy ('(' :: 'z' :: rest) = none := by
    have h1 : greedy ('z' :: rest) = none := greedy_none _ (by simp [hr])
    rw [greedy, h1]
    simp [ahead, isSpace]
  have hah : ahead (w :: (ws ++ '(' :: 'z' :: rest)) = true := by
    simp [ahead, (isSpace_iff w).2 hw, dropWhile_white ws _ hws hp, List.isPrefixOf]
  have hone : greedy (w :: (ws ++ '(' :: 'z' :: rest)) = some [] := by
    rw [greedy]
    by_cases hd : isDot w = true
    · have := hlast hd
      subst this
      rw [if_pos hd, List.nil_append, htail]
      rw [List.nil_append] at hah
      simp [hah]
    · rw [if_neg hd]
      simp [hah]
  have hall : ∀ c ∈ name ++ bl, isDot c = true := by
    intro c hc
    rcases List.mem_append.1 hc with h | h
    · exact hn c h
    · exact (hbl c h).2
  generalize name ++ bl = nm at hall ⊢
  induction nm with
  | nil => exact hone
  | cons c nm ih =>
    show greedy (c :: (nm ++ w :: (ws ++ '(' :: 'z' :: rest))) = _
    rw [greedy, ih (fun d hd => hall d (List.mem_cons_of_mem _ hd)), hall c (List.mem_cons_self ..)]
    rfl

theorem search_skip (pre s : List Char) (m : List Char) (hm : matchHere s = some m)
    (hp : ∀ l, l <:+ pre → l ≠ [] → ¬ tag <+: (l ++ s)) : search (pre ++ s) = some m := by
  induction pre with
  | nil =>
    cases s with
    | nil => exact hm
    | cons c r =>
      show search (c :: r) = _
      rw [search, hm]
  | cons c pre ih =>
    have hno : matchHere (c :: (pre ++ s)) = none := by
      unfold matchHere
      rw [if_neg]
      rw [List.isPrefixOf_iff_prefix]
      exact hp (c :: pre) (List.suffix_refl _) (by simp)
    show search (c :: (pre ++ s)) = _
    rw [search, hno]
    exact ih (fun l hl hne => hp l (hl.trans (List.suffix_cons _ _)) hne)

/-- C125: in comments of the usual form, "101: material", any character, a blank, the name, white space `bl ++ [w]` with no line
end in `bl`, "(z" — the first such label, with no other parenthesis on the rest — the name found is the name followed by `bl`.
If `w` is a line end, more white space `ws` may follow it. -/
theorem C125_name_partial (pre name bl ws rest : List Char) (c w : Char) (hc : c ≠ '\n' ∧ c ≠ '\r')
    (hn : ∀ d ∈ name, d ≠ '\n' ∧ d ≠ '\r')
    (hbl : ∀ d ∈ bl, d ∈ [' ', '\t', '\x0b', '\x0c'])
    (hw : w ∈ [' ', '\t', '\n', '\x0b', '\x0c', '\r'])
    (hws : ∀ d ∈ ws, d ∈ [' ', '\t', '\n', '\x0b', '\x0c', '\r'])
    (hlast : w = '\n' ∨ w = '\r' ∨ ws = []) (hr : '(' ∉ rest)
    (hp : ∀ l, l <:+ pre → l ≠ [] → ¬ "101: material".toList <+: (l ++ ("101: material".toList ++ c :: ' ' ::
      (name ++ bl ++ w :: (ws ++ '(' :: 'z' :: rest))))) :
    getName (pre ++ ("101: material".toList ++ c :: ' ' :: (name ++ bl ++ w :: (ws ++ '(' :: 'z' :: rest))))
      = name ++ bl := by
  have htag : "101: material".toList = tag := by simp [tag]
  rw [htag] at hp ⊢
  have hm : matchHere (tag ++ c :: ' ' :: (name ++ bl ++ w :: (ws ++ '(' :: 'z' :: rest)))
      = some (name ++ bl) := by
    unfold matchHere
    rw [if_pos (by rw [List.isPrefixOf_iff_prefix]; exact List.prefix_append _ _), List.drop_left]
    simp only []
    rw [if_pos (by simp [isDot, hc])]
    refine greedy_name name bl ws w rest (fun d hd => by simp [isDot, hn d hd]) ?_ hw hws ?_ hr
    · intro d hd
      have := hbl d hd
      simp only [List.mem_cons, List.not_mem_nil, or_false] at this
      rcases this with rfl | rfl | rfl | rfl <;> simp [White, isDot]
    · intro hd
      rcases hlast with h | h | h
      · subst h; simp [isDot] at hd
      · subst h; simp [isDot] at hd
      · exact h
  unfold getName
  rw [search_skip pre _ _ hm hp]

/-- C125: a name found never runs over the end of a line. -/
theorem C125_name_one_line (s : List Char) : ∀ c ∈ getName s, c ≠ '\n' ∧ c ≠ '\r' := by
  have hg : ∀ s m, greedy s = some m → ∀ c ∈ m, c ≠ '\n' ∧ c ≠ '\r' := by
    intro s
    induction s with
    | nil => intro m h; simp [greedy, ahead] at h
    | cons d r ih =>
      intro m h
      rw [greedy] at h
      by_cases hd : isDot d = true
      · rw [if_pos hd] at h
        cases hgr : greedy r with
        | none =>
          rw [hgr] at h
          simp only at h
          split at h
          · cases h; simp
          · cases h
        | some m' =>
          rw [hgr] at h
          cases h
          intro c hc
          rcases List.mem_cons.1 hc with rfl | hc
          · simpa [isDot] using hd
          · exact ih m' hgr c hc
      · rw [if_neg hd] at h
        simp only at h
        split at h
        · cases h; simp
        · cases h
  have hmh : ∀ s m, matchHere s = some m → ∀ c ∈ m, c ≠ '\n' ∧ c ≠ '\r' := by
    intro s m h
    unfold matchHere at h
    split at h
    · split at h
      · split at h
        · exact hg _ _ h
        · cases h
      · cases h
    · cases h
  have hs : ∀ s m, search s = some m → ∀ c ∈ m, c ≠ '\n' ∧ c ≠ '\r' := by
    intro s
    induction s with
    | nil => intro m h; exact hmh _ _ h
    | cons d r ih =>
      intro m h
      rw [search] at h
      cases hm : matchHere (d :: r) with
      | none => rw [hm] at h; exact ih m h
      | some m' => rw [hm] at h; cases h; exact hmh _ _ hm
  unfold getName
  cases h : search s with
  | none => simp
  | some m => exact hs s m h

/-- In particular with one blank the name is found exactly. -/
theorem C125_name_found (pre name rest : List Char) (c : Char) (hc : c ≠ '\n' ∧ c ≠ '\r')
    (hn : ∀ d ∈ name, d ≠ '\n' ∧ d ≠ '\r') (hr : '(' ∉ rest) (hp : '1' ∉ pre) :
    getName (pre ++ ("101: material".toList ++ c :: ' ' :: (name ++ ' ' :: '(' :: 'z' :: rest))) = name := by
  have := C125_name_partial pre name [] [] rest c ' ' hc hn (by simp) (by simp) (by simp) (by simp) hr (by
    intro l hl hne hpre
    cases l with
    | nil => exact hne rfl
    | cons d l =>
      have hd : d ∈ pre := hl.mem (List.mem_cons_self ..)
      obtain ⟨t, ht⟩ := hpre
      have : "101: material".toList = '1' :: tag.tail := by simp [tag]
      rw [this, List.cons_append, List.cons_append, List.cons.injEq] at ht
      exact hp (ht.1 ▸ hd))
  simpa using this

example : getName "air file 101: material. dry air (z=7.3)".toList = "dry air".toList := by
  have := C125_name_found "air file ".toList "dry air".toList "=7.3)".toList '.' (by decide) (by simp) (by simp) (by simp)
  simpa using this

example : getName "101: material. dry air\t\r\n (z=7.3)".toList = "dry air\t".toList := by decide

/-- Violation: the name keeps blanks, and text up to the last "(z" of the line. -/
theorem C125_name_violated :
    getName "101: material. dry air  (z=7.3)".toList = "dry air ".toList ∧
    getName "101: material. mix (z=7.3) with Pb (z=82)".toList = "mix (z=7.3) with Pb".toList := by
  constructor <;> decide

/-- C125: `eosMassFraction` reports `true` exactly when the phase table exists. -/
theorem C125_mass_fraction_result (L : Lib K) (noData mat : Int) (s : Hist K) :
    (EospacLoad.massFraction L noData mat s).1 = true ↔ 0 < (tableExists L noData mat .M_DT s).1 := by
  unfold EospacLoad.massFraction
  rw [bind_run, ite_run]
  split
  · rename_i h
    exact ⟨fun _ => h, fun _ => rfl⟩
  · rename_i h
    refine ⟨fun hc => ?_, fun hc => absurd hc h⟩
    exact absurd hc Bool.false_ne_true

/-- Comments without the label give the name "-1". -/
theorem C125_no_name (s : List Char) (h : ¬ "101: material".toList <:+: s) : getName s = "-1".toList := by
  have htag : "101: material".toList = tag := by simp [tag]
  rw [htag] at h
  have : search s = none := by
    induction s with
    | nil => rfl
    | cons c s ih =>
      have hno : matchHere (c :: s) = none := by
        unfold matchHere
        rw [if_neg]
        rw [List.isPrefixOf_iff_prefix]
        exact fun hp => h hp.isInfix
      rw [search, hno]
      exact ih (fun hi => h (hi.trans (List.suffix_cons _ _).isInfix))
  unfold getName
  rw [this]
  simp

end Verif.EospacLoad
