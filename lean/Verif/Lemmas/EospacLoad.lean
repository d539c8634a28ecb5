import Verif.Spec.EospacLoad
import Mathlib.Data.List.Nodup
import Mathlib.Tactic.Ring

/-! # Lemmas about loading tables from EOSPAC -/

set_option linter.unusedSectionVars false

namespace Verif.EospacLoad

variable {K : Type}

@[simp] theorem call_run (L : Lib K) (c : Call K) (s : Hist K) : call L c s = (L.code (c :: s), c :: s) := rfl

theorem bind_run {α β : Type} (m : StateM (Hist K) α) (f : α → StateM (Hist K) β) (s : Hist K) :
    (m >>= f) s = f (m s).1 (m s).2 := rfl

theorem pure_run {α : Type} (a : α) (s : Hist K) : (pure a : StateM (Hist K) α) s = (a, s) := rfl

theorem get_run (s : Hist K) : (get : StateM (Hist K) (Hist K)) s = (s, s) := rfl

theorem ite_run {α : Type} (c : Prop) [Decidable c] (a b : StateM (Hist K) α) (s : Hist K) :
    (if c then a else b) s = if c then a s else b s := by split <;> rfl

theorem optLoop_run (L : Lib K) (acc : TT → Bool) (o : LOpt) (v : Option K) (ps : List (TT × Handle))
    (s : Hist K) :
    optLoop L acc o v ps s
      = ((), ((ps.filter (fun p => acc p.1)).map (fun p => Call.setOption p.2 o v)).reverse ++ s) := by
  induction ps generalizing s with
  | nil => rfl
  | cons p ps ih =>
    rw [optLoop, List.filter_cons]
    cases h : acc p.1 with
    | false => simp only [Bool.false_eq_true, if_false]; exact ih s
    | true =>
      simp only [if_true, List.map_cons, List.reverse_cons, List.append_assoc, List.singleton_append]
      exact ih _

variable [Field K] [LinearOrder K] [IsStrictOrderedRing K]

/-- The option loops that are run, in order. -/
def active (o : LoadOpts K) : List (LOpt × (TT → Bool) × Option K) :=
  (if o.invert then [(LOpt.invertAtSetup, mayInvert, some 1)] else []) ++
  ((if o.insert > 0 then [(LOpt.insertData, fun _ => true, some o.insert)] else []) ++
  ((if o.mono = .X ∨ o.mono = .XY then [(LOpt.monotonicInX, mayFix, none)] else []) ++
  ((if o.mono = .XY ∨ o.mono = .Y then [(LOpt.monotonicInY, fun _ => true, none)] else []) ++
  ((if o.smooth then [(LOpt.smooth, mayFix, none)] else []) ++
  ((if o.split = .numProp then [(LOpt.splitNumProp, fun _ => true, none)]
   else if o.split = .idealGas then [(LOpt.splitIdealGas, fun _ => true, none)]
   else if o.split = .cowan then [(LOpt.splitCowan, fun _ => true, none)] else []) ++
  (if o.linear then [(LOpt.linear, fun _ => true, none)] else []))))))

/-- The calls of one option loop. -/
def loopCalls (ps : List (TT × Handle)) (a : LOpt × (TT → Bool) × Option K) : List (Call K) :=
  (ps.filter (fun p => a.2.1 p.1)).map (fun p => Call.setOption p.2 a.1 a.2.2)

theorem setOptions_run (L : Lib K) (o : LoadOpts K) (ps : List (TT × Handle)) (s : Hist K) :
    setOptions L o ps s = ((), ((active o).flatMap (loopCalls ps)).reverse ++ s) := by
  have key : ∀ (c : Prop) [Decidable c] (acc : TT → Bool) (op : LOpt) (v : Option K)
      (rest : StateM (Hist K) Unit) (l : List (LOpt × (TT → Bool) × Option K)),
      (∀ s, rest s = ((), (l.flatMap (loopCalls ps)).reverse ++ s)) →
      ∀ s, (do
        if c then optLoop L acc op v ps
        rest : StateM (Hist K) Unit) s
        = ((), (((if c then [(op, acc, v)] else []) ++ l).flatMap (loopCalls ps)).reverse ++ s) := by
    intro c _ acc op v rest l hr s
    by_cases h : c
    · simp only [if_pos h]
      rw [bind_run, optLoop_run, hr]
      simp [loopCalls, List.reverse_append]
    · simp only [if_neg h]
      exact hr s
  unfold setOptions active
  refine key _ _ _ _ _ _ ?_ s; clear s
  refine key _ _ _ _ _ _ ?_
  refine key _ _ _ _ _ _ ?_
  refine key _ _ _ _ _ _ ?_
  refine key _ _ _ _ _ _ ?_
  intro s
  have last : ∀ s, (do
        if o.linear then optLoop L (fun _ => true) LOpt.linear none ps : StateM (Hist K) Unit) s
        = ((), ((if o.linear then [(LOpt.linear, fun _ => true, none)] else []).flatMap (loopCalls ps)).reverse ++ s) := by
    intro s
    cases o.linear with
    | false => rfl
    | true =>
      simp only [if_true]
      rw [optLoop_run]
      simp [loopCalls]
  by_cases h1 : o.split = .numProp
  · simp only [if_pos h1]
    rw [bind_run, optLoop_run]
    simp only []
    rw [last]
    simp [loopCalls, List.reverse_append]
  · simp only [if_neg h1]
    by_cases h2 : o.split = .idealGas
    · simp only [if_pos h2]
      rw [bind_run, optLoop_run]
      simp only []
      rw [last]
      simp [loopCalls, List.reverse_append]
    · simp only [if_neg h2]
      by_cases h3 : o.split = .cowan
      · simp only [if_pos h3]
        rw [bind_run, optLoop_run]
        simp only []
        rw [last]
        simp [loopCalls, List.reverse_append]
      · simp only [if_neg h3]
        exact last s

/-- The history after `eosSafeLoad`. -/
def loadHist (L : Lib K) (mat : Int) (types : List TT) (o : LoadOpts K) (s : Hist K) : Hist K :=
  let hs := newHandles s types
  if L.code (.create mat types hs :: s) ≠ 0 then .create mat types hs :: s
  else .load hs :: (((active o).flatMap (loopCalls (types.zip hs))).reverse ++ .create mat types hs :: s)

theorem safeLoad_run (L : Lib K) (mat : Int) (types : List TT) (o : LoadOpts K) (s : Hist K) :
    safeLoad L mat types o s
      = ((L.code (loadHist L mat types o s), newHandles s types), loadHist L mat types o s) := by
  unfold safeLoad loadHist
  rw [bind_run, get_run]
  simp only []
  rw [bind_run, call_run]
  simp only []
  by_cases h : L.code (.create mat types (newHandles s types) :: s) ≠ 0
  · rw [if_pos h, if_pos h]
    rfl
  · rw [if_neg h, if_neg h, bind_run, setOptions_run]
    rfl

theorem active_none : active (noOpts : LoadOpts K) = [] := by simp [active, noOpts]

/-! ### Liveness -/

/-- Handles that are alive have been made by a call of the history. -/
def Fresh (L : Lib K) (s : Hist K) : Prop := ∀ h, Live L s h → h.1 < creates s

theorem mem_newHandles (s : Hist K) (types : List TT) (h : Handle) :
    h ∈ newHandles s types ↔ h.1 = creates s ∧ h.2 < types.length := by
  obtain ⟨a, b⟩ := h
  simp only [newHandles, List.mem_map, List.mem_range, Prod.mk.injEq]
  constructor
  · rintro ⟨i, hi, h1, h2⟩
    exact ⟨h1.symm, h2 ▸ hi⟩
  · rintro ⟨h1, h2⟩
    exact ⟨b, h2, h1.symm, rfl⟩

theorem live_setOptions (L : Lib K) (ps : List (TT × Handle)) (l : List (LOpt × (TT → Bool) × Option K))
    (s : Hist K) (h : Handle) : Live L ((l.flatMap (loopCalls ps)).reverse ++ s) h ↔ Live L s h := by
  have : ∀ (cs : List (Call K)), (∀ c ∈ cs, ∃ a b v, c = Call.setOption a b v) → (Live L (cs ++ s) h ↔ Live L s h) := by
    intro cs
    induction cs with
    | nil => intro _; rfl
    | cons c cs ih =>
      intro hc
      obtain ⟨a, b, v, rfl⟩ := hc c (by simp)
      rw [List.cons_append]
      exact ih (fun c hm => hc c (by simp [hm]))
  apply this
  intro c hc
  simp only [List.mem_reverse, List.mem_flatMap, loopCalls, List.mem_map] at hc
  obtain ⟨a, _, p, _, rfl⟩ := hc
  exact ⟨_, _, _, rfl⟩

theorem creates_setOptions (ps : List (TT × Handle)) (l : List (LOpt × (TT → Bool) × Option K))
    (s : Hist K) : creates ((l.flatMap (loopCalls ps)).reverse ++ s) = creates s := by
  have : ∀ (cs : List (Call K)), (∀ c ∈ cs, ∃ a b v, c = Call.setOption a b v) → creates (cs ++ s) = creates s := by
    intro cs
    induction cs with
    | nil => intro _; rfl
    | cons c cs ih =>
      intro hc
      obtain ⟨a, b, v, rfl⟩ := hc c (by simp)
      rw [List.cons_append]
      exact ih (fun c hm => hc c (by simp [hm]))
  apply this
  intro c hc
  simp only [List.mem_reverse, List.mem_flatMap, loopCalls, List.mem_map] at hc
  obtain ⟨a, _, p, _, rfl⟩ := hc
  exact ⟨_, _, _, rfl⟩

theorem creates_loadHist (L : Lib K) (mat : Int) (types : List TT) (o : LoadOpts K) (s : Hist K) :
    creates (loadHist L mat types o s) = creates s + 1 := by
  unfold loadHist
  simp only []
  split
  · rfl
  · rw [creates, creates_setOptions]
    · rfl
    all_goals simp

theorem live_loadHist (L : Lib K) (mat : Int) (types : List TT) (o : LoadOpts K) (s : Hist K) (h : Handle) :
    Live L (loadHist L mat types o s) h
      ↔ (h ∈ newHandles s types ∧ L.code (.create mat types (newHandles s types) :: s) = 0) ∨ Live L s h := by
  unfold loadHist
  simp only []
  split
  · rfl
  · show Live L (_ ++ _) h ↔ _
    rw [live_setOptions]
    rfl

/-- Load, some calls that neither create nor destroy, destroy: as before. -/
theorem live_destroyed (L : Lib K) (s s' : Hist K) (types : List TT) (hf : Fresh L s)
    (hl : ∀ h, Live L s' h → h ∈ newHandles s types ∨ Live L s h)
    (hl' : ∀ h, Live L s h → Live L s' h) (h : Handle) :
    Live L (.destroy (newHandles s types) :: s') h ↔ Live L s h := by
  show (h ∉ newHandles s types ∧ Live L s' h) ↔ _
  constructor
  · rintro ⟨h1, h2⟩
    exact (hl h h2).resolve_left h1
  · intro h1
    refine ⟨?_, hl' h h1⟩
    intro hm
    have := (mem_newHandles s types h).1 hm
    have := hf h h1
    omega

theorem lookups_run (L : Lib K) (hs : List Handle) (is : List Nat) (s : Hist K) :
    lookups L hs is s = ((), (is.map (fun i => Call.lookup (hs.getD i (0, 0)))).reverse ++ s) := by
  induction is generalizing s with
  | nil => rfl
  | cons i is ih =>
    rw [lookups, bind_run, call_run]
    simp only []
    rw [ih]
    simp

theorem live_lookups (L : Lib K) (hs : List Handle) (is : List Nat) (s : Hist K) (h : Handle) :
    Live L ((is.map (fun i => Call.lookup (hs.getD i (0, 0)))).reverse ++ s) h ↔ Live L s h := by
  rw [← List.map_reverse]
  generalize is.reverse = js
  induction js with
  | nil => rfl
  | cons j js ih => exact ih

theorem creates_lookups (hs : List Handle) (is : List Nat) (s : Hist K) :
    creates ((is.map (fun i => Call.lookup (hs.getD i (0, 0)))).reverse ++ s) = creates s := by
  rw [← List.map_reverse]
  generalize is.reverse = js
  induction js with
  | nil => rfl
  | cons j js ih => exact ih

theorem infoOr_run (L : Lib K) (d : K) (h : Handle) (i : Item) (s : Hist K) :
    infoOr L d h i s = ((L.info s h i).getD d, s) := rfl

variable [FloorRing K]

/-- The history after the first half of `eosGetMetadata`. -/
def metaHist1 (L : Lib K) (mat : Int) (s : Hist K) : Hist K :=
  .destroy (newHandles s [TT.Info, .Ut_DT, .Pt_DT, .St_DT]) :: loadHist L mat [.Info, .Ut_DT, .Pt_DT, .St_DT] noOpts s

/-- The history after loading the comments in `eosGetMetadata`. -/
def metaHist2 (L : Lib K) (mat : Int) (s : Hist K) : Hist K := loadHist L mat [.Comment] noOpts (metaHist1 L mat s)

/-- The history after `eosGetMetadata`. -/
def metaHist (L : Lib K) (mat : Int) (s : Hist K) : Hist K :=
  if L.code (metaHist2 L mat s) = 0 then .destroy (newHandles (metaHist1 L mat s) [TT.Comment]) :: metaHist2 L mat s
  else metaHist2 L mat s

/-- The comments and name `eosGetMetadata` stores. -/
def metaText (L : Lib K) (mat : Int) (str : List Char) (s : Hist K) : List Char × List Char :=
  let s2 := metaHist2 L mat s
  let ch : Handle := (creates s + 1, 0)
  let len : K := if L.code s2 = 0 then (L.info s2 ch .cmntLen).getD (-1) else -1
  let txt := (L.comments s2 ch).take (truncI len).toNat
  (if len > 0 then txt else "Comment unavailable for matid ".toList ++ str,
   if len > 0 then getName txt else "No name for matid ".toList ++ str)

theorem creates_metaHist1 (L : Lib K) (mat : Int) (s : Hist K) : creates (metaHist1 L mat s) = creates s + 1 := by
  show creates (loadHist L mat _ noOpts s) = _
  exact creates_loadHist ..

theorem newHandles_meta (L : Lib K) (mat : Int) (s : Hist K) :
    newHandles (metaHist1 L mat s) [TT.Comment] = [(creates s + 1, 0)] := by
  simp [newHandles, creates_metaHist1]

theorem getComments_run (L : Lib K) (mat : Int) (str : List Char) (s : Hist K) :
    getComments L mat str (metaHist1 L mat s) = (metaText L mat str s, metaHist L mat s) := by
  unfold getComments
  rw [bind_run, safeLoad_run]
  rw [show loadHist L mat [.Comment] noOpts (metaHist1 L mat s) = metaHist2 L mat s from rfl]
  simp only []
  unfold metaHist metaText
  rw [newHandles_meta]
  by_cases h : L.code (metaHist2 L mat s) = 0
  · simp only [if_pos h]
    rfl
  · simp only [if_neg h]
    rfl

theorem getMetadata_hist (L : Lib K) (mat : Int) (str : List Char) (s : Hist K) :
    (getMetadata L mat str s).2 = metaHist L mat s := by
  unfold getMetadata
  rw [bind_run, safeLoad_run]
  simp only [bind_run, infoOr_run, safeDestroy, call_run, pure_run]
  rw [show (.destroy (newHandles s [TT.Info, .Ut_DT, .Pt_DT, .St_DT]) :: loadHist L mat [.Info, .Ut_DT, .Pt_DT, .St_DT] noOpts s)
    = metaHist1 L mat s from rfl, getComments_run]

theorem live_metaHist1 (L : Lib K) (mat : Int) (s : Hist K) (hf : Fresh L s) (h : Handle) :
    Live L (metaHist1 L mat s) h ↔ Live L s h := by
  apply live_destroyed L s _ _ hf
  · intro h hl
    rw [live_loadHist] at hl
    exact hl.imp (fun x => x.1) id
  · intro h hl
    rw [live_loadHist]
    exact Or.inr hl

theorem creates_metaHist (L : Lib K) (mat : Int) (s : Hist K) : creates (metaHist L mat s) = creates s + 2 := by
  have : creates (metaHist2 L mat s) = creates s + 2 := by
    unfold metaHist2
    rw [creates_loadHist, creates_metaHist1]
  unfold metaHist
  split
  · exact this
  · exact this

theorem fresh_metaHist1 (L : Lib K) (mat : Int) (s : Hist K) (hf : Fresh L s) : Fresh L (metaHist1 L mat s) := by
  intro h hl
  rw [live_metaHist1 L mat s hf] at hl
  have := hf h hl
  rw [creates_metaHist1]
  omega

theorem live_metaHist (L : Lib K) (mat : Int) (s : Hist K) (hf : Fresh L s) (h : Handle) :
    Live L (metaHist L mat s) h ↔
      Live L s h ∨ (h = (creates s + 1, 0) ∧ L.code (metaHist2 L mat s) ≠ 0 ∧
        L.code (.create mat [.Comment] [(creates s + 1, 0)] :: metaHist1 L mat s) = 0) := by
  have hn : newHandles (metaHist1 L mat s) [TT.Comment] = [(creates s + 1, 0)] := by
    simp [newHandles, creates_metaHist1]
  unfold metaHist
  split
  · rename_i h0
    rw [live_destroyed L (metaHist1 L mat s) (metaHist2 L mat s) [.Comment] (fresh_metaHist1 L mat s hf)
      (by
        intro h hl
        unfold metaHist2 at hl
        rw [live_loadHist] at hl
        exact hl.imp (fun x => x.1) id)
      (by
        intro h hl
        unfold metaHist2
        rw [live_loadHist]
        exact Or.inr hl), live_metaHist1 L mat s hf]
    simp [h0]
  · rename_i h0
    rw [metaHist2, live_loadHist, live_metaHist1 L mat s hf, hn]
    simp only [metaHist2] at h0
    simp only [List.mem_singleton]
    tauto

end Verif.EospacLoad
