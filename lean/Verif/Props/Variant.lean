import Verif.Model.Variant
import Verif.Props.TypeLists

/-! # C126: stacking and removing modifiers through the variant -/

set_option linter.unusedSectionVars false

namespace Verif.Var

variable {β B A : Type*} [DecidableEq β] (L : List (Ty β)) (ty : B → β) (ok : Mod → A → Obj B A → Bool)

/-- C126: `Modify` gives exactly the modifier around the unchanged object, when the variant has that type and the modifier's
constructor accepts its arguments; otherwise the program stops. In particular it never returns the object unmodified. -/
theorem C126_modify (m : Mod) (a : A) (v w : Obj B A) :
    (modify L ty ok m a v = some w ↔ Ty.app m (v.type ty) ∈ L ∧ ok m a v = true ∧ w = .mod m a v) ∧
    (modify L ty ok m a v = none ↔ Ty.app m (v.type ty) ∉ L ∨ ok m a v = false) := by
  by_cases h : Ty.app m (v.type ty) ∈ L <;> cases ho : ok m a v <;>
    simp [modify, conditionallyModify, modifyObj, modifiedInList, h, ho, eq_comm]

/-- C126: the static question `is_modifiable` says in advance whether `Modify` finds its type, for an object that is in the
variant. -/
theorem C126_is_modifiable (m : Mod) (a : A) (v : Obj B A) (hv : v.type ty ∈ L) (hok : ok m a v = true) :
    isModifiable L m (v.type ty) = true ↔ ∃ w, modify L ty ok m a v = some w := by
  simp only [(C126_modify L ty ok m a v _).1, hok, isModifiable, Bool.and_eq_true, decide_eq_true_eq, true_and, hv]
  exact ⟨fun h => ⟨_, h, rfl⟩, fun ⟨_, h, _⟩ => h⟩

/-- An object inside a stack of modifiers, the last of the list outermost. -/
def stack (ms : List (Mod × A)) (o : Obj B A) : Obj B A := ms.foldl (fun o p => .mod p.1 p.2 o) o

theorem modifyAll_some (ms : List (Mod × A)) (v w : Obj B A) (h : modifyAll L ty ok ms v = some w) : w = stack ms v := by
  induction ms generalizing v with
  | nil => simpa [modifyAll, stack, eq_comm] using h
  | cons p ms ih =>
    obtain ⟨m, a⟩ := p
    simp only [modifyAll, Option.bind_eq_some_iff] at h
    obtain ⟨u, hu, h⟩ := h
    rw [ih u h, ((C126_modify L ty ok m a v u).1.1 hu).2.2]
    rfl

theorem getUnmodified_stack (ms : List (Mod × A)) (o : Obj B A) : getUnmodified (stack ms o) = getUnmodified o := by
  induction ms generalizing o with
  | nil => rfl
  | cons p ms ih => exact (ih (.mod p.1 p.2 o)).trans rfl

/-- C126: whatever modifiers were put on a base EOS, in any number, `GetUnmodifiedObject` gives that base EOS back;
`IsModified` tells whether there was any; removing the modifiers one by one gives back each intermediate object and
removing more than there are changes nothing. -/
theorem C126_unmodify (ms : List (Mod × A)) (b : B) (w : Obj B A) (h : modifyAll L ty ok ms (.base b) = some w) :
    getUnmodified w = .base b ∧ (isModified w = true ↔ ms ≠ []) ∧
    (∀ n, unmodifyOnce^[n] w = stack (ms.take (ms.length - n)) (.base b)) := by
  rw [modifyAll_some L ty ok ms _ w h]
  refine ⟨getUnmodified_stack ms _, ?_, ?_⟩
  · induction ms using List.reverseRecOn with
    | nil => simp [stack, isModified]
    | append_singleton ms p _ => simp [stack, isModified]
  · intro n
    clear h
    induction ms using List.reverseRecOn generalizing n with
    | nil =>
      induction n with
      | zero => rfl
      | succ n ih => rw [Function.iterate_succ_apply', ih]; simp [stack, unmodifyOnce]
    | append_singleton ms p ih =>
      cases n with
      | zero =>
        rw [Nat.sub_zero, List.take_length]
        rfl
      | succ n =>
        rw [Function.iterate_succ_apply]
        have : unmodifyOnce (stack (ms ++ [p]) (.base b : Obj B A)) = stack ms (.base b) := by simp [stack, unmodifyOnce]
        rw [this, ih]
        congr 1
        simp only [List.length_append, List.length_singleton, Nat.add_sub_add_right]
        rw [List.take_append_of_le_length (by omega)]

/-- C126: one modification and its removal: the object is as before. -/
theorem C126_unmodify_once (m : Mod) (a : A) (v w : Obj B A) (h : modify L ty ok m a v = some w) :
    unmodifyOnce w = v ∧ isModified w = true ∧ getUnmodified w = getUnmodified v := by
  rw [((C126_modify L ty ok m a v w).1.1 h).2.2]
  exact ⟨rfl, rfl, rfl⟩

/-! ## The default variant -/

theorem ofTy_typeOf {K : Type*} [Field K] [LinearOrder K] (e : β) (sc sh ra : Bool) (x : K) :
    ofTy (Types.typeOf e (CApi.applyAll .base sc sh ra x x x x x x)) =
      ((if sh then [Mod.shifted] else []) ++ (if sc then [Mod.scaled] else []) ++
        (if ra then [Mod.ramp] else [])).foldl (fun t m => .app m t) (.base e) := by
  cases sc <;> cases sh <;> cases ra <;> rfl

theorem mem_default (full : List β) (t : Ty β) : t ∈ defaultList full ↔
    ∃ e ∈ full, ∃ sh sc ra : Bool, t = ((if sh then [Mod.shifted] else []) ++ (if sc then [Mod.scaled] else []) ++
        (if ra then [Mod.ramp] else [])).foldl (fun t m => .app m t) (.base e) := by
  simp only [defaultList, List.mem_map]
  constructor
  · rintro ⟨u, hu, rfl⟩
    obtain ⟨e, he, sc, sh, ra, rfl⟩ := (Types.C35_members_exact (K := ℚ) full 0 0 0 0 0 0 u).1 hu
    exact ⟨e, he, sh, sc, ra, ofTy_typeOf e sc sh ra _⟩
  · rintro ⟨e, he, sh, sc, ra, rfl⟩
    exact ⟨_, (Types.C35_members_exact (K := ℚ) full 0 0 0 0 0 0 _).2 ⟨e, he, sc, sh, ra, rfl⟩, ofTy_typeOf e sc sh ra _⟩

/-- C126: removing modifiers never leaves the default variant: with a type, the type under its outermost modifier and the base
type are alternatives too (so `UnmodifyOnce` and `GetUnmodifiedObject` can return a variant). -/
theorem C126_default_closed (full : List β) (m : Mod) (t : Ty β) (h : Ty.app m t ∈ defaultList full) :
    t ∈ defaultList full := by
  obtain ⟨e, he, sh, sc, ra, h⟩ := (mem_default full _).1 h
  rw [mem_default]
  cases sh <;> cases sc <;> cases ra <;> simp only [Bool.false_eq_true, if_false, if_true, List.nil_append, List.append_nil,
    List.foldl_cons, List.foldl_nil, List.cons_append, Ty.app.injEq, reduceCtorEq] at h
  · exact ⟨e, he, false, false, false, h.2⟩
  · exact ⟨e, he, false, false, false, h.2⟩
  · exact ⟨e, he, false, true, false, h.2⟩
  · exact ⟨e, he, false, false, false, h.2⟩
  · exact ⟨e, he, true, false, false, h.2⟩
  · exact ⟨e, he, true, false, false, h.2⟩
  · exact ⟨e, he, true, true, false, h.2⟩

theorem foldl_inj (e e' : β) (l l' : List Mod) (h : l.foldl (fun t m => Ty.app m t) (.base e) =
    l'.foldl (fun t m => Ty.app m t) (.base e')) : e = e' ∧ l = l' := by
  induction l using List.reverseRecOn generalizing l' with
  | nil =>
    rcases l'.eq_nil_or_concat with rfl | ⟨k, m, rfl⟩
    · simpa using h
    · simp at h
  | append_singleton l m ih =>
    rcases l'.eq_nil_or_concat with rfl | ⟨k, m', rfl⟩
    · simp at h
    · simp only [List.foldl_append, List.foldl_cons, List.foldl_nil, Ty.app.injEq, List.concat_eq_append] at h
      obtain ⟨h1, h2⟩ := ih k h.2
      exact ⟨h1, by rw [h.1, h2, List.concat_eq_append]⟩

theorem sublist_three (l : List Mod) : l.Sublist [.shifted, .scaled, .ramp] ↔
    ∃ sh sc ra : Bool, l = (if sh then [Mod.shifted] else []) ++ (if sc then [Mod.scaled] else []) ++
        (if ra then [Mod.ramp] else []) := by
  constructor
  · intro h
    have h := List.mem_sublists'.2 h
    simp only [List.sublists'_cons, List.sublists'_nil, List.map_cons, List.map_nil, List.cons_append, List.nil_append,
      List.map_append, List.mem_cons, List.not_mem_nil, or_false] at h
    rcases h with h | h | h | h | h | h | h | h <;> subst h
    · exact ⟨false, false, false, rfl⟩
    · exact ⟨false, false, true, rfl⟩
    · exact ⟨false, true, false, rfl⟩
    · exact ⟨false, true, true, rfl⟩
    · exact ⟨true, false, false, rfl⟩
    · exact ⟨true, false, true, rfl⟩
    · exact ⟨true, true, false, rfl⟩
    · exact ⟨true, true, true, rfl⟩
  · rintro ⟨sh, sc, ra, rfl⟩
    cases sh <;> cases sc <;> cases ra <;> decide

theorem mem_default_iff (full : List β) (e : β) (he : e ∈ full) (l : List Mod) :
    l.foldl (fun t m => Ty.app m t) (.base e) ∈ defaultList full ↔ l.Sublist [.shifted, .scaled, .ramp] := by
  rw [mem_default, sublist_three]
  constructor
  · rintro ⟨e', _, sh, sc, ra, h⟩
    exact ⟨sh, sc, ra, (foldl_inj _ _ _ _ h).2⟩
  · rintro ⟨sh, sc, ra, rfl⟩
    exact ⟨e, he, sh, sc, ra, rfl⟩

theorem type_stack (ms : List (Mod × A)) (o : Obj B A) :
    (stack ms o).type ty = (ms.map Prod.fst).foldl (fun t m => Ty.app m t) (o.type ty) := by
  induction ms generalizing o with
  | nil => rfl
  | cons p ms ih => exact ih (.mod p.1 p.2 o)

theorem modifyAll_concat (ms : List (Mod × A)) (p : Mod × A) (v : Obj B A) :
    modifyAll L ty ok (ms ++ [p]) v = (modifyAll L ty ok ms v).bind (modify L ty ok p.1 p.2) := by
  induction ms generalizing v with
  | nil => simp [modifyAll]
  | cons q ms ih =>
    simp only [List.cons_append, modifyAll, Option.bind_assoc]
    congr 1
    funext u
    exact ih u

/-- C126: the modifications the default variant accepts, starting from any of its unmodified EOS, when every constructor
accepts its arguments: at most one shift, then at most one scaling, then at most one ramp, in this order and nothing else.
Any other order or repetition, and any other modifier, stops the program. -/
theorem C126_default_sequences (full : List β) (b : B) (hb : ty b ∈ full) (ms : List (Mod × A))
    (hok : ∀ m a o, ok m a o = true) :
    (modifyAll (defaultList full) ty ok ms (.base b) ≠ none ↔
      (ms.map Prod.fst).Sublist [.shifted, .scaled, .ramp]) ∧
    ((ms.map Prod.fst).Sublist [.shifted, .scaled, .ramp] →
      modifyAll (defaultList full) ty ok ms (.base b) = some (stack ms (.base b))) := by
  have hf : modifyAll (defaultList full) ty ok ms (.base b) ≠ none → (ms.map Prod.fst).Sublist [.shifted, .scaled, .ramp] := by
    rcases ms.eq_nil_or_concat with rfl | ⟨ms, p, rfl⟩
    · simp
    · rw [List.concat_eq_append, modifyAll_concat]
      intro h
      obtain ⟨w, hw⟩ := Option.ne_none_iff_exists'.1 h
      obtain ⟨u, hu, hw⟩ := Option.bind_eq_some_iff.1 hw
      have h1 := ((C126_modify _ ty ok p.1 p.2 u w).1.1 hw).1
      rw [modifyAll_some _ ty ok ms _ u hu, type_stack] at h1
      rw [← mem_default_iff full (ty b) hb]
      simpa [Obj.type] using h1
  have hb : (ms.map Prod.fst).Sublist [.shifted, .scaled, .ramp] →
      modifyAll (defaultList full) ty ok ms (.base b) = some (stack ms (.base b)) := by
    clear hf
    induction ms using List.reverseRecOn with
    | nil => intro _; rfl
    | append_singleton ms p ih =>
      intro h
      have hp : (ms.map Prod.fst).Sublist [.shifted, .scaled, .ramp] := by
        refine List.Sublist.trans ?_ h
        simp
      rw [modifyAll_concat, ih hp]
      refine ((C126_modify _ ty ok p.1 p.2 _ _).1).2 ⟨?_, hok _ _ _, by simp [stack]⟩
      have := (mem_default_iff full (ty b) hb _).2 h
      rw [type_stack]
      simpa [Obj.type] using this
  exact ⟨⟨hf, fun h => by rw [hb h]; simp⟩, hb⟩

/-- C126: a shifted then scaled then ramped ideal gas is accepted; scaled then shifted is not. -/
example : modifyAll (defaultList ["IdealGas", "JWL"]) id (fun _ _ _ => true)
      [(.shifted, 1), (.scaled, 2), (.ramp, 3)] (.base "IdealGas" : Obj String ℕ) ≠ none ∧
    modifyAll (defaultList ["IdealGas", "JWL"]) id (fun _ _ _ => true)
      [(.scaled, 2), (.shifted, 1)] (.base "IdealGas" : Obj String ℕ) = none := by
  constructor
  · rw [(C126_default_sequences id _ ["IdealGas", "JWL"] "IdealGas" (by simp) _ (fun _ _ _ => rfl)).1]
    decide
  · by_contra h
    exact absurd ((C126_default_sequences id _ ["IdealGas", "JWL"] "IdealGas" (by simp) _ (fun _ _ _ => rfl)).1.1 h) (by decide)

/-! ## Names -/

theorem open_prefix_free (m m' : Mod) (x x' : List Char) (h : m.open ++ x = m'.open ++ x') : m = m' ∧ x = x' := by
  have key : m.open <+: m'.open ∨ m'.open <+: m.open := by
    rcases Nat.le_total m.open.length m'.open.length with hl | hl
    · exact .inl (List.prefix_of_prefix_length_le ⟨x, h⟩ ⟨x', rfl⟩ hl)
    · exact .inr (List.prefix_of_prefix_length_le ⟨x', h.symm⟩ ⟨x, rfl⟩ hl)
  have e : m = m' := by
    revert key
    cases m <;> cases m' <;> decide
  subst e
  exact ⟨rfl, List.append_cancel_left h⟩

theorem py_prefix_free (m m' : Mod) (x x' : List Char) (h : m.py ++ x = m'.py ++ x') : m = m' ∧ x = x' := by
  have key : m.py <+: m'.py ∨ m'.py <+: m.py := by
    rcases Nat.le_total m.py.length m'.py.length with hl | hl
    · exact .inl (List.prefix_of_prefix_length_le ⟨x, h⟩ ⟨x', rfl⟩ hl)
    · exact .inr (List.prefix_of_prefix_length_le ⟨x', h.symm⟩ ⟨x, rfl⟩ hl)
  have e : m = m' := by
    revert key
    cases m <;> cases m' <;> decide
  subst e
  exact ⟨rfl, List.append_cancel_left h⟩

/-- C126: names tell EOS types apart: if the base names differ and contain no `<`, two types have the same `EosType` only if they
are the same type, however deeply modified. -/
theorem C126_names_distinct (name : β → List Char) (hinj : Function.Injective name) (hc : ∀ b, '<' ∉ name b) :
    Function.Injective (eosType name) := by
  have hlt : ∀ m t, '<' ∈ eosType name (.app m t) := by
    intro m t
    have : '<' ∈ m.open := by cases m <;> decide
    simp [eosType, this]
  intro t
  induction t with
  | base b =>
    intro u h
    cases u with
    | base c => exact congrArg _ (hinj h)
    | app m u => exact absurd (by have := hlt m u; rw [← h] at this; exact this : '<' ∈ name b) (hc b)
  | app m t ih =>
    intro u h
    cases u with
    | base c => exact absurd (by have := hlt m t; rw [h] at this; exact this : '<' ∈ name c) (hc c)
    | app m' u =>
      simp only [eosType, List.append_assoc] at h
      obtain ⟨rfl, h2⟩ := open_prefix_free m m' _ _ h
      rw [ih (List.append_cancel_right h2)]

/-- C126: so are the names of the Python classes, if no base name begins like a modifier. -/
theorem C126_python_names_distinct (name : β → List Char) (hinj : Function.Injective name)
    (hc : ∀ b (m : Mod), ¬ m.py <+: name b) : Function.Injective (eosPyType name) := by
  intro t
  induction t with
  | base b =>
    intro u h
    cases u with
    | base c => exact congrArg _ (hinj h)
    | app m u => exact absurd ⟨_, h.symm⟩ (hc b m)
  | app m t ih =>
    intro u h
    cases u with
    | base c => exact absurd ⟨_, h⟩ (hc c m)
    | app m' u =>
      obtain ⟨rfl, h2⟩ := py_prefix_free m m' _ _ h
      rw [ih h2]

/-- C126: the base EOS of the library have distinct names, none contains `<` and none begins like a modifier; so the names
of all alternatives of the default variant are distinct, as `AvailableEOSs` (a set) presumes. -/
theorem C126_library_names :
    baseNames.Nodup ∧ (∀ n ∈ baseNames, '<' ∉ n ∧ ∀ m : Mod, ¬ m.py <+: n) ∧
    (availableEOSs (fun i => baseNames.get i) (defaultList (List.finRange baseNames.length))).Nodup := by
  have h1 : baseNames.Nodup := by decide
  have h2 : ∀ n ∈ baseNames, '<' ∉ n ∧ ∀ m : Mod, ¬ m.py <+: n := by
    intro n hn
    refine ⟨?_, fun m => ?_⟩
    · revert n; decide
    · revert n; cases m <;> decide
  refine ⟨h1, h2, ?_⟩
  have hd : (defaultList (List.finRange baseNames.length)).Nodup := by
    refine ((Types.C35_no_duplicates _ (List.nodup_finRange _)).1).map ?_
    intro t
    induction t with
    | base b => intro u h; rcases u with c | ⟨_ | _ | _, u⟩ <;> simp_all [ofTy]
    | app m t ih =>
      intro u h
      rcases u with c | ⟨m', u⟩
      · cases m <;> simp [ofTy] at h
      · cases m <;> cases m' <;> simp only [ofTy, Ty.app.injEq, reduceCtorEq, false_and, true_and] at h <;>
          rw [ih h]
  exact hd.map (C126_names_distinct _ (List.nodup_iff_injective_get.1 h1) (fun i => (h2 _ (List.get_mem _ i)).1))

/-- C126 is violated for Python: the class of the (density, energy) table EOS is registered under another name than its
`EosPyType`, from which the names of its modified classes are made; and `Vinet`, `MGUsup` and `PowerMG`, whose modified
classes are registered for every build (they are in the list of all EOS, with or without the further EOS of the build
options), are not registered themselves, so no object of those modified classes can be made. -/
theorem C126_python_classes_violated (rest : List (List Char)) :
    (∃ n ∈ baseNames, eosPyType id (Ty.base n) ∉ pythonClasses ∧
      eosPyType id (Ty.base n) = "SpinerEOSDependsRhoSieTransformable".toList) ∧
    (∀ n ∈ ["Vinet".toList, "MGUsup".toList, "PowerMG".toList],
      n ∉ pythonClasses ∧ Ty.app .shifted (Ty.base n) ∈ defaultList (alwaysPresent ++ rest)) := by
  refine ⟨⟨"SpinerEOSDependsRhoSieTransformable".toList, by decide, by decide, rfl⟩, ?_⟩
  intro n hn
  refine ⟨by revert n; decide, ?_⟩
  have he : n ∈ alwaysPresent ++ rest := List.mem_append_left _ (by revert n; decide)
  exact (mem_default_iff _ n he [.shifted]).2 (by decide)

end Verif.Var
