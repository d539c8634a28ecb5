import Verif.Spec.Construct
import Mathlib.Data.List.Lookmap

/-! # C154: the same EOS from every language -/

namespace Verif

namespace Construct

variable {V : Type}

theorem lookup_perm {α β : Type*} [DecidableEq α] {l l' : List (α × β)} (h : l.Perm l') (hn : (l.map Prod.fst).Nodup) (x : α) :
    l.lookup x = l'.lookup x := by
  induction h with
  | nil => rfl
  | cons y _ ih =>
      rw [List.lookup_cons, List.lookup_cons]
      rw [List.map_cons, List.nodup_cons] at hn
      rw [ih hn.2]
  | swap y z l =>
      obtain ⟨y1, y2⟩ := y
      obtain ⟨z1, z2⟩ := z
      rw [List.map_cons, List.map_cons, List.nodup_cons] at hn
      have hne : z1 ≠ y1 := fun e => hn.1 (by simp [e])
      simp only [List.lookup]
      by_cases h1 : x = y1
      · rw [beq_iff_eq.2 h1, beq_eq_false_iff_ne.2 (fun e => hne (e.symm.trans h1))]
      · rw [beq_eq_false_iff_ne.2 h1]
  | trans h1 _ ih1 ih2 =>
      rw [ih1 hn, ih2 ((h1.map Prod.fst).nodup_iff.1 hn)]

theorem lookup_map {key : Name → Name} {fs : List Name} (f : Name → V) (hk : (fs.map key).Nodup) {n : Name} (hn : n ∈ fs) :
    (fs.map fun n => (key n, f n)).lookup (key n) = some (f n) := by
  induction fs with
  | nil => cases hn
  | cons m l ih =>
      rw [List.map_cons, List.lookup_cons]
      rw [List.map_cons, List.nodup_cons] at hk
      by_cases h : n = m
      · simp [h]
      · have hl : n ∈ l := (List.mem_cons.1 hn).resolve_left h
        have : key n ≠ key m := fun e => hk.1 (e ▸ List.mem_map_of_mem hl)
        rw [beq_eq_false_iff_ne.2 this]
        exact ih hk.2 hl

theorem mapM_some {α β : Type*} {l : List α} {f : α → Option β} {g : α → β} (h : ∀ x ∈ l, f x = some (g x)) :
    l.mapM f = some (l.map g) := by
  induction l with
  | nil => rfl
  | cons a l ih =>
      rw [List.mapM_cons, h a (by simp), ih fun x hx => h x (by simp [hx])]
      rfl

/-- A call that gives the first `p` parameters by position and the others by keyword gives every parameter its value. -/
theorem bindCall_eq {key : Name → Name} {fs : List Name} (hk : (fs.map key).Nodup) (dflt : Name → Option V) (v : Name → V) (p : Nat)
    (hp : p ≤ fs.length) {kws : List (Name × V)} (h : Keywords key (fs.drop p) v kws) :
    bindCall key dflt fs ((fs.take p).map fun n => v (canon n)) kws = some (fs.map fun n => v (canon n)) := by
  obtain ⟨spell, hs, hperm⟩ := h
  have hl : ((fs.take p).map fun n => v (canon n)).length = p := by simp [hp]
  have hd : ((fs.drop p).map key).Nodup := by
    rw [List.map_drop]
    exact hk.sublist (List.drop_sublist _ _)
  have hperm' : (kws.map fun x => (key x.1, x.2)).Perm ((fs.drop p).map fun n => (key n, v (canon n))) := by
    have := hperm.map fun x : Name × V => (key x.1, x.2)
    rw [List.map_map] at this
    simpa [Function.comp_def, hs] using this
  have hfst : (((fs.drop p).map fun n => (key n, v (canon n))).map Prod.fst) = (fs.drop p).map key := by
    rw [List.map_map]
    rfl
  have hnd : ((kws.map fun x => (key x.1, x.2)).map Prod.fst).Nodup := by
    rw [(hperm'.map Prod.fst).nodup_iff, hfst]
    exact hd
  have hmem : ∀ x ∈ kws.map fun x => (key x.1, x.2), x.1 ∈ (fs.drop p).map key := by
    intro x hx
    rw [← hfst]
    exact List.mem_map_of_mem (hperm'.mem_iff.1 hx)
  simp only [bindCall, hl]
  rw [if_pos ⟨hp, hnd, hmem⟩]
  rw [mapM_some (g := fun n => v (canon n)) (by
    intro n hn
    rw [lookup_perm hperm' hnd, lookup_map _ hd hn])]
  show some _ = some _
  rw [← List.map_append, List.take_append_drop]

/-- C154 (part): the C++ constructors take their parameters in the documented order: with all of them given by position every
parameter gets the value of its name. -/
theorem C154_cpp (c : Consts V) (k : Kind) (v : Name → V) : construct c k ((documented k).map v) = some (wanted k v) := by
  cases k <;> rfl

/-- C154 (part): the C initialisers: with the arguments in the order of the C function, every documented parameter gets the value of
its name (parameters the function does not take have their documented default), in the object stored and in the one the ramp
parameters are computed from; the overload without modifiers does the same. -/
theorem C154_c (c : Consts V) (k : Kind) (v : Name → V) (hd : DefaultsElsewhere c k (cFull k).formals v) :
    cInit c k ((cFull k).formals.map fun x => v (canon x)) = some (wanted k v, wanted k v) ∧
    (k ≠ .sap → cInitShort c k ((cFull k).formals.map fun x => v (canon x)) = some (wanted k v, wanted k v)) := by
  have key : cInit c k ((cFull k).formals.map fun x => v (canon x)) = some (wanted k v, wanted k v) := by
    cases k
    case helmholtz =>
      have h : v .newton_raphson = c.yes := (Option.some.inj (hd .newton_raphson (by decide) (by decide))).symm
      simp only [wanted, documented, List.map, h]
      rfl
    case spinerT =>
      have h : v .reproducibility_mode = c.no := (Option.some.inj (hd .reproducibility_mode (by decide) (by decide))).symm
      have h' : v .pmin_vapor_dome = c.no := (Option.some.inj (hd .pmin_vapor_dome (by decide) (by decide))).symm
      simp only [wanted, documented, List.map, h, h']
      rfl
    case spinerE =>
      have h : v .reproducibility_mode = c.no := (Option.some.inj (hd .reproducibility_mode (by decide) (by decide))).symm
      have h' : v .pmin_vapor_dome = c.no := (Option.some.inj (hd .pmin_vapor_dome (by decide) (by decide))).symm
      simp only [wanted, documented, List.map, h, h']
      rfl
    all_goals rfl
  refine ⟨key, fun hs => ?_⟩
  rw [← key]
  cases k
  case sap => exact absurd rfl hs
  all_goals rfl

theorem fortran_formals_nodup (k : Kind) : ((fortran k).formals.map fkey).Nodup := by
  cases k <;> decide

theorem fortran_call (k : Kind) (v : Name → V) :
    (fortran k).call ((fortran k).formals.map fun x => v (canon x)) = some ((cFull k).formals.map fun x => v (canon x)) := by
  cases k <;> rfl

theorem fortran_defaults {c : Consts V} {k : Kind} {v : Name → V} (hd : DefaultsElsewhere c k (fortran k).formals v) :
    DefaultsElsewhere c k (cFull k).formals v := by
  cases k <;> exact hd

/-- C154 (part): from Fortran: with the first `p` arguments by position and the rest by keyword, in any order and in upper or lower
case, every documented parameter gets the value given under its name, and the same holds for the object in C. -/
theorem C154_fortran (c : Consts V) (k : Kind) (v : Name → V) (hd : DefaultsElsewhere c k (fortran k).formals v) (p : Nat)
    (hp : p ≤ (fortran k).formals.length) {kws : List (Name × V)} (hk : Keywords fkey ((fortran k).formals.drop p) v kws) :
    fInit c k (((fortran k).formals.take p).map fun x => v (canon x)) kws = some (wanted k v, wanted k v) := by
  simp only [fInit]
  rw [bindCall_eq (fortran_formals_nodup k) _ v p hp hk]
  show ((fortran k).call _).bind _ = _
  rw [fortran_call k v]
  exact (C154_c c k v (fortran_defaults hd)).1

/-- A case: a Fortran program gives the first two parameters of the JWL equation of state by position and the others by keyword. -/
example (c : Consts Nat) : fInit c .jwl [10, 20] [(.Cv, 7), (.rho0, 6), (.w, 5), (.R2, 4), (.R1, 3)] =
    some (wanted .jwl fun x => match x with
      | .A => 10
      | .B => 20
      | .R1 => 3
      | .R2 => 4
      | .w => 5
      | .rho0 => 6
      | _ => 7, wanted .jwl fun x => match x with
      | .A => 10
      | .B => 20
      | .R1 => 3
      | .R2 => 4
      | .w => 5
      | .rho0 => 6
      | _ => 7) := rfl

theorem py_nodup {k : Kind} {fs : List Name} (h : pyArgs k = some fs) : (fs.map id).Nodup := by
  cases k <;> first | cases h; decide | cases h

/-- C154 (part): from Python: with the first `p` arguments by position and the rest by keyword, in any order, every documented
parameter gets the value given under its name; parameters without a Python argument have their documented default (the table of
all components, for instance). -/
theorem C154_python (c : Consts V) (k : Kind) (v : Name → V) {fs : List Name} (hf : pyArgs k = some fs)
    (hd : DefaultsElsewhere c k fs v) (p : Nat) (hp : p ≤ fs.length) {kws : List (Name × V)} (hk : Keywords id (fs.drop p) v kws) :
    pyInit c k ((fs.take p).map fun x => v (canon x)) kws = some (wanted k v) := by
  simp only [pyInit, hf]
  show (bindCall id (pyDefault c k) fs _ kws).bind _ = _
  rw [bindCall_eq (py_nodup hf) _ v p hp hk]
  show construct c k _ = _
  have get : ∀ x ∈ documented k, x ∉ fs.map canon → ∀ y, defaults c x = some y → v x = y := fun x hx hx' y hy =>
    (Option.some.inj ((hd x hx hx').symm.trans hy))
  cases k
  case spinerT =>
    cases hf
    simp only [wanted, documented, List.map, get .split (by decide) (by decide) _ rfl, get .pmin_vapor_dome (by decide) (by decide) _ rfl]
    rfl
  case spinerE =>
    cases hf
    simp only [wanted, documented, List.map, get .split (by decide) (by decide) _ rfl, get .pmin_vapor_dome (by decide) (by decide) _ rfl]
    rfl
  case eospac =>
    cases hf
    simp only [wanted, documented, List.map, get .split (by decide) (by decide) _ rfl, get .insert_data (by decide) (by decide) _ rfl,
      get .monotonicity (by decide) (by decide) _ rfl, get .apply_smoothing (by decide) (by decide) _ rfl,
      get .apply_splitting (by decide) (by decide) _ rfl, get .linear_interp (by decide) (by decide) _ rfl]
    rfl
  all_goals first | cases hf; rfl | cases hf

/-- C154 (part): an omitted trailing Python argument takes its documented default. -/
theorem C154_python_defaults (c : Consts V) (f m : V) :
    pyInit c .spinerT [f, m] [] = some (.spinerT, [(.filename, f), (.matid, m), (.split, c.total), (.reproducibility_mode, c.no),
      (.pmin_vapor_dome, c.no)]) ∧
    pyInit c .spinerE [f, m] [] = some (.spinerE, [(.filename, f), (.matid, m), (.split, c.total), (.reproducibility_mode, c.no),
      (.pmin_vapor_dome, c.no)]) ∧
    pyInit c .eospac [m] [] = some (.eospac, [(.matid, m), (.split, c.total), (.invert_at_setup, c.no), (.insert_data, c.zero),
      (.monotonicity, c.monoNone), (.apply_smoothing, c.no), (.apply_splitting, c.splitNone), (.linear_interp, c.no)]) :=
  ⟨rfl, rfl, rfl⟩

/-- C154 (part): a wrong call is an error, not another EOS: a call is refused if it gives more arguments than there are parameters, a
keyword that is not a parameter or is already given, or the same keyword twice; and if a parameter without a default is missing. -/
theorem C154_wrong_calls (c : Consts V) (k : Kind) (pos : List V) (kws : List (Name × V)) :
    let fs := (fortran k).formals
    (fs.length < pos.length ∨ (∃ x ∈ kws, fkey x.1 ∉ (fs.drop pos.length).map fkey) ∨ ¬ (kws.map fun x => fkey x.1).Nodup ∨
      (∃ x ∈ fs.drop pos.length, ∀ y ∈ kws, fkey y.1 ≠ fkey x) → fInit c k pos kws = none) ∧
    ∀ gs, pyArgs k = some gs →
      (gs.length < pos.length ∨ (∃ x ∈ kws, x.1 ∉ gs.drop pos.length) ∨ ¬ (kws.map Prod.fst).Nodup ∨
        (∃ x ∈ gs.drop pos.length, pyDefault c k x = none ∧ ∀ y ∈ kws, y.1 ≠ x) → pyInit c k pos kws = none) := by
  have main : ∀ (key : Name → Name) (dflt : Name → Option V) (fs : List Name),
      (fs.length < pos.length ∨ (∃ x ∈ kws, key x.1 ∉ (fs.drop pos.length).map key) ∨ ¬ (kws.map fun x => key x.1).Nodup ∨
        (∃ x ∈ fs.drop pos.length, dflt x = none ∧ ∀ y ∈ kws, key y.1 ≠ key x)) → bindCall key dflt fs pos kws = none := by
    intro key dflt fs h
    simp only [bindCall]
    split
    case isFalse => rfl
    case isTrue hc =>
      obtain ⟨h1, h2, h3⟩ := hc
      rcases h with h | ⟨x, hx, h⟩ | h | ⟨x, hx, hdn, h⟩
      · exact absurd h1 (Nat.not_le.2 h)
      · exact absurd (h3 (key x.1, x.2) (List.mem_map.2 ⟨x, hx, rfl⟩)) h
      · refine absurd ?_ h
        rw [List.map_map] at h2
        exact h2
      · have hl : (kws.map fun x => (key x.1, x.2)).lookup (key x) = none := by
          rw [List.lookup_eq_none_iff]
          intro y hy
          obtain ⟨z, hz, rfl⟩ := List.mem_map.1 hy
          simpa using fun e : key x = key z.1 => h z hz e.symm
        have hm : ∀ l : List Name, x ∈ l → l.mapM (fun x => match (kws.map fun x => (key x.1, x.2)).lookup (key x) with
            | some v => some v
            | none => dflt x) = none := by
          intro l hx
          induction l with
          | nil => cases hx
          | cons a l ih =>
              rw [List.mapM_cons]
              by_cases e : x = a
              · subst e
                rw [hl, hdn]
                rfl
              · rw [ih ((List.mem_cons.1 hx).resolve_left e)]
                cases (match (kws.map fun x => (key x.1, x.2)).lookup (key a) with
                  | some v => some v
                  | none => dflt a) <;> rfl
        exact congrArg (fun o : Option (List V) => o.bind fun vs => some (pos ++ vs)) (hm _ hx)
  refine ⟨fun h => ?_, fun gs hg h => ?_⟩
  · simp only [fInit]
    rw [main fkey (fun _ => none) (fortran k).formals (by
      rcases h with h | h | h | ⟨x, hx, h⟩
      · exact Or.inl h
      · exact Or.inr (Or.inl h)
      · exact Or.inr (Or.inr (Or.inl h))
      · exact Or.inr (Or.inr (Or.inr ⟨x, hx, rfl, h⟩)))]
    rfl
  · simp only [pyInit, hg]
    show (bindCall id (pyDefault c k) gs pos kws).bind _ = _
    rw [main id (pyDefault c k) gs (by simpa using h)]
    rfl

end Construct

end Verif
