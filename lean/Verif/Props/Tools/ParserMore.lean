import Verif.Props.Tools.Sesame2Spiner

/-! # C116: a parameter file of one material, and truth values -/

set_option linter.unusedSectionVars false

namespace Verif.S2S
open Verif.Spec.S2S

/-- The value last assigned to a key. -/
def lastAssigned (k : Str) : List Item → Option Str
  | [] => none
  | .assign k' v :: t => (lastAssigned k t).or (if k' = k then some v else none)
  | _ :: t => lastAssigned k t

/-- C116: a parameter file without headers, read line by line: every key has the value last assigned to it, and keys never
assigned have none. -/
theorem C116_parameter_file (lines : List Str) (items : List Item) (h : List.Forall₂ LineIs lines items)
    (hn : ∀ n, Item.header n ∉ items) (k : Str) : (parse [] lines).get? k = lastAssigned k items := by
  have key : ∀ (lines : List Str) (items : List Item), List.Forall₂ LineIs lines items → (∀ n, Item.header n ∉ items) →
      ∀ p : Params, (parse p lines).get? k = (lastAssigned k items).or (p.get? k) := by
    intro lines items h
    induction h with
    | nil => intro _ p; rfl
    | @cons l it ls its hl _ ih =>
      intro hn p
      have hn' : ∀ n, Item.header n ∉ its := fun n hm => hn n (List.mem_cons_of_mem _ hm)
      show (parse (if skipped (strip l) then p else p.set (keyValue (strip l)).1 (keyValue (strip l)).2) ls).get? k = _
      rw [ih hn', strip_eq]
      cases hl with
      | blank h => simp [h, skipped, lastAssigned]
      | comment r h => simp [h, skipped, lastAssigned]
      | assign k' v c h h1 h2 h3 h4 h5 =>
        rw [h, keyValue_spec k' v c h1 h4 h5]
        have hs : skipped (k' ++ '=' :: (v ++ c)) = false := by
          cases k' with
          | nil => simp [skipped]
          | cons a r =>
            have : a ≠ '#' := fun e => h2 (by simp [e])
            simp [skipped, this]
        rw [hs]
        simp only [Bool.false_eq_true, if_false]
        rw [get?_set, lastAssigned, Option.or_assoc]
        by_cases hk : k' = k <;> simp [hk]
      | header n r h h1 => exact absurd (List.mem_cons_self ..) (hn n)
  rw [key lines items h hn []]
  simp [Params.get?]

/-- C116: a truth value is read as written, `true`, `1`, `false` or `0`; anything else stops the program; a missing key gives
the default. -/
theorem C116_truth_value (p : Params) (k : Str) (d : Bool) (v : Str) :
    (p.get? k = none → getB p k d = some d) ∧
    (p.get? k = some v →
      (getB p k d = some true ↔ v = "true".toList ∨ v = "1".toList) ∧
      (getB p k d = some false ↔ v = "false".toList ∨ v = "0".toList) ∧
      (getB p k d = none ↔ v ≠ "true".toList ∧ v ≠ "1".toList ∧ v ≠ "false".toList ∧ v ≠ "0".toList)) := by
  have e1 : "1".toList = ['1'] := by decide
  have e0 : "0".toList = ['0'] := by decide
  rw [e1, e0]
  refine ⟨fun h => by simp only [getB, h], fun h => ?_⟩
  simp only [getB, h]
  have d1 : "true".toList ≠ "false".toList := by decide
  have d2 : "true".toList ≠ ['0'] := by decide
  have d3 : ['1'] ≠ "false".toList := by decide
  have d4 : ['1'] ≠ ['0'] := by decide
  by_cases h1 : v = "true".toList
  · subst h1; simp
  · by_cases h2 : v = ['1']
    · subst h2; simp
    · by_cases h3 : v = "false".toList
      · subst h3; simp
      · by_cases h4 : v = ['0']
        · subst h4; simp
        · simp only [h1, h2, h3, h4, or_self, if_false]
          exact ⟨⟨fun e => (by cases e), fun e => e.elim⟩, ⟨fun e => (by cases e), fun e => e.elim⟩,
            ⟨fun _ => ⟨h1, h2, h3, h4⟩, fun _ => trivial⟩⟩

example : (parse [] ["matid = 5030 # air".toList, "# note".toList, "matid=7".toList]).get? "matid".toList = some "7".toList := by
  decide

end Verif.S2S
