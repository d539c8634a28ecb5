import Verif.Spec.VariantCall
import Verif.Props.Vector

/-! # C155: a Variant behaves as the EOS it holds -/

set_option linter.unusedSimpArgs false
set_option linter.unusedVariables false

namespace Verif

namespace VarCall

variable {K Λ : Type}

theorem loop2_eq (q : Λ → K → K → K) (a b c : Nat) (l : Nat → Λ) (n : Nat) (m : Mem K) :
    loop2 q a b c l n m = fun d j => if d = c ∧ j < n then q (l j) (m a j) (m b j) else m d j := by
  induction n with
  | zero => funext d j; simp [loop2]
  | succ n ih =>
    have : loop2 q a b c l (n + 1) m = (loop2 q a b c l n m).set c n (q (l n) (loop2 q a b c l n m a n) (loop2 q a b c l n m b n)) := by
      simp [loop2, List.range_succ, List.foldl_append]
    rw [this, ih]
    funext d j
    simp only [Mem.set, lt_irrefl, and_false, if_false]
    by_cases hd : d = c
    · by_cases hj : j = n
      · subst hj; simp [hd]
      · have : (j < n + 1) ↔ j < n := by omega
        simp [hd, hj, this]
    · simp [hd]

theorem loop1_eq (q : Λ → K → K) (a c : Nat) (l : Nat → Λ) (n : Nat) (m : Mem K) :
    loop1 q a c l n m = fun d j => if d = c ∧ j < n then q (l j) (m a j) else m d j := by
  induction n with
  | zero => funext d j; simp [loop1]
  | succ n ih =>
    have : loop1 q a c l (n + 1) m = (loop1 q a c l n m).set c n (q (l n) (loop1 q a c l n m a n)) := by
      simp [loop1, List.range_succ, List.foldl_append]
    rw [this, ih]
    funext d j
    simp only [Mem.set, lt_irrefl, and_false, if_false]
    by_cases hd : d = c
    · by_cases hj : j = n
      · subst hj; simp [hd]
      · have : (j < n + 1) ↔ j < n := by omega
        simp [hd, hj, this]
    · simp [hd]

theorem obj2_plain (nl : Λ) (h : Obj K Λ) (k : Q2) (d : Nat) (st : Style Λ) (sp : Bool) (a b c : Nat) (n : Int) (l : Nat → Λ) (m : Mem K) :
    callObj nl h (.q2 k) (d + 1) [.space sp, st.arr a, st.arr b, st.arr c, .int n, .lams l] m
      = runLoop h (.q2 k) [.space sp, st.arr a, st.arr b, st.arr c, .int n, .lams l] m := by
  obtain ⟨_, _, _, raw⟩ := st
  cases raw <;> rfl

theorem obj2_idx (nl : Λ) (h : Obj K Λ) (k : Q2) (d : Nat) (sp : Bool) (a b c w : Nat) (n : Int) (l : Nat → Λ) (m : Mem K) :
    callObj nl h (.q2 k) (d + 2) [.space sp, .idx a, .idx b, .idx c, .raw w, .int n, .lams l] m
      = runLoop h (.q2 k) [.space sp, .idx a, .idx b, .idx c, .int n, .lams l] m := rfl

theorem obj2_raw (nl : Λ) (h : Obj K Λ) (k : Q2) (d : Nat) (sp : Bool) (a b c w : Nat) (n : Int) (l : Nat → Λ) (m : Mem K) :
    callObj nl h (.q2 k) (d + 2) [.space sp, .raw a, .raw b, .raw c, .raw w, .int n, .lams l] m
      = match h.own2 k with
        | some f => some (fun (d j : Nat) => if d = c then f n.toNat (m a) (m b) l (m c) j else m d j)
        | none => runLoop h (.q2 k) [.space sp, .raw a, .raw b, .raw c, .int n, .lams l] m := by
  have : callObj nl h (.q2 k) (d + 2) [.space sp, .raw a, .raw b, .raw c, .raw w, .int n, .lams l] m
      = match runOwn h (.q2 k) [.space sp, .raw a, .raw b, .raw c, .raw w, .int n, .lams l] m with
        | some m' => some m'
        | none => runLoop h (.q2 k) [.space sp, .raw a, .raw b, .raw c, .int n, .lams l] m := rfl
  rw [this]
  cases ho : h.own2 k <;> simp [runOwn, ho]

/-- What a Variant passes on for a two-input query. -/
theorem variant2_pass (nl : Λ) (h : Obj K Λ) (k : Q2) (st : Style Λ) (a b c : Nat) (n : Int) (m : Mem K) :
    ∃ d sp, callVariant nl h (.q2 k) 4 (st.args2 a b c n) m
      = callObj nl h (.q2 k) (d + 2)
          ([.space sp, st.arr a, st.arr b, st.arr c] ++ st.scr ++ [.int n, .lams (st.lam nl)]) m := by
  obtain ⟨sp, sc, ls, raw⟩ := st
  cases sp with
  | none =>
    cases sc <;> cases ls <;> cases raw
    · exact ⟨0, true, rfl⟩
    · exact ⟨0, true, rfl⟩
    · exact ⟨1, true, rfl⟩
    · exact ⟨1, true, rfl⟩
    · exact ⟨0, true, rfl⟩
    · exact ⟨0, true, rfl⟩
    · exact ⟨1, true, rfl⟩
    · exact ⟨1, true, rfl⟩
  | some b =>
    cases sc <;> cases ls <;> cases raw
    · exact ⟨1, b, rfl⟩
    · exact ⟨1, b, rfl⟩
    · exact ⟨2, b, rfl⟩
    · exact ⟨2, b, rfl⟩
    · exact ⟨1, b, rfl⟩
    · exact ⟨1, b, rfl⟩
    · exact ⟨2, b, rfl⟩
    · exact ⟨2, b, rfl⟩

theorem arr_arr (st : Style Λ) (a : Nat) : (st.arr a).arr = some a := by
  unfold Style.arr; cases st.raw <;> rfl

/-- An array call of an EOS class with execution space and lambdas. -/
theorem obj2_all (nl : Λ) (h : Obj K Λ) (hown : h.OwnOk) (k : Q2) (st : Style Λ) (d : Nat) (sp : Bool) (a b c : Nat) (n : Int)
    (l : Nat → Λ) (m : Mem K) :
    callObj nl h (.q2 k) (d + 2) ([.space sp, st.arr a, st.arr b, st.arr c] ++ st.scr ++ [.int n, .lams l]) m
      = some (fun (d j : Nat) => if d = c ∧ (j : Int) < n then h.q k (l j) (m a j) (m b j) else m d j) := by
  have hn : ∀ j : Nat, (j < n.toNat) ↔ ((j : Int) < n) := fun j => by omega
  have hl : ∀ x y z : Val Λ, x.arr = some a → y.arr = some b → z.arr = some c →
      runLoop h (.q2 k) [.space sp, x, y, z, .int n, .lams l] m
      = some (fun (d j : Nat) => if d = c ∧ (j : Int) < n then h.q k (l j) (m a j) (m b j) else m d j) := by
    intro x y z hx hy hz
    simp [runLoop, hx, hy, hz, loop2_eq, hn]
  cases hs : st.scratch with
  | none =>
    have : st.scr = [] := by simp [Style.scr, hs]
    rw [this]
    show callObj nl h (.q2 k) (d + 1 + 1) [.space sp, st.arr a, st.arr b, st.arr c, .int n, .lams l] m = _
    rw [obj2_plain]
    exact hl _ _ _ (arr_arr ..) (arr_arr ..) (arr_arr ..)
  | some w =>
    have : st.scr = [.raw w] := by simp [Style.scr, hs]
    rw [this]
    cases hr : st.raw with
    | false =>
      have ha : ∀ x, st.arr x = .idx x := fun x => by simp [Style.arr, hr]
      rw [ha, ha, ha]
      show callObj nl h (.q2 k) (d + 2) [.space sp, .idx a, .idx b, .idx c, .raw w, .int n, .lams l] m = _
      rw [obj2_idx]
      exact hl _ _ _ rfl rfl rfl
    | true =>
      have ha : ∀ x, st.arr x = .raw x := fun x => by simp [Style.arr, hr]
      rw [ha, ha, ha]
      show callObj nl h (.q2 k) (d + 2) [.space sp, .raw a, .raw b, .raw c, .raw w, .int n, .lams l] m = _
      rw [obj2_raw]
      cases ho : h.own2 k with
      | none => exact hl _ _ _ rfl rfl rfl
      | some f =>
        have hf := hown.1 k f ho
        simp only [Option.some.injEq]
        funext d j
        by_cases hd : d = c
        · subst hd
          simp [hf, hn]
        · simp [hd]

/-- C155: an array call of a Variant, written in any of the supported ways (with or without execution space, scratch memory and
lambdas; raw pointers or other arrays; the output may also be one of the inputs), gives element `i` of the output the held EOS's scalar
answer for elements `i` of the inputs, for every `i` below `num`, and changes nothing else. (The held class's own raw-pointer code,
if any, is assumed to agree with its scalar calls: that is C50.) -/
theorem C155_array (nl : Λ) (h : Obj K Λ) (hown : h.OwnOk) (k : Q2) (st : Style Λ) (a b c : Nat) (n : Int) (m : Mem K) :
    callVariant nl h (.q2 k) 4 (st.args2 a b c n) m
      = some (fun (d j : Nat) => if d = c ∧ (j : Int) < n then h.q k (st.lam nl j) (m a j) (m b j) else m d j) := by
  obtain ⟨d, sp, e⟩ := variant2_pass nl h k st a b c n m
  rw [e, obj2_all nl h hown]

theorem obj1_plain (nl : Λ) (h : Obj K Λ) (d : Nat) (st : Style Λ) (sp : Bool) (a c : Nat) (n : Int) (l : Nat → Λ) (m : Mem K) :
    callObj nl h .minE (d + 1) [.space sp, st.arr a, st.arr c, .int n, .lams l] m
      = runLoop h .minE [.space sp, st.arr a, st.arr c, .int n, .lams l] m := by
  obtain ⟨_, _, _, raw⟩ := st
  cases raw <;> rfl

theorem obj1_idx (nl : Λ) (h : Obj K Λ) (d : Nat) (sp : Bool) (a c w : Nat) (n : Int) (l : Nat → Λ) (m : Mem K) :
    callObj nl h .minE (d + 2) [.space sp, .idx a, .idx c, .raw w, .int n, .lams l] m
      = runLoop h .minE [.space sp, .idx a, .idx c, .int n, .lams l] m := rfl

theorem obj1_raw (nl : Λ) (h : Obj K Λ) (d : Nat) (sp : Bool) (a c w : Nat) (n : Int) (l : Nat → Λ) (m : Mem K) :
    callObj nl h .minE (d + 2) [.space sp, .raw a, .raw c, .raw w, .int n, .lams l] m
      = match h.own1 with
        | some f => some (fun (d j : Nat) => if d = c then f n.toNat (m a) l (m c) j else m d j)
        | none => runLoop h .minE [.space sp, .raw a, .raw c, .int n, .lams l] m := by
  have : callObj nl h .minE (d + 2) [.space sp, .raw a, .raw c, .raw w, .int n, .lams l] m
      = match runOwn h .minE [.space sp, .raw a, .raw c, .raw w, .int n, .lams l] m with
        | some m' => some m'
        | none => runLoop h .minE [.space sp, .raw a, .raw c, .int n, .lams l] m := rfl
  rw [this]
  cases ho : h.own1 <;> simp [runOwn, ho]

/-- What a Variant passes on for `MinInternalEnergyFromDensity`. -/
theorem variant1_pass (nl : Λ) (h : Obj K Λ) (st : Style Λ) (a c : Nat) (n : Int) (m : Mem K) :
    ∃ d sp, callVariant nl h .minE 4 (st.args1 a c n) m
      = callObj nl h .minE (d + 2)
          ([.space sp, st.arr a, st.arr c] ++ st.scr ++ [.int n, .lams (st.lam nl)]) m := by
  obtain ⟨sp, sc, ls, raw⟩ := st
  cases sp with
  | none =>
    cases sc <;> cases ls <;> cases raw
    · exact ⟨0, true, rfl⟩
    · exact ⟨0, true, rfl⟩
    · exact ⟨1, true, rfl⟩
    · exact ⟨1, true, rfl⟩
    · exact ⟨0, true, rfl⟩
    · exact ⟨0, true, rfl⟩
    · exact ⟨1, true, rfl⟩
    · exact ⟨1, true, rfl⟩
  | some b =>
    cases sc <;> cases ls <;> cases raw
    · exact ⟨1, b, rfl⟩
    · exact ⟨1, b, rfl⟩
    · exact ⟨2, b, rfl⟩
    · exact ⟨2, b, rfl⟩
    · exact ⟨1, b, rfl⟩
    · exact ⟨1, b, rfl⟩
    · exact ⟨2, b, rfl⟩
    · exact ⟨2, b, rfl⟩

theorem obj1_all (nl : Λ) (h : Obj K Λ) (hown : h.OwnOk) (st : Style Λ) (d : Nat) (sp : Bool) (a c : Nat) (n : Int)
    (l : Nat → Λ) (m : Mem K) :
    callObj nl h .minE (d + 2) ([.space sp, st.arr a, st.arr c] ++ st.scr ++ [.int n, .lams l]) m
      = some (fun (d j : Nat) => if d = c ∧ (j : Int) < n then h.minE (l j) (m a j) else m d j) := by
  have hn : ∀ j : Nat, (j < n.toNat) ↔ ((j : Int) < n) := fun j => by omega
  have hl : ∀ x z : Val Λ, x.arr = some a → z.arr = some c →
      runLoop h .minE [.space sp, x, z, .int n, .lams l] m
      = some (fun (d j : Nat) => if d = c ∧ (j : Int) < n then h.minE (l j) (m a j) else m d j) := by
    intro x z hx hz
    simp [runLoop, hx, hz, loop1_eq, hn]
  cases hs : st.scratch with
  | none =>
    have : st.scr = [] := by simp [Style.scr, hs]
    rw [this]
    show callObj nl h .minE (d + 1 + 1) [.space sp, st.arr a, st.arr c, .int n, .lams l] m = _
    rw [obj1_plain]
    exact hl _ _ (arr_arr ..) (arr_arr ..)
  | some w =>
    have : st.scr = [.raw w] := by simp [Style.scr, hs]
    rw [this]
    cases hr : st.raw with
    | false =>
      have ha : ∀ x, st.arr x = .idx x := fun x => by simp [Style.arr, hr]
      rw [ha, ha]
      show callObj nl h .minE (d + 2) [.space sp, .idx a, .idx c, .raw w, .int n, .lams l] m = _
      rw [obj1_idx]
      exact hl _ _ rfl rfl
    | true =>
      have ha : ∀ x, st.arr x = .raw x := fun x => by simp [Style.arr, hr]
      rw [ha, ha]
      show callObj nl h .minE (d + 2) [.space sp, .raw a, .raw c, .raw w, .int n, .lams l] m = _
      rw [obj1_raw]
      cases ho : h.own1 with
      | none => exact hl _ _ rfl rfl
      | some f =>
        have hf := hown.2 f ho
        simp only [Option.some.injEq]
        funext d j
        by_cases hd : d = c
        · subst hd
          simp [hf, hn]
        · simp [hd]

/-- C155: the same for the array call of `MinInternalEnergyFromDensity`. -/
theorem C155_minimum_energy (nl : Λ) (h : Obj K Λ) (hown : h.OwnOk) (st : Style Λ) (a c : Nat) (n : Int) (m : Mem K) :
    callVariant nl h .minE 4 (st.args1 a c n) m
      = some (fun (d j : Nat) => if d = c ∧ (j : Int) < n then h.minE (st.lam nl j) (m a j) else m d j) := by
  obtain ⟨d, sp, e⟩ := variant1_pass nl h st a c n m
  rw [e, obj1_all nl h hown]

/-- The result of the loop of `FillEos` on six different arrays. -/
def filled (f : Λ → Mods.Flags → Mods.Thermo K → Mods.Thermo K) (r t e p c b : Nat) (o : Mods.Flags) (l : Nat → Λ) (n : Nat)
    (m : Mem K) : Mem K := fun d j =>
  if j < n then
    if d = r then (f (l j) o (thermoAt m r t e p c b j)).rho
    else if d = t then (f (l j) o (thermoAt m r t e p c b j)).temp
    else if d = e then (f (l j) o (thermoAt m r t e p c b j)).sie
    else if d = p then (f (l j) o (thermoAt m r t e p c b j)).press
    else if d = c then (f (l j) o (thermoAt m r t e p c b j)).cv
    else if d = b then (f (l j) o (thermoAt m r t e p c b j)).bmod
    else m d j
  else m d j

theorem loopFill_eq (f : Λ → Mods.Flags → Mods.Thermo K → Mods.Thermo K) (r t e p c b : Nat) (hd : [r, t, e, p, c, b].Nodup)
    (o : Mods.Flags) (l : Nat → Λ) (n : Nat) (m : Mem K) :
    loopFill f r t e p c b o l n m = filled f r t e p c b o l n m := by
  induction n with
  | zero => funext d j; simp [loopFill, filled]
  | succ n ih =>
    have : loopFill f r t e p c b o l (n + 1) m = fillStep f r t e p c b o l (loopFill f r t e p c b o l n m) n := by
      simp [loopFill, List.range_succ, List.foldl_append]
    rw [this, ih]
    have hm : ∀ d, filled f r t e p c b o l n m d n = m d n := fun d => by simp [filled]
    funext d j
    simp only [List.nodup_cons, List.mem_cons, List.not_mem_nil, or_false, not_or] at hd
    obtain ⟨⟨h1, h2, h3, h4, h5⟩, ⟨h6, h7, h8, h9⟩, ⟨h10, h11, h12⟩, ⟨h13, h14⟩, h15, -⟩ := hd
    by_cases hj : j = n
    · subst hj
      simp only [fillStep, Mem.set, hm, and_true]
      unfold filled thermoAt
      simp only [Nat.lt_succ_self, if_true]
      by_cases e1 : d = r
      · subst e1; simp [h1, h2, h3, h4, h5]
      by_cases e2 : d = t
      · subst e2; simp [e1, h6, h7, h8, h9]
      by_cases e3 : d = e
      · subst e3; simp [e1, e2, h10, h11, h12]
      by_cases e4 : d = p
      · subst e4; simp [e1, e2, e3, h13, h14]
      by_cases e5 : d = c
      · subst e5; simp [e1, e2, e3, e4, h15]
      by_cases e6 : d = b
      · subst e6; simp [e1, e2, e3, e4, e5]
      · simp [e1, e2, e3, e4, e5, e6]
    · have hlt : (j < n + 1) ↔ j < n := by omega
      simp only [fillStep, Mem.set, hj, and_false, if_false]
      simp only [filled, hlt]

theorem variantFill_pass (nl : Λ) (h : Obj K Λ) (st : Style Λ) (r t e p c b : Nat) (n : Int) (o : Mods.Flags) (m : Mem K) :
    callVariant nl h .fill 4 (st.argsFill r t e p c b n o) m
      = some (loopFill h.fill r t e p c b o (st.lam nl) n.toNat m) := by
  obtain ⟨sp, sc, ls, raw⟩ := st
  cases sp <;> cases ls <;> cases raw <;> rfl

/-- C155: an array call of `FillEos` through a Variant: for every `i` below `num` the six elements `i` become what the held EOS's
scalar `FillEos` makes of them (with the flags and the lambda given), and nothing else changes. The six arrays are different. -/
theorem C155_fill (nl : Λ) (h : Obj K Λ) (st : Style Λ) (r t e p c b : Nat) (hd : [r, t, e, p, c, b].Nodup) (n : Int) (o : Mods.Flags)
    (m : Mem K) :
    ∃ m', callVariant nl h .fill 4 (st.argsFill r t e p c b n o) m = some m' ∧
      (∀ i : Nat, (i : Int) < n → thermoAt m' r t e p c b i = h.fill (st.lam nl i) o (thermoAt m r t e p c b i)) ∧
      (∀ d i : Nat, (d ∉ [r, t, e, p, c, b] ∨ n ≤ (i : Int)) → m' d i = m d i) := by
  refine ⟨_, variantFill_pass nl h st r t e p c b n o m, ?_, ?_⟩
  · intro i hi
    have hi' : i < n.toNat := by omega
    rw [loopFill_eq _ _ _ _ _ _ _ hd]
    simp only [List.nodup_cons, List.mem_cons, List.not_mem_nil, or_false, not_or] at hd
    obtain ⟨⟨h1, h2, h3, h4, h5⟩, ⟨h6, h7, h8, h9⟩, ⟨h10, h11, h12⟩, ⟨h13, h14⟩, h15, -⟩ := hd
    conv_lhs => unfold thermoAt
    simp [filled, hi', Ne.symm h1, Ne.symm h2, Ne.symm h3, Ne.symm h4, Ne.symm h5, Ne.symm h6, Ne.symm h7, Ne.symm h8, Ne.symm h9,
      Ne.symm h10, Ne.symm h11, Ne.symm h12, Ne.symm h13, Ne.symm h14, Ne.symm h15]
  · intro d i hdi
    rw [loopFill_eq _ _ _ _ _ _ _ hd]
    unfold filled
    rcases hdi with hdi | hdi
    · simp only [List.mem_cons, List.not_mem_nil, or_false, not_or] at hdi
      obtain ⟨a1, a2, a3, a4, a5, a6⟩ := hdi
      simp [a1, a2, a3, a4, a5, a6]
    · rw [if_neg (by omega)]

/-- C155: the same array calls on the EOS class itself (not in a Variant), with lambdas, do the same. -/
theorem C155_class (nl : Λ) (h : Obj K Λ) (hown : h.OwnOk) (k : Q2) (st : Style Λ) (l : Nat → Λ) (hl : st.lams = some l) (a b c : Nat)
    (n : Int) (m : Mem K) :
    callObj nl h (.q2 k) 3 (st.args2 a b c n) m
      = some (fun (d j : Nat) => if d = c ∧ (j : Int) < n then h.q k (l j) (m a j) (m b j) else m d j) ∧
    callObj nl h .minE 3 (st.args1 a c n) m
      = some (fun (d j : Nat) => if d = c ∧ (j : Int) < n then h.minE (l j) (m a j) else m d j) := by
  obtain ⟨sp, sc, ls, raw⟩ := st
  simp only at hl
  subst hl
  cases sp with
  | some s =>
    constructor
    · rw [← obj2_all nl h hown k ⟨some s, sc, some l, raw⟩ 1 s a b c n l m]
      cases sc <;> rfl
    · rw [← obj1_all nl h hown ⟨some s, sc, some l, raw⟩ 1 s a c n l m]
      cases sc <;> rfl
  | none =>
    constructor
    · rw [← obj2_all nl h hown k ⟨none, none, some l, raw⟩ 0 true a b c n l m]
      cases sc <;> cases raw <;> rfl
    · rw [← obj1_all nl h hown ⟨none, none, some l, raw⟩ 0 true a c n l m]
      cases sc <;> cases raw <;> rfl

/-- C155: an array call without lambdas is accepted on a Variant but not on the EOS class it holds: no overload fits. -/
theorem C155_class_needs_lambdas (nl : Λ) (h : Obj K Λ) (k : Q2) (st : Style Λ) (hl : st.lams = none) (a b c r t e p q w : Nat)
    (n : Int) (o : Mods.Flags) (d : Nat) (m : Mem K) :
    callObj nl h (.q2 k) d (st.args2 a b c n) m = none ∧ callObj nl h .minE d (st.args1 a c n) m = none ∧
      callObj nl h .fill d (st.argsFill r t e p q w n o) m = none := by
  obtain ⟨sp, sc, ls, raw⟩ := st
  simp only at hl
  subst hl
  cases d with
  | zero => exact ⟨rfl, rfl, rfl⟩
  | succ d => cases sp <;> cases sc <;> cases raw <;> exact ⟨rfl, rfl, rfl⟩

theorem bind_eq {V : Type} (dv : V) (o : SOvl) (vs : List V) (h : vs.length = o.formals.length) : o.bind dv vs = some vs := by
  simp [SOvl.bind, h]

theorem bind_none {V : Type} (dv : V) (o : SOvl) (vs : List V) (h : vs.length ≠ o.formals.length)
    (h' : o.dflt = true → vs.length + 1 ≠ o.formals.length) : o.bind dv vs = none := by
  unfold SOvl.bind
  rw [if_neg h, if_neg (fun hh => h' hh.1 hh.2)]

/-- C155: every scalar call of a Variant is the held EOS's function of the same name with the same arguments in the same order (the
default appended if the last argument is left out); any other number of arguments does not compile. -/
theorem C155_scalar {V R : Type} (dv : V) (h : SFn → List V → R) (f : SFn) (vs : List V) :
    (∀ c ∈ counts f, vs.length = c.1 → callScalar dv h f vs = some (h f (if c.2 then vs ++ [dv] else vs))) ∧
      (vs.length ∉ (counts f).map Prod.fst → callScalar dv h f vs = none) := by
  constructor
  · intro c hc hv
    rcases vs with _ | ⟨x1, _ | ⟨x2, _ | ⟨x3, _ | ⟨x4, _ | ⟨x5, _ | ⟨x6, _ | ⟨x7, _ | ⟨x8, _ | ⟨x9, vs⟩⟩⟩⟩⟩⟩⟩⟩⟩ <;>
      simp only [List.length_cons, List.length_nil] at hv <;>
      cases f <;> simp only [counts, List.mem_cons, List.not_mem_nil, or_false] at hc <;>
      first
      | (subst hc
         first
         | rfl
         | (exfalso; simp at hv; done)
         | (exfalso; simp only at hv; omega)
         | (obtain rfl : vs = [] := List.length_eq_zero_iff.1 (by simp only at hv; omega)
            rfl))
      | (rcases hc with rfl | rfl <;>
         first
         | rfl
         | (exfalso; simp at hv; done)
         | (exfalso; simp only at hv; omega)
         | (obtain rfl : vs = [] := List.length_eq_zero_iff.1 (by simp only at hv; omega)
            rfl))
  · intro hv
    have : (variantScalar f).find? (fun o => (o.bind dv vs).isSome) = none := by
      rw [List.find?_eq_none]
      intro o ho
      rw [bind_none]
      · simp
      · rintro e
        apply hv
        cases f <;> simp only [variantScalar, List.mem_cons, List.not_mem_nil, or_false] at ho <;>
          first
          | (subst ho; simp_all [counts])
          | (rcases ho with rfl | rfl <;> simp_all [counts])
      · intro hd e
        apply hv
        cases f <;> simp only [variantScalar, List.mem_cons, List.not_mem_nil, or_false] at ho <;>
          first
          | (subst ho; simp_all [counts])
          | (rcases ho with rfl | rfl <;> simp_all [counts])
    unfold callScalar
    rw [this]
    rfl

/-- C155: a Variant built from, or assigned, an EOS of one of its types holds that EOS: `IsType` says so for that type alone, `get`
returns the object, `get` of another type throws, and functors are applied to that object. Other types do not compile. -/
theorem C155_held {T : Type} {Ob : T → Type} [DecidableEq T] (alts : List T) (t : T) (o : Ob t) :
    (t ∈ alts → ∃ v, Var.of alts t o = some v ∧ v.get t = some o ∧ (∀ t', v.isType t' = true ↔ t' = t) ∧
      (∀ t', t' ≠ t → v.get t' = none) ∧
      (∀ (S : Type) (f : (t : T) → Ob t → S → S) (st : S), v.evaluateHost f st = f t o st) ∧
      (∀ (S W : Type) (f : (t : T) → Ob t → S → W → W) (st : S) (w : W), v.evaluateDevice f st w = (st, f t o st w))) ∧
    (t ∉ alts → Var.of alts t o = none) := by
  constructor
  · intro h
    refine ⟨⟨t, o⟩, by simp [Var.of, h], by simp [Var.get], ?_, ?_, fun _ _ _ => rfl, fun _ _ _ _ _ => rfl⟩
    · intro t'
      simp [Var.isType, eq_comm]
    · intro t' h'
      simp [Var.get, Ne.symm h']
  · intro h
    simp [Var.of, h]

/-- The EOS interface of `Verif.Model.EosIface` as an object: `qOf` is the interface's name of a query, if it has one. -/
def qOf : Q2 → Option Mods.Q
  | .tRE => some .tRE
  | .eRT => some .eRT
  | .pRT => some .pRT
  | .pRE => some .pRE
  | .sRT => some .sRT
  | .sRE => some .sRE
  | .cvRT => some .cvRT
  | .cvRE => some .cvRE
  | .bRT => some .bRT
  | .bRE => some .bRE
  | .grRT => some .gRT
  | .grRE => some .gRE
  | .gibbsRT | .gibbsRE | .eRP => none

/-- An EOS with its raw-pointer array code, as an object a Variant can hold; `other` are the Gibbs energies and the energy from
density and pressure. -/
def ofVEos [One K] (v : Mods.VEos K Λ) (other : Q2 → Λ → K → K → K) : Obj K Λ where
  q k := match qOf k with
    | some k' => v.s.q k'
    | none => other k
  minE := v.s.minE
  fill := v.s.fill
  own2 k := (qOf k).map (fun k' => v.v2 k' .none)
  own1 := some (v.v1 .none)

/-- C155: for an EOS whose array code is element-wise in the sense of C50 (the plain EOS, and the modifiers of `C50_shifted`,
`C50_scaled`, ...), the calls through a Variant are element-wise, however they are written. -/
theorem C155_any_eos [One K] (v : Mods.VEos K Λ) (hv : Spec.Elementwise v) (other : Q2 → Λ → K → K → K) (nl : Λ) (k : Q2) (k' : Mods.Q)
    (hk : qOf k = some k') (st : Style Λ) (a b c : Nat) (n : Int) (m : Mem K) :
    callVariant nl (ofVEos v other) (.q2 k) 4 (st.args2 a b c n) m
      = some (fun (d j : Nat) => if d = c ∧ (j : Int) < n then v.s.q k' (st.lam nl j) (m a j) (m b j) else m d j) ∧
    callVariant nl (ofVEos v other) .minE 4 (st.args1 a c n) m
      = some (fun (d j : Nat) => if d = c ∧ (j : Int) < n then v.s.minE (st.lam nl j) (m a j) else m d j) := by
  have hown : (ofVEos v other).OwnOk := by
    constructor
    · intro k f hf n a b l out i
      simp only [ofVEos] at hf ⊢
      cases hq : qOf k with
      | none => rw [hq] at hf; simp at hf
      | some k' =>
        rw [hq] at hf
        simp only [Option.map_some, Option.some.injEq] at hf
        subst hf
        exact hv.1 k' n a b l out i
    · intro f hf n a l out i
      simp only [ofVEos, Option.some.injEq] at hf
      subst hf
      exact hv.2 n a l out i
  have e : (ofVEos v other).q k = v.s.q k' := by simp [ofVEos, hk]
  constructor
  · rw [C155_array nl _ hown, e]
  · exact C155_minimum_energy nl _ hown st a c n m

/-- A held EOS: its pressure is the product of its inputs, its scratch code doubles nothing. -/
def demoObj : Obj ℚ Unit where
  q := fun _ _ x y => x * y
  minE := fun _ x => x
  fill := fun _ _ t => { t with press := t.rho * t.temp }
  own2 := fun _ => some (fun n a b _ out i => if i < n then a i * b i else out i)
  own1 := none

theorem demoObj_ok : demoObj.OwnOk :=
  ⟨by
    intro k f hf n a b l out i
    simp only [demoObj, Option.some.injEq] at hf
    subst hf
    rfl,
   by
    intro f hf
    simp [demoObj] at hf⟩

/-- A case: raw pointers with scratch, arrays 0 and 1 into array 2, elements 0 and 1 of which are written and element 2 is not. -/
example : (callVariant () demoObj (.q2 .pRE) 4 (Style.args2 ⟨none, some 7, none, true⟩ 0 1 2 2)
      (fun a i => ((a : ℚ) + 1) * ((i : ℚ) + 10))).map (fun m => (m 2 0, m 2 1, m 2 2)) = some (200, 242, 36) := by
  rw [C155_array () _ demoObj_ok]
  norm_num [demoObj]

/-- A case: `FillEos` through a Variant. -/
example : (callVariant () demoObj .fill 4 (Style.argsFill ⟨some true, none, none, false⟩ 0 1 2 3 4 5 1
      ⟨false, false, false, true, false, false⟩) (fun a _ => (a : ℚ) + 2)).map (fun m => (m 3 0, m 3 1)) = some (6, 5) := by
  rw [variantFill_pass]
  norm_num [loopFill, fillStep, Mem.set, demoObj]

/-- A case: the scalar temperature call without a lambda. -/
example : callScalar (V := Nat) 0 (fun f vs => (f, vs)) .temperatureFromDensityInternalEnergy [5, 6]
    = some (.temperatureFromDensityInternalEnergy, [5, 6, 0]) :=
  (C155_scalar 0 _ _ [5, 6]).1 (2, true) (by simp [counts]) rfl

/-- A case: a Variant of two types, assigned an EOS of the second. -/
example : ∃ v, Var.of (T := Bool) (Ob := fun _ => Nat) [true, false] false 7 = some v ∧ v.get false = some 7 ∧ v.get true = none := by
  obtain ⟨v, h1, h2, -, h3, -⟩ := (C155_held (Ob := fun _ => Nat) [true, false] false 7).1 (by simp)
  exact ⟨v, h1, h2, h3 true (by simp)⟩

end VarCall

end Verif
