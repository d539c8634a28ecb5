import Verif.Props.Eos.EospacFill
import Verif.Spec.Elementwise
import Verif.Model.Scratch

set_option linter.unusedSectionVars false

/-! # EOSPAC: array calls with scratch -/

namespace Verif.Eospac

open Verif.Mods Verif.Robust Verif.Spec.Eospac

universe u
variable {K : Type u} [Field K] [LinearOrder K] [IsStrictOrderedRing K]

/-! ## Memory -/

/-- Location `(a, j)` is one of the `n` elements at `p`. -/
def inR (n : Nat) (p : Ptr) (a j : Nat) : Prop := a = p.arr ∧ p.off ≤ j ∧ j < p.off + n

instance (n : Nat) (p : Ptr) (a j : Nat) : Decidable (inR n p a j) := by unfold inR; infer_instance

/-- The `n` elements at `p` and those at `q` do not overlap. -/
def Disj (n : Nat) (p q : Ptr) : Prop := p.arr ≠ q.arr ∨ p.off + n ≤ q.off ∨ q.off + n ≤ p.off

theorem put_apply (m : Mem K) (p : Ptr) (i : Nat) (v : K) (a j : Nat) :
    put m p i v a j = if a = p.arr ∧ j = p.off + i then v else m a j := by
  unfold put
  by_cases h : a = p.arr
  · subst h
    rw [Function.update_self, Function.update_apply]
    simp
  · rw [Function.update_of_ne h]; simp [h]

theorem get_inR (n : Nat) (p : Ptr) (i : Nat) : inR n p p.arr (p.off + i) ↔ i < n := by
  unfold inR; constructor
  · rintro ⟨-, -, h⟩; omega
  · intro h; exact ⟨rfl, by omega, by omega⟩

theorem disj_inR {n : Nat} {p q : Ptr} (h : Disj n p q) {a j : Nat} (hp : inR n p a j) : ¬ inR n q a j := by
  rintro ⟨h1, h2, h3⟩
  obtain ⟨g1, g2, g3⟩ := hp
  rcases h with h | h | h
  · exact h (g1.symm.trans h1)
  · omega
  · omega

theorem Disj.symm {n : Nat} {p q : Ptr} (h : Disj n p q) : Disj n q p := by
  rcases h with h | h | h
  · exact Or.inl h.symm
  · exact Or.inr (Or.inr h)
  · exact Or.inr (Or.inl h)

theorem inR_succ (k : Nat) (p : Ptr) (a j : Nat) :
    inR (k + 1) p a j ↔ inR k p a j ∨ (a = p.arr ∧ j = p.off + k) := by
  unfold inR
  constructor
  · rintro ⟨h1, h2, h3⟩
    by_cases h : j = p.off + k
    · exact Or.inr ⟨h1, h⟩
    · exact Or.inl ⟨h1, h2, by omega⟩
  · rintro (⟨h1, h2, h3⟩ | ⟨h1, h2⟩)
    · exact ⟨h1, h2, by omega⟩
    · exact ⟨h1, by omega, by omega⟩

/-- A loop that stores `f i` at `out[i]`, reading only locations it does not write or the element it is about to
write. -/
theorem storeN_mem (n : Nat) (out : Ptr) (f : Mem K → Nat → K) (s : St K)
    (hf : ∀ (m m' : Mem K) i, i < n → (∀ a j, (¬ inR n out a j ∨ (a = out.arr ∧ j = out.off + i)) → m a j = m' a j) →
      f m i = f m' i) (a j : Nat) :
    (storeN n out f s).mem a j = if inR n out a j then f s.mem (j - out.off) else s.mem a j := by
  unfold storeN
  simp only
  have key : ∀ k, k ≤ n → ∀ a j, forN k (fun m i => put m out i (f m i)) s.mem a j
      = if inR k out a j then f s.mem (j - out.off) else s.mem a j := by
    intro k
    induction k with
    | zero =>
      intro _ a j
      have : ¬ inR 0 out a j := by rintro ⟨_, _, _⟩; omega
      simp [this]
    | succ k ih =>
      intro hk a j
      rw [forN_succ, put_apply]
      have hval : f (forN k (fun m i => put m out i (f m i)) s.mem) k = f s.mem k := by
        refine hf _ _ _ (by omega) ?_
        intro a j haj
        rw [ih (by omega)]
        have : ¬ inR k out a j := by
          rintro ⟨h1, h2, h3⟩
          rcases haj with h | ⟨_, h⟩
          · exact h ⟨h1, h2, by omega⟩
          · omega
        simp [this]
      rw [ih (by omega)]
      by_cases h : a = out.arr ∧ j = out.off + k
      · have h' : inR (k + 1) out a j := (inR_succ _ _ _ _).mpr (Or.inr h)
        rw [if_pos h, if_pos h', hval]
        congr 1; omega
      · rw [if_neg h]
        have : inR (k + 1) out a j ↔ inR k out a j := by
          rw [inR_succ]; simp [h]
        simp only [this]
  exact key n le_rfl a j

/-- The lookup results of an array call. -/
def rows (T : Tabs K) (t : Tid) (c : Conv K) (X Y : Ptr) (m : Mem K) (i : Nat) : Res K :=
  lookup (T t) c (get m X i) (get m Y i)

/-- What an array lookup writes, if the inputs do not overlap the outputs and the outputs are pairwise disjoint or
equal. -/
theorem interpV_mem (T : Tabs K) (t : Tid) (opts : List (Opt × K)) (n : Nat) (X Y F DX DY : Ptr) (s : St K)
    (hs : s.sess = fresh)
    (hX : Disj n X F ∧ Disj n X DX ∧ Disj n X DY) (hY : Disj n Y F ∧ Disj n Y DX ∧ Disj n Y DY)
    (hFX : Disj n F DX) (hFY : Disj n F DY) (hXY : Disj n DX DY ∨ DX = DY) :
    let c := opts.foldl (fun c o => c.set o.1 o.2) Conv.none
    let s' := safeInterpV T t opts n X Y F DX DY s
    s'.sess = fresh ∧
    ∀ a j, s'.mem a j =
      if inR n DY a j then (rows T t c X Y s.mem (j - DY.off)).dy
      else if inR n DX a j then (rows T t c X Y s.mem (j - DX.off)).dx
      else if inR n F a j then (rows T t c X Y s.mem (j - F.off)).v
      else s.mem a j := by
  intro c s'
  refine ⟨by simp only [s', safeInterpV, hs]; exact resetOpts_setOpts t opts, ?_⟩
  have hc : setOpts s.sess t opts t = c := by
    rw [hs, setOpts_eq, Function.update_self]; rfl
  have key : ∀ k, k ≤ n → ∀ a j, forN k (fun m i =>
      let r := lookup (T t) c (get m X i) (get m Y i)
      put (put (put m F i r.v) DX i r.dx) DY i r.dy) s.mem a j =
      if inR k DY a j then (rows T t c X Y s.mem (j - DY.off)).dy
      else if inR k DX a j then (rows T t c X Y s.mem (j - DX.off)).dx
      else if inR k F a j then (rows T t c X Y s.mem (j - F.off)).v
      else s.mem a j := by
    intro k
    induction k with
    | zero =>
      intro _ a j
      have : ∀ p, ¬ inR 0 p a j := by rintro p ⟨_, _, _⟩; omega
      simp [this]
    | succ k ih =>
      intro hk a j
      have wk : ∀ p a j, inR k p a j → inR n p a j := fun p a j ⟨h1, h2, h3⟩ => ⟨h1, h2, by omega⟩
      have wk' : ∀ p, inR n p p.arr (p.off + k) := fun p => (get_inR n p k).mpr (by omega)
      have hin : ∀ p, Disj n p F → Disj n p DX → Disj n p DY → ∀ m : Mem K,
          (∀ a j, m a j = if inR k DY a j then (rows T t c X Y s.mem (j - DY.off)).dy
            else if inR k DX a j then (rows T t c X Y s.mem (j - DX.off)).dx
            else if inR k F a j then (rows T t c X Y s.mem (j - F.off)).v
            else s.mem a j) → get m p k = get s.mem p k := by
        intro p h1 h2 h3 m hm
        unfold get
        rw [hm, if_neg (fun h => disj_inR h3 (wk' p) (wk _ _ _ h)),
          if_neg (fun h => disj_inR h2 (wk' p) (wk _ _ _ h)), if_neg (fun h => disj_inR h1 (wk' p) (wk _ _ _ h))]
      rw [forN_succ]
      have gX := hin X hX.1 hX.2.1 hX.2.2 _ (ih (by omega))
      have gY := hin Y hY.1 hY.2.1 hY.2.2 _ (ih (by omega))
      simp only [gX, gY, put_apply, ih (by omega), inR_succ]
      have hr : lookup (T t) c (get s.mem X k) (get s.mem Y k) = rows T t c X Y s.mem k := rfl
      rw [hr]
      by_cases e1 : a = DY.arr ∧ j = DY.off + k
      · rw [if_pos e1, if_pos (Or.inr e1)]
        congr 2; omega
      · rw [if_neg e1]
        simp only [e1, or_false]
        by_cases e2 : a = DX.arr ∧ j = DX.off + k
        · rw [if_pos e2]
          have hDX : inR n DX a j := by rw [e2.1, e2.2]; exact wk' DX
          have hDY : ¬ inR k DY a j := by
            rcases hXY with h | h
            · exact fun g => disj_inR h hDX (wk _ _ _ g)
            · rintro ⟨g1, g2, g3⟩
              rw [h] at e2; exact e1 e2
          rw [if_neg hDY, if_pos (Or.inr e2)]
          congr 2; omega
        · rw [if_neg e2]
          simp only [e2, or_false]
          by_cases e3 : a = F.arr ∧ j = F.off + k
          · have hF : inR n F a j := by rw [e3.1, e3.2]; exact wk' F
            rw [if_pos e3, if_neg (fun g => disj_inR hFY hF (wk _ _ _ g)),
              if_neg (fun g => disj_inR hFX hF (wk _ _ _ g)), if_pos (Or.inr e3)]
            congr 2; omega
          · rw [if_neg e3]
            simp only [e3, or_false]
  have := key n le_rfl
  simp only [s', safeInterpV]
  rw [hc]
  exact this

section get
variable (T : Tabs K) (t : Tid) (opts : List (Opt × K)) (n : Nat) (X Y F DX DY : Ptr) (s : St K)
    (hs : s.sess = fresh)
    (hX : Disj n X F ∧ Disj n X DX ∧ Disj n X DY) (hY : Disj n Y F ∧ Disj n Y DX ∧ Disj n Y DY)
    (hFX : Disj n F DX) (hFY : Disj n F DY) (hXY : Disj n DX DY)
include hs hX hY hFX hFY hXY

/-- Reading back after an array lookup. -/
theorem interpV_get :
    let c := opts.foldl (fun c o => c.set o.1 o.2) Conv.none
    let s' := safeInterpV T t opts n X Y F DX DY s
    s'.sess = fresh ∧
    (∀ i, i < n → get s'.mem F i = (rows T t c X Y s.mem i).v) ∧
    (∀ i, i < n → get s'.mem DX i = (rows T t c X Y s.mem i).dx) ∧
    (∀ i, i < n → get s'.mem DY i = (rows T t c X Y s.mem i).dy) ∧
    (∀ p, Disj n p F → Disj n p DX → Disj n p DY → ∀ i, i < n → get s'.mem p i = get s.mem p i) ∧
    (∀ a j, ¬ inR n F a j → ¬ inR n DX a j → ¬ inR n DY a j → s'.mem a j = s.mem a j) := by
  intro c s'
  obtain ⟨h1, h2⟩ := interpV_mem T t opts n X Y F DX DY s hs hX hY hFX hFY (Or.inl hXY)
  refine ⟨h1, fun i hi => ?_, fun i hi => ?_, fun i hi => ?_, fun p g1 g2 g3 i hi => ?_,
    fun a j g1 g2 g3 => ?_⟩
  · have := (get_inR n F i).mpr hi
    unfold get; rw [h2, if_neg (disj_inR hFY this), if_neg (disj_inR hFX this), if_pos this]
    congr 2; omega
  · have := (get_inR n DX i).mpr hi
    unfold get; rw [h2, if_neg (disj_inR hXY this), if_pos this]
    congr 2; omega
  · have := (get_inR n DY i).mpr hi
    unfold get; rw [h2, if_pos this]
    congr 2; omega
  · have := (get_inR n p i).mpr hi
    unfold get; rw [h2, if_neg (disj_inR g3 this), if_neg (disj_inR g2 this), if_neg (disj_inR g1 this)]
  · rw [h2, if_neg g3, if_neg g2, if_neg g1]

end get

theorem storeN_get (n : Nat) (out : Ptr) (f : Mem K → Nat → K) (s : St K)
    (hf : ∀ (m m' : Mem K) i, i < n → (∀ p, (Disj n p out ∨ p = out) → get m p i = get m' p i) → f m i = f m' i) :
    (storeN n out f s).sess = s.sess ∧
    (∀ i, i < n → get (storeN n out f s).mem out i = f s.mem i) ∧
    (∀ p, Disj n p out → ∀ i, i < n → get (storeN n out f s).mem p i = get s.mem p i) ∧
    (∀ a j, ¬ inR n out a j → (storeN n out f s).mem a j = s.mem a j) := by
  have h := storeN_mem n out f s (fun m m' i hi hm => hf m m' i hi fun p hp => by
    refine hm _ _ ?_
    rcases hp with hp | rfl
    · exact Or.inl (disj_inR hp ((get_inR n p i).mpr hi))
    · exact Or.inr ⟨rfl, rfl⟩)
  refine ⟨rfl, fun i hi => ?_, fun p hp i hi => ?_, fun a j haj => ?_⟩
  · unfold get; rw [h, if_pos ((get_inR n out i).mpr hi)]
    congr 1; omega
  · unfold get; rw [h, if_neg (disj_inR hp ((get_inR n p i).mpr hi))]
  · rw [h, if_neg haj]

/-! ## Options -/

/-- A transform as the modifiers build it: a factor that is not set is 1, factors are positive. -/
def Sound (tr : Transform K) : Prop :=
  (tr.x.isSet = false → tr.x.value = 1) ∧ (tr.y.isSet = false → tr.y.value = 1) ∧
  (tr.f.isSet = false → tr.f.value = 1) ∧ 0 < tr.x.value ∧ 0 < tr.y.value

/-- the factors a list of options leaves in a fresh table -/
abbrev conv (opts : List (Opt × K)) : Conv K := opts.foldl (fun c o => c.set o.1 o.2) Conv.none

theorem conv_append_F (os : List (Opt × K)) (v : K) :
    conv (os ++ [(.F, v)]) = { conv os with f := v } := by
  simp [conv, List.foldl_append, Conv.set]

theorem conv_DT (tr : Transform K) (h : Sound tr) :
    conv (optsDT tr) = ⟨1 / tr.x.value, 1 / tr.y.value, 1⟩ := by
  obtain ⟨⟨x, bx⟩, ⟨y, by'⟩, f⟩ := tr
  obtain ⟨h1, h2, -, -, -⟩ := h
  simp only at h1 h2
  cases bx <;> cases by' <;> simp_all [conv, optsDT, Conv.set, Conv.none]

theorem conv_X (tr : Transform K) (h : Sound tr) : conv (optsX tr) = ⟨1 / tr.x.value, 1, 1⟩ := by
  obtain ⟨⟨x, bx⟩, y, f⟩ := tr
  obtain ⟨h1, -, -, -, -⟩ := h
  simp only at h1
  cases bx <;> simp_all [conv, optsX, Conv.set, Conv.none]

theorem conv_DE (tr : Transform K) (h : Sound tr) :
    conv (optsDE tr) = ⟨1 / tr.x.value, 10 ^ 10 / tr.y.value, 1⟩ := by
  obtain ⟨⟨x, bx⟩, ⟨y, by'⟩, f⟩ := tr
  obtain ⟨h1, h2, -, -, -⟩ := h
  simp only at h1 h2
  cases bx
  · have := h1 rfl
    subst this
    cases by'
    · have := h2 rfl
      subst this
      simp only [optsDE, sieU, Bool.false_eq_true, if_false, List.nil_append]
      split_ifs with hc
      · rw [div_one, hc.2]; simp [conv, Conv.set, Conv.none]
      · simp [conv, Conv.set, Conv.none]
    · simp only [optsDE, sieU, Bool.false_eq_true, if_false, if_true,
        List.nil_append]
      split_ifs with hc
      · rw [hc.2]; simp [conv, Conv.set, Conv.none]
      · simp [conv, Conv.set, Conv.none]
  · cases by'
    · have := h2 rfl
      subst this
      simp [optsDE, conv, Conv.set, Conv.none, sieU]
    · simp [optsDE, conv, Conv.set, Conv.none, sieU]

theorem conv_optFconv (os : List (Opt × K)) (tr : Transform K) (q : K) (h : Sound tr) :
    conv (os ++ optFconv tr q) = { conv os with f := 10 ^ 10 * tr.f.value } := by
  rw [optFconv, conv_append_F]
  congr 1
  split_ifs with hf
  · rfl
  · rw [h.2.2.1 (by simpa using hf), mul_one]; rfl

theorem conv_optF (os : List (Opt × K)) (tr : Transform K) (h : Sound tr) (h1 : (conv os).f = 1) :
    conv (os ++ optF tr) = { conv os with f := tr.f.value } := by
  unfold optF
  split_ifs with hf
  · exact conv_append_F _ _
  · rw [h.2.2.1 (by simpa using hf), List.append_nil]
    conv_rhs => rw [← h1]

theorem orOne_eq (f : Factor K) (h : f.isSet = false → f.value = 1) : orOne f = f.value := by
  unfold orOne; split_ifs with hf
  · rfl
  · rw [h (by simpa using hf)]

theorem rows_DT (T : Tabs K) (t : Tid) (tr : Transform K) (h : Sound tr) (f : K) (X Y : Ptr) (m : Mem K) (i : Nat) :
    let x := tr.x.value * get m X i
    let y := tr.y.value * get m Y i
    rows T t ⟨1 / tr.x.value, 1 / tr.y.value, f⟩ X Y m i =
      ⟨f * (T t).f x y, f * tr.x.value * (T t).fx x y, f * tr.y.value * (T t).fy x y⟩ := by
  simp only [rows, lookup, div_div_eq_mul_div, div_one, mul_comm (get m X i), mul_comm (get m Y i)]

theorem rows_DE (T : Tabs K) (t : Tid) (tr : Transform K) (h : Sound tr) (f : K) (X Y : Ptr) (m : Mem K) (i : Nat) :
    let x := tr.x.value * get m X i
    let y := tr.y.value * get m Y i / 10 ^ 10
    (rows T t ⟨1 / tr.x.value, 10 ^ 10 / tr.y.value, f⟩ X Y m i).v = f * (T t).f x y := by
  simp only [rows, lookup, div_div_eq_mul_div, div_one, mul_comm (get m X i), mul_comm (get m Y i)]

theorem rows_X (T : Tabs K) (t : Tid) (tr : Transform K) (h : Sound tr) (f : K) (X Y : Ptr) (m : Mem K) (i : Nat) :
    let x := tr.x.value * get m X i
    rows T t ⟨1 / tr.x.value, 1, f⟩ X Y m i =
      ⟨f * (T t).f x (get m Y i), f * tr.x.value * (T t).fx x (get m Y i), f * (T t).fy x (get m Y i)⟩ := by
  simp only [rows, lookup, div_div_eq_mul_div, div_one, mul_comm (get m X i)]

theorem bulkOf_scale (x y rho P PR PT ER ET : K) (hx : 0 < x) (hy : 0 < y) :
    bulkOf x rho P (x * PR) (y * PT) (x * ER) (y * ET) = bulkOf 1 (x * rho) P PR PT ER ET := by
  unfold bulkOf
  have e1 : (y * ET > 0 ∧ rho > 0) ↔ (ET > 0 ∧ x * rho > 0) := by
    simp [mul_pos_iff_of_pos_left hx, mul_pos_iff_of_pos_left hy]
  have e2 : (rho > 0) ↔ (x * rho > 0) := by simp [mul_pos_iff_of_pos_left hx]
  simp only [e1, ← e2]
  have e3 : y * PT / (y * ET) = PT / ET := mul_div_mul_left _ _ hy.ne'
  rw [e3]
  have e4 : rho * (x * PR) = x * rho * PR := by ring
  have e5 : P / (rho * x) - rho * (x * ER) = P / (x * rho * 1) - x * rho * ER := by
    rw [mul_one, mul_comm rho x]; ring
  rw [e4, e5]

/-! ## Array calls -/

/-- The locations an array call may write: its output and the scratch it declared. -/
def Writes (n : Nat) (k : Verif.Mods.Meth) (a j : Nat) : Prop :=
  inR n pOut a j ∨ (a = 6 ∧ j < eospacBuffers k * n)

theorem scr_writes (n nb l : Nat) (h : l < nb) (a j : Nat) (hj : ¬ (a = 6 ∧ j < nb * n)) : ¬ inR n (scr n l) a j := by
  rintro ⟨h1, h2, h3⟩
  apply hj
  refine ⟨h1, ?_⟩
  have h3' : j < l * n + n := h3
  calc j < (l + 1) * n := by rw [Nat.add_mul]; omega
    _ ≤ nb * n := Nat.mul_le_mul_right _ h

end Verif.Eospac
