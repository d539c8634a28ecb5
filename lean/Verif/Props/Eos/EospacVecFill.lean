import Verif.Props.Eos.EospacArrays

set_option linter.unusedSectionVars false

/-! # EOSPAC: `FillEos` on arrays -/

namespace Verif.Eospac

open Verif.Mods Verif.Robust Verif.Spec.Eospac

universe u
variable {K : Type u} [Field K] [LinearOrder K] [IsStrictOrderedRing K]

local macro "disj" : tactic =>
  `(tactic| (simp only [Disj, scr]; omega))

/-- Array `a` of the six arrays of `FillEos`. -/
abbrev arr (a : Nat) : Ptr := ⟨a, 0⟩

/-- The six arrays hold `v`; the library is as after loading. -/
structure Holds (n : Nat) (s : St K) (v : Nat → Thermo K) : Prop where
  sess : s.sess = fresh
  rho : ∀ i, i < n → get s.mem (arr 0) i = (v i).rho
  temp : ∀ i, i < n → get s.mem (arr 1) i = (v i).temp
  sie : ∀ i, i < n → get s.mem (arr 2) i = (v i).sie
  press : ∀ i, i < n → get s.mem (arr 3) i = (v i).press
  cv : ∀ i, i < n → get s.mem (arr 4) i = (v i).cv
  bmod : ∀ i, i < n → get s.mem (arr 5) i = (v i).bmod

/-- Nothing outside the first `n` elements of the six arrays and the declared scratch differs. -/
def Framed (n : Nat) (s s' : St K) : Prop :=
  ∀ a j, ¬ (a < 6 ∧ j < n) → ¬ (a = 6 ∧ j < 4 * n) → s'.mem a j = s.mem a j

theorem Framed.trans {n : Nat} {s s' s'' : St K} (h : Framed n s s') (h' : Framed n s' s'') : Framed n s s'' :=
  fun a j h1 h2 => (h' a j h1 h2).trans (h a j h1 h2)

theorem not_inR_arr {n b a j : Nat} (hb : b < 6) (h : ¬ (a < 6 ∧ j < n)) : ¬ inR n (arr b) a j := by
  rintro ⟨h1, h2, h3⟩
  simp only at h1 h2 h3
  exact h ⟨by omega, by omega⟩

theorem bulkOf_units (c rho P PR PT ER ET : K) (hc : 0 < c) :
    bulkOf 1 rho (c * P) (c * PR) (c * PT) (c * ER) (c * ET) = c * bulkOf 1 rho P PR PT ER ET := by
  unfold bulkOf
  have e1 : (c * ET > 0 ∧ rho > 0) ↔ (ET > 0 ∧ rho > 0) := by simp [mul_pos_iff_of_pos_left hc]
  simp only [e1]
  rw [mul_max_of_nonneg _ _ hc.le, mul_zero, mul_div_mul_left _ _ hc.ne']
  congr 1
  split_ifs
  · simp only [mul_one]; ring
  · rw [mul_max_of_nonneg _ _ hc.le, mul_zero]; congr 1; ring
  · simp

/-- The density that `FillEos` should use. -/
def fillR (T : Tabs K) (o : Flags) (v : Thermo K) : K := if o.rho then density T v.press v.temp else v.rho

/-- The temperature that `FillEos` should use. -/
def fillT (T : Tabs K) (o : Flags) (v : Thermo K) : K :=
  if o.temp then
    if !o.rho && !o.sie then temp T (fillR T o v) v.sie else tempP T (fillR T o v) v.press
  else v.temp

/-- C115: what the array `FillEos` leaves in the six arrays: requested quantities are right, at the density and
temperature determined by the inputs; but the energy array is overwritten with the energy at that state
whenever heat capacity or bulk modulus is requested, and the pressure array whenever the bulk modulus is.  The library is
left as found; nothing but the six arrays and four scratch arrays is written. -/
theorem C115_array_fill_partial (T : Tabs K) (o : Flags) (n : Nat) (s : St K) (v : Nat → Thermo K)
    (h : Holds n s v) :
    let r := fun i => fillR T o (v i)
    let t := fun i => fillT T o (v i)
    Holds n (vecFillBody T o n s) (fun i =>
      { rho := r i
        temp := t i
        sie := if o.sie || (o.cv || o.bmod) then sie T (r i) (t i) else (v i).sie
        press := if o.press || o.bmod then press T (r i) (t i) else (v i).press
        cv := if o.cv then cv T (r i) (t i) else (v i).cv
        bmod := if o.bmod then bulk T (r i) (t i) else (v i).bmod }) ∧
    Framed n s (vecFillBody T o n s) := by
  intro r t
  have h10 : (0 : K) < 10 ^ 10 := ten
  -- density
  let s1 := if o.rho then safeInterpV T .RofPT [(.X, presU)] n (arr 3) (arr 1) (arr 0) (scr n 0) (scr n 1) s else s
  let v1 : Nat → Thermo K := fun i => { v i with rho := r i }
  have H1 : Holds n s1 v1 ∧ Framed n s s1 := by
    by_cases ho : o.rho
    · obtain ⟨a1, a2, -, -, a5, a6⟩ := interpV_get T .RofPT [(.X, presU)] n (arr 3) (arr 1) (arr 0) (scr n 0) (scr n 1) s
        h.sess ⟨by disj, by disj, by disj⟩ ⟨by disj, by disj, by disj⟩ (by disj) (by disj) (by disj)
      have e : s1 = safeInterpV T .RofPT [(.X, presU)] n (arr 3) (arr 1) (arr 0) (scr n 0) (scr n 1) s := by
        simp only [s1, ho, if_true]
      rw [e]
      refine ⟨⟨a1, fun i hi => ?_, fun i hi => ?_, fun i hi => ?_, fun i hi => ?_, fun i hi => ?_, fun i hi => ?_⟩, ?_⟩
      · rw [a2 i hi]
        simp only [rows, lookup, List.foldl_cons, List.foldl_nil, Conv.set, Conv.none, h.press i hi, h.temp i hi, v1, r,
          fillR, ho, if_true, density, presU, one_mul, div_one]
      · rw [a5 (arr 1) (by disj) (by disj) (by disj) i hi, h.temp i hi]
      · rw [a5 (arr 2) (by disj) (by disj) (by disj) i hi, h.sie i hi]
      · rw [a5 (arr 3) (by disj) (by disj) (by disj) i hi, h.press i hi]
      · rw [a5 (arr 4) (by disj) (by disj) (by disj) i hi, h.cv i hi]
      · rw [a5 (arr 5) (by disj) (by disj) (by disj) i hi, h.bmod i hi]
      · intro a j g1 g2
        exact a6 a j (not_inR_arr (by omega) g1) (scr_writes n 4 0 (by omega) a j g2)
          (scr_writes n 4 1 (by omega) a j g2)
    · have e : s1 = s := by simp only [s1, ho]; rfl
      have e' : v1 = v := by funext i; simp only [v1, r, fillR, ho]; rfl
      rw [e, e']; exact ⟨h, fun _ _ _ _ => rfl⟩
  obtain ⟨H1, F1⟩ := H1
  -- temperature
  let s2 := if o.temp then
      if !o.rho && !o.sie then safeInterpV T .TofRE [(.Y, sieU)] n (arr 0) (arr 2) (arr 1) (scr n 0) (scr n 1) s1
      else safeInterpV T .TofRP [(.Y, presU)] n (arr 0) (arr 3) (arr 1) (scr n 0) (scr n 1) s1
    else s1
  let v2 : Nat → Thermo K := fun i => { v i with rho := r i, temp := t i }
  have H2 : Holds n s2 v2 ∧ Framed n s1 s2 := by
    by_cases ho : o.temp
    · by_cases hm : (!o.rho && !o.sie) = true
      · obtain ⟨a1, a2, -, -, a5, a6⟩ := interpV_get T .TofRE [(.Y, sieU)] n (arr 0) (arr 2) (arr 1) (scr n 0) (scr n 1)
          s1 H1.sess ⟨by disj, by disj, by disj⟩ ⟨by disj, by disj, by disj⟩ (by disj) (by disj) (by disj)
        have e : s2 = safeInterpV T .TofRE [(.Y, sieU)] n (arr 0) (arr 2) (arr 1) (scr n 0) (scr n 1) s1 := by
          simp only [s2, ho, hm, if_true]
        rw [e]
        refine ⟨⟨a1, fun i hi => ?_, fun i hi => ?_, fun i hi => ?_, fun i hi => ?_, fun i hi => ?_,
          fun i hi => ?_⟩, ?_⟩
        · rw [a5 (arr 0) (by disj) (by disj) (by disj) i hi, H1.rho i hi]
        · rw [a2 i hi]
          simp only [rows, lookup, List.foldl_cons, List.foldl_nil, Conv.set, Conv.none, H1.rho i hi, H1.sie i hi, v1,
            v2, t, r, fillT, ho, hm, if_true, temp, sieU, one_mul, div_one]
        · rw [a5 (arr 2) (by disj) (by disj) (by disj) i hi, H1.sie i hi]
        · rw [a5 (arr 3) (by disj) (by disj) (by disj) i hi, H1.press i hi]
        · rw [a5 (arr 4) (by disj) (by disj) (by disj) i hi, H1.cv i hi]
        · rw [a5 (arr 5) (by disj) (by disj) (by disj) i hi, H1.bmod i hi]
        · intro a j g1 g2
          exact a6 a j (not_inR_arr (by omega) g1) (scr_writes n 4 0 (by omega) a j g2)
            (scr_writes n 4 1 (by omega) a j g2)
      · obtain ⟨a1, a2, -, -, a5, a6⟩ := interpV_get T .TofRP [(.Y, presU)] n (arr 0) (arr 3) (arr 1) (scr n 0) (scr n 1)
          s1 H1.sess ⟨by disj, by disj, by disj⟩ ⟨by disj, by disj, by disj⟩ (by disj) (by disj) (by disj)
        have e : s2 = safeInterpV T .TofRP [(.Y, presU)] n (arr 0) (arr 3) (arr 1) (scr n 0) (scr n 1) s1 := by
          simp only [s2, ho, hm, if_true]; rfl
        rw [e]
        refine ⟨⟨a1, fun i hi => ?_, fun i hi => ?_, fun i hi => ?_, fun i hi => ?_, fun i hi => ?_,
          fun i hi => ?_⟩, ?_⟩
        · rw [a5 (arr 0) (by disj) (by disj) (by disj) i hi, H1.rho i hi]
        · rw [a2 i hi]
          simp only [rows, lookup, List.foldl_cons, List.foldl_nil, Conv.set, Conv.none, H1.rho i hi, H1.press i hi, v1,
            v2, t, r, fillT, ho, hm, if_true, tempP, presU, one_mul, div_one]
          rfl
        · rw [a5 (arr 2) (by disj) (by disj) (by disj) i hi, H1.sie i hi]
        · rw [a5 (arr 3) (by disj) (by disj) (by disj) i hi, H1.press i hi]
        · rw [a5 (arr 4) (by disj) (by disj) (by disj) i hi, H1.cv i hi]
        · rw [a5 (arr 5) (by disj) (by disj) (by disj) i hi, H1.bmod i hi]
        · intro a j g1 g2
          exact a6 a j (not_inR_arr (by omega) g1) (scr_writes n 4 0 (by omega) a j g2)
            (scr_writes n 4 1 (by omega) a j g2)
    · have e : s2 = s1 := by simp only [s2, ho]; rfl
      have e' : v2 = v1 := by funext i; simp only [v1, v2, t, fillT, ho]; rfl
      rw [e, e']; exact ⟨H1, fun _ _ _ _ => rfl⟩
  obtain ⟨H2, F2⟩ := H2
  -- energy
  let s3 := if o.sie || (o.cv || o.bmod) then
      safeInterpV T .EofRT [(.F, sieU)] n (arr 0) (arr 1) (arr 2) (scr n 3) (scr n 2) s2 else s2
  let v3 : Nat → Thermo K := fun i => { v i with
    rho := r i, temp := t i, sie := if o.sie || (o.cv || o.bmod) then sie T (r i) (t i) else (v i).sie }
  have H3 : Holds n s3 v3 ∧ Framed n s2 s3 ∧ ((o.sie || (o.cv || o.bmod)) = true → ∀ i, i < n →
      get s3.mem (scr n 3) i = 10 ^ 10 * (T .EofRT).fx (r i) (t i) ∧
      get s3.mem (scr n 2) i = 10 ^ 10 * (T .EofRT).fy (r i) (t i)) := by
    by_cases ho : (o.sie || (o.cv || o.bmod)) = true
    · obtain ⟨a1, a2, a3, a4, a5, a6⟩ := interpV_get T .EofRT [(.F, sieU)] n (arr 0) (arr 1) (arr 2) (scr n 3) (scr n 2)
        s2 H2.sess ⟨by disj, by disj, by disj⟩ ⟨by disj, by disj, by disj⟩ (by disj) (by disj) (by disj)
      have e : s3 = safeInterpV T .EofRT [(.F, sieU)] n (arr 0) (arr 1) (arr 2) (scr n 3) (scr n 2) s2 := by
        simp only [s3, ho, if_true]
      rw [e]
      refine ⟨⟨a1, fun i hi => ?_, fun i hi => ?_, fun i hi => ?_, fun i hi => ?_, fun i hi => ?_,
        fun i hi => ?_⟩, ?_, ?_⟩
      · rw [a5 (arr 0) (by disj) (by disj) (by disj) i hi, H2.rho i hi]
      · rw [a5 (arr 1) (by disj) (by disj) (by disj) i hi, H2.temp i hi]
      · rw [a2 i hi]
        simp only [rows, lookup, List.foldl_cons, List.foldl_nil, Conv.set, Conv.none, H2.rho i hi, H2.temp i hi, v2,
          v3, ho, if_true, sie, sieU, div_one]
      · rw [a5 (arr 3) (by disj) (by disj) (by disj) i hi, H2.press i hi]
      · rw [a5 (arr 4) (by disj) (by disj) (by disj) i hi, H2.cv i hi]
      · rw [a5 (arr 5) (by disj) (by disj) (by disj) i hi, H2.bmod i hi]
      · intro a j g1 g2
        exact a6 a j (not_inR_arr (by omega) g1) (scr_writes n 4 3 (by omega) a j g2)
          (scr_writes n 4 2 (by omega) a j g2)
      · intro _ i hi
        rw [a3 i hi, a4 i hi]
        simp only [rows, lookup, List.foldl_cons, List.foldl_nil, Conv.set, Conv.none, H2.rho i hi, H2.temp i hi, v2,
          sieU, div_one, and_self]
    · have e : s3 = s2 := by simp only [s3, ho]; rfl
      have e' : v3 = v2 := by funext i; simp only [v2, v3, ho]; rfl
      rw [e, e']; exact ⟨H2, fun _ _ _ _ => rfl, fun h => absurd h ho⟩
  obtain ⟨H3, F3, D3⟩ := H3
  -- pressure
  let s4 := if o.press || o.bmod then
      safeInterpV T .PofRT [(.F, presU)] n (arr 0) (arr 1) (arr 3) (scr n 1) (scr n 0) s3 else s3
  let v4 : Nat → Thermo K := fun i => { v i with
    rho := r i, temp := t i, sie := if o.sie || (o.cv || o.bmod) then sie T (r i) (t i) else (v i).sie
    press := if o.press || o.bmod then press T (r i) (t i) else (v i).press }
  have H4 : Holds n s4 v4 ∧ Framed n s3 s4 ∧ ((o.sie || (o.cv || o.bmod)) = true → ∀ i, i < n →
      get s4.mem (scr n 3) i = 10 ^ 10 * (T .EofRT).fx (r i) (t i) ∧
      get s4.mem (scr n 2) i = 10 ^ 10 * (T .EofRT).fy (r i) (t i)) ∧
      ((o.press || o.bmod) = true → ∀ i, i < n →
      get s4.mem (scr n 1) i = 10 ^ 10 * (T .PofRT).fx (r i) (t i) ∧
      get s4.mem (scr n 0) i = 10 ^ 10 * (T .PofRT).fy (r i) (t i)) := by
    by_cases ho : (o.press || o.bmod) = true
    · obtain ⟨a1, a2, a3, a4, a5, a6⟩ := interpV_get T .PofRT [(.F, presU)] n (arr 0) (arr 1) (arr 3) (scr n 1) (scr n 0)
        s3 H3.sess ⟨by disj, by disj, by disj⟩ ⟨by disj, by disj, by disj⟩ (by disj) (by disj) (by disj)
      have e : s4 = safeInterpV T .PofRT [(.F, presU)] n (arr 0) (arr 1) (arr 3) (scr n 1) (scr n 0) s3 := by
        simp only [s4, ho, if_true]
      rw [e]
      refine ⟨⟨a1, fun i hi => ?_, fun i hi => ?_, fun i hi => ?_, fun i hi => ?_, fun i hi => ?_,
        fun i hi => ?_⟩, ?_, ?_, ?_⟩
      · rw [a5 (arr 0) (by disj) (by disj) (by disj) i hi, H3.rho i hi]
      · rw [a5 (arr 1) (by disj) (by disj) (by disj) i hi, H3.temp i hi]
      · rw [a5 (arr 2) (by disj) (by disj) (by disj) i hi, H3.sie i hi]
      · rw [a2 i hi]
        simp only [rows, lookup, List.foldl_cons, List.foldl_nil, Conv.set, Conv.none, H3.rho i hi, H3.temp i hi, v3,
          v4, ho, if_true, press, presU, div_one]
      · rw [a5 (arr 4) (by disj) (by disj) (by disj) i hi, H3.cv i hi]
      · rw [a5 (arr 5) (by disj) (by disj) (by disj) i hi, H3.bmod i hi]
      · intro a j g1 g2
        exact a6 a j (not_inR_arr (by omega) g1) (scr_writes n 4 1 (by omega) a j g2)
          (scr_writes n 4 0 (by omega) a j g2)
      · intro hE i hi
        rw [a5 (scr n 3) (by disj) (by disj) (by disj) i hi, a5 (scr n 2) (by disj) (by disj) (by disj) i hi]
        exact D3 hE i hi
      · intro _ i hi
        rw [a3 i hi, a4 i hi]
        simp only [rows, lookup, List.foldl_cons, List.foldl_nil, Conv.set, Conv.none, H3.rho i hi, H3.temp i hi, v3,
          presU, div_one, and_self]
    · have e : s4 = s3 := by simp only [s4, ho]; rfl
      have e' : v4 = v3 := by funext i; simp only [v3, v4, ho]; rfl
      rw [e, e']; exact ⟨H3, fun _ _ _ _ => rfl, D3, fun h => absurd h ho⟩
  obtain ⟨H4, F4, D4, G4⟩ := H4
  -- heat capacity
  let s5 := if o.cv then storeN n (arr 4) (fun m i => max (get m (scr n 2) i) 0) s4 else s4
  let v5 : Nat → Thermo K := fun i => { v4 i with cv := if o.cv then cv T (r i) (t i) else (v i).cv }
  have H5 : Holds n s5 v5 ∧ Framed n s4 s5 ∧ ∀ l, l < 4 → ∀ i, i < n →
      get s5.mem (scr n l) i = get s4.mem (scr n l) i := by
    by_cases ho : o.cv
    · obtain ⟨a1, a2, a3, a4⟩ := storeN_get n (arr 4) (fun m i => max (get m (scr n 2) i) 0) s4
        (fun m m' i hi h => by rw [h (scr n 2) (Or.inl (by disj))])
      have e : s5 = storeN n (arr 4) (fun m i => max (get m (scr n 2) i) 0) s4 := by simp only [s5, ho, if_true]
      rw [e]
      refine ⟨⟨a1.trans H4.sess, fun i hi => ?_, fun i hi => ?_, fun i hi => ?_, fun i hi => ?_, fun i hi => ?_,
        fun i hi => ?_⟩, ?_, ?_⟩
      · rw [a3 (arr 0) (by disj) i hi, H4.rho i hi]
      · rw [a3 (arr 1) (by disj) i hi, H4.temp i hi]
      · rw [a3 (arr 2) (by disj) i hi, H4.sie i hi]
      · rw [a3 (arr 3) (by disj) i hi, H4.press i hi]
      · rw [a2 i hi, (D4 (by simp [ho]) i hi).2]
        simp only [v5, ho, if_true, cv]
      · rw [a3 (arr 5) (by disj) i hi, H4.bmod i hi]
      · intro a j g1 g2
        exact a4 a j (not_inR_arr (by omega) g1)
      · intro l hl i hi
        exact a3 (scr n l) (Or.inl (by simp [scr])) i hi
    · have e : s5 = s4 := by simp only [s5, ho]; rfl
      have e' : v5 = v4 := by funext i; simp only [v4, v5, ho]; rfl
      rw [e, e']; exact ⟨H4, fun _ _ _ _ => rfl, fun _ _ _ _ => rfl⟩
  obtain ⟨H5, F5, S5⟩ := H5
  -- bulk modulus
  have hv : vecFillBody T o n s = if o.bmod then
      storeN n (arr 5) (fun m i => bulkOf 1 (get m (arr 0) i) (get m (arr 3) i) (get m (scr n 1) i) (get m (scr n 0) i)
        (get m (scr n 3) i) (get m (scr n 2) i)) s5 else s5 := rfl
  rw [hv]
  by_cases ho : o.bmod
  · obtain ⟨a1, a2, a3, a4⟩ := storeN_get n (arr 5) (fun m i => bulkOf 1 (get m (arr 0) i) (get m (arr 3) i)
        (get m (scr n 1) i) (get m (scr n 0) i) (get m (scr n 3) i) (get m (scr n 2) i)) s5
      (fun m m' i hi h => by
        rw [h (arr 0) (Or.inl (by disj)), h (arr 3) (Or.inl (by disj)), h (scr n 0) (Or.inl (by disj)),
          h (scr n 1) (Or.inl (by disj)), h (scr n 2) (Or.inl (by disj)), h (scr n 3) (Or.inl (by disj))])
    rw [if_pos ho]
    refine ⟨⟨a1.trans H5.sess, fun i hi => ?_, fun i hi => ?_, fun i hi => ?_, fun i hi => ?_, fun i hi => ?_,
      fun i hi => ?_⟩, ?_⟩
    · rw [a3 (arr 0) (by disj) i hi, H5.rho i hi]
    · rw [a3 (arr 1) (by disj) i hi, H5.temp i hi]
    · rw [a3 (arr 2) (by disj) i hi, H5.sie i hi]
    · rw [a3 (arr 3) (by disj) i hi, H5.press i hi]
    · rw [a3 (arr 4) (by disj) i hi, H5.cv i hi]
    · have hE := D4 (by simp [ho]) i hi
      have hP := G4 (by simp [ho]) i hi
      rw [a2 i hi, S5 0 (by omega) i hi, S5 1 (by omega) i hi, S5 2 (by omega) i hi, S5 3 (by omega) i hi, hE.1, hE.2,
        hP.1, hP.2, H5.rho i hi, H5.press i hi]
      simp only [v5, v4, ho, Bool.or_true, if_true, press]
      rw [bulkOf_units _ _ _ _ _ _ _ h10, bulk_eq]
    · exact (((F1.trans F2).trans F3).trans F4).trans (F5.trans fun a j g1 g2 => a4 a j (not_inR_arr (by omega) g1))
  · rw [if_neg ho]
    have e' : v5 = fun i =>
      { rho := r i
        temp := t i
        sie := if o.sie || (o.cv || o.bmod) then sie T (r i) (t i) else (v i).sie
        press := if o.press || o.bmod then press T (r i) (t i) else (v i).press
        cv := if o.cv then cv T (r i) (t i) else (v i).cv
        bmod := if o.bmod then bulk T (r i) (t i) else (v i).bmod } := by
      funext i
      have hob : o.bmod = false := by simpa using ho
      simp [v5, v4, hob]
    rw [← e']
    exact ⟨H5, (((F1.trans F2).trans F3).trans F4).trans F5⟩

/-- C115: the array `FillEos` accepts exactly the requests the scalar one accepts, whatever the arrays hold, and when it does
it ends in the state described by the other theorems. -/
theorem C115_array_fill_accepts (I : Interp (StateM (Sess K)) K) (T : Tabs K) (o : Flags) (n : Nat) (s : St K) (v : Thermo K) :
    (vecFill T o n s ≠ none ↔
      (o.rho ∨ o.temp ∨ o.sie ∨ o.press ∨ o.cv ∨ o.bmod) ∧
      (o.rho → ¬ o.press ∧ ¬ o.temp) ∧
      (o.temp → ¬ o.rho ∧ (¬ o.sie ∨ ¬ o.press))) ∧
    (vecFill T o n s = none ↔ fill I o v = none) ∧
    (vecFill T o n s ≠ none → vecFill T o n s = some (vecFillBody T o n s)) := by
  refine ⟨?_, ?_, ?_⟩
  · rw [← C109_accepts I o v]
    unfold vecFill fill
    split <;> simp
  · unfold vecFill fill
    split <;> simp
  · unfold vecFill
    split <;> simp

/-- C115: so arrays that were not requested are left alone if neither heat capacity nor bulk modulus is requested; if they
are, the energy array is left alone where the energy is that of the state, and the pressure array where the
pressure is. -/
theorem C115_inputs_kept_partial (T : Tabs K) (o : Flags) (n : Nat) (s : St K) (v : Nat → Thermo K)
    (h : Holds n s v) (i : Nat) (hi : i < n)
    (he : o.sie = false → o.cv = true ∨ o.bmod = true → sie T (fillR T o (v i)) (fillT T o (v i)) = (v i).sie)
    (hp : o.press = false → o.bmod = true → press T (fillR T o (v i)) (fillT T o (v i)) = (v i).press) :
    let s' := vecFillBody T o n s
    get s'.mem (arr 2) i = (if o.sie then sie T (fillR T o (v i)) (fillT T o (v i)) else (v i).sie) ∧
    get s'.mem (arr 3) i = (if o.press then press T (fillR T o (v i)) (fillT T o (v i)) else (v i).press) := by
  intro s'
  obtain ⟨H, -⟩ := C115_array_fill_partial T o n s v h
  have h1 := H.sie i hi
  have h2 := H.press i hi
  simp only at h1 h2
  refine ⟨h1.trans ?_, h2.trans ?_⟩
  · rcases hs : o.sie
    · rcases hc : o.cv <;> rcases hb : o.bmod <;> simp <;> apply he hs <;> simp [hc, hb]
    · simp
  · rcases hs : o.press
    · rcases hb : o.bmod
      · simp
      · simp only [Bool.or_true, if_true, Bool.false_eq_true, if_false]; exact hp hs hb
    · simp

/-- C115 is violated: asking the array `FillEos` for the heat capacity at given density and temperature overwrites the
caller's energies, and asking for the bulk modulus also the pressures (the scalar call leaves both alone). Here energy 7
becomes `5·10^10`, pressure 9 becomes `5·10^10`. -/
theorem C115_inputs_overwritten_violated (s : St ℚ) (h : Holds 1 s (fun _ => ⟨1, 5, 7, 9, 0, 0⟩)) :
    let o : Flags := ⟨false, false, false, false, true, true⟩
    get (vecFillBody gas o 1 s).mem (arr 2) 0 = 5 * 10 ^ 10 ∧ get (vecFillBody gas o 1 s).mem (arr 3) 0 = 5 * 10 ^ 10 ∧
    (fillBody (safeInterp gas) o ⟨1, 5, 7, 9, 0, 0⟩ fresh).1.sie = 7 ∧
    (fillBody (safeInterp gas) o ⟨1, 5, 7, 9, 0, 0⟩ fresh).1.press = 9 := by
  intro o
  obtain ⟨H, -⟩ := C115_array_fill_partial gas o 1 s _ h
  refine ⟨(H.sie 0 one_pos).trans ?_, (H.press 0 one_pos).trans ?_, ?_, ?_⟩
  · norm_num [o, fillR, fillT, sie, gas]
  · norm_num [o, fillR, fillT, press, gas]
  · rw [C109_from_density_temperature_partial gas o _ rfl rfl]; simp [filled, o]
  · rw [C109_from_density_temperature_partial gas o _ rfl rfl]; simp [filled, o]

/-- C115: a memory with those contents exists. -/
example : Holds 1 (⟨fresh, fun a _ => if a = 0 then 1 else if a = 1 then 5 else if a = 2 then 7 else
    if a = 3 then 9 else 0⟩ : St ℚ) (fun _ => ⟨1, 5, 7, 9, 0, 0⟩) := by
  constructor <;> simp [get]

end Verif.Eospac
