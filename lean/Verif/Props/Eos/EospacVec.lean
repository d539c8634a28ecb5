import Verif.Props.Eos.EospacArrays

set_option linter.unusedSectionVars false

/-! # EOSPAC: array calls with scratch answer element by element -/

namespace Verif.Eospac

open Verif.Mods Verif.Robust Verif.Spec.Eospac

universe u
variable {K : Type u} [Field K] [LinearOrder K] [IsStrictOrderedRing K]

local macro "disj" : tactic =>
  `(tactic| (simp only [Disj, scr, pIn1, pIn2, pOut]; omega))

/-- One array lookup straight into the output. -/
theorem vec_one (T : Tabs K) (t : Tid) (opts : List (Opt × K)) (n l l' : Nat) (s : St K)
    (hs : s.sess = fresh) (hl : l < 2) (hl' : l' < 2) (hne : l ≠ l') :
    let s' := safeInterpV T t opts n pIn1 pIn2 pOut (scr n l) (scr n l') s
    s'.sess = fresh ∧ (∀ i, i < n → get s'.mem pOut i = (rows T t (conv opts) pIn1 pIn2 s.mem i).v) ∧
    ∀ a j, ¬ (inR n pOut a j ∨ (a = 6 ∧ j < 2 * n)) → s'.mem a j = s.mem a j := by
  intro s'
  have hsc : Disj n (scr n l) (scr n l') := by
    have : (l = 0 ∧ l' = 1) ∨ (l = 1 ∧ l' = 0) := by omega
    rcases this with ⟨rfl, rfl⟩ | ⟨rfl, rfl⟩ <;> disj
  obtain ⟨h1, h2, -, -, -, h6⟩ := interpV_get T t opts n pIn1 pIn2 pOut (scr n l) (scr n l') s hs
    ⟨by disj, by disj, by disj⟩ ⟨by disj, by disj, by disj⟩ (by disj) (by disj) hsc
  refine ⟨h1, h2, fun a j haj => h6 a j (fun h => haj (Or.inl h)) ?_ ?_⟩
  · exact scr_writes n 2 l hl a j (fun h => haj (Or.inr h))
  · exact scr_writes n 2 l' hl' a j (fun h => haj (Or.inr h))

/-- C114: every array call with scratch leaves the library as found, writes in slot `i` of the output the `f` factor
times the answer at the `x` and `y` factors times the inputs, and writes nothing but the output and the
scratch it declared (`scratch_size`), whatever scratch and output contained. -/
theorem C114_arrays (σ : K) (T : Tabs K) (n : Nat) (tr : Transform K) (s : St K) (k : Q) (hk : k ≠ .sRE)
    (hs : s.sess = fresh) (htr : Sound tr) :
    let s' := vec σ T n tr s k
    s'.sess = fresh ∧
    (∀ i, i < n → get s'.mem pOut i = tr.f.value *
      answer σ T k (tr.x.value * get s.mem pIn1 i) (tr.y.value * get s.mem pIn2 i)) ∧
    ∀ a j, ¬ Writes n (.q k) a j → s'.mem a j = s.mem a j := by
  have hx := htr.2.2.2.1
  have hy := htr.2.2.2.2
  have h10 : (10 : K) ^ 10 ≠ 0 := ten.ne'
  have hg : ∀ x : K, presU * (toSieU * x) = x := fun x => by unfold presU toSieU; field_simp
  have ofx : orOne tr.x = tr.x.value := orOne_eq _ htr.1
  have off' : orOne tr.f = tr.f.value := orOne_eq _ htr.2.2.1
  cases k with
  | sRE => exact absurd rfl hk
  | tRE =>
    obtain ⟨h1, h2, h3⟩ := vec_one T .TofRE (optsDE tr ++ optF tr) n 0 1 s hs (by omega) (by omega) (by omega)
    refine ⟨h1, fun i hi => ?_, h3⟩
    refine (h2 i hi).trans ?_
    rw [conv_optF _ tr htr (by rw [conv_DE tr htr]), conv_DE tr htr, rows_DE T _ tr htr]
    rfl
  | pRT =>
    obtain ⟨h1, h2, h3⟩ := vec_one T .PofRT (optsDT tr ++ optFconv tr presU) n 0 1 s hs (by omega) (by omega)
      (by omega)
    refine ⟨h1, fun i hi => ?_, h3⟩
    refine (h2 i hi).trans ?_
    rw [conv_optFconv _ tr _ htr, conv_DT tr htr, rows_DT T _ tr htr]
    simp only [answer, press]; ring
  | sRT =>
    obtain ⟨h1, h2, h3⟩ := vec_one T .SofRT (optsDT tr ++ optFconv tr sieU) n 0 1 s hs (by omega) (by omega)
      (by omega)
    refine ⟨h1, fun i hi => ?_, h3⟩
    refine (h2 i hi).trans ?_
    rw [conv_optFconv _ tr _ htr, conv_DT tr htr, rows_DT T _ tr htr]
    simp only [answer, entropy]; ring
  | eRT =>
    obtain ⟨h1, h2, h3⟩ := vec_one T .EofRT (optsDT tr ++ optFconv tr sieU) n 1 0 s hs (by omega) (by omega)
      (by omega)
    refine ⟨h1, fun i hi => ?_, h3⟩
    refine (h2 i hi).trans ?_
    rw [conv_optFconv _ tr _ htr, conv_DT tr htr, rows_DT T _ tr htr]
    simp only [answer, sie]; ring
  | pRE =>
    obtain ⟨h1, h2, h3⟩ := vec_one T .PofRE (optsDE tr ++ optFconv tr presU) n 0 1 s hs (by omega) (by omega)
      (by omega)
    refine ⟨h1, fun i hi => ?_, h3⟩
    refine (h2 i hi).trans ?_
    rw [conv_optFconv _ tr _ htr, conv_DE tr htr, rows_DE T _ tr htr]
    simp only [answer, pressE]; ring
  | cvRT =>
    obtain ⟨h1, -, -, h2, -, h3⟩ := interpV_get T .EofRT (optsDT tr) n pIn1 pIn2 (scr n 0) (scr n 1) pOut s hs
      ⟨by disj, by disj, by disj⟩ ⟨by disj, by disj, by disj⟩ (by disj) (by disj) (by disj)
    generalize hA : safeInterpV T .EofRT (optsDT tr) n pIn1 pIn2 (scr n 0) (scr n 1) pOut s = A at h1 h2 h3
    obtain ⟨g1, g2, -, g3⟩ := storeN_get n pOut (fun m i => orOne tr.f *
      (if tr.y.isSet then 1 / tr.y.value else 1) * (cvU * max (get m pOut i) 0)) A
      (fun m m' i hi h => by rw [h pOut (Or.inr rfl)])
    have hv : vec σ T n tr s .cvRT = storeN n pOut (fun m i => orOne tr.f *
      (if tr.y.isSet then 1 / tr.y.value else 1) * (cvU * max (get m pOut i) 0)) A := by
      simp only [vec, hA]
    simp only [hv]
    refine ⟨g1.trans h1, fun i hi => ?_, fun a j haj => ?_⟩
    · rw [g2 i hi, h2 i hi]
      have hc := conv_DT tr htr
      simp only [conv] at hc
      rw [hc, rows_DT T _ tr htr, off']
      have hyy : (if tr.y.isSet = true then 1 / tr.y.value else 1) = 1 / tr.y.value := by
        split_ifs with hf
        · rfl
        · rw [htr.2.1 (by simpa using hf), div_one]
      rw [hyy]
      simp only [answer, cv, cvU, one_mul]
      generalize (T .EofRT).fy _ _ = d
      have : max (tr.y.value * d) 0 = tr.y.value * max d 0 := by
        rw [mul_max_of_nonneg _ _ hy.le, mul_zero]
      rw [this, ← mul_clip]
      field_simp
    · have hout : ¬ inR n pOut a j := fun h => haj (Or.inl h)
      rw [g3 a j hout]
      exact h3 a j (scr_writes n 2 0 (by omega) a j fun h => haj (Or.inr h))
        (scr_writes n 2 1 (by omega) a j fun h => haj (Or.inr h)) hout
  | cvRE =>
    obtain ⟨h1, h2, -, -, h4, h5⟩ := interpV_get T .TofRE (optsDE tr) n pIn1 pIn2 (scr n 0) (scr n 1) (scr n 2) s hs
      ⟨by disj, by disj, by disj⟩ ⟨by disj, by disj, by disj⟩ (by disj) (by disj) (by disj)
    generalize hA : safeInterpV T .TofRE (optsDE tr) n pIn1 pIn2 (scr n 0) (scr n 1) (scr n 2) s = A
      at h1 h2 h4 h5
    obtain ⟨k1, -, -, k2, -, k5⟩ := interpV_get T .EofRT (optsX tr) n pIn1 (scr n 0) (scr n 3) (scr n 2) (scr n 1) A h1
      ⟨by disj, by disj, by disj⟩ ⟨by disj, by disj, by disj⟩ (by disj) (by disj) (by disj)
    generalize hB : safeInterpV T .EofRT (optsX tr) n pIn1 (scr n 0) (scr n 3) (scr n 2) (scr n 1) A = B
      at k1 k2 k5
    obtain ⟨g1, g2, -, g3⟩ := storeN_get n pOut
      (fun m i => orOne tr.f * (cvU * max (get m (scr n 1) i) 0)) B
      (fun m m' i hi h => by rw [h (scr n 1) (Or.inl (by disj))])
    have hv : vec σ T n tr s .cvRE = storeN n pOut
        (fun m i => orOne tr.f * (cvU * max (get m (scr n 1) i) 0)) B := by
      simp only [vec, hA, hB]
    simp only [hv]
    refine ⟨g1.trans k1, fun i hi => ?_, fun a j haj => ?_⟩
    · rw [g2 i hi, k2 i hi]
      have hc := conv_X tr htr
      simp only [conv] at hc
      rw [hc, rows_X T _ tr htr, off']
      have hin : get A.mem pIn1 i = get s.mem pIn1 i := h4 pIn1 (by disj) (by disj) (by disj) i hi
      have hT : get A.mem (scr n 0) i
          = temp T (tr.x.value * get s.mem pIn1 i) (tr.y.value * get s.mem pIn2 i) := by
        rw [h2 i hi]
        have hc2 := conv_DE tr htr
        simp only [conv] at hc2
        rw [hc2, rows_DE T _ tr htr, one_mul]; rfl
      simp only [hin, hT, answer, cv, cvU, one_mul, mul_clip]
    · have hout : ¬ inR n pOut a j := fun h => haj (Or.inl h)
      have hsc : ∀ l, l < 4 → ¬ inR n (scr n l) a j := fun l hl => scr_writes n 4 l hl a j fun h => haj (Or.inr h)
      rw [g3 a j hout, k5 a j (hsc 3 (by omega)) (hsc 2 (by omega)) (hsc 1 (by omega)),
        h5 a j (hsc 0 (by omega)) (hsc 1 (by omega)) (hsc 2 (by omega))]
  | bRT =>
    obtain ⟨h1, -, h2, h3, h4, h5⟩ := interpV_get T .EofRT (optsDT tr) n pIn1 pIn2 (scr n 0) (scr n 5) (scr n 4) s hs
      ⟨by disj, by disj, by disj⟩ ⟨by disj, by disj, by disj⟩ (by disj) (by disj) (by disj)
    generalize hA : safeInterpV T .EofRT (optsDT tr) n pIn1 pIn2 (scr n 0) (scr n 5) (scr n 4) s = A
      at h1 h2 h3 h4 h5
    obtain ⟨k1, k2, k3, k4, k6, k5⟩ := interpV_get T .PofRT (optsDT tr) n pIn1 pIn2 (scr n 1) (scr n 3) (scr n 2) A h1
      ⟨by disj, by disj, by disj⟩ ⟨by disj, by disj, by disj⟩ (by disj) (by disj) (by disj)
    generalize hB : safeInterpV T .PofRT (optsDT tr) n pIn1 pIn2 (scr n 1) (scr n 3) (scr n 2) A = B
      at k1 k2 k3 k4 k5 k6
    obtain ⟨g1, g2, -, g3⟩ := storeN_get n pOut
      (fun m i => orOne tr.f * (bmodU * bulkOf (orOne tr.x) (get m pIn1 i)
      (get m (scr n 1) i) (get m (scr n 3) i) (get m (scr n 2) i) (get m (scr n 5) i)
      (get m (scr n 4) i))) B
      (fun m m' i hi h => by
        rw [h (scr n 1) (Or.inl (by disj)), h (scr n 2) (Or.inl (by disj)), h (scr n 3) (Or.inl (by disj)),
          h (scr n 4) (Or.inl (by disj)), h (scr n 5) (Or.inl (by disj)), h pIn1 (Or.inl (by disj))])
    have hv : vec σ T n tr s .bRT = storeN n pOut
      (fun m i => orOne tr.f * (bmodU * bulkOf (orOne tr.x) (get m pIn1 i)
      (get m (scr n 1) i) (get m (scr n 3) i) (get m (scr n 2) i) (get m (scr n 5) i)
      (get m (scr n 4) i))) B := by
      simp only [vec, hA, hB]
    simp only [hv]
    refine ⟨g1.trans k1, fun i hi => ?_, fun a j haj => ?_⟩
    · have hc := conv_DT tr htr
      simp only [conv] at hc
      have i1 : get A.mem pIn1 i = get s.mem pIn1 i := h4 pIn1 (by disj) (by disj) (by disj) i hi
      have i2 : get A.mem pIn2 i = get s.mem pIn2 i := h4 pIn2 (by disj) (by disj) (by disj) i hi
      have j1 : get B.mem pIn1 i = get A.mem pIn1 i := k6 pIn1 (by disj) (by disj) (by disj) i hi
      rw [g2 i hi, k2 i hi, k3 i hi, k4 i hi, k6 (scr n 5) (by disj) (by disj) (by disj) i hi,
        k6 (scr n 4) (by disj) (by disj) (by disj) i hi, h2 i hi, h3 i hi, j1, i1, hc,
        rows_DT T .PofRT tr htr, rows_DT T .EofRT tr htr, ofx, off']
      simp only [i1, i2, one_mul]
      rw [bulkOf_scale _ _ _ _ _ _ _ _ hx hy]
      simp only [answer]
      rw [← bulk_eq]; rfl
    · have hout : ¬ inR n pOut a j := fun h => haj (Or.inl h)
      have hsc : ∀ l, l < 6 → ¬ inR n (scr n l) a j := fun l hl => scr_writes n 6 l hl a j fun h => haj (Or.inr h)
      rw [g3 a j hout, k5 a j (hsc 1 (by omega)) (hsc 3 (by omega)) (hsc 2 (by omega)),
        h5 a j (hsc 0 (by omega)) (hsc 5 (by omega)) (hsc 4 (by omega))]
  | bRE =>
    obtain ⟨h1, h2, -, -, h4, h5⟩ := interpV_get T .TofRE (optsDE tr) n pIn1 pIn2 (scr n 0) (scr n 1) (scr n 2) s hs
      ⟨by disj, by disj, by disj⟩ ⟨by disj, by disj, by disj⟩ (by disj) (by disj) (by disj)
    generalize hA : safeInterpV T .TofRE (optsDE tr) n pIn1 pIn2 (scr n 0) (scr n 1) (scr n 2) s = A
      at h1 h2 h4 h5
    obtain ⟨k1, -, k3, k4, k6, k5⟩ := interpV_get T .EofRT (optsX tr) n pIn1 (scr n 0) (scr n 3) (scr n 5) (scr n 4) A h1
      ⟨by disj, by disj, by disj⟩ ⟨by disj, by disj, by disj⟩ (by disj) (by disj) (by disj)
    generalize hB : safeInterpV T .EofRT (optsX tr) n pIn1 (scr n 0) (scr n 3) (scr n 5) (scr n 4) A = B
      at k1 k3 k4 k5 k6
    obtain ⟨l1, l2, l3, l4, l6, l5⟩ := interpV_get T .PofRT (optsX tr) n pIn1 (scr n 0) (scr n 3) (scr n 2) (scr n 1) B k1
      ⟨by disj, by disj, by disj⟩ ⟨by disj, by disj, by disj⟩ (by disj) (by disj) (by disj)
    generalize hC : safeInterpV T .PofRT (optsX tr) n pIn1 (scr n 0) (scr n 3) (scr n 2) (scr n 1) B = C
      at l1 l2 l3 l4 l5 l6
    obtain ⟨g1, g2, -, g3⟩ := storeN_get n pOut
      (fun m i => orOne tr.f * (bmodU * bulkOf (orOne tr.x) (get m pIn1 i)
      (get m (scr n 3) i) (get m (scr n 2) i) (get m (scr n 1) i) (get m (scr n 5) i)
      (get m (scr n 4) i))) C
      (fun m m' i hi h => by
        rw [h (scr n 1) (Or.inl (by disj)), h (scr n 2) (Or.inl (by disj)), h (scr n 3) (Or.inl (by disj)),
          h (scr n 4) (Or.inl (by disj)), h (scr n 5) (Or.inl (by disj)), h pIn1 (Or.inl (by disj))])
    have hv : vec σ T n tr s .bRE = storeN n pOut
      (fun m i => orOne tr.f * (bmodU * bulkOf (orOne tr.x) (get m pIn1 i)
      (get m (scr n 3) i) (get m (scr n 2) i) (get m (scr n 1) i) (get m (scr n 5) i)
      (get m (scr n 4) i))) C := by
      simp only [vec, hA, hB, hC]
    simp only [hv]
    refine ⟨g1.trans l1, fun i hi => ?_, fun a j haj => ?_⟩
    · have hc := conv_X tr htr
      simp only [conv] at hc
      have i1 : get A.mem pIn1 i = get s.mem pIn1 i := h4 pIn1 (by disj) (by disj) (by disj) i hi
      have j1 : get B.mem pIn1 i = get A.mem pIn1 i := k6 pIn1 (by disj) (by disj) (by disj) i hi
      have m1 : get C.mem pIn1 i = get B.mem pIn1 i := l6 pIn1 (by disj) (by disj) (by disj) i hi
      have jT : get B.mem (scr n 0) i = get A.mem (scr n 0) i := k6 (scr n 0) (by disj) (by disj) (by disj) i hi
      have hT : get A.mem (scr n 0) i
          = temp T (tr.x.value * get s.mem pIn1 i) (tr.y.value * get s.mem pIn2 i) := by
        rw [h2 i hi]
        have hc2 := conv_DE tr htr
        simp only [conv] at hc2
        rw [hc2, rows_DE T _ tr htr, one_mul]; rfl
      rw [g2 i hi, l2 i hi, l3 i hi, l4 i hi, l6 (scr n 5) (by disj) (by disj) (by disj) i hi,
        l6 (scr n 4) (by disj) (by disj) (by disj) i hi, k3 i hi, k4 i hi, m1, j1, i1, hc,
        rows_X T .PofRT tr htr, rows_X T .EofRT tr htr, ofx, off']
      simp only [j1, i1, jT, hT, one_mul]
      have := bulkOf_scale tr.x.value 1 (get s.mem pIn1 i)
        ((T .PofRT).f (tr.x.value * get s.mem pIn1 i)
          (temp T (tr.x.value * get s.mem pIn1 i) (tr.y.value * get s.mem pIn2 i)))
        ((T .PofRT).fx (tr.x.value * get s.mem pIn1 i)
          (temp T (tr.x.value * get s.mem pIn1 i) (tr.y.value * get s.mem pIn2 i)))
        ((T .PofRT).fy (tr.x.value * get s.mem pIn1 i)
          (temp T (tr.x.value * get s.mem pIn1 i) (tr.y.value * get s.mem pIn2 i)))
        ((T .EofRT).fx (tr.x.value * get s.mem pIn1 i)
          (temp T (tr.x.value * get s.mem pIn1 i) (tr.y.value * get s.mem pIn2 i)))
        ((T .EofRT).fy (tr.x.value * get s.mem pIn1 i)
          (temp T (tr.x.value * get s.mem pIn1 i) (tr.y.value * get s.mem pIn2 i))) hx one_pos
      simp only [one_mul] at this
      rw [this]
      simp only [answer]
      rw [← bulk_eq]; rfl
    · have hout : ¬ inR n pOut a j := fun h => haj (Or.inl h)
      have hsc : ∀ l, l < 6 → ¬ inR n (scr n l) a j := fun l hl => scr_writes n 6 l hl a j fun h => haj (Or.inr h)
      rw [g3 a j hout, l5 a j (hsc 3 (by omega)) (hsc 2 (by omega)) (hsc 1 (by omega)),
        k5 a j (hsc 3 (by omega)) (hsc 5 (by omega)) (hsc 4 (by omega)),
        h5 a j (hsc 0 (by omega)) (hsc 1 (by omega)) (hsc 2 (by omega))]
  | gRT =>
    obtain ⟨h1, -, -, h3, h4, h5⟩ := interpV_get T .EofRT (optsDT tr) n pIn1 pIn2 (scr n 0) (scr n 1) (scr n 2) s hs
      ⟨by disj, by disj, by disj⟩ ⟨by disj, by disj, by disj⟩ (by disj) (by disj) (by disj)
    generalize hA : safeInterpV T .EofRT (optsDT tr) n pIn1 pIn2 (scr n 0) (scr n 1) (scr n 2) s = A
      at h1 h3 h4 h5
    obtain ⟨k1, -, -, k4, k6, k5⟩ := interpV_get T .PofRT (optsDT tr) n pIn1 pIn2 (scr n 0) (scr n 1) (scr n 3) A h1
      ⟨by disj, by disj, by disj⟩ ⟨by disj, by disj, by disj⟩ (by disj) (by disj) (by disj)
    generalize hB : safeInterpV T .PofRT (optsDT tr) n pIn1 pIn2 (scr n 0) (scr n 1) (scr n 3) A = B
      at k1 k4 k5 k6
    obtain ⟨g1, g2, -, g3⟩ := storeN_get n pOut
      (fun m i => orOne tr.f * ratio σ
      (presU * (toSieU * (get m (scr n 3) i / get m (scr n 2) i))) (orOne tr.x * get m pIn1 i)) B
      (fun m m' i hi h => by
        rw [h (scr n 2) (Or.inl (by disj)), h (scr n 3) (Or.inl (by disj)), h pIn1 (Or.inl (by disj))])
    have hv : vec σ T n tr s .gRT = storeN n pOut
      (fun m i => orOne tr.f * ratio σ
      (presU * (toSieU * (get m (scr n 3) i / get m (scr n 2) i))) (orOne tr.x * get m pIn1 i)) B := by
      simp only [vec, hA, hB]
    simp only [hv]
    refine ⟨g1.trans k1, fun i hi => ?_, fun a j haj => ?_⟩
    · have hc := conv_DT tr htr
      simp only [conv] at hc
      have i1 : get A.mem pIn1 i = get s.mem pIn1 i := h4 pIn1 (by disj) (by disj) (by disj) i hi
      have i2 : get A.mem pIn2 i = get s.mem pIn2 i := h4 pIn2 (by disj) (by disj) (by disj) i hi
      have j1 : get B.mem pIn1 i = get A.mem pIn1 i := k6 pIn1 (by disj) (by disj) (by disj) i hi
      rw [g2 i hi, k4 i hi, k6 (scr n 2) (by disj) (by disj) (by disj) i hi, h3 i hi, j1, i1, hc,
        rows_DT T .PofRT tr htr, rows_DT T .EofRT tr htr, ofx, off', hg]
      simp only [i1, i2, one_mul, answer, gru]
      rw [mul_div_mul_left _ _ hy.ne']
    · have hout : ¬ inR n pOut a j := fun h => haj (Or.inl h)
      have hsc : ∀ l, l < 4 → ¬ inR n (scr n l) a j := fun l hl => scr_writes n 4 l hl a j fun h => haj (Or.inr h)
      rw [g3 a j hout, k5 a j (hsc 0 (by omega)) (hsc 1 (by omega)) (hsc 3 (by omega)),
        h5 a j (hsc 0 (by omega)) (hsc 1 (by omega)) (hsc 2 (by omega))]
  | gRE =>
    obtain ⟨h1, h2, -, -, h4, h5⟩ := interpV_get T .TofRE (optsDE tr) n pIn1 pIn2 (scr n 0) (scr n 2) (scr n 3) s hs
      ⟨by disj, by disj, by disj⟩ ⟨by disj, by disj, by disj⟩ (by disj) (by disj) (by disj)
    generalize hA : safeInterpV T .TofRE (optsDE tr) n pIn1 pIn2 (scr n 0) (scr n 2) (scr n 3) s = A
      at h1 h2 h4 h5
    obtain ⟨k1, -, -, k4, k6, k5⟩ := interpV_get T .EofRT (optsX tr) n pIn1 (scr n 0) (scr n 1) (scr n 2) (scr n 3) A h1
      ⟨by disj, by disj, by disj⟩ ⟨by disj, by disj, by disj⟩ (by disj) (by disj) (by disj)
    generalize hB : safeInterpV T .EofRT (optsX tr) n pIn1 (scr n 0) (scr n 1) (scr n 2) (scr n 3) A = B
      at k1 k4 k5 k6
    obtain ⟨l1, -, -, l4, l6, l5⟩ := interpV_get T .PofRT (optsX tr) n pIn1 (scr n 0) (scr n 1) (scr n 2) (scr n 4) B k1
      ⟨by disj, by disj, by disj⟩ ⟨by disj, by disj, by disj⟩ (by disj) (by disj) (by disj)
    generalize hC : safeInterpV T .PofRT (optsX tr) n pIn1 (scr n 0) (scr n 1) (scr n 2) (scr n 4) B = C
      at l1 l4 l5 l6
    obtain ⟨g1, g2, -, g3⟩ := storeN_get n pOut
      (fun m i => orOne tr.f * ratio σ
      (presU * (toSieU * (get m (scr n 4) i / get m (scr n 3) i))) (orOne tr.x * get m pIn1 i)) C
      (fun m m' i hi h => by
        rw [h (scr n 4) (Or.inl (by disj)), h (scr n 3) (Or.inl (by disj)), h pIn1 (Or.inl (by disj))])
    have hv : vec σ T n tr s .gRE = storeN n pOut
      (fun m i => orOne tr.f * ratio σ
      (presU * (toSieU * (get m (scr n 4) i / get m (scr n 3) i))) (orOne tr.x * get m pIn1 i)) C := by
      simp only [vec, hA, hB, hC]
    simp only [hv]
    refine ⟨g1.trans l1, fun i hi => ?_, fun a j haj => ?_⟩
    · have hc := conv_X tr htr
      simp only [conv] at hc
      have i1 : get A.mem pIn1 i = get s.mem pIn1 i := h4 pIn1 (by disj) (by disj) (by disj) i hi
      have j1 : get B.mem pIn1 i = get A.mem pIn1 i := k6 pIn1 (by disj) (by disj) (by disj) i hi
      have m1 : get C.mem pIn1 i = get B.mem pIn1 i := l6 pIn1 (by disj) (by disj) (by disj) i hi
      have jT : get B.mem (scr n 0) i = get A.mem (scr n 0) i := k6 (scr n 0) (by disj) (by disj) (by disj) i hi
      have hT : get A.mem (scr n 0) i
          = temp T (tr.x.value * get s.mem pIn1 i) (tr.y.value * get s.mem pIn2 i) := by
        rw [h2 i hi]
        have hc2 := conv_DE tr htr
        simp only [conv] at hc2
        rw [hc2, rows_DE T _ tr htr, one_mul]; rfl
      rw [g2 i hi, l4 i hi, l6 (scr n 3) (by disj) (by disj) (by disj) i hi, k4 i hi, m1, j1, i1, hc,
        rows_X T .PofRT tr htr, rows_X T .EofRT tr htr, ofx, off', hg]
      simp only [j1, i1, jT, hT, one_mul, answer, gru]
    · have hout : ¬ inR n pOut a j := fun h => haj (Or.inl h)
      have hsc : ∀ l, l < 5 → ¬ inR n (scr n l) a j := fun l hl => scr_writes n 5 l hl a j fun h => haj (Or.inr h)
      rw [g3 a j hout, l5 a j (hsc 1 (by omega)) (hsc 2 (by omega)) (hsc 4 (by omega)),
        k5 a j (hsc 1 (by omega)) (hsc 2 (by omega)) (hsc 3 (by omega)),
        h5 a j (hsc 0 (by omega)) (hsc 2 (by omega)) (hsc 3 (by omega))]

/-- C114: the array minimum energy likewise (one scratch array); the cold curve is a function of density alone. -/
theorem C114_minE (T : Tabs K) (n : Nat) (tr : Transform K) (s : St K) (hs : s.sess = fresh) (htr : Sound tr)
    (hE : ∀ x y y', (T .EcofD).f x y = (T .EcofD).f x y') :
    let s' := vecMinE T n tr s
    s'.sess = fresh ∧
    (∀ i, i < n → get s'.mem pOut i = tr.f.value * (10 ^ 10 * (T .EcofD).f (tr.x.value * get s.mem pIn1 i) 0)) ∧
    ∀ a j, ¬ Writes n .minE a j → s'.mem a j = s.mem a j := by
  intro s'
  obtain ⟨h1, h2⟩ := interpV_mem T .EcofD (optsDT tr ++ optFconv tr sieU) n pIn1 pIn1 pOut (scr n 0) (scr n 0) s hs
    ⟨by disj, by disj, by disj⟩ ⟨by disj, by disj, by disj⟩ (by disj) (by disj) (Or.inr rfl)
  refine ⟨h1, fun i hi => ?_, fun a j haj => ?_⟩
  · have hin := (get_inR n pOut i).mpr hi
    have hd : Disj n pOut (scr n 0) := by disj
    change s'.mem pOut.arr (pOut.off + i) = _
    refine (h2 _ _).trans ?_
    rw [if_neg (disj_inR hd hin), if_neg (disj_inR hd hin), if_pos hin]
    have hc := conv_optFconv (optsDT tr) tr sieU htr
    rw [conv_DT tr htr] at hc
    simp only [conv] at hc
    rw [hc, rows_DT T _ tr htr, Nat.add_sub_cancel_left]
    simp only
    rw [hE _ _ 0]; ring
  · have hout : ¬ inR n pOut a j := fun h => haj (Or.inl h)
    have hsc := scr_writes n 1 0 (by omega) a j fun h => haj (Or.inr h)
    refine (h2 _ _).trans ?_
    rw [if_neg hsc, if_neg hsc, if_neg hout]

/-- C114: a scaling transform as built by `ScaledEOS` with scale 2 over a unit change meets the hypothesis. -/
example : Sound (⟨Factor.default.apply 2, Factor.default.apply (1 / 2), Factor.default⟩ : Transform ℚ) := by
  refine ⟨?_, ?_, ?_, ?_, ?_⟩ <;> simp [Factor.apply, Factor.default]

/-- C50: without a transform the array calls of EOSPAC are element-wise the scalar calls. -/
theorem C50_eospac (σ : K) (T : Tabs K) (g : Thermo K) (n : Nat) (s : St K) (k : Q) (hk : k ≠ .sRE)
    (hs : s.sess = fresh) (i : Nat) (hi : i < n) :
    get (vec σ T n .none s k).mem pOut i
      = (query σ (safeInterp T) g k (get s.mem pIn1 i) (get s.mem pIn2 i) fresh).1 := by
  have h := (C114_arrays σ T n .none s k hk hs ⟨fun _ => rfl, fun _ => rfl, fun _ => rfl, one_pos, one_pos⟩).2.1 i hi
  rw [h, (C106_queries σ T g 0 k _ _).1]
  simp [Transform.none, Factor.default]

end Verif.Eospac
