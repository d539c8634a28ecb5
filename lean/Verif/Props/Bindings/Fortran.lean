import Verif.Props.Bindings.Python
import Verif.Props.CInterface

/-!
# C122: the Fortran interface
-/

set_option linter.unusedSectionVars false
set_option linter.unusedVariables false

namespace Verif.Props.Fortran

open Verif.Bind Verif.Spec.Bindings Verif.Props.Python

variable {K : Type*}

/-- Position of element `(i, j, k)` (from 1) in column-major order. -/
def pos (n1 n2 i j k : Nat) : Nat := (i - 1) + (j - 1) * n1 + (k - 1) * (n1 * n2)

theorem pos_lt {n1 n2 n3 i j k : Nat} (h1 : 1 ≤ i ∧ i ≤ n1) (h2 : 1 ≤ j ∧ j ≤ n2) (h3 : 1 ≤ k ∧ k ≤ n3) :
    pos n1 n2 i j k < n1 * n2 * n3 := by
  unfold pos
  have a : (i - 1) + (j - 1) * n1 < n1 * n2 := by
    have : (j - 1) * n1 + n1 ≤ n2 * n1 := by
      have : (j - 1 + 1) * n1 ≤ n2 * n1 := Nat.mul_le_mul_right _ (by omega)
      nlinarith
    nlinarith [Nat.mul_comm n1 n2, h1.1, h1.2, Nat.sub_add_cancel h1.1]
  have b : (k - 1) * (n1 * n2) + n1 * n2 ≤ n3 * (n1 * n2) := by
    have : (k - 1 + 1) * (n1 * n2) ≤ n3 * (n1 * n2) := Nat.mul_le_mul_right _ (by omega)
    nlinarith
  nlinarith [Nat.mul_comm (n1 * n2) n3]

/-- In a whole array, element `(i, j, k)` is the `pos`-th one of memory. -/
theorem f3_contig (a : Arr3) (hc : Contig3 a) {i j k : Nat} (h : In3 a i j k) :
    f3 a i j k = a.base + (pos a.n1 a.n2 i j k : Nat) := by
  obtain ⟨c1, c2, c3⟩ := hc
  obtain ⟨h1, _, h2, _, h3, _⟩ := h
  unfold f3 pos
  rw [c1, c2, c3]
  push_cast [Nat.cast_sub h1, Nat.cast_sub h2, Nat.cast_sub h3]
  ring

/-- What the C loop does on contiguous memory, without lambdas. -/
theorem cLoop (g : K → K → K) (d : Nat → K) (ra rb ro : Int) (n : Nat) (m : Mem K)
    (hd : ∀ i < n, ∀ k < n, ro + (i : Int) ≠ ra + k ∧ ro + (i : Int) ≠ rb + k) :
    let m' := vecLoop (fun x y _ => (g x y, d)) 0 n (fun i => ra + i) (fun i => rb + i) (fun i => ro + i) (fun _ => 0) m
    (∀ i < n, m' (ro + i) = g (m (ra + i)) (m (rb + i))) ∧ ∀ x, (∀ i < n, x ≠ ro + i) → m' x = m x := by
  have hv : ∀ b : Int, (fun i : Nat => b + (i : Int)) = View.at ⟨b, 1, n⟩ := by
    intro b; funext i; simp [View.at]
  have hr : (fun _ : Nat => (0 : Int)) = View2.row ⟨0, 0, 1, 0, 0⟩ := by funext i; simp [View2.row]
  have h := vecOrd_spec (fun x y _ => (g x y, d)) 0 (fun x y l l' _ => ⟨rfl, fun j hj => absurd hj (by omega)⟩)
    ⟨ra, 1, n⟩ ⟨rb, 1, n⟩ ⟨ro, 1, n⟩ ⟨0, 0, 1, 0, 0⟩ (Or.inl rfl) m (List.range n)
    (fun i _ => ⟨fun j hj => absurd hj (by omega), fun j hj => absurd hj (by omega)⟩) (by
      refine List.Pairwise.imp_of_mem ?_ (List.pairwise_lt_range (n := n))
      intro i k hi hk hik x hx
      rw [List.mem_range] at hi hk
      obtain ⟨e1, e2⟩ := hd i hi k hk
      simp only [Writes, Reads, np1, one_mul] at *
      refine ⟨?_, ?_⟩
      · rintro (h | h | ⟨j, hj, h⟩) <;> rcases hx with hx | ⟨j', hj', hx⟩ <;> omega
      · rintro (h | ⟨j, hj, h⟩) <;> rcases hx with hx | ⟨j', hj', hx⟩ <;> omega)
  obtain ⟨h1, h2, h3⟩ := h
  intro m'
  have hm : m' = vecOrd (fun x y _ => (g x y, d)) 0 (List.range n) (View.at ⟨ra, 1, n⟩) (View.at ⟨rb, 1, n⟩)
      (View.at ⟨ro, 1, n⟩) (View2.row ⟨0, 0, 1, 0, 0⟩) m := by
    show vecOrd _ _ _ _ _ _ _ _ = _
    rw [hv ra, hv rb, hv ro, hr]
  rw [hm]
  refine ⟨fun i hi => ?_, fun x hx => h3 x fun i hi hw => ?_⟩
  · have := h1 i (List.mem_range.2 hi)
    simpa [np1] using this
  · rw [List.mem_range] at hi
    simp only [Writes, np1, one_mul] at hw
    rcases hw with hw | ⟨j, hj, _⟩
    · exact hx i hi hw
    · omega

/-- C122 (partial): a Fortran array query on whole arrays of the same shape with `len` their number of elements,
without lambdas, stores the scalar answer of element `(i, j, k)` in element `(i, j, k)`, for all of them, and changes no
other memory. Missing: array sections (violated below) and lambdas (next theorem). -/
theorem C122_query_partial (q : Query K) (nl : Nat) (dflt : Nat → K) (rhos sies out : Arr3) (len : Nat)
    (stride lam : Option Int) (hno : stride = none ∨ lam = none)
    (h1 : Contig3 rhos) (h2 : Contig3 sies) (h3 : Contig3 out) (hs : SameShape rhos out) (hs' : SameShape sies out)
    (hlen : len = out.n1 * out.n2 * out.n3)
    (hd : ∀ i < len, ∀ k < len, out.base + (i : Int) ≠ rhos.base + k ∧ out.base + (i : Int) ≠ sies.base + k)
    (m : Mem K) :
    (∀ i j k, In3 out i j k → fVec q nl dflt rhos sies out len stride lam m (f3 out i j k) =
      (q (m (f3 rhos i j k)) (m (f3 sies i j k)) dflt).1) ∧
    ∀ x, (∀ i < len, x ≠ out.base + i) → fVec q nl dflt rhos sies out len stride lam m x = m x := by
  have e : fVec q nl dflt rhos sies out len stride lam m =
      vecLoop (fun x y _ => ((q x y dflt).1, dflt)) 0 len (fun i => rhos.base + i) (fun i => sies.base + i)
        (fun i => out.base + i) (fun _ => 0) m := by
    unfold fVec
    rcases hno with rfl | rfl
    · rfl
    · cases stride <;> rfl
  rw [e]
  obtain ⟨a, b⟩ := cLoop (fun x y => (q x y dflt).1) dflt rhos.base sies.base out.base len m hd
  refine ⟨fun i j k h => ?_, b⟩
  have hr : In3 rhos i j k := by unfold In3 at *; rw [hs.1, hs.2.1, hs.2.2]; exact h
  have hi : In3 sies i j k := by unfold In3 at *; rw [hs'.1, hs'.2.1, hs'.2.2]; exact h
  rw [f3_contig out h3 h, f3_contig rhos h1 hr, f3_contig sies h2 hi, hs.1, hs.2.1, hs'.1, hs'.2.1]
  exact a _ (by rw [hlen]; exact pos_lt ⟨h.1, h.2.1⟩ ⟨h.2.2.1, h.2.2.2.1⟩ ⟨h.2.2.2.2.1, h.2.2.2.2.2⟩)

/-- Two 2x2x1 arrays and an output satisfy the hypotheses. -/
example : Contig3 ⟨0, 1, 2, 4, 2, 2, 1⟩ ∧ Contig3 ⟨4, 1, 2, 4, 2, 2, 1⟩ ∧ Contig3 ⟨8, 1, 2, 4, 2, 2, 1⟩ ∧
    ∀ i < 4, ∀ k < 4, (8 : Int) + (i : Nat) ≠ 0 + (k : Nat) ∧ (8 : Int) + (i : Nat) ≠ 4 + (k : Nat) := by
  refine ⟨⟨rfl, rfl, rfl⟩, ⟨rfl, rfl, rfl⟩, ⟨rfl, rfl, rfl⟩, ?_⟩
  intro i hi k hk; omega

/-- C122 (partial): with stride `nl` and a whole lambda array whose first dimension is the `nl` values of a point, point
`p` (in column-major order) uses values `nl*p ..` of it: the answers are the scalar answers and the lambda values are
those the query leaves. Missing: sections. -/
theorem C122_query_lambda_partial (q : Query K) (nl : Nat) (hq : UsesOnly nl q) (dflt : Nat → K) (rhos sies out : Arr3)
    (len : Nat) (lam : Int) (hn : 0 < nl) (m : Mem K)
    (hd : ∀ i < len, ∀ k < len, out.base + (i : Int) ≠ rhos.base + k ∧ out.base + (i : Int) ≠ sies.base + k)
    (hl : ∀ i < len * nl, ∀ k < len, lam + (i : Int) ≠ rhos.base + k ∧ lam + (i : Int) ≠ sies.base + k ∧
      lam + (i : Int) ≠ out.base + k) :
    let m' := fVec q nl dflt rhos sies out len (some nl) (some lam) m
    let r := fun p : Nat => q (m (rhos.base + p)) (m (sies.base + p)) fun j => m (lam + ((p * nl + j : Nat) : Int))
    (∀ p < len, m' (out.base + p) = (r p).1 ∧ ∀ j < nl, m' (lam + ((p * nl + j : Nat) : Int)) = (r p).2 j) ∧
    ∀ x, (∀ i < len, x ≠ out.base + i) → (∀ i < len * nl, x ≠ lam + i) → m' x = m x := by
  have hv : ∀ b : Int, (fun i : Nat => b + (i : Int)) = View.at ⟨b, 1, len⟩ := by
    intro b; funext i; simp [View.at]
  have hr : (fun i : Nat => lam + (nl : Int) * (i : Int)) = View2.row ⟨lam, nl, 1, len, nl⟩ := by
    funext i; simp [View2.row]; ring
  have hidx : ∀ i < len, ∀ j < nl, i * nl + j < len * nl := by
    intro i hi j hj
    have : (i + 1) * nl ≤ len * nl := Nat.mul_le_mul_right _ hi
    nlinarith
  have hrow : ∀ i j : Nat, np2 ⟨lam, nl, 1, len, nl⟩ i j = lam + ((i * nl + j : Nat) : Int) := by
    intro i j; simp only [np2]; push_cast; ring
  have hinj : ∀ i j i' j', j < nl → j' < nl → i * nl + j = i' * nl + j' → i = i' ∧ j = j' := by
    intro i j i' j' hj hj' h
    have h1 : i = i' := by
      have e1 : (i * nl + j) / nl = i := by
        rw [Nat.mul_comm, Nat.mul_add_div hn, Nat.div_eq_of_lt hj, Nat.add_zero]
      have e2 : (i' * nl + j') / nl = i' := by
        rw [Nat.mul_comm, Nat.mul_add_div hn, Nat.div_eq_of_lt hj', Nat.add_zero]
      rw [← e1, ← e2, h]
    subst h1
    exact ⟨rfl, by omega⟩
  have h := vecOrd_spec q nl hq ⟨rhos.base, 1, len⟩ ⟨sies.base, 1, len⟩ ⟨out.base, 1, len⟩ ⟨lam, nl, 1, len, nl⟩
    (Or.inl rfl) m (List.range len) (by
      intro i hi
      rw [List.mem_range] at hi
      refine ⟨fun j hj => ?_, fun j hj j' hj' h => ?_⟩
      · rw [hrow]
        have := (hl _ (hidx i hi j hj) i hi).2.2
        simpa [np1] using this
      · rw [hrow, hrow] at h
        exact (hinj i j i j' hj hj' (by omega)).2) (by
      refine List.Pairwise.imp_of_mem ?_ (List.pairwise_lt_range (n := len))
      intro i k hi hk hik x hx
      rw [List.mem_range] at hi hk
      obtain ⟨e1, e2⟩ := hd i hi k hk
      unfold Writes at hx
      rcases hx with hx | ⟨j, hj, hx⟩
      · refine ⟨?_, ?_⟩
        · rintro (h | h | ⟨j', hj', h⟩)
          · simp only [np1, one_mul] at *; omega
          · simp only [np1, one_mul] at *; omega
          · rw [hrow] at h
            simp only [np1, one_mul] at hx
            exact (hl _ (hidx k hk j' hj') i hi).2.2 (by rw [← h, hx])
        · rintro (h | ⟨j', hj', h⟩)
          · simp only [np1, one_mul] at *; omega
          · rw [hrow] at h
            simp only [np1, one_mul] at hx
            exact (hl _ (hidx k hk j' hj') i hi).2.2 (by rw [← h, hx])
      · rw [hrow] at hx
        have f := hl _ (hidx i hi j hj) k hk
        refine ⟨?_, ?_⟩
        · rintro (h | h | ⟨j', hj', h⟩)
          · simp only [np1, one_mul] at h; exact f.1 (by rw [← hx, h])
          · simp only [np1, one_mul] at h; exact f.2.1 (by rw [← hx, h])
          · rw [hrow] at h
            have := hinj i j k j' hj hj' (by omega)
            omega
        · rintro (h | ⟨j', hj', h⟩)
          · simp only [np1, one_mul] at h; exact f.2.2 (by rw [← hx, h])
          · rw [hrow] at h
            have := hinj i j k j' hj hj' (by omega)
            omega)
  intro m' r
  have hm : m' = vecOrd q nl (List.range len) (View.at ⟨rhos.base, 1, len⟩) (View.at ⟨sies.base, 1, len⟩)
      (View.at ⟨out.base, 1, len⟩) (View2.row ⟨lam, nl, 1, len, nl⟩) m := by
    show cVec q nl dflt rhos.base sies.base out.base len (nl : Int) (some lam) m = _
    unfold cVec
    dsimp only
    rw [if_neg (by omega : (nl : Int) ≠ -1)]
    show vecOrd _ _ _ _ _ _ _ _ = _
    rw [hv, hv, hv, hr]
  obtain ⟨h1, h2, h3⟩ := h
  rw [hm]
  refine ⟨fun p hp => ⟨?_, fun j hj => ?_⟩, fun x hx hx' => h3 x fun i hi hw => ?_⟩
  · have := h1 p (List.mem_range.2 hp)
    simp only [hrow] at this
    simpa [np1, r] using this
  · have := h2 p (List.mem_range.2 hp) j hj
    simp only [hrow] at this
    simpa [np1, r] using this
  · rw [List.mem_range] at hi
    rcases hw with hw | ⟨j, hj, hw⟩
    · exact hx i hi (by simpa [np1] using hw)
    · rw [hrow] at hw
      exact hx' _ (hidx i hi j hj) hw

/-- C122 is violated for array sections (which the assumed-shape dummy arguments accept): of `out(1:3:2,1:1,1:1)` the
second element is not computed and an element outside the section is overwritten. -/
theorem C122_section_violated : ∃ (q : Query ℤ) (rhos sies out : Arr3) (m : Mem ℤ) (x : Int),
    SameShape rhos out ∧ SameShape sies out ∧ Contig3 rhos ∧ Contig3 sies ∧
    fVec q 0 (fun _ => 0) rhos sies out (out.n1 * out.n2 * out.n3) none none m (f3 out 2 1 1) ≠
      (q (m (f3 rhos 2 1 1)) (m (f3 sies 2 1 1)) fun _ => 0).1 ∧
    (∀ i j k, In3 out i j k → x ≠ f3 out i j k) ∧
    fVec q 0 (fun _ => 0) rhos sies out (out.n1 * out.n2 * out.n3) none none m x ≠ m x := by
  refine ⟨fun x y l => (x + y, l), ⟨0, 1, 2, 2, 2, 1, 1⟩, ⟨10, 1, 2, 2, 2, 1, 1⟩, ⟨20, 2, 4, 4, 2, 1, 1⟩, fun _ => 7, 21,
    ⟨rfl, rfl, rfl⟩, ⟨rfl, rfl, rfl⟩, ⟨rfl, rfl, rfl⟩, ⟨rfl, rfl, rfl⟩, by decide, ?_, by decide⟩
  rintro i j k ⟨h1, h2, h3, h4, h5, h6⟩
  simp only [f3] at *
  have : j = 1 := by omega
  have : k = 1 := by omega
  subst_vars
  push_cast
  omega

/-! ## Materials -/

/-- C122: material numbers: after any sequence of initialisations, a query of material `k` runs on the EOS of the last
initialisation of material `k`, whatever was done to the other materials. -/
theorem C122_materials {E : Type*} (h : List (Int × E)) (arr : Int → E) (k : Int) (e : E) (h1 h2 : List (Int × E))
    (hh : h = h1 ++ (k, e) :: h2) (hlast : ∀ x ∈ h2, x.1 ≠ k) :
    fEos k (h.foldl (fun a x => fInit x.1 x.2 a) arr) = e := by
  subst hh
  rw [List.foldl_append, List.foldl_cons]
  generalize h1.foldl (fun a x => fInit x.1 x.2 a) arr = a0
  have : ∀ (l : List (Int × E)) (a : Int → E), (∀ x ∈ l, x.1 ≠ k) → fEos k a = e →
      fEos k (l.foldl (fun a x => fInit x.1 x.2 a) a) = e := by
    intro l
    induction l with
    | nil => intro a _ h; exact h
    | cons y l ih =>
      intro a hl ha
      rw [List.foldl_cons]
      apply ih _ fun x hx => hl x (List.mem_cons_of_mem _ hx)
      unfold fEos fInit at *
      rw [Function.update_of_ne, ha]
      have := hl y List.mem_cons_self
      omega
  apply this _ _ hlast
  simp [fEos, fInit]

/-- C122: material 1 is element 0 of the C array (so `nmat` materials numbered from 1 use exactly the elements below
`nmat` that `init_sg_eos` allocated). -/
theorem C122_materials_in_range {E : Type*} (nmat k : Int) (hk : 1 ≤ k ∧ k ≤ nmat) (e : E) (arr : Int → E) (i : Int)
    (hi : fInit k e arr i ≠ arr i) : 0 ≤ i ∧ i < nmat := by
  by_contra hc
  apply hi
  unfold fInit
  rw [Function.update_of_ne]
  omega

section mods
variable [Field K] [LinearOrder K] [IsStrictOrderedRing K]

/-- C122: the modifier arrays of a Fortran initialisation are optional and never changed, and the EOS stored is the one
the arrays ask for: absent arrays mean no modifiers; otherwise shift, scale and ramp as documented
(`CApi.specDesc`, as for C in C27). So the same call repeated with the same arrays stores the same EOS. -/
theorem C122_modifiers (σ : K) (rho0 : CApi.Desc K → K) (rmid r1 : CApi.Desc K → K → K → K → K)
    (enabled : Option (Nat → Int)) (vals : Option (Nat → K)) :
    let r := fInitSg σ rho0 rmid r1 enabled vals
    r.2 = vals ∧ (enabled = none → r.1 = .base) ∧
    ∀ en v, enabled = some en → vals = some v →
      r.1 = CApi.specDesc (en 0 == 1) (en 1 == 1) (v 0) (v 1)
        (if en 3 = 1 then
          some (CApi.pAlpha σ rho0 rmid r1 (CApi.specDesc (en 0 == 1) (en 1 == 1) (v 0) (v 1) none)
            (v 2) (v 3) (v 4))
        else if en 2 = 1 then some (v 2, v 3, v 4, v 5) else none) := by
  refine ⟨rfl, ?_, ?_⟩
  · rintro rfl
    simp [fInitSg, CApi.C27_modifiers, CApi.specDesc]
  · rintro en v rfl rfl
    simp only [fInitSg, Option.getD_some]
    exact CApi.C27_modifiers σ rho0 rmid r1 en v

end mods

/-- C122 is violated by the initialiser of CarnahanStarling: it hands the caller's arrays to C, which overwrites the
P-alpha parameters by ramp parameters; the same call repeated stores another EOS. -/
theorem C122_carnahan_violated (rmid r1 : CApi.Desc ℚ → ℚ → ℚ → ℚ → ℚ) (vals : Nat → ℚ) (h2 : vals 2 = 4)
    (enabled : Nat → Int) (h3 : enabled 3 = 1) (h0 : enabled 0 = 0) (h1 : enabled 1 = 0) :
    let σ : ℚ := 1 / 10 ^ 100
    let f := fInitSgCS σ (fun _ => 2) rmid r1 enabled vals
    let g := fInitSgCS σ (fun _ => 2) rmid r1 enabled f.2
    f.2 2 ≠ vals 2 ∧ f.1 ≠ g.1 :=
  CApi.C27_repeatable_violated rmid r1 vals h2 enabled h3 h0 h1

/-- C122: the Spiner initialisers use the split passed, or 0 (the total table) when it is absent. -/
theorem C122_split : fSplitSpiner none = 0 ∧ ∀ s, fSplitSpiner (some s) = s := ⟨rfl, fun _ => rfl⟩

/-- C122 is violated by the EOSPAC initialiser: when the optional `split` is absent, what reaches C is undefined: any
value is possible. -/
theorem C122_eospac_split_violated (v : Int) : ∃ junk, fSplitEospac junk none = v := ⟨v, rfl⟩

/-! ## Mixed cells -/

/-- C122 (partial): the mixed-cell call finds the entry of cell `i`, material `j` of a whole array exactly when the cell
dimension passed is the first extent of that array (or there is one material): the arrays of mass, volume and energy
fractions must have `cell_dim` rows, not `ncell`. Missing: sections. -/
theorem C122_fractions_partial (a : Arr2) (hc : Contig2 a) (cellDim nmat : Nat) (hm : 2 ≤ nmat) :
    (∀ i j, 1 ≤ i → 1 ≤ j → j ≤ nmat → fracAt a cellDim (i - 1) (j - 1) = f2 a i j) ↔ cellDim = a.n1 := by
  obtain ⟨c1, c2⟩ := hc
  constructor
  · intro h
    have := h 1 2 (by omega) (by omega) hm
    simp only [fracAt, f2, c1, c2] at this
    push_cast at this
    omega
  · rintro rfl i j hi hj _
    simp only [fracAt, f2, c1, c2]
    push_cast [Nat.cast_sub hi, Nat.cast_sub hj]
    ring

example : Contig2 ⟨100, 1, 7, 7, 3⟩ := ⟨rfl, rfl⟩

/-! ## Kokkos -/

/-- C122: a host program that leaves Kokkos to this library can initialise, use and finalise once. -/
theorem C122_kokkos_once : (kInit .off).bind kFinalizeF = some .down := rfl

/-- C122: with the C function and `own_kokkos = 0`, a host program that runs Kokkos itself keeps it running, over any
number of initialise/finalise rounds. -/
theorem C122_kokkos_c (n : Nat) :
    Nat.rec (motive := fun _ => Option Runtime) (some .on) (fun _ s => (s.bind kInit).bind (kFinalize false)) n
      = some .on := by
  induction n with
  | zero => rfl
  | succ n ih => show ((Nat.rec (motive := fun _ => Option Runtime) _ _ n).bind kInit).bind _ = _; rw [ih]; rfl

/-- C122 is violated in Fortran: `finalize_sg_eos_f` shuts down a Kokkos that the host program started, and a second
round (or a second set of materials) then fails. -/
theorem C122_kokkos_violated : (kInit .on).bind kFinalizeF = some .down ∧
    (((kInit .on).bind kFinalizeF).bind kInit) = none ∧
    (((kInit .on).bind kInit).bind kFinalizeF).bind kFinalizeF = none := ⟨rfl, rfl, rfl⟩

end Verif.Props.Fortran
