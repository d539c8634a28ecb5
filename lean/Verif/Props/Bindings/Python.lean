import Verif.Spec.Bindings
import Verif.Props.Fill
import Verif.Model.Eos.Gases
import Mathlib.Tactic.Ring
import Mathlib.Tactic.Linarith
import Mathlib.Tactic.NormNum

/-!
# Python array calls and Python `FillEos`
-/

set_option linter.unusedSectionVars false
set_option linter.unusedVariables false

namespace Verif.Props.Python

open Verif.Bind Verif.Spec.Bindings Verif.Mods

variable {K : Type*}

theorem storeRow_apply (nl : Nat) (p : Int) (l : Nat → K) (m : Mem K) (x : Int) :
    (∀ j < nl, x ≠ p + j) → storeRow nl p l m x = m x := by
  unfold storeRow
  induction nl with
  | zero => intro _; rfl
  | succ n ih =>
    intro h
    rw [forN_succ, Function.update_of_ne (h n (by omega)), ih (fun j hj => h j (by omega))]

theorem storeRow_at (nl : Nat) (p : Int) (l : Nat → K) (m : Mem K) (j : Nat) (hj : j < nl) :
    storeRow nl p l m (p + j) = l j := by
  unfold storeRow
  induction nl with
  | zero => omega
  | succ n ih =>
    rw [forN_succ, Function.update_apply]
    by_cases h : p + (j : Int) = p + (n : Int)
    · have : j = n := by omega
      subst this; simp
    · rw [if_neg h, ih (by omega)]

/-- One iteration, on addresses. -/
theorem vecBody_spec (q : Query K) (nl : Nat) (hq : UsesOnly nl q) (a b out : View) (L : View2)
    (hs : L.s1 = 1 ∨ nl ≤ 1) (m : Mem K) (i : Nat) (ho : OwnRow nl out L i) :
    let m' := vecBody q nl a.at b.at out.at L.row m i
    m' (np1 out i) = (q (m (np1 a i)) (m (np1 b i)) fun j => m (np2 L i j)).1 ∧
    (∀ j < nl, m' (np2 L i j) = (q (m (np1 a i)) (m (np1 b i)) fun j => m (np2 L i j)).2 j) ∧
    ∀ x, ¬ Writes nl out L i x → m' x = m x := by
  have ea : ∀ v : View, v.at i = np1 v i := fun v => by unfold View.at np1; ring
  have er : ∀ j < nl, L.row i + (j : Int) = np2 L i j := by
    intro j hj
    unfold View2.row np2
    rcases hs with h | h
    · rw [h]; ring
    · have : j = 0 := by omega
      subst this; simp; ring
  have hqq := hq (m (np1 a i)) (m (np1 b i)) (fun j => m (L.row i + j)) (fun j => m (np2 L i j))
    (fun j hj => by show m _ = m _; rw [er j hj])
  refine ⟨?_, ?_, ?_⟩
  · unfold vecBody
    simp only [ea, Function.update_self]
    exact hqq.1
  · intro j hj
    unfold vecBody
    simp only [ea]
    rw [Function.update_of_ne (ho.1 j hj), ← er j hj, storeRow_at _ _ _ _ _ hj]
    exact hqq.2 j hj
  · intro x hx
    unfold vecBody
    simp only [ea]
    have h1 : x ≠ np1 out i := fun h => hx (Or.inl h)
    rw [Function.update_of_ne h1, storeRow_apply]
    intro j hj h
    exact hx (Or.inr ⟨j, hj, by rw [h, er j hj]⟩)

/-- The general loop theorem: any order of the points. -/
theorem vecOrd_spec (q : Query K) (nl : Nat) (hq : UsesOnly nl q) (a b out : View) (L : View2)
    (hs : L.s1 = 1 ∨ nl ≤ 1) (m : Mem K) (ord : List Nat) (ho : ∀ i ∈ ord, OwnRow nl out L i)
    (hp : ord.Pairwise (Apart nl a b out L)) :
    let m' := vecOrd q nl ord a.at b.at out.at L.row m
    (∀ i ∈ ord, m' (np1 out i) = (q (m (np1 a i)) (m (np1 b i)) fun j => m (np2 L i j)).1) ∧
    (∀ i ∈ ord, ∀ j < nl, m' (np2 L i j) = (q (m (np1 a i)) (m (np1 b i)) fun j => m (np2 L i j)).2 j) ∧
    ∀ x, (∀ i ∈ ord, ¬ Writes nl out L i x) → m' x = m x := by
  induction ord generalizing m with
  | nil => exact ⟨by simp, by simp, fun x _ => rfl⟩
  | cons k ord ih =>
    have hb := vecBody_spec q nl hq a b out L hs m k (ho k List.mem_cons_self)
    rw [List.pairwise_cons] at hp
    obtain ⟨i1, i2, i3⟩ := ih (vecBody q nl a.at b.at out.at L.row m k)
      (fun i hi => ho i (List.mem_cons_of_mem _ hi)) hp.2
    obtain ⟨b1, b2, b3⟩ := hb
    have hun : ∀ x, Writes nl out L k x → ∀ i ∈ ord, ¬ Writes nl out L i x :=
      fun x hx i hi => (hp.1 i hi x hx).2
    have hrd : ∀ i ∈ ord, ∀ x, Reads nl a b L i x → vecBody q nl a.at b.at out.at L.row m k x = m x :=
      fun i hi x hx => b3 x fun hw => (hp.1 i hi x hw).1 hx
    have hqe : ∀ i ∈ ord, (q (vecBody q nl a.at b.at out.at L.row m k (np1 a i))
          (vecBody q nl a.at b.at out.at L.row m k (np1 b i))
          fun j => vecBody q nl a.at b.at out.at L.row m k (np2 L i j)).1 =
        (q (m (np1 a i)) (m (np1 b i)) fun j => m (np2 L i j)).1 ∧
        ∀ j < nl, (q (vecBody q nl a.at b.at out.at L.row m k (np1 a i))
          (vecBody q nl a.at b.at out.at L.row m k (np1 b i))
          fun j => vecBody q nl a.at b.at out.at L.row m k (np2 L i j)).2 j =
        (q (m (np1 a i)) (m (np1 b i)) fun j => m (np2 L i j)).2 j := by
      intro i hi
      rw [hrd i hi _ (Or.inl rfl), hrd i hi _ (Or.inr (Or.inl rfl))]
      exact hq _ _ _ _ fun j hj => hrd i hi _ (Or.inr (Or.inr ⟨j, hj, rfl⟩))
    refine ⟨?_, ?_, ?_⟩
    · intro i hi
      rcases List.mem_cons.1 hi with rfl | hi
      · show vecOrd q nl ord a.at b.at out.at L.row _ _ = _
        rw [i3 _ (hun _ (Or.inl rfl)), b1]
      · show vecOrd q nl ord a.at b.at out.at L.row _ _ = _
        rw [i1 i hi, (hqe i hi).1]
    · intro i hi j hj
      rcases List.mem_cons.1 hi with rfl | hi
      · show vecOrd q nl ord a.at b.at out.at L.row _ _ = _
        rw [i3 _ (hun _ (Or.inr ⟨j, hj, rfl⟩)), b2 j hj]
      · show vecOrd q nl ord a.at b.at out.at L.row _ _ = _
        rw [i2 i hi j hj, (hqe i hi).2 j hj]
    · intro x hx
      show vecOrd q nl ord a.at b.at out.at L.row _ _ = _
      rw [i3 x fun i hi => hx i (List.mem_cons_of_mem _ hi), b3 x (hx k List.mem_cons_self)]

/-- C120 (partial): a Python array query is the scalar query at every point and touches nothing else. The arrays may
have any strides (slices, reversed, broadcast inputs); the output may be one of the inputs or overlap them as long as
what a point writes is not used by a later point. Missing: it needs the other arrays to be at least as long as the
first, and rows of lambdas to be contiguous (or at most one value per row); see the `_violated` theorems. -/
theorem C120_elementwise_partial (q : Query K) (nl : Nat) (hq : UsesOnly nl q) (a b out : View) (L : View2)
    (hb : a.len ≤ b.len) (hout : a.len ≤ out.len) (hL : nl = 0 ∨ a.len ≤ L.n0 ∧ nl ≤ L.n1)
    (hs : L.s1 = 1 ∨ nl ≤ 1) (ho : ∀ i < a.len, OwnRow nl out L i)
    (hp : ∀ i k, i < k → k < a.len → Apart nl a b out L i k) (m : Mem K) :
    Elementwise q nl a.len a b out L m (pyVec q nl a b out L m) := by
  have := vecOrd_spec q nl hq a b out L hs m (List.range a.len) (fun i hi => ho i (List.mem_range.1 hi)) (by
    refine List.Pairwise.imp_of_mem ?_ (List.pairwise_lt_range (n := a.len))
    intro i k hi hk hik
    exact hp i k hik (List.mem_range.1 hk))
  simpa [Elementwise, pyVec, vecLoop] using this

/-- C120: in a build with a parallel host loop the order of the points does not matter if no point writes what another
one uses. -/
theorem C120_any_order (q : Query K) (nl : Nat) (hq : UsesOnly nl q) (a b out : View) (L : View2)
    (hs : L.s1 = 1 ∨ nl ≤ 1) (ho : ∀ i < a.len, OwnRow nl out L i)
    (hp : ∀ i k, i ≠ k → i < a.len → k < a.len → Apart nl a b out L i k) (ord : List Nat)
    (hord : ord.Perm (List.range a.len)) (m : Mem K) :
    Elementwise q nl a.len a b out L m (pyVecOrd q nl ord a b out L m) := by
  have hmem : ∀ i, i ∈ ord ↔ i < a.len := fun i => by rw [hord.mem_iff, List.mem_range]
  have := vecOrd_spec q nl hq a b out L hs m ord (fun i hi => ho i ((hmem i).1 hi)) (by
    have hn : ord.Nodup := hord.symm.nodup List.nodup_range
    refine List.Pairwise.imp_of_mem ?_ hn
    intro i k hi hk hik
    exact hp i k hik ((hmem i).1 hi) ((hmem k).1 hk))
  simpa [Elementwise, pyVecOrd, hmem] using this

/-- The hypotheses of `C120_elementwise_partial` are met in place (the output array is the first input), on a reversed
slice with three points and two lambdas each. -/
example : let a : View := ⟨10, -2, 3⟩
    let b : View := ⟨20, 0, 3⟩
    let L : View2 := ⟨30, 5, 1, 3, 2⟩
    (∀ i < a.len, OwnRow 2 a L i) ∧ ∀ i k, i < k → k < a.len → Apart 2 a b a L i k := by
  refine ⟨?_, ?_⟩
  · intro i hi
    simp only [] at hi
    refine ⟨fun j hj => by simp only [np1, np2]; omega, fun j hj j' hj' h => by simp only [np2] at h; omega⟩
  · intro i k hik hk x hx
    simp only [] at hk
    simp only [Writes, Reads, np1, np2] at *
    refine ⟨?_, ?_⟩
    · rintro (h | h | ⟨j, hj, h⟩) <;> rcases hx with hx | ⟨j', hj', hx⟩ <;> omega
    · rintro (h | ⟨j, hj, h⟩) <;> rcases hx with hx | ⟨j', hj', hx⟩ <;> omega

/-- C120 is violated when the output array is shorter than the first input: an address outside all arrays is
overwritten (here one `Real` after the output array). -/
theorem C120_short_output_violated : ∃ (q : Query ℤ) (a b out : View) (m : Mem ℤ) (x : Int),
    out.len < a.len ∧ (∀ i < a.len, x ≠ np1 a i) ∧ (∀ i < b.len, x ≠ np1 b i) ∧ (∀ i < out.len, x ≠ np1 out i) ∧
    pyVec q 0 a b out ⟨0, 0, 0, 0, 0⟩ m x ≠ m x := by
  refine ⟨fun x y l => (x + y, l), ⟨0, 1, 2⟩, ⟨10, 1, 2⟩, ⟨20, 1, 1⟩, fun _ => 7, 21, by decide, ?_, ?_, ?_, ?_⟩
  · intro i hi; simp only [np1] at *; omega
  · intro i hi; simp only [np1] at *; omega
  · intro i hi; simp only [np1] at *; omega
  · decide

/-- C120 is violated when the second input is shorter than the first: the answers depend on memory outside all the
arrays. -/
theorem C120_short_input_violated : ∃ (q : Query ℤ) (a b out : View) (m m' : Mem ℤ) (i : Nat),
    b.len < a.len ∧ a.len ≤ out.len ∧ i < out.len ∧
    (∀ x, (∃ i < a.len, x = np1 a i) ∨ (∃ i < b.len, x = np1 b i) ∨ (∃ i < out.len, x = np1 out i) → m x = m' x) ∧
    pyVec q 0 a b out ⟨0, 0, 0, 0, 0⟩ m (np1 out i) ≠ pyVec q 0 a b out ⟨0, 0, 0, 0, 0⟩ m' (np1 out i) := by
  refine ⟨fun x y l => (x + y, l), ⟨0, 1, 2⟩, ⟨10, 1, 1⟩, ⟨20, 1, 2⟩, fun _ => 7, fun x => if x = 11 then 8 else 7, 1,
    by decide, by decide, by decide, ?_, by decide⟩
  intro x hx
  show 7 = if x = 11 then (8 : ℤ) else 7
  rw [if_neg]
  simp only [np1] at hx
  rcases hx with ⟨i, hi, h⟩ | ⟨i, hi, h⟩ | ⟨i, hi, h⟩ <;> omega

/-- C120 is violated for lambdas whose rows are not contiguous, such as `numpy.asfortranarray` or a transposed array:
point 0 gets value 0 of point 1 as its second lambda value. -/
theorem C120_lambda_order_violated : ∃ (q : Query ℤ) (a b out : View) (L : View2) (m : Mem ℤ),
    UsesOnly 2 q ∧ a.len ≤ b.len ∧ a.len ≤ out.len ∧ a.len ≤ L.n0 ∧ 2 ≤ L.n1 ∧
    (∀ i < a.len, OwnRow 2 out L i) ∧ (∀ i k, i ≠ k → i < a.len → k < a.len → Apart 2 a b out L i k) ∧
    ¬ Elementwise q 2 a.len a b out L m (pyVec q 2 a b out L m) := by
  refine ⟨fun x y l => (l 1, l), ⟨0, 1, 2⟩, ⟨10, 1, 2⟩, ⟨20, 1, 2⟩, ⟨30, 1, 2, 2, 2⟩, fun x => x, ?_, by decide, by decide,
    by decide, by decide, ?_, ?_, ?_⟩
  · intro x y l l' h
    exact ⟨h 1 (by omega), h⟩
  · intro i hi
    simp only [] at hi
    refine ⟨fun j hj => by simp only [np1, np2]; omega, fun j hj j' hj' h => by simp only [np2] at h; omega⟩
  · intro i k hik hi hk x hx
    simp only [] at hi hk
    simp only [Writes, Reads, np1, np2] at *
    refine ⟨?_, ?_⟩
    · rintro (h | h | ⟨j, hj, h⟩) <;> rcases hx with hx | ⟨j', hj', hx⟩ <;> omega
    · rintro (h | ⟨j, hj, h⟩) <;> rcases hx with hx | ⟨j', hj', hx⟩ <;> omega
  · intro h
    have := h.1 0 (by decide)
    revert this
    decide

theorem conv_apply (v : View) (fresh : Int) (m m' : Mem K) (n : Nat) (x : Int) (hx : ∀ i < n, x ≠ fresh + i) :
    forN n (fun m' i => Function.update m' (fresh + (i : Int)) (m (v.at i))) m' x = m' x := by
  induction n with
  | zero => rfl
  | succ n ih => rw [forN_succ, Function.update_of_ne (hx n (by omega)), ih fun i hi => hx i (by omega)]

/-- C120 is violated for an output array of another element type (say `float32`): the call fills a converted copy and
the caller's array keeps its old contents, whatever the query is. No lambdas; the copy is new memory. -/
theorem C120_dtype_violated (q : Query K) (fresh : Int) (a b out : View) (hlen : a.len ≤ out.len) (L : View2) (m : Mem K)
    (hf : ∀ i < out.len, ∀ k < out.len, np1 out i ≠ fresh + k) (i : Nat) (hi : i < out.len) :
    pyVecOut false fresh q 0 a b out L m (np1 out i) = m (np1 out i) := by
  have key : ∀ (ord : List Nat) (m' : Mem K), (∀ k ∈ ord, k < out.len) →
      vecOrd q 0 ord a.at b.at (View.at ⟨fresh, 1, out.len⟩) L.row m' (np1 out i) = m' (np1 out i) := by
    intro ord
    induction ord with
    | nil => intro m' _; rfl
    | cons k ord ih =>
      intro m' h
      show vecOrd q 0 ord _ _ _ _ _ _ = _
      rw [ih _ fun k hk => h k (List.mem_cons_of_mem _ hk)]
      unfold vecBody
      rw [Function.update_of_ne, storeRow_apply _ _ _ _ _ (fun j hj => absurd hj (by omega))]
      have := hf i hi k (h k List.mem_cons_self)
      simpa [View.at] using this
  unfold pyVecOut convArg
  simp only [Bool.false_eq_true, if_false]
  unfold pyVec vecLoop
  rw [key _ _ fun k hk => lt_of_lt_of_le (List.mem_range.1 hk) hlen]
  exact conv_apply out fresh m m out.len _ fun k hk => hf i hi k hk

/-- ... while an array of doubles is filled in place, as in `C120_elementwise_partial`. -/
theorem C120_dtype_double (q : Query K) (nl : Nat) (fresh : Int) (a b out : View) (L : View2) (m : Mem K) :
    pyVecOut true fresh q nl a b out L m = pyVec q nl a b out L m := rfl

/-- C120 (partial): the scalar query with a contiguous lambda array reads exactly the values of that array and leaves
the query's values in it; nothing else changes. Missing: strided lambda arrays. -/
theorem C120_scalar_partial (q : Query K) (nl : Nat) (hq : UsesOnly nl q) (x y : K) (lam : View)
    (hs : lam.stride = 1 ∨ nl ≤ 1) (m : Mem K) :
    (pyScalar q nl x y lam m).1 = (q x y fun j => m (np1 lam j)).1 ∧
    (∀ j < nl, (pyScalar q nl x y lam m).2 (np1 lam j) = (q x y fun j => m (np1 lam j)).2 j) ∧
    ∀ z, (∀ j < nl, z ≠ np1 lam j) → (pyScalar q nl x y lam m).2 z = m z := by
  have er : ∀ j < nl, lam.base + (j : Int) = np1 lam j := by
    intro j hj
    unfold np1
    rcases hs with h | h
    · rw [h]; ring
    · have : j = 0 := by omega
      subst this; simp
  have h := hq x y (fun j => m (lam.base + j)) (fun j => m (np1 lam j)) fun j hj => by
    show m _ = m _; rw [er j hj]
  unfold pyScalar
  refine ⟨h.1, fun j hj => ?_, fun z hz => ?_⟩
  · rw [← er j hj]
    show storeRow _ _ _ _ _ = _
    rw [storeRow_at _ _ _ _ _ hj]
    simpa [er j hj] using h.2 j hj
  · show storeRow _ _ _ _ _ = _
    rw [storeRow_apply]
    intro j hj hc
    exact hz j hj (by rw [hc, er j hj])

/-- C120 is violated for a strided one-dimensional lambda, such as a column of a two-dimensional array. -/
theorem C120_scalar_stride_violated : ∃ (q : Query ℤ) (lam : View) (m : Mem ℤ), UsesOnly 2 q ∧ lam.len = 2 ∧
    (pyScalar q 2 0 0 lam m).1 ≠ (q 0 0 fun j => m (np1 lam j)).1 := by
  refine ⟨fun _ _ l => (l 1, l), ⟨0, 3, 2⟩, fun x => x, fun _ _ l l' h => ⟨h 1 (by omega), h⟩, rfl, by decide⟩

/-! ## C121 -/

/-- C121: with `output` given, Python's `FillEos` is the C++ `FillEos` on exactly the values passed by keyword, with
that output set; keywords not passed are NaN, and every quantity not asked for comes back as passed when the EOS
honours its flags (C51). -/
theorem C121_explicit_output (fill : Flags → Thermo K → Option (Thermo K))
    (hframe : ∀ fl s s', fill fl s = some s' → Spec.InputsKept fl s s')
    (nan : K) (k : KwArgs K) (o : Flags) (ho : k.output = some o) :
    (∀ s : Thermo K, (∀ v, k.rho = some v → s.rho = v) → (∀ v, k.temp = some v → s.temp = v) →
      (∀ v, k.sie = some v → s.sie = v) → (∀ v, k.press = some v → s.press = v) → (∀ v, k.cv = some v → s.cv = v) →
      (∀ v, k.bmod = some v → s.bmod = v) →
      (k.rho = none → s.rho = nan) → (k.temp = none → s.temp = nan) → (k.sie = none → s.sie = nan) →
      (k.press = none → s.press = nan) → (k.cv = none → s.cv = nan) → (k.bmod = none → s.bmod = nan) →
      pyFill fill nan k = fill o s) ∧
    ∀ s', pyFill fill nan k = some s' →
      (∀ v, k.rho = some v → o.rho = false → s'.rho = v) ∧ (∀ v, k.temp = some v → o.temp = false → s'.temp = v) ∧
      (∀ v, k.sie = some v → o.sie = false → s'.sie = v) ∧ (∀ v, k.press = some v → o.press = false → s'.press = v) ∧
      (∀ v, k.cv = some v → o.cv = false → s'.cv = v) ∧ (∀ v, k.bmod = some v → o.bmod = false → s'.bmod = v) := by
  have hout : kwOutput k = o := by unfold kwOutput; rw [ho]; rfl
  have g : ∀ (w : Option K) (z : K), (∀ v, w = some v → z = v) → (w = none → z = nan) → w.getD nan = z := by
    intro w z h1 h2
    cases w with
    | none => exact (h2 rfl).symm
    | some v => exact (h1 v rfl).symm
  refine ⟨?_, ?_⟩
  · intro s h1 h2 h3 h4 h5 h6 g1 g2 g3 g4 g5 g6
    unfold pyFill kwState
    rw [hout, g _ _ h1 g1, g _ _ h2 g2, g _ _ h3 g3, g _ _ h4 g4, g _ _ h5 g5, g _ _ h6 g6]
  · intro s' h
    unfold pyFill at h
    rw [hout] at h
    obtain ⟨f1, f2, f3, f4, f5, f6⟩ := hframe _ _ _ h
    refine ⟨?_, ?_, ?_, ?_, ?_, ?_⟩ <;> intro v hv ho'
    · rw [f1 ho']; simp [kwState, hv]
    · rw [f2 ho']; simp [kwState, hv]
    · rw [f3 ho']; simp [kwState, hv]
    · rw [f4 ho']; simp [kwState, hv]
    · rw [f5 ho']; simp [kwState, hv]
    · rw [f6 ho']; simp [kwState, hv]

/-- Every gas-type EOS meets the hypothesis of the two theorems around this line, e.g. the ideal gas. -/
example (p : Gases.Ideal) (n : Base.Num ℝ) : ∀ fl s s', p.fill n fl s = some s' → Spec.InputsKept fl s s' :=
  fun fl s s' h => (Base.C51_gas_inputs_kept _ _ _ fl s s' h).1

/-- C121 is violated without `output`, for every EOS that honours its flags: the keywords that are passed are flagged
as outputs instead of the others, so a quantity that was not passed is never computed: it comes back as NaN. -/
theorem C121_auto_output_violated (fill : Flags → Thermo K → Option (Thermo K))
    (hframe : ∀ fl s s', fill fl s = some s' → Spec.InputsKept fl s s')
    (nan : K) (k : KwArgs K) (ho : k.output = none) (s' : Thermo K) (h : pyFill fill nan k = some s') :
    (k.rho = none → s'.rho = nan) ∧ (k.temp = none → s'.temp = nan) ∧ (k.sie = none → s'.sie = nan) ∧
    (k.press = none → s'.press = nan) ∧ (k.cv = none → s'.cv = nan) ∧ (k.bmod = none → s'.bmod = nan) := by
  unfold pyFill kwOutput kwState at h
  rw [ho] at h
  obtain ⟨f1, f2, f3, f4, f5, f6⟩ := hframe _ _ _ h
  refine ⟨?_, ?_, ?_, ?_, ?_, ?_⟩ <;> intro hv
  · rw [f1 (by simp [hv])]; simp [hv]
  · rw [f2 (by simp [hv])]; simp [hv]
  · rw [f3 (by simp [hv])]; simp [hv]
  · rw [f4 (by simp [hv])]; simp [hv]
  · rw [f5 (by simp [hv])]; simp [hv]
  · rw [f6 (by simp [hv])]; simp [hv]

/-- ... and the quantities that were passed do not survive either: for an ideal gas and `FillEos(rho=.., sie=..)` the
result is the same whatever density and energy were passed (they are recomputed from the NaN pressure and
temperature). -/
theorem C121_inputs_lost_violated (p : Gases.Ideal) (n : Base.Num ℝ) (nan r e r' e' : ℝ) :
    pyFill (p.fill n) nan ⟨some r, none, some e, none, none, none, none⟩ =
      pyFill (p.fill n) nan ⟨some r', none, some e', none, none, none, none⟩ ∧
    ∃ s, pyFill (p.fill n) nan ⟨some r, none, some e, none, none, none, none⟩ = some s := by
  refine ⟨rfl, ?_⟩
  simp [pyFill, kwOutput, kwState, Gases.Ideal.fill, Base.fillGas]

end Verif.Props.Python
