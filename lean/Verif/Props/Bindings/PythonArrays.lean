import Verif.Spec.BindingsArrays
import Verif.Props.Bindings.Python

/-! # C120, C121: Python array calls with scratch memory, `FillEos` on arrays -/

set_option linter.unusedSectionVars false
set_option linter.unusedVariables false

namespace Verif.Props.Python

open Verif.Bind Verif.Spec.Bindings Verif.Mods

variable {K : Type*}

/-- A loop whose passes use memory apart from each other leaves at each place what the pass that owns it makes of the old memory. -/
theorem apart_loop {body : Mem K → Nat → Mem K} {C : Nat → Int → Prop}
    (frame : ∀ m i x, ¬ C i x → body m i x = m x)
    (loc : ∀ m m' i, (∀ x, C i x → m x = m' x) → ∀ x, C i x → body m i x = body m' i x)
    (ord : List Nat) (hp : ord.Pairwise fun i k => ∀ x, C i x → ¬ C k x) (m : Mem K) :
    (∀ i ∈ ord, ∀ x, C i x → ord.foldl body m x = body m i x) ∧
    ∀ x, (∀ i ∈ ord, ¬ C i x) → ord.foldl body m x = m x := by
  induction ord generalizing m with
  | nil => exact ⟨by simp, fun x _ => rfl⟩
  | cons k ord ih =>
    rw [List.pairwise_cons] at hp
    obtain ⟨h1, h2⟩ := ih hp.2 (body m k)
    refine ⟨?_, ?_⟩
    · intro i hi x hx
      rw [List.foldl_cons]
      rcases List.mem_cons.1 hi with rfl | hi
      · exact h2 x fun j hj => hp.1 j hj x hx
      · rw [h1 i hi x hx]
        exact loc _ _ i (fun y hy => frame m k y fun hk => hp.1 i hi y hk hy) x hx
    · intro x hx
      rw [List.foldl_cons, h2 x fun i hi => hx i (List.mem_cons_of_mem _ hi), frame m k x (hx k List.mem_cons_self)]

theorem store6_other {adr : Fin 6 → Int} {v : Fin 6 → K} {m : Mem K} {x : Int} (h : ∀ k, x ≠ adr k) : store6 adr v m x = m x := by
  unfold store6
  have : ∀ (l : List (Fin 6)) (m : Mem K), l.foldl (fun m k => Function.update m (adr k) (v k)) m x = m x := by
    intro l
    induction l with
    | nil => intro m; rfl
    | cons k l ih => intro m; rw [List.foldl_cons, ih, Function.update_of_ne (h k)]
  exact this _ m

theorem store6_at {adr : Fin 6 → Int} (hadr : ∀ k k', adr k = adr k' → k = k') {v : Fin 6 → K} {m : Mem K} (k : Fin 6) :
    store6 adr v m (adr k) = v k := by
  unfold store6
  have : ∀ (l : List (Fin 6)) (m : Mem K), (k ∈ l ∨ m (adr k) = v k) →
      l.foldl (fun m k => Function.update m (adr k) (v k)) m (adr k) = v k := by
    intro l
    induction l with
    | nil => intro m h; rcases h with h | h; · simp at h
             · exact h
    | cons a l ih =>
      intro m h
      rw [List.foldl_cons]
      apply ih
      by_cases ha : a = k
      · right; rw [ha, Function.update_self]
      · rcases h with h | h
        · rcases List.mem_cons.1 h with h | h
          · exact absurd h.symm ha
          · left; exact h
        · right; rw [Function.update_of_ne (fun hc => ha (hadr _ _ hc).symm)]; exact h
  exact this _ m (Or.inl (List.mem_finRange k))

/-- One pass of an array `FillEos`. -/
theorem fillBody_spec (f : FillQuery K) (nl : Nat) (hf : FillUsesOnly nl f) (arr : Fin 6 → View) (L : View2)
    (hs : L.s1 = 1 ∨ nl ≤ 1) (m : Mem K) (i : Nat) (ho : OwnCells nl arr L i) :
    let m' := fillBody f nl (fun k => (arr k).at) L.row m i
    (∀ k, m' (np1 (arr k) i) = (f (fun k => m (np1 (arr k) i)) fun j => m (np2 L i j)).1 k) ∧
    (∀ j < nl, m' (np2 L i j) = (f (fun k => m (np1 (arr k) i)) fun j => m (np2 L i j)).2 j) ∧
    ∀ x, ¬ FillCells nl arr L i x → m' x = m x := by
  have ea : ∀ v : View, v.at i = np1 v i := fun v => by unfold View.at np1; ring
  have er : ∀ j < nl, L.row i + (j : Int) = np2 L i j := by
    intro j hj
    unfold View2.row np2
    rcases hs with h | h
    · rw [h]; ring
    · have : j = 0 := by omega
      subst this; simp; ring
  have hff := hf (fun k => m (np1 (arr k) i)) (fun j => m (L.row i + j)) (fun j => m (np2 L i j))
    (fun j hj => by show m _ = m _; rw [er j hj])
  refine ⟨?_, ?_, ?_⟩
  · intro k
    simp only [fillBody, ea]
    rw [store6_at (fun k k' h => ho.1 k k' h), hff.1]
  · intro j hj
    simp only [fillBody, ea]
    rw [store6_other (fun k => ho.2.1 k j hj), ← er j hj, storeRow_at _ _ _ _ _ hj]
    exact hff.2 j hj
  · intro x hx
    simp only [fillBody, ea]
    rw [store6_other (fun k h => hx (Or.inl ⟨k, h⟩)), storeRow_apply]
    intro j hj h
    exact hx (Or.inr ⟨j, hj, by rw [h, er j hj]⟩)

/-- C121: `FillEos` on arrays is the scalar `FillEos` at every point, with the six numbers of that point as its arguments and
results, and touches nothing else; for all strides, in any order of the points. (As for `C120_elementwise_partial` the other arrays
must be as long as the first and rows of lambdas contiguous, and no two values may share memory.) -/
theorem C121_arrays_partial (f : FillQuery K) (nl : Nat) (hf : FillUsesOnly nl f) (arr : Fin 6 → View) (L : View2)
    (hlen : ∀ k, (arr 0).len ≤ (arr k).len) (hL : nl = 0 ∨ (arr 0).len ≤ L.n0 ∧ nl ≤ L.n1) (hs : L.s1 = 1 ∨ nl ≤ 1)
    (ho : ∀ i < (arr 0).len, OwnCells nl arr L i)
    (hp : ∀ i k, i < (arr 0).len → k < (arr 0).len → i ≠ k → ∀ x, FillCells nl arr L i x → ¬ FillCells nl arr L k x)
    (ord : List Nat) (hord : ord.Perm (List.range (arr 0).len)) (m : Mem K) :
    FillElementwise f nl (arr 0).len arr L m (pyFillVec f nl ord arr L m) := by
  have hmem : ∀ i, i ∈ ord ↔ i < (arr 0).len := fun i => by rw [hord.mem_iff, List.mem_range]
  have hn : ord.Nodup := hord.symm.nodup List.nodup_range
  -- guard the body so that it is framed for every index
  let body : Mem K → Nat → Mem K := fun m i =>
    if i < (arr 0).len then fillBody f nl (fun k => (arr k).at) L.row m i else m
  have bpos : ∀ m i, i < (arr 0).len → body m i = fillBody f nl (fun k => (arr k).at) L.row m i := fun m i h => if_pos h
  have bneg : ∀ m i, ¬ i < (arr 0).len → body m i = m := fun m i h => if_neg h
  have hbody : pyFillVec f nl ord arr L m = ord.foldl body m := by
    unfold pyFillVec
    have : ∀ (l : List Nat) (m : Mem K), (∀ i ∈ l, i < (arr 0).len) →
        l.foldl (fillBody f nl (fun k => (arr k).at) L.row) m = l.foldl body m := by
      intro l
      induction l with
      | nil => intro m _; rfl
      | cons a l ih =>
        intro m h
        rw [List.foldl_cons, List.foldl_cons, ih _ fun i hi => h i (List.mem_cons_of_mem _ hi)]
        congr 1
        exact (bpos m a (h a List.mem_cons_self)).symm
    exact this ord m fun i hi => (hmem i).1 hi
  obtain ⟨h1, h2⟩ := apart_loop (body := body) (C := FillCells nl arr L)
    (by
      intro m i x hx
      by_cases hi : i < (arr 0).len
      · rw [bpos m i hi]; exact (fillBody_spec f nl hf arr L hs m i (ho i hi)).2.2 x hx
      · rw [bneg m i hi])
    (by
      intro m m' i hmm x hx
      by_cases hi : i < (arr 0).len
      · rw [bpos m i hi, bpos m' i hi]
        obtain ⟨a1, a2, -⟩ := fillBody_spec f nl hf arr L hs m i (ho i hi)
        obtain ⟨b1, b2, -⟩ := fillBody_spec f nl hf arr L hs m' i (ho i hi)
        have e6 : (fun k => m (np1 (arr k) i)) = fun k => m' (np1 (arr k) i) :=
          funext fun k => hmm _ (Or.inl ⟨k, rfl⟩)
        have el := hf (fun k => m' (np1 (arr k) i)) (fun j => m (np2 L i j)) (fun j => m' (np2 L i j))
          (fun j hj => hmm _ (Or.inr ⟨j, hj, rfl⟩))
        rcases hx with ⟨k, rfl⟩ | ⟨j, hj, rfl⟩
        · rw [a1, b1, e6, el.1]
        · rw [a2 j hj, b2 j hj, e6, el.2 j hj]
      · rw [bneg m i hi, bneg m' i hi]; exact hmm x hx)
    ord
    (by
      refine List.Pairwise.imp_of_mem ?_ hn
      intro i k hi hk hik
      exact hp i k ((hmem i).1 hi) ((hmem k).1 hk) hik)
    m
  rw [hbody]
  refine ⟨?_, ?_, ?_⟩
  · intro i hi k
    rw [h1 i ((hmem i).2 hi) _ (Or.inl ⟨k, rfl⟩)]
    rw [bpos m i hi]
    exact (fillBody_spec f nl hf arr L hs m i (ho i hi)).1 k
  · intro i hi j hj
    rw [h1 i ((hmem i).2 hi) _ (Or.inr ⟨j, hj, rfl⟩)]
    rw [bpos m i hi]
    exact (fillBody_spec f nl hf arr L hs m i (ho i hi)).2.1 j hj
  · intro x hx
    exact h2 x fun i hi => hx i ((hmem i).1 hi)

/-- The hypotheses are met by six arrays of three points that are the columns of one table, with two lambdas per point, visited
backwards. -/
example : let arr : Fin 6 → View := fun k => ⟨k, 6, 3⟩
    let L : View2 := ⟨100, 2, 1, 3, 2⟩
    (∀ i < 3, OwnCells 2 arr L i) ∧
    (∀ i k, i < 3 → k < 3 → i ≠ k → ∀ x, FillCells 2 arr L i x → ¬ FillCells 2 arr L k x) ∧ [2, 1, 0].Perm (List.range 3) := by
  refine ⟨?_, ?_, by decide⟩
  · intro i hi
    refine ⟨fun k k' h => ?_, fun k j hj => ?_, fun j hj j' hj' h => ?_⟩
    · simp only [np1] at h; apply Fin.ext; omega
    · simp only [np1, np2]; have := k.2; omega
    · simp only [np2] at h; omega
  · intro i k hi hk hik x hx hy
    rcases hx with ⟨a, hx⟩ | ⟨j, hj, hx⟩ <;> rcases hy with ⟨b, hy⟩ | ⟨j', hj', hy⟩ <;>
      simp only [np1, np2] at hx hy
    · have := a.2; have := b.2; omega
    · have := a.2; omega
    · have := b.2; omega
    · omega

/-- C120: with scratch memory: if the arrays are packed, the call is what the EOS does with the raw pointers: right at every point
when the EOS is right on packed arrays (C114 for EOSPAC). A debug build stops if any of the arrays is not packed, so whatever it
returns is right. -/
theorem C120_scratch (q : Query K) (nl k : Nat) (F : RawCall K) (a b out scr : View) (L : View2)
    (hF : ∀ m : Mem K, Packed a → Packed b → Packed out →
      ElementwiseScratch q nl a.len a b out L scr.base k m (F a.base b.base out.base scr.base a.len L.row m)) (m : Mem K) :
    (∀ m', pyVecScratch true F a b out scr L m = some m' → ElementwiseScratch q nl a.len a b out L scr.base k m m') ∧
    (Packed a → Packed b → Packed out → Packed scr → ∀ checked, ∃ m', pyVecScratch checked F a b out scr L m = some m' ∧
      ElementwiseScratch q nl a.len a b out L scr.base k m m') ∧
    ((pyVecScratch true F a b out scr L m).isSome = true ↔ Packed a ∧ Packed b ∧ Packed out ∧ Packed scr) := by
  have hc : ∀ v : View, v.isContiguous = true ↔ Packed v := by
    intro v
    simp only [View.isContiguous, beq_iff_eq, Packed, np1]
    constructor
    · intro h i; rw [h]; ring
    · intro h
      have := h 1
      push_cast at this
      linarith
  refine ⟨?_, ?_, ?_⟩
  · intro m' h
    unfold pyVecScratch at h
    split_ifs at h with hh
    simp only [Bool.true_and, Bool.not_eq_true', Bool.not_eq_false, Bool.and_eq_true] at hh
    cases h
    exact hF m ((hc _).1 hh.1.1.1) ((hc _).1 hh.1.1.2) ((hc _).1 hh.1.2)
  · intro ha hb ho hs checked
    refine ⟨_, ?_, hF m ha hb ho⟩
    unfold pyVecScratch
    rw [if_neg]
    rw [(hc _).2 ha, (hc _).2 hb, (hc _).2 ho, (hc _).2 hs]; simp
  · unfold pyVecScratch
    split_ifs with hh
    · simp only [Option.isSome_none, Bool.false_eq_true, false_iff]
      rintro ⟨ha, hb, ho, hs⟩
      rw [(hc _).2 ha, (hc _).2 hb, (hc _).2 ho, (hc _).2 hs] at hh
      simp at hh
    · simp only [Option.isSome_some, true_iff]
      simp only [Bool.true_and, Bool.not_eq_true', Bool.not_eq_false, Bool.and_eq_true] at hh
      exact ⟨(hc _).1 hh.1.1.1, (hc _).1 hh.1.1.2, (hc _).1 hh.1.2, (hc _).1 hh.2⟩

/-- A raw call without use of its scratch memory: the plain loop over packed arrays. -/
def plainRaw (q : Query K) (nl : Nat) : RawCall K := fun a b out _ n row m =>
  vecLoop q nl n (fun i => a + i) (fun i => b + i) (fun i => out + i) row m

/-- It is right on packed arrays, as `C120_scratch` asks (no lambdas, three arrays apart from each other). -/
theorem plainRaw_right (q : Query K) (hq : UsesOnly 0 q) (a b out : View) (L : View2) (scr : Int)
    (hp : ∀ i k, i < k → k < a.len → Apart 0 a b out L i k) (m : Mem K) (ha : Packed a) (hb : Packed b) (ho : Packed out) :
    ElementwiseScratch q 0 a.len a b out L scr 0 m (plainRaw q 0 a.base b.base out.base scr a.len L.row m) := by
  have e : plainRaw q 0 a.base b.base out.base scr a.len L.row m = vecOrd q 0 (List.range a.len) a.at b.at out.at L.row m := by
    have : ∀ v : View, Packed v → v.at = fun i : Nat => v.base + (i : Int) := by
      intro v hv; funext i; rw [← hv i]; unfold View.at np1; ring
    rw [this a ha, this b hb, this out ho]; rfl
  rw [e]
  have := vecOrd_spec q 0 hq a b out L (Or.inr (Nat.zero_le 1)) m (List.range a.len)
    (fun i _ => ⟨fun j hj => absurd hj (Nat.not_lt_zero _), fun j hj => absurd hj (Nat.not_lt_zero _)⟩) (by
    refine List.Pairwise.imp_of_mem ?_ (List.pairwise_lt_range (n := a.len))
    intro i k hi hk hik
    exact hp i k hik (List.mem_range.1 hk))
  refine ⟨fun i hi => this.1 i (List.mem_range.2 hi), fun i hi j hj => absurd hj (Nat.not_lt_zero _), fun x hx _ => ?_⟩
  exact this.2.2 x fun i hi => hx i (List.mem_range.1 hi)

/-- C120 is violated with scratch memory in a release build: strided arrays are taken as if they were packed. Here the first input is
every second element of an array; the second answer is that of the skipped element. -/
theorem C120_scratch_stride_violated : ∃ (q : Query ℤ) (a b out scr : View) (m m' : Mem ℤ),
    UsesOnly 0 q ∧ a.len = 2 ∧ b.len = 2 ∧ out.len = 2 ∧
    pyVecScratch false (plainRaw q 0) a b out scr ⟨0, 0, 0, 0, 0⟩ m = some m' ∧
    m' (np1 out 1) ≠ (q (m (np1 a 1)) (m (np1 b 1)) fun _ => 0).1 := by
  refine ⟨fun x _ l => (x, l), ⟨0, 2, 2⟩, ⟨10, 1, 2⟩, ⟨20, 1, 2⟩, ⟨30, 1, 0⟩, fun x => x, _, ?_, rfl, rfl, rfl, rfl, ?_⟩
  · intro x y l l' _
    exact ⟨rfl, fun j hj => absurd hj (Nat.not_lt_zero _)⟩
  · simp [plainRaw, vecLoop, vecOrd, vecBody, storeRow, forN, np1, List.range_succ]

/-- C120 is violated with scratch memory in a debug build: an array of one element that was cut out of a larger one is refused for
its stride, although one element is always packed. -/
theorem C120_scratch_single_violated (F : RawCall K) (b out scr : View) (L : View2) (base s : Int) (hs : s ≠ 1) (m : Mem K) :
    pyVecScratch true F ⟨base, s, 1⟩ b out scr L m = none := by
  unfold pyVecScratch
  rw [if_pos]
  simp [View.isContiguous, hs]

/-- A raw `FillEos` without use of its scratch memory: the plain loop over packed arrays. -/
def plainFill (f : FillQuery K) (nl : Nat) : (Fin 6 → Int) → Int → Nat → (Nat → Int) → Mem K → Mem K :=
  fun adr _ n row m => (List.range n).foldl (fillBody f nl (fun k i => adr k + i) row) m

/-- C121 is violated with scratch memory (EOSPAC), in every build: `FillEos` hands strided arrays over as if they were packed, and
nothing checks it. Here the first array is every second element of a larger one, and the fill copies density to pressure. -/
theorem C121_scratch_stride_violated : ∃ (f : FillQuery ℤ) (arr : Fin 6 → View) (scr : View) (m : Mem ℤ),
    FillUsesOnly 0 f ∧ (∀ k, (arr k).len = 2) ∧
    (∀ i < 2, OwnCells 0 arr ⟨0, 0, 0, 0, 0⟩ i) ∧
    pyFillScratch (plainFill f 0) arr scr ⟨0, 0, 0, 0, 0⟩ m (np1 (arr 3) 1) ≠ (f (fun k => m (np1 (arr k) 1)) fun _ => 0).1 3 := by
  refine ⟨fun v l => (fun k => if k = 3 then v 0 else v k, l), fun k => ⟨10 * k, if k = 0 then 2 else 1, 2⟩, ⟨100, 1, 0⟩, fun x => x, ?_,
    fun k => rfl, ?_, ?_⟩
  · intro v l l' _
    exact ⟨rfl, fun j hj => absurd hj (Nat.not_lt_zero _)⟩
  · intro i hi
    refine ⟨fun k k' h => ?_, fun k j hj => absurd hj (Nat.not_lt_zero _), fun j hj => absurd hj (Nat.not_lt_zero _)⟩
    simp only [np1] at h
    apply Fin.ext
    split_ifs at h <;> omega
  · decide

end Verif.Props.Python
