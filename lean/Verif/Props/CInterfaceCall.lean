import Verif.Model.CInterfaceCall
import Verif.Props.CInterface
import Verif.Props.CSchedule

/-!
# C152: one call of `get_sg_eos`
-/

namespace Verif.CApi

variable {K : Type*} [Field K] [LinearOrder K] [IsStrictOrderedRing K]

/-- Two scratch rows agree in their first `k` entries. -/
structure RowEq (k : Nat) (r r' : Row K) : Prop where
  mats : ∀ j, j < k → r.mats j = r'.mats j
  idxs : ∀ j, j < k → r.idxs j = r'.idxs j
  vfrac : ∀ j, j < k → r.vfrac j = r'.vfrac j
  sie : ∀ j, j < k → r.sie j = r'.sie j
  temp : ∀ j, j < k → r.temp j = r'.temp j
  press : ∀ j, j < k → r.press j = r'.press j
  rho : ∀ j, j < k → r.rho j = r'.rho j

/-- The PTE solver for `k` materials reads and writes the first `k` entries of the arrays it is given (its own scratch is
cleared before; that it does not depend on it is C132). -/
def SolverLocal (S : SolverOracle K) : Prop :=
  ∀ k vs x r r', RowEq k r r' → RowEq k (S k vs x r) (S k vs x r')

theorem forN_congr {A : Type*} {n : Nat} {f g : A → Nat → A} {a : A} (h : ∀ s m, m < n → f s m = g s m) :
    forN n f a = forN n g a := by
  induction n with
  | zero => rfl
  | succ n ih => rw [forN_succ, forN_succ, ih fun s m hm => h s m (by omega), h _ n (by omega)]

theorem selectMats_congr (n : Nat) (cutoff : K) (offs : Nat → Int) (fm : Nat → K) (a a' : Nat → Nat) (b b' : Nat → Int) :
    (selectMats n cutoff offs fm a b).1 = (selectMats n cutoff offs fm a' b').1 ∧
    (∀ k, k < (selectMats n cutoff offs fm a b).1 →
      (selectMats n cutoff offs fm a b).2.1 k = (selectMats n cutoff offs fm a' b').2.1 k ∧
      (selectMats n cutoff offs fm a b).2.2 k = (selectMats n cutoff offs fm a' b').2.2 k) := by
  unfold selectMats
  induction n with
  | zero => simp
  | succ n ih =>
    rw [forN_succ, forN_succ]
    obtain ⟨h1, h2⟩ := ih
    by_cases hc : cutoff < fm n
    · rw [if_pos hc, if_pos hc]
      refine ⟨by simp only [h1], fun k hk => ?_⟩
      dsimp only at hk ⊢
      rw [← h1]
      by_cases hk' : k = (forN n (fun (s : Nat × (Nat → Nat) × (Nat → Int)) m => if cutoff < fm m
          then (s.1 + 1, Function.update s.2.1 s.1 m, Function.update s.2.2 s.1 (offs m - 1)) else s) (0, a, b)).1
      · subst hk'; simp
      · rw [Function.update_of_ne hk', Function.update_of_ne hk', Function.update_of_ne hk', Function.update_of_ne hk']
        exact h2 k (by omega)
    · rw [if_neg hc, if_neg hc]; exact ⟨h1, h2⟩

/-- What the initialisation computes depends on the mass fractions, the specific volume and the quantities with multiplier
one only: not on the rest of the cell, not on what the scratch row held. -/
theorem initFunctor_rel (ev2k : K) (n : Nat) (cutoff : K) (offs : Nat → Int) (tM sM pM : K) (c c' : Cell K) (r r' : Row K)
    (hm : c.fmass = c'.fmass) (hv : c.spvol = c'.spvol) (ht : tM = 0 ∨ c.temp = c'.temp)
    (hs : sM = 0 ∨ c.sie = c'.sie) (hp : pM = 0 ∨ c.press = c'.press) :
    let i := initFunctor ev2k n cutoff offs tM sM pM c r
    let i' := initFunctor ev2k n cutoff offs tM sM pM c' r'
    i.cell.fmass = i'.cell.fmass ∧ (∀ m, m < n → i.cell.fie m = i'.cell.fie m ∧ i.cell.fvol m = i'.cell.fvol m) ∧
      i.massSum = i'.massSum ∧ i.npte = i'.npte ∧ i.vfracSum = i'.vfracSum ∧ RowEq i.npte i.row i'.row := by
  have et : c.temp * ev2k * tM = c'.temp * ev2k * tM := by rcases ht with h | h <;> simp [h]
  have es : ∀ y, c.sie * y * sM = c'.sie * y * sM := by intro y; rcases hs with h | h <;> simp [h]
  have ep : c.press * pM = c'.press * pM := by rcases hp with h | h <;> simp [h]
  intro i i'
  obtain ⟨h1, h2⟩ := selectMats_congr n cutoff offs
    (mapN n (fun _ x => x / forN n (fun s m => s + c.fmass m) 0) c.fmass) r.mats r'.mats
    (fill n (fun m => offs m - 1) r.idxs) (fill n (fun m => offs m - 1) r'.idxs)
  have e0 : i.npte = i'.npte := by simp only [i, i', initFunctor, ← hm]; exact h1
  have ev : ∀ k, k < i.npte → i.row.vfrac k = i'.row.vfrac k := by
    intro k hk
    have hk2 : k < (selectMats n cutoff offs
      (mapN n (fun _ x => x / forN n (fun s m => s + c.fmass m) 0) c.fmass) r.mats
      (fill n (fun m => offs m - 1) r.idxs)).1 := hk
    simp only [i, i', initFunctor, fill_apply, if_pos hk2, ← hm]
    rw [if_pos (show k < _ from h1 ▸ hk2), (h2 k hk2).1]
  refine ⟨by simp only [i, i', initFunctor, ← hm], fun m hmn => ?_, by simp only [i, i', initFunctor, ← hm], e0, ?_,
    ⟨?_, ?_, ev, ?_, ?_, ?_, ?_⟩⟩
  · simp only [i, i', initFunctor, fill_apply, if_pos hmn, ← hm, es, and_self]
  · show forN i.npte (fun s mp => s + i.row.vfrac mp) 0 = forN i'.npte (fun s mp => s + i'.row.vfrac mp) 0
    rw [← e0]
    exact forN_congr fun s m hm => by rw [ev m hm]
  all_goals
    intro k hk
    have hk2 : k < (selectMats n cutoff offs
      (mapN n (fun _ x => x / forN n (fun s m => s + c.fmass m) 0) c.fmass) r.mats
      (fill n (fun m => offs m - 1) r.idxs)).1 := hk
    have hk3 : k < (selectMats n cutoff offs
      (mapN n (fun _ x => x / forN n (fun s m => s + c.fmass m) 0) c.fmass) r'.mats
      (fill n (fun m => offs m - 1) r'.idxs)).1 := h1 ▸ hk2
    simp only [i, i', initFunctor, fill_apply, if_pos hk2, if_pos hk3, (h2 k hk2).1, (h2 k hk2).2, ← hm, ← hv, et, es, ep]

/-- Two cells agree in everything the final averaging computes: all scalars but `pmax`, the arrays `fie` and `fvol` at the
materials in `A`, and, if asked for, the optional arrays at the materials in `B`. -/
structure Agree (flags : Bool × Bool × Bool) (A B : Nat → Prop) (s s' : Cell K) : Prop where
  press : s.press = s'.press
  temp : s.temp = s'.temp
  sie : s.sie = s'.sie
  bmod : s.bmod = s'.bmod
  cv : s.cv = s'.cv
  dpde : s.dpde = s'.dpde
  fmass : s.fmass = s'.fmass
  vol : s.vol = s'.vol
  spvol : s.spvol = s'.spvol
  fie : ∀ m, A m → s.fie m = s'.fie m
  fvol : ∀ m, A m → s.fvol m = s'.fvol m
  fbmod : flags.1 = true → ∀ m, B m → s.fbmod m = s'.fbmod m
  fdpde : flags.2.1 = true → ∀ m, B m → s.fdpde m = s'.fdpde m
  fcv : flags.2.2 = true → ∀ m, B m → s.fcv m = s'.fcv m

theorem update_agree {a a' : Nat → K} {P : Nat → Prop} {i : Nat} {x : K} (h : ∀ m, P m → a m = a' m) (m : Nat)
    (hm : P m ∨ i = m) : Function.update a i x m = Function.update a' i x m := by
  by_cases hi : m = i
  · subst hi; simp
  · rw [Function.update_of_ne hi, Function.update_of_ne hi]
    exact h m (hm.resolve_right fun e => hi e.symm)

theorem finalLoop_rel (E : Eos K) (ev2k : K) (flags : Bool × Bool × Bool) (tM sM pM ms : K) (r r' : Row K) (npte : Nat)
    (h : RowEq npte r r') (A : Nat → Prop) (c c' : Cell K) (hc : Agree flags A (fun _ => False) c c') :
    Agree flags (fun m => A m ∨ ∃ k, k < npte ∧ r.mats k = m) (fun m => ∃ k, k < npte ∧ r.mats k = m)
      (forN npte (finalBody E ev2k flags tM sM pM ms r) c) (forN npte (finalBody E ev2k flags tM sM pM ms r') c') := by
  induction npte with
  | zero => simpa using hc
  | succ n ih =>
    have hr : RowEq n r r' := ⟨fun j hj => h.mats j (by omega), fun j hj => h.idxs j (by omega),
      fun j hj => h.vfrac j (by omega), fun j hj => h.sie j (by omega), fun j hj => h.temp j (by omega),
      fun j hj => h.press j (by omega), fun j hj => h.rho j (by omega)⟩
    have g := ih hr
    have hn : n < n + 1 := by omega
    have split : ∀ m, (∃ k, k < n + 1 ∧ r.mats k = m) → (∃ k, k < n ∧ r.mats k = m) ∨ r.mats n = m := by
      rintro m ⟨k, hk, e⟩
      by_cases hkn : k = n
      · exact Or.inr (hkn ▸ e)
      · exact Or.inl ⟨k, by omega, e⟩
    rw [forN_succ, forN_succ]
    simp only [finalBody, ← h.mats n hn, ← h.idxs n hn, ← h.vfrac n hn, ← h.sie n hn, ← h.temp n hn, ← h.press n hn,
      ← h.rho n hn, ← g.fmass]
    refine ⟨by simp only [g.press], by simp only [g.temp], by simp only [g.sie], by simp only [g.bmod],
      by simp only [g.cv], by simp only [g.dpde], rfl, g.vol, g.spvol, ?_, ?_, ?_, ?_, ?_⟩
    · intro m hm
      refine update_agree g.fie m ?_
      rcases hm with hm | hm
      · exact Or.inl (Or.inl hm)
      · exact (split m hm).imp Or.inr id
    · intro m hm
      simp only [g.vol]
      refine update_agree g.fvol m ?_
      rcases hm with hm | hm
      · exact Or.inl (Or.inl hm)
      · exact (split m hm).imp Or.inr id
    · intro hf m hm
      simp only [hf, if_true]
      exact update_agree (g.fbmod hf) m (split m hm)
    · intro hf m hm
      simp only [hf, if_true]
      exact update_agree (g.fdpde hf) m (split m hm)
    · intro hf m hm
      simp only [hf, if_true]
      exact update_agree (g.fcv hf) m (split m hm)

theorem finalFunctor_rel (E : Eos K) (ev2k : K) (n : Nat) (flags : Bool × Bool × Bool) (npte : Nat) (ms tM sM pM : K)
    (r r' : Row K) (h : RowEq npte r r') (A : Nat → Prop) (c c' : Cell K)
    (hm : c.fmass = c'.fmass) (hv : c.spvol = c'.spvol) (hvol : c.vol = c'.vol) (ht : tM = 1 ∨ c.temp = c'.temp)
    (hs : sM = 1 ∨ c.sie = c'.sie) (hp : pM = 1 ∨ c.press = c'.press) (hie : ∀ m, A m → c.fie m = c'.fie m)
    (hfv : ∀ m, A m → c.fvol m = c'.fvol m) :
    Agree flags (fun m => A m ∨ ∃ k, k < npte ∧ r.mats k = m) (fun m => ∃ k, k < npte ∧ r.mats k = m)
      (finalFunctor E ev2k n flags npte ms tM sM pM r c) (finalFunctor E ev2k n flags npte ms tM sM pM r' c') := by
  have g := finalLoop_rel E ev2k flags tM sM pM ms r r' npte h A
    { c with
      temp := if tM = 1 then 0 else c.temp
      press := if pM = 1 then 0 else c.press
      sie := if sM = 1 then 0 else c.sie
      bmod := 0
      cv := 0
      dpde := 0 }
    { c' with
      temp := if tM = 1 then 0 else c'.temp
      press := if pM = 1 then 0 else c'.press
      sie := if sM = 1 then 0 else c'.sie
      bmod := 0
      cv := 0
      dpde := 0 }
    ⟨by dsimp only; split_ifs with e; exacts [rfl, hp.resolve_left e],
     by dsimp only; split_ifs with e; exacts [rfl, ht.resolve_left e],
     by dsimp only; split_ifs with e; exacts [rfl, hs.resolve_left e],
     rfl, rfl, rfl, hm, hvol, hv, hie, hfv, fun _ _ hf => hf.elim, fun _ _ hf => hf.elim, fun _ _ hf => hf.elim⟩
  refine ⟨g.press, ?_, ?_, g.bmod, g.cv, g.dpde, ?_, g.vol, g.spvol, g.fie, g.fvol, g.fbmod, g.fdpde, g.fcv⟩
  · simp only [finalFunctor, g.temp]
  · simp only [finalFunctor, g.sie]
  · simp only [finalFunctor, g.fmass]

theorem runSolver_row {S : SolverOracle K} (hS : SolverLocal S) {k : Nat} {vs x : K} {r r' : Row K}
    (h : RowEq k r r') : RowEq k (runSolver S k vs x r) (runSolver S k vs x r') :=
  ⟨h.mats, h.idxs, (hS k vs x r r' h).vfrac, (hS k vs x r r' h).sie, (hS k vs x r r' h).temp,
    (hS k vs x r r' h).press, (hS k vs x r r' h).rho⟩

theorem sieTotal_row {k : Nat} {r r' : Row K} (h : RowEq k r r') (fm : Nat → K) :
    sieTotal k r fm = sieTotal k r' fm :=
  forN_congr fun s m hm => by rw [h.sie m hm, h.mats m hm]

/-- The quantities a call in the given mode takes from the cell. -/
def SameInputs (mode : Mode) (c c' : Cell K) : Prop :=
  c.fmass = c'.fmass ∧
  match mode with
  | .rhoT => c.spvol = c'.spvol ∧ c.vol = c'.vol ∧ c.temp = c'.temp
  | .rhoP => c.spvol = c'.spvol ∧ c.vol = c'.vol ∧ c.press = c'.press
  | .pT => c.press = c'.press ∧ c.temp = c'.temp
  | .rhoE => c.spvol = c'.spvol ∧ c.vol = c'.vol ∧ c.sie = c'.sie

/-- The materials whose entries in the optional arrays a call writes. -/
def Written (n : Nat) (cutoff : K) (mode : Mode) (c : Cell K) (m : Nat) : Prop :=
  m < n ∧ (mode = .pT ∨ cutoff < c.fmass m / ∑ k ∈ Finset.range n, c.fmass k)

theorem setPmax_agree {flags : Bool × Bool × Bool} {A B : Nat → Prop} {s s' : Cell K} (h : Agree flags A B s s') :
    Agree flags A B (setPmax s) (setPmax s') :=
  ⟨h.press, h.temp, h.sie, h.bmod, h.cv, h.dpde, h.fmass, h.vol, h.spvol, h.fie, h.fvol, h.fbmod, h.fdpde, h.fcv⟩

theorem Agree.mono {flags : Bool × Bool × Bool} {A A' B B' : Nat → Prop} {s s' : Cell K} (h : Agree flags A B s s')
    (hA : ∀ m, A' m → A m) (hB : ∀ m, B' m → B m) : Agree flags A' B' s s' :=
  ⟨h.press, h.temp, h.sie, h.bmod, h.cv, h.dpde, h.fmass, h.vol, h.spvol, fun m hm => h.fie m (hA m hm),
    fun m hm => h.fvol m (hA m hm), fun f m hm => h.fbmod f m (hB m hm), fun f m hm => h.fdpde f m (hB m hm),
    fun f m hm => h.fcv f m (hB m hm)⟩

/-- The materials selected by the initialisation are those above the cutoff. -/
theorem written_of_sel (ev2k : K) (n : Nat) (cutoff : K) (offs : Nat → Int) (tM sM pM : K) (c : Cell K) (r : Row K) (m : Nat) :
    (∃ k, k < (initFunctor ev2k n cutoff offs tM sM pM c r).npte ∧
      (initFunctor ev2k n cutoff offs tM sM pM c r).row.mats k = m) ↔
    m < n ∧ cutoff < c.fmass m / ∑ k ∈ Finset.range n, c.fmass k := by
  have hms : forN n (fun s m => s + c.fmass m) 0 = ∑ k ∈ Finset.range n, c.fmass k := by rw [forN_add, zero_add]
  obtain ⟨h1, -, h3, -⟩ := selectMats_spec n cutoff offs
    (mapN n (fun _ x => x / forN n (fun s m => s + c.fmass m) 0) c.fmass) r.mats
    (fill n (fun m => offs m - 1) r.idxs)
  constructor
  · rintro ⟨k, hk, rfl⟩
    obtain ⟨a, b, -⟩ := h1 k hk
    rw [mapN_apply, if_pos a] at b
    refine ⟨a, ?_⟩
    rw [← hms]
    exact b
  · rintro ⟨a, b⟩
    exact h3 m a (by rw [mapN_apply, if_pos a, hms]; exact b)

/-- The answers of a call depend on the inputs of its mode only, not on the other values of the cell nor on the scratch
row. -/
theorem kernel_rel (E : Eos K) (S : SolverOracle K) (hS : SolverLocal S) (rootT : Int → K → K → K) (ev2k : K)
    (n : Nat) (cutoff : K) (offs : Nat → Int) (flags : Bool × Bool × Bool) (mode : Mode) (c c' : Cell K) (r r' : Row K)
    (hin : SameInputs mode c c') (hsome : mode = .pT ∨ ∃ m, Written n cutoff mode c m) :
    Agree flags (fun m => m < n) (Written n cutoff mode c)
      (kernel E S rootT ev2k n cutoff offs flags mode c r).1 (kernel E S rootT ev2k n cutoff offs flags mode c' r').1 := by
  obtain ⟨hm, hin⟩ := hin
  cases mode with
  | rhoT =>
    obtain ⟨hv, hvol, ht⟩ := hin
    obtain ⟨e1, e2, e3, e4, e5, e6⟩ := initFunctor_rel ev2k n cutoff offs 1 0 0 c c' r r' hm hv (Or.inr ht) (Or.inl rfl)
      (Or.inl rfl)
    have hpos : 0 < (initFunctor ev2k n cutoff offs 1 0 0 c r).npte := by
      obtain ⟨m, hmn, hw⟩ := hsome.resolve_left (by decide)
      obtain ⟨k, hk, -⟩ := (written_of_sel ev2k n cutoff offs 1 0 0 c r m).2 ⟨hmn, hw.resolve_left (by decide)⟩
      omega
    have hw : ∀ m, Written n cutoff .rhoT c m → ∃ k, k < (initFunctor ev2k n cutoff offs 1 0 0 c r).npte ∧
      (initFunctor ev2k n cutoff offs 1 0 0 c r).row.mats k = m := fun m h =>
      (written_of_sel ev2k n cutoff offs 1 0 0 c r m).2 ⟨h.1, h.2.resolve_left (by decide)⟩
    simp only [kernel, kernelRhoT]
    rw [← e3, ← e4, ← e5, ← e1]
    by_cases h1 : 1 < (initFunctor ev2k n cutoff offs 1 0 0 c r).npte
    · simp only [if_pos h1]
      have e0 := e6.temp 0 hpos
      rw [← e0]
      have er := runSolver_row hS (vs := (initFunctor ev2k n cutoff offs 1 0 0 c r).vfracSum)
        (x := (initFunctor ev2k n cutoff offs 1 0 0 c r).row.temp 0) e6
      refine Agree.mono (setPmax_agree (finalFunctor_rel E ev2k n flags _ _ 0 0 1 _ _ er (fun m => m < n) _ _ ?_ hv hvol ?_ ?_ ?_
        (fun m h => (e2 m h).1) fun m h => (e2 m h).2)) (fun m h => Or.inl h) hw
      all_goals first | exact rfl | exact e1 | exact Or.inl rfl | exact Or.inr rfl | exact Or.inr (by assumption) | exact Or.inr (sieTotal_row er _)
    · simp only [if_neg h1]
      rw [← e6.idxs 0 hpos, ← e6.rho 0 hpos, ← e6.temp 0 hpos]
      refine Agree.mono (setPmax_agree (finalFunctor_rel E ev2k n flags _ _ 0 0 1 _ _ ?_ (fun m => m < n) _ _ ?_ hv hvol ?_ ?_ ?_
        (fun m h => (e2 m h).1) fun m h => (e2 m h).2)) (fun m h => Or.inl h) hw
      pick_goal 1
      · exact ⟨e6.mats, e6.idxs, e6.vfrac, fun j hj => update_agree e6.sie j (Or.inl hj), e6.temp,
        fun j hj => update_agree e6.press j (Or.inl hj), e6.rho⟩
      all_goals first | exact rfl | exact e1 | exact Or.inl rfl | exact Or.inr rfl | exact Or.inr (by assumption)
  | rhoP =>
    obtain ⟨hv, hvol, hp⟩ := hin
    obtain ⟨e1, e2, e3, e4, e5, e6⟩ := initFunctor_rel ev2k n cutoff offs 0 0 1 c c' r r' hm hv (Or.inl rfl) (Or.inl rfl)
      (Or.inr hp)
    have hpos : 0 < (initFunctor ev2k n cutoff offs 0 0 1 c r).npte := by
      obtain ⟨m, hmn, hw⟩ := hsome.resolve_left (by decide)
      obtain ⟨k, hk, -⟩ := (written_of_sel ev2k n cutoff offs 0 0 1 c r m).2 ⟨hmn, hw.resolve_left (by decide)⟩
      omega
    have hw : ∀ m, Written n cutoff .rhoP c m → ∃ k, k < (initFunctor ev2k n cutoff offs 0 0 1 c r).npte ∧
      (initFunctor ev2k n cutoff offs 0 0 1 c r).row.mats k = m := fun m h =>
      (written_of_sel ev2k n cutoff offs 0 0 1 c r m).2 ⟨h.1, h.2.resolve_left (by decide)⟩
    have hp' : (initFunctor ev2k n cutoff offs 0 0 1 c r).cell.press = (initFunctor ev2k n cutoff offs 0 0 1 c' r').cell.press :=
      hp
    simp only [kernel, kernelRhoP]
    rw [← e3, ← e4, ← e5, ← e1, ← hp']
    by_cases h1 : 1 < (initFunctor ev2k n cutoff offs 0 0 1 c r).npte
    · simp only [if_pos h1]
      have e0 := e6.press 0 hpos
      rw [← e0]
      have er := runSolver_row hS (vs := (initFunctor ev2k n cutoff offs 0 0 1 c r).vfracSum)
        (x := (initFunctor ev2k n cutoff offs 0 0 1 c r).row.press 0) e6
      refine Agree.mono (setPmax_agree (finalFunctor_rel E ev2k n flags _ _ 1 0 0 _ _ er (fun m => m < n) _ _ ?_ hv hvol ?_ ?_ ?_
        (fun m h => (e2 m h).1) fun m h => (e2 m h).2)) (fun m h => Or.inl h) hw
      all_goals first | exact rfl | exact e1 | exact Or.inl rfl | exact Or.inr rfl | exact Or.inr (by assumption) | exact Or.inr (sieTotal_row er _)
    · simp only [if_neg h1]
      rw [← e6.idxs 0 hpos, ← e6.rho 0 hpos]
      refine Agree.mono (setPmax_agree (finalFunctor_rel E ev2k n flags _ _ 1 0 0 _ _ ?_ (fun m => m < n) _ _ ?_ hv hvol ?_ ?_ ?_
        (fun m h => (e2 m h).1) fun m h => (e2 m h).2)) (fun m h => Or.inl h) hw
      pick_goal 1
      · exact ⟨e6.mats, e6.idxs, e6.vfrac, fun j hj => update_agree e6.sie j (Or.inl hj),
        fun j hj => update_agree e6.temp j (Or.inl hj), e6.press, e6.rho⟩
      all_goals first | exact rfl | exact e1 | exact Or.inl rfl | exact Or.inr rfl | exact Or.inr (by assumption)
  | rhoE =>
    obtain ⟨hv, hvol, hs⟩ := hin
    obtain ⟨e1, e2, e3, e4, e5, e6⟩ := initFunctor_rel ev2k n cutoff offs 0 1 0 c c' r r' hm hv (Or.inl rfl) (Or.inr hs)
      (Or.inl rfl)
    have hpos : 0 < (initFunctor ev2k n cutoff offs 0 1 0 c r).npte := by
      obtain ⟨m, hmn, hw⟩ := hsome.resolve_left (by decide)
      obtain ⟨k, hk, -⟩ := (written_of_sel ev2k n cutoff offs 0 1 0 c r m).2 ⟨hmn, hw.resolve_left (by decide)⟩
      omega
    have hw : ∀ m, Written n cutoff .rhoE c m → ∃ k, k < (initFunctor ev2k n cutoff offs 0 1 0 c r).npte ∧
      (initFunctor ev2k n cutoff offs 0 1 0 c r).row.mats k = m := fun m h =>
      (written_of_sel ev2k n cutoff offs 0 1 0 c r m).2 ⟨h.1, h.2.resolve_left (by decide)⟩
    have hs' : (initFunctor ev2k n cutoff offs 0 1 0 c r).cell.sie = (initFunctor ev2k n cutoff offs 0 1 0 c' r').cell.sie :=
      hs
    simp only [kernel, kernelRhoE]
    rw [← e3, ← e4, ← e5, ← hs']
    by_cases h1 : 1 < (initFunctor ev2k n cutoff offs 0 1 0 c r).npte
    · simp only [if_pos h1]
      have er := runSolver_row hS (vs := (initFunctor ev2k n cutoff offs 0 1 0 c r).vfracSum)
        (x := (initFunctor ev2k n cutoff offs 0 1 0 c r).cell.sie) e6
      refine Agree.mono (setPmax_agree (finalFunctor_rel E ev2k n flags _ _ 1 0 1 _ _ er (fun m => m < n) _ _ ?_ hv hvol ?_ ?_ ?_
        (fun m h => (e2 m h).1) fun m h => (e2 m h).2)) (fun m h => Or.inl h) hw
      all_goals first | exact rfl | exact e1 | exact Or.inl rfl | exact Or.inr rfl | exact Or.inr (by assumption)
    · simp only [if_neg h1]
      rw [← e6.idxs 0 hpos, ← e6.rho 0 hpos, ← e6.sie 0 hpos]
      refine Agree.mono (setPmax_agree (finalFunctor_rel E ev2k n flags _ _ 1 0 1 _ _ ?_ (fun m => m < n) _ _ ?_ hv hvol ?_ ?_ ?_
        (fun m h => (e2 m h).1) fun m h => (e2 m h).2)) (fun m h => Or.inl h) hw
      pick_goal 1
      · exact ⟨e6.mats, e6.idxs, e6.vfrac, e6.sie, fun j hj => update_agree e6.temp j (Or.inl hj),
        fun j hj => update_agree e6.press j (Or.inl hj), e6.rho⟩
      all_goals first | exact rfl | exact e1 | exact Or.inl rfl | exact Or.inr rfl | exact Or.inr (by assumption)
  | pT =>
    obtain ⟨hp, ht⟩ := hin
    simp only [kernel, kernelPT, ← hm, ← hp, ← ht]
    set ms := forN n (fun s m => s + c.fmass m) 0 with hms
    set fm := mapN n (fun _ x => x / ms) c.fmass with hfm
    set q : Nat → K × K := fun m => E.rePT (offs m - 1) c.press (c.temp * ev2k) with hq
    have er : ∀ (r : Row K) k, k < n → fill n (fun m => (E.rePT (fill n (fun m => offs m - 1) r.idxs m)
        (fill n (fun _ => c.press) r.press m) (fill n (fun _ => c.temp * ev2k) r.temp m)).1) r.rho k = (q k).1 := by
      intro r k hk; simp [fill_apply, hk, hq]
    have es : ∀ (r : Row K) k, k < n → fill n (fun m => (E.rePT (fill n (fun m => offs m - 1) r.idxs m)
        (fill n (fun _ => c.press) r.press m) (fill n (fun _ => c.temp * ev2k) r.temp m)).2) r.sie k = (q k).2 := by
      intro r k hk; simp [fill_apply, hk, hq]
    have ev : ∀ (r : Row K) k, k < n → fill n (fun m => fm m / fill n (fun m => (E.rePT (fill n (fun m => offs m - 1) r.idxs m)
        (fill n (fun _ => c.press) r.press m) (fill n (fun _ => c.temp * ev2k) r.temp m)).1) r.rho m * ms) r.vfrac k =
        fm k / (q k).1 * ms := by
      intro r k hk
      rw [fill_apply, if_pos hk, er r k hk]
    have et : ∀ r : Row K, forN n (fun s m => s + fill n (fun m => fm m / fill n (fun m => (E.rePT
        (fill n (fun m => offs m - 1) r.idxs m)
        (fill n (fun _ => c.press) r.press m) (fill n (fun _ => c.temp * ev2k) r.temp m)).1) r.rho m * ms) r.vfrac m) 0 =
        forN n (fun s m => s + fm m / (q m).1 * ms) 0 := fun r => forN_congr fun s m hm => by rw [ev r m hm]
    have eu : ∀ r : Row K, forN n (fun s m => s + fill n (fun m => (E.rePT (fill n (fun m => offs m - 1) r.idxs m)
        (fill n (fun _ => c.press) r.press m) (fill n (fun _ => c.temp * ev2k) r.temp m)).2) r.sie m * fm m) 0 =
        forN n (fun s m => s + (q m).2 * fm m) 0 := fun r => forN_congr fun s m hm => by rw [es r m hm]
    have em : ∀ (r : Row K) k, k < n → fill n (fun m => m) r.mats k = k := fun r k hk => by simp [fill_apply, hk]
    refine Agree.mono (setPmax_agree (finalFunctor_rel E ev2k n flags n ms 0 0 0 _ _ ?_ (fun _ => False) _ _ rfl ?_ ?_
      (Or.inr rfl) (Or.inr ?_) (Or.inr rfl) (fun m h => h.elim) fun m h => h.elim)) (fun m h => Or.inr ⟨m, h, em r m h⟩)
      fun m h => ⟨m, h.1, em r m h.1⟩
    · refine ⟨?_, ?_, ?_, ?_, ?_, ?_, ?_⟩
      · intro k hk; simp [fill_apply, hk]
      · intro k hk; simp [fill_apply, hk]
      · intro k hk
        simp only [mapN_apply, if_pos hk, et]
        rw [ev r k hk, ev r' k hk]
      · intro k hk
        exact (es r k hk).trans (es r' k hk).symm
      · intro k hk; simp [fill_apply, hk]
      · intro k hk; simp [fill_apply, hk]
      · intro k hk
        exact (er r k hk).trans (er r' k hk).symm
    · simp only [et]
    · simp only [et]
    · simp only [eu]

theorem finalFunctor_keeps (E : Eos K) (ev2k : K) (n : Nat) (flags : Bool × Bool × Bool) (npte : Nat)
    (ms tM sM pM : K) (r : Row K) (c : Cell K) :
    let f := finalFunctor E ev2k n flags npte ms tM sM pM r c
    (flags.1 = false → f.fbmod = c.fbmod) ∧ (flags.2.1 = false → f.fdpde = c.fdpde) ∧ (flags.2.2 = false → f.fcv = c.fcv) ∧
    (∀ m, (∀ k, k < npte → r.mats k ≠ m) → f.fie m = c.fie m ∧ f.fvol m = c.fvol m ∧
      f.fbmod m = c.fbmod m ∧ f.fcv m = c.fcv m ∧ f.fdpde m = c.fdpde m) := by
  obtain ⟨-, -, -, -, -, -, -, -, -, -, -, a12, a13, a14, a15⟩ :=
    finalLoop_spec E ev2k flags tM sM pM ms r { c with
      temp := if tM = 1 then 0 else c.temp
      press := if pM = 1 then 0 else c.press
      sie := if sM = 1 then 0 else c.sie
      bmod := 0, cv := 0, dpde := 0 } npte
  exact ⟨a13, a15, a14, a12⟩

/-- What a call does not touch: absent optional arrays, entries of materials that take no part, entries beyond the
materials. -/
theorem kernel_keeps (E : Eos K) (S : SolverOracle K) (rootT : Int → K → K → K) (ev2k : K)
    (n : Nat) (cutoff : K) (offs : Nat → Int) (flags : Bool × Bool × Bool) (mode : Mode) (c : Cell K) (r : Row K) :
    let f := (kernel E S rootT ev2k n cutoff offs flags mode c r).1
    (flags.1 = false → f.fbmod = c.fbmod) ∧ (flags.2.1 = false → f.fdpde = c.fdpde) ∧ (flags.2.2 = false → f.fcv = c.fcv) ∧
    (∀ m, ¬ Written n cutoff mode c m → f.fbmod m = c.fbmod m ∧ f.fcv m = c.fcv m ∧ f.fdpde m = c.fdpde m) ∧
    ∀ m, n ≤ m → f.fie m = c.fie m ∧ f.fvol m = c.fvol m := by
  have key : ∀ (tM sM pM ms tM' sM' pM' : K) (r2 : Row K) (c2 : Cell K),
      let i := initFunctor ev2k n cutoff offs tM sM pM c r
      mode ≠ .pT → r2.mats = i.row.mats → c2.fbmod = c.fbmod → c2.fdpde = c.fdpde → c2.fcv = c.fcv → c2.fie = i.cell.fie →
      c2.fvol = i.cell.fvol →
      let f := setPmax (finalFunctor E ev2k n flags i.npte ms tM' sM' pM' r2 c2)
      (flags.1 = false → f.fbmod = c.fbmod) ∧ (flags.2.1 = false → f.fdpde = c.fdpde) ∧ (flags.2.2 = false → f.fcv = c.fcv) ∧
      (∀ m, ¬ Written n cutoff mode c m → f.fbmod m = c.fbmod m ∧ f.fcv m = c.fcv m ∧ f.fdpde m = c.fdpde m) ∧
      ∀ m, n ≤ m → f.fie m = c.fie m ∧ f.fvol m = c.fvol m := by
    intro tM sM pM ms tM' sM' pM' r2 c2 i hmode hr h1 h2 h3 h4 h5
    obtain ⟨a, b, d, e⟩ := finalFunctor_keeps E ev2k n flags i.npte ms tM' sM' pM' r2 c2
    refine ⟨fun h => (a h).trans h1, fun h => (b h).trans h2, fun h => (d h).trans h3, fun m hm => ?_, fun m hm => ?_⟩
    · have g := e m (fun k hk hkm => hm ⟨((written_of_sel ev2k n cutoff offs tM sM pM c r m).1 ⟨k, hk, by rw [← hkm, hr]⟩).1,
        Or.inr ((written_of_sel ev2k n cutoff offs tM sM pM c r m).1 ⟨k, hk, by rw [← hkm, hr]⟩).2⟩)
      exact ⟨g.2.2.1.trans (congrFun h1 m), g.2.2.2.1.trans (congrFun h3 m), g.2.2.2.2.trans (congrFun h2 m)⟩
    · have g := e m (fun k hk hkm => by
        have := ((written_of_sel ev2k n cutoff offs tM sM pM c r m).1 ⟨k, hk, by rw [← hkm, hr]⟩).1
        omega)
      have hn : ¬ m < n := by omega
      exact ⟨g.1.trans ((congrFun h4 m).trans (by simp [i, initFunctor, fill_apply, hn])),
        g.2.1.trans ((congrFun h5 m).trans (by simp [i, initFunctor, fill_apply, hn]))⟩
  cases mode with
  | rhoT =>
    refine key 1 0 0 _ 0 0 1 _ _ (by decide) ?_ rfl rfl rfl rfl rfl
    dsimp only
    split_ifs <;> rfl
  | rhoP =>
    refine key 0 0 1 _ 1 0 0 _ _ (by decide) ?_ rfl rfl rfl rfl rfl
    dsimp only
    split_ifs <;> rfl
  | rhoE =>
    refine key 0 1 0 _ 1 0 1 _ _ (by decide) ?_ rfl rfl rfl rfl rfl
    split_ifs <;> rfl
  | pT =>
    intro f
    obtain ⟨a, b, d, e⟩ := finalFunctor_keeps E ev2k n flags n (forN n (fun s m => s + c.fmass m) 0) 0 0 0
      (kernelPT E ev2k n offs flags c r).2 _
    have em : ∀ k, k < n → (kernelPT E ev2k n offs flags c r).2.mats k = k := fun k hk => by
      simp [kernelPT, fill_apply, hk]
    refine ⟨fun h => a h, fun h => b h, fun h => d h, fun m hm => ?_, fun m hm => ?_⟩
    · have g := e m (fun k hk hkm => hm ⟨by rw [em k hk] at hkm; omega, Or.inl rfl⟩)
      exact g.2.2
    · have g := e m (fun k hk hkm => by rw [em k hk] at hkm; omega)
      exact ⟨g.1, g.2.1⟩

theorem Cell.ext' {a b : Cell K} (h1 : a.press = b.press) (h2 : a.pmax = b.pmax) (h3 : a.vol = b.vol) (h4 : a.spvol = b.spvol)
    (h5 : a.sie = b.sie) (h6 : a.temp = b.temp) (h7 : a.bmod = b.bmod) (h8 : a.dpde = b.dpde) (h9 : a.cv = b.cv)
    (h10 : a.fmass = b.fmass) (h11 : a.fvol = b.fvol) (h12 : a.fie = b.fie) (h13 : a.fbmod = b.fbmod)
    (h14 : a.fdpde = b.fdpde) (h15 : a.fcv = b.fcv) : a = b := by
  cases a; cases b; simp_all

/-- C152: the answers of one cell do not depend on what the scratch row held: a cell processed after another one on the same
row gets what it would get alone. Some material must take part (see `C152_no_material_violated`). -/
theorem C152_row_irrelevant (E : Eos K) (S : SolverOracle K) (hS : SolverLocal S) (rootT : Int → K → K → K) (ev2k : K)
    (n : Nat) (cutoff : K) (offs : Nat → Int) (flags : Bool × Bool × Bool) (mode : Mode) (c : Cell K) (r r' : Row K)
    (hsome : mode = .pT ∨ ∃ m, m < n ∧ cutoff < c.fmass m / ∑ k ∈ Finset.range n, c.fmass k) :
    (kernel E S rootT ev2k n cutoff offs flags mode c r).1 = (kernel E S rootT ev2k n cutoff offs flags mode c r').1 := by
  have hin : SameInputs mode c c := by cases mode <;> simp [SameInputs]
  have hs' : mode = .pT ∨ ∃ m, Written n cutoff mode c m := hsome.imp id fun ⟨m, h1, h2⟩ => ⟨m, h1, Or.inr h2⟩
  have g := kernel_rel E S hS rootT ev2k n cutoff offs flags mode c c r r' hin hs'
  obtain ⟨a1, a2, a3, a4, a5⟩ := kernel_keeps E S rootT ev2k n cutoff offs flags mode c r
  obtain ⟨b1, b2, b3, b4, b5⟩ := kernel_keeps E S rootT ev2k n cutoff offs flags mode c r'
  have hp := C26_pmax E S rootT ev2k n cutoff offs flags mode c r
  have hp' := C26_pmax E S rootT ev2k n cutoff offs flags mode c r'
  refine Cell.ext' g.press ?_ g.vol g.spvol g.sie g.temp g.bmod g.dpde g.cv g.fmass ?_ ?_ ?_ ?_ ?_
  · exact hp.trans (by rw [g.press]; exact hp'.symm)
  · funext m
    by_cases hm : m < n
    · exact g.fvol m hm
    · exact (a5 m (by omega)).2.trans (b5 m (by omega)).2.symm
  · funext m
    by_cases hm : m < n
    · exact g.fie m hm
    · exact (a5 m (by omega)).1.trans (b5 m (by omega)).1.symm
  · rcases hf : flags.1 with _ | _
    · exact (a1 hf).trans (b1 hf).symm
    · funext m
      by_cases hm : Written n cutoff mode c m
      · exact g.fbmod hf m hm
      · exact (a4 m hm).1.trans (b4 m hm).1.symm
  · rcases hf : flags.2.1 with _ | _
    · exact (a2 hf).trans (b2 hf).symm
    · funext m
      by_cases hm : Written n cutoff mode c m
      · exact g.fdpde hf m hm
      · exact (a4 m hm).2.2.trans (b4 m hm).2.2.symm
  · rcases hf : flags.2.2 with _ | _
    · exact (a3 hf).trans (b3 hf).symm
    · funext m
      by_cases hm : Written n cutoff mode c m
      · exact g.fcv hf m hm
      · exact (a4 m hm).2.1.trans (b4 m hm).2.1.symm

/-- A cell answered once is not changed by answering it again. -/
theorem kernel_idem (E : Eos K) (S : SolverOracle K) (hS : SolverLocal S) (rootT : Int → K → K → K) (ev2k : K)
    (n : Nat) (cutoff : K) (offs : Nat → Int) (flags : Bool × Bool × Bool) (mode : Mode) (c : Cell K) (r r' : Row K)
    (hsum : ∑ m ∈ Finset.range n, c.fmass m ≠ 0)
    (hsome : mode = .pT ∨ ∃ m, m < n ∧ cutoff < c.fmass m / ∑ k ∈ Finset.range n, c.fmass k) :
    (kernel E S rootT ev2k n cutoff offs flags mode (kernel E S rootT ev2k n cutoff offs flags mode c r).1 r').1 =
      (kernel E S rootT ev2k n cutoff offs flags mode c r).1 := by
  set o := (kernel E S rootT ev2k n cutoff offs flags mode c r).1 with ho
  have hfm : o.fmass = c.fmass := C26_mass_fractions_restored E S rootT ev2k n cutoff offs flags mode c r hsum
  have hin : SameInputs mode c o := by
    obtain ⟨h1, h2, h3, h4⟩ := C26_inputs_unchanged E S rootT ev2k n cutoff offs flags c r
    refine ⟨hfm.symm, ?_⟩
    cases mode with
    | rhoT => exact ⟨h1.1.symm, h1.2.2.symm, h1.2.1.symm⟩
    | rhoP => exact ⟨h2.1.symm, h2.2.2.symm, h2.2.1.symm⟩
    | pT => exact ⟨h3.1.symm, h3.2.symm⟩
    | rhoE => exact ⟨h4.1.symm, h4.2.2.symm, h4.2.1.symm⟩
  have hs' : mode = .pT ∨ ∃ m, Written n cutoff mode c m := hsome.imp id fun ⟨m, h1, h2⟩ => ⟨m, h1, Or.inr h2⟩
  have g := kernel_rel E S hS rootT ev2k n cutoff offs flags mode c o r r' hin hs'
  have hw : ∀ m, Written n cutoff mode o m ↔ Written n cutoff mode c m := fun m => by simp only [Written, hfm]
  obtain ⟨b1, b2, b3, b4, b5⟩ := kernel_keeps E S rootT ev2k n cutoff offs flags mode o r'
  have hp := C26_pmax E S rootT ev2k n cutoff offs flags mode c r
  have hp' := C26_pmax E S rootT ev2k n cutoff offs flags mode o r'
  refine Cell.ext' g.press.symm ?_ g.vol.symm g.spvol.symm g.sie.symm g.temp.symm g.bmod.symm g.dpde.symm g.cv.symm
    g.fmass.symm ?_ ?_ ?_ ?_ ?_
  · refine hp'.trans ?_
    rw [← g.press]
    rw [ho]
    exact max_eq_left (by rw [hp]; exact le_max_right _ _)
  · funext m
    by_cases hm : m < n
    · exact (g.fvol m hm).symm
    · exact (b5 m (by omega)).2
  · funext m
    by_cases hm : m < n
    · exact (g.fie m hm).symm
    · exact (b5 m (by omega)).1
  · rcases hf : flags.1 with _ | _
    · exact b1 hf
    · funext m
      by_cases hm : Written n cutoff mode c m
      · exact (g.fbmod hf m hm).symm
      · exact (b4 m fun h => hm ((hw m).1 h)).1
  · rcases hf : flags.2.1 with _ | _
    · exact b2 hf
    · funext m
      by_cases hm : Written n cutoff mode c m
      · exact (g.fdpde hf m hm).symm
      · exact (b4 m fun h => hm ((hw m).1 h)).2.2
  · rcases hf : flags.2.2 with _ | _
    · exact b3 hf
    · funext m
      by_cases hm : Written n cutoff mode c m
      · exact (g.fcv hf m hm).symm
      · exact (b4 m fun h => hm ((hw m).1 h)).2.1

theorem copyBack_self (mode : Mode) (flags : Bool × Bool × Bool) (c : Cell K) : copyBack mode flags c c = c := by
  cases c; simp [copyBack]

/-- Copying back only some of the arrays gives what sharing the memory gives. -/
theorem copyBack_kernel (E : Eos K) (S : SolverOracle K) (rootT : Int → K → K → K) (ev2k : K)
    (n : Nat) (cutoff : K) (offs : Nat → Int) (flags : Bool × Bool × Bool) (mode : Mode) (c : Cell K) (r : Row K)
    (hsum : ∑ m ∈ Finset.range n, c.fmass m ≠ 0) :
    copyBack mode flags c (kernel E S rootT ev2k n cutoff offs flags mode c r).1 =
      (kernel E S rootT ev2k n cutoff offs flags mode c r).1 := by
  obtain ⟨h1, h2, h3, h4⟩ := C26_inputs_unchanged E S rootT ev2k n cutoff offs flags c r
  obtain ⟨k1, k2, k3, -⟩ := kernel_keeps E S rootT ev2k n cutoff offs flags mode c r
  have hm := C26_mass_fractions_restored E S rootT ev2k n cutoff offs flags mode c r hsum
  refine Cell.ext' ?_ rfl rfl ?_ ?_ ?_ rfl rfl rfl hm.symm rfl rfl ?_ ?_ ?_
  · cases mode
    · rfl
    · exact h2.2.1.symm
    · exact h3.1.symm
    · rfl
  · cases mode
    · exact h1.1.symm
    · exact h2.1.symm
    · rfl
    · exact h4.1.symm
  · cases mode
    · rfl
    · rfl
    · rfl
    · exact h4.2.1.symm
  · cases mode
    · exact h1.2.1.symm
    · rfl
    · exact h3.2.symm
    · rfl
  · simp only [copyBack]
    split_ifs with hf
    · rfl
    · exact (k1 (by simpa using hf)).symm
  · simp only [copyBack]
    split_ifs with hf
    · rfl
    · exact (k2 (by simpa using hf)).symm
  · simp only [copyBack]
    split_ifs with hf
    · rfl
    · exact (k3 (by simpa using hf)).symm

/-- Some material is above a cutoff below the reciprocal of their number. -/
theorem some_written (n : Nat) (cutoff : K) (c : Cell K) (hsum : ∑ m ∈ Finset.range n, c.fmass m ≠ 0)
    (hc : cutoff * n < 1) : ∃ m, m < n ∧ cutoff < c.fmass m / ∑ k ∈ Finset.range n, c.fmass k := by
  have h := C26_some_material 1 n cutoff (fun _ => 0) 0 0 0 c
    ⟨fun _ => 0, fun _ => 0, fun _ => 0, fun _ => 0, fun _ => 0, fun _ => 0, fun _ => 0⟩ hsum hc
  exact ⟨_, (written_of_sel 1 n cutoff (fun _ => 0) 0 0 0 c _ _).1 ⟨0, h, rfl⟩⟩

/-- The body of every iteration of the loop is the kernel of the mode, on the iteration's cell and row. -/
def Bodies (E : Eos K) (S : SolverOracle K) (rootT : Int → K → K → K) (ev2k : K) (n : Nat) (cutoff : K) (offs : Nat → Int)
    (flags : Bool × Bool × Bool) (mode : Mode) (ncell : Nat) (progs : Nat → Prog (Cell K) (Row K)) : Prop :=
  ∀ i, i < ncell → ∀ x, runProg (progs i) x = kernel E S rootT ev2k n cutoff offs flags mode x.1 x.2

/-- The cells of a list of 1-based cell numbers are different cells. -/
def Distinct (offsets : Nat → Int) (ncell : Nat) : Prop :=
  (∀ i, i < ncell → 1 ≤ offsets i) ∧ ∀ i j, i < ncell → j < ncell → offsets i = offsets j → i = j

/-- C152: one call answers the cells of the list, each as if it were processed alone on a fresh row, and changes no other
cell, whatever the schedule of the loop, the number of tokens, what the scratch memory held, and whether the device has its
own memory (where only some arrays are copied back). Cells must be listed once and the mass fractions of a listed cell must
not sum to zero. -/
theorem C152_call (E : Eos K) (S : SolverOracle K) (hS : SolverLocal S) (rootT : Int → K → K → K) (ev2k : K)
    (n : Nat) (cutoff : K) (hc : cutoff * n < 1) (offs : Nat → Int) (flags : Bool × Bool × Bool) (mode : Mode)
    (offsets : Nat → Int) (ncell ntok : Nat) (progs : Nat → Prog (Cell K) (Row K))
    (hp : Bodies E S rootT ev2k n cutoff offs flags mode ncell progs) (hd : Distinct offsets ncell)
    (shared : Bool) (h h' : Nat → Cell K) (ret : Int)
    (hsum : ∀ i, i < ncell → ∑ m ∈ Finset.range n, (h (offsets i - 1).toNat).fmass m ≠ 0)
    (hcall : GetSgEos true shared flags mode offsets ncell ntok progs h h' ret) :
    (∀ i, i < ncell → ∀ r, h' (offsets i - 1).toNat =
      (kernel E S rootT ev2k n cutoff offs flags mode (h (offsets i - 1).toNat) r).1) ∧
    ∀ j, (∀ i, i < ncell → (offsets i - 1).toNat ≠ j) → h' j = h j := by
  obtain ⟨-, hcall⟩ := hcall
  rw [if_pos rfl] at hcall
  obtain ⟨r0, s, hs, hall, hend, rfl⟩ := hcall
  have hdet : ∀ i, i < ncell → ∀ r r', (runProg (progs i) (h (cellOf offsets i), r)).1 =
      (runProg (progs i) (h (cellOf offsets i), r')).1 := by
    intro i hi r r'
    rw [hp i hi, hp i hi]
    exact C152_row_irrelevant E S hS rootT ev2k n cutoff offs flags mode _ r r'
      (Or.inr (some_written n cutoff _ (hsum i hi) hc))
  have hinj : ∀ i j, i < ncell → j < ncell → cellOf offsets i = cellOf offsets j → i = j := by
    intro i j hi hj e
    refine hd.2 i j hi hj ?_
    have h1 := hd.1 i hi
    have h2 := hd.1 j hj
    simp only [cellOf] at e
    omega
  obtain ⟨g1, g2⟩ := C24_schedule_independent hinj hdet hs hall hend
  constructor
  · intro i hi r
    have g := g1 i r hi
    rw [hp i hi] at g
    dsimp only
    have g' : s.cell (offsets i - 1).toNat =
        (kernel E S rootT ev2k n cutoff offs flags mode (h (offsets i - 1).toNat) r).1 := g
    cases shared
    · simp only [Bool.false_eq_true, if_false]
      rw [g', copyBack_kernel E S rootT ev2k n cutoff offs flags mode _ r (hsum i hi)]
    · simpa using g'
  · intro j hj
    have g := g2 j hj
    dsimp only
    cases shared
    · simp only [Bool.false_eq_true, if_false]
      rw [g, copyBack_self]
    · simpa using g

/-- C152: the order in which cells are listed, the number of tokens, the schedule and the kind of memory make no difference:
two calls on the same arrays listing the same cells leave the same arrays. -/
theorem C152_order (E : Eos K) (S : SolverOracle K) (hS : SolverLocal S) (rootT : Int → K → K → K) (ev2k : K)
    (n : Nat) (cutoff : K) (hc : cutoff * n < 1) (offs : Nat → Int) (flags : Bool × Bool × Bool) (mode : Mode)
    (offsets offsets' : Nat → Int) (ncell ncell' ntok ntok' : Nat) (progs progs' : Nat → Prog (Cell K) (Row K))
    (hp : Bodies E S rootT ev2k n cutoff offs flags mode ncell progs)
    (hp' : Bodies E S rootT ev2k n cutoff offs flags mode ncell' progs')
    (hd : Distinct offsets ncell) (hd' : Distinct offsets' ncell')
    (hsame : ∀ x, (∃ i, i < ncell ∧ offsets i = x) ↔ ∃ i, i < ncell' ∧ offsets' i = x)
    (shared shared' : Bool) (h h' h'' : Nat → Cell K) (ret ret' : Int)
    (hsum : ∀ i, i < ncell → ∑ m ∈ Finset.range n, (h (offsets i - 1).toNat).fmass m ≠ 0)
    (hcall : GetSgEos true shared flags mode offsets ncell ntok progs h h' ret)
    (hcall' : GetSgEos true shared' flags mode offsets' ncell' ntok' progs' h h'' ret') : h' = h'' := by
  have hsum' : ∀ i, i < ncell' → ∑ m ∈ Finset.range n, (h (offsets' i - 1).toNat).fmass m ≠ 0 := by
    intro i hi
    obtain ⟨k, hk, e⟩ := (hsame (offsets' i)).2 ⟨i, hi, rfl⟩
    rw [← e]; exact hsum k hk
  obtain ⟨a1, a2⟩ := C152_call E S hS rootT ev2k n cutoff hc offs flags mode offsets ncell ntok progs hp hd shared h h' ret
    hsum hcall
  obtain ⟨b1, b2⟩ := C152_call E S hS rootT ev2k n cutoff hc offs flags mode offsets' ncell' ntok' progs' hp' hd' shared' h
    h'' ret' hsum' hcall'
  let r : Row K := ⟨fun _ => 0, fun _ => 0, fun _ => 0, fun _ => 0, fun _ => 0, fun _ => 0, fun _ => 0⟩
  funext j
  by_cases hj : ∃ i, i < ncell ∧ (offsets i - 1).toNat = j
  · obtain ⟨i, hi, rfl⟩ := hj
    obtain ⟨k, hk, e⟩ := (hsame (offsets i)).1 ⟨i, hi, rfl⟩
    have hb := b1 k hk r
    rw [e] at hb
    rw [a1 i hi r, hb]
  · push Not at hj
    rw [a2 j hj, b2 j]
    intro k hk e
    obtain ⟨i, hi, e'⟩ := (hsame (offsets' k)).2 ⟨k, hk, rfl⟩
    exact hj i hi (by rw [e', e])

/-- C152: a call can be repeated: once the cells are answered, another call in the same mode for any of them changes nothing
(the inputs are still there, the outputs are recomputed to the same values and the recorded maximum pressure stays). -/
theorem C152_repeat (E : Eos K) (S : SolverOracle K) (hS : SolverLocal S) (rootT : Int → K → K → K) (ev2k : K)
    (n : Nat) (cutoff : K) (hc : cutoff * n < 1) (offs : Nat → Int) (flags : Bool × Bool × Bool) (mode : Mode)
    (offsets offsets' : Nat → Int) (ncell ncell' ntok ntok' : Nat) (progs progs' : Nat → Prog (Cell K) (Row K))
    (hp : Bodies E S rootT ev2k n cutoff offs flags mode ncell progs)
    (hp' : Bodies E S rootT ev2k n cutoff offs flags mode ncell' progs')
    (hd : Distinct offsets ncell) (hd' : Distinct offsets' ncell')
    (hsub : ∀ i, i < ncell' → ∃ k, k < ncell ∧ offsets k = offsets' i)
    (shared shared' : Bool) (h h' h'' : Nat → Cell K) (ret ret' : Int)
    (hsum : ∀ i, i < ncell → ∑ m ∈ Finset.range n, (h (offsets i - 1).toNat).fmass m ≠ 0)
    (hcall : GetSgEos true shared flags mode offsets ncell ntok progs h h' ret)
    (hcall' : GetSgEos true shared' flags mode offsets' ncell' ntok' progs' h' h'' ret') : h'' = h' := by
  obtain ⟨a1, -⟩ := C152_call E S hS rootT ev2k n cutoff hc offs flags mode offsets ncell ntok progs hp hd shared h h' ret
    hsum hcall
  let r : Row K := ⟨fun _ => 0, fun _ => 0, fun _ => 0, fun _ => 0, fun _ => 0, fun _ => 0, fun _ => 0⟩
  have hsum' : ∀ i, i < ncell' → ∑ m ∈ Finset.range n, (h' (offsets' i - 1).toNat).fmass m ≠ 0 := by
    intro i hi
    obtain ⟨k, hk, e⟩ := hsub i hi
    rw [← e, a1 k hk r, C26_mass_fractions_restored E S rootT ev2k n cutoff offs flags mode _ r (hsum k hk)]
    exact hsum k hk
  obtain ⟨b1, b2⟩ := C152_call E S hS rootT ev2k n cutoff hc offs flags mode offsets' ncell' ntok' progs' hp' hd' shared' h'
    h'' ret' hsum' hcall'
  funext j
  by_cases hj : ∃ i, i < ncell' ∧ (offsets' i - 1).toNat = j
  · obtain ⟨i, hi, rfl⟩ := hj
    obtain ⟨k, hk, e⟩ := hsub i hi
    rw [b1 i hi r, ← e, a1 k hk r]
    exact kernel_idem E S hS rootT ev2k n cutoff offs flags mode _ r r (hsum k hk)
      (Or.inr (some_written n cutoff _ (hsum k hk) hc))
  · push Not at hj
    exact b2 j hj

/-- C152: the modes: exactly the five documented numbers are accepted; 0 and 1 are the same mode. -/
theorem C152_modes (x : Int) :
    (modeOf x = some .rhoT ↔ x = -3) ∧ (modeOf x = some .rhoP ↔ x = -2) ∧ (modeOf x = some .pT ↔ x = -1) ∧
    (modeOf x = some .rhoE ↔ x = 0 ∨ x = 1) ∧ (modeOf x = none ↔ x < -3 ∨ 1 < x) := by
  unfold modeOf
  refine ⟨?_, ?_, ?_, ?_, ?_⟩ <;> split_ifs <;> simp <;> omega

/-! ## The EOS used -/

theorem le_eosNmat (n : Nat) (offs : Nat → Int) (m : Nat) (hm : m < n) : offs m ≤ eosNmat n offs := by
  have key : ∀ k m, m < k + 1 → offs m ≤ forN k (fun s m => if s < offs (m + 1) then offs (m + 1) else s) (offs 0) := by
    intro k
    induction k with
    | zero => intro m hm; rw [forN_zero, show m = 0 by omega]
    | succ k ih =>
      intro m hm
      rw [forN_succ]
      by_cases hmk : m = k + 1
      · subst hmk
        split_ifs with h
        · exact le_rfl
        · exact not_lt.1 h
      · have := ih m (by omega)
        split_ifs with h
        · exact this.trans h.le
        · exact this
  exact key (n - 1) m (by omega)

/-- The EOS answer the same at number `i`. -/
def EosAt (E E' : Eos K) (i : Int) : Prop :=
  E.pRT i = E'.pRT i ∧ E.eRT i = E'.eRT i ∧ E.tRE i = E'.tRE i ∧ E.bRT i = E'.bRT i ∧ E.cvRT i = E'.cvRT i ∧
    E.gRT i = E'.gRT i ∧ E.rePT i = E'.rePT i

theorem finalFunctor_eos {E E' : Eos K} (ev2k : K) (n : Nat) (flags : Bool × Bool × Bool) (npte : Nat)
    (ms tM sM pM : K) (r : Row K) (c : Cell K) (h : ∀ k, k < npte → EosAt E E' (r.idxs k)) :
    finalFunctor E ev2k n flags npte ms tM sM pM r c = finalFunctor E' ev2k n flags npte ms tM sM pM r c := by
  have e : ∀ c1 : Cell K, forN npte (finalBody E ev2k flags tM sM pM ms r) c1 =
      forN npte (finalBody E' ev2k flags tM sM pM ms r) c1 := fun c1 => forN_congr fun s m hm => by
    obtain ⟨-, -, -, h1, h2, h3, -⟩ := h m hm
    simp only [finalBody, h1, h2, h3]
  simp only [finalFunctor, e]

theorem idxs_range (ev2k : K) (n : Nat) (cutoff : K) (offs : Nat → Int) (tM sM pM : K) (c : Cell K) (r : Row K) (k : Nat)
    (hk : k < n) : ∃ m, m < n ∧ (initFunctor ev2k n cutoff offs tM sM pM c r).row.idxs k = offs m - 1 := by
  have key : ∀ (fm : Nat → K) (N : Nat), N ≤ n → ∃ m, m < n ∧
      (selectMats N cutoff offs fm r.mats (fill n (fun m => offs m - 1) r.idxs)).2.2 k = offs m - 1 := by
    intro fm N
    unfold selectMats
    induction N with
    | zero => intro _; exact ⟨k, hk, by simp [fill_apply, hk]⟩
    | succ N ih =>
      intro hN
      obtain ⟨m, hm, e⟩ := ih (by omega)
      rw [forN_succ]
      split_ifs with hc
      · dsimp only
        rw [Function.update_apply]
        split_ifs with hk'
        · exact ⟨N, by omega, rfl⟩
        · exact ⟨m, hm, e⟩
      · exact ⟨m, hm, e⟩
  exact key _ n le_rfl

/-- C152: only EOS in the copied part of the EOS array are used: if two arrays of EOS agree on the numbers `0 ≤ i < max
eos_offsets`, the answers are the same. (The PTE solver's own use of the EOS is through the same numbers.) -/
theorem C152_eos_range (E E' : Eos K) (S : SolverOracle K) (rootT rootT' : Int → K → K → K) (ev2k : K)
    (n : Nat) (hn : 1 ≤ n) (cutoff : K) (offs : Nat → Int) (hoff : ∀ m, m < n → 1 ≤ offs m) (flags : Bool × Bool × Bool)
    (mode : Mode) (c : Cell K) (r : Row K) (hE : ∀ i, 0 ≤ i → i < eosNmat n offs → EosAt E E' i)
    (hr : ∀ i, 0 ≤ i → i < eosNmat n offs → rootT i = rootT' i) :
    kernel E S rootT ev2k n cutoff offs flags mode c r = kernel E' S rootT' ev2k n cutoff offs flags mode c r := by
  have rng : ∀ m, m < n → 0 ≤ offs m - 1 ∧ offs m - 1 < eosNmat n offs := fun m hm => by
    have := hoff m hm; have := le_eosNmat n offs m hm; omega
  have ix : ∀ (tM sM pM : K) k, k < n → 0 ≤ (initFunctor ev2k n cutoff offs tM sM pM c r).row.idxs k ∧
      (initFunctor ev2k n cutoff offs tM sM pM c r).row.idxs k < eosNmat n offs := by
    intro tM sM pM k hk
    obtain ⟨m, hm, e⟩ := idxs_range ev2k n cutoff offs tM sM pM c r k hk
    rw [e]; exact rng m hm
  have hle : ∀ (tM sM pM : K), (initFunctor ev2k n cutoff offs tM sM pM c r).npte ≤ n := fun tM sM pM =>
    (selectMats_spec n cutoff offs (mapN n (fun _ x => x / forN n (fun s m => s + c.fmass m) 0) c.fmass) r.mats
    (fill n (fun m => offs m - 1) r.idxs)).2.2.2
  cases mode with
  | rhoT =>
    obtain ⟨h1, h2, -⟩ := hE _ (ix 1 0 0 0 (by omega)).1 (ix 1 0 0 0 (by omega)).2
    simp only [kernel, kernelRhoT, h1, h2]
    rw [finalFunctor_eos]
    intro k hk
    have g := ix 1 0 0 k (by have := hle 1 0 0; omega)
    split_ifs <;> exact hE _ g.1 g.2
  | rhoP =>
    obtain ⟨h1, h2, -⟩ := hE _ (ix 0 0 1 0 (by omega)).1 (ix 0 0 1 0 (by omega)).2
    simp only [kernel, kernelRhoP, h2, hr _ (ix 0 0 1 0 (by omega)).1 (ix 0 0 1 0 (by omega)).2]
    rw [finalFunctor_eos]
    intro k hk
    have g := ix 0 0 1 k (by have := hle 0 0 1; omega)
    split_ifs <;> exact hE _ g.1 g.2
  | rhoE =>
    obtain ⟨h1, h2, h3, -⟩ := hE _ (ix 0 1 0 0 (by omega)).1 (ix 0 1 0 0 (by omega)).2
    simp only [kernel, kernelRhoE, h1, h3]
    rw [finalFunctor_eos]
    intro k hk
    have g := ix 0 1 0 k (by have := hle 0 1 0; omega)
    split_ifs <;> exact hE _ g.1 g.2
  | pT =>
    have e : ∀ {L : Type _} (f g : Nat → L) (a : Nat → L), (∀ k, k < n → f k = g k) → fill n f a = fill n g a := by
      intro L f g a hfg
      funext i
      rw [fill_apply, fill_apply]
      split_ifs with h
      · exact hfg i h
      · rfl
    have e1 : ∀ k, k < n → E.rePT (fill n (fun m => offs m - 1) r.idxs k) = E'.rePT (fill n (fun m => offs m - 1) r.idxs k) := by
      intro k hk
      rw [fill_apply, if_pos hk]
      exact (hE _ (rng k hk).1 (rng k hk).2).2.2.2.2.2.2
    simp only [kernel, kernelPT]
    rw [e _ (fun m => (E'.rePT (fill n (fun m => offs m - 1) r.idxs m) (fill n (fun _ => c.press) r.press m)
      (fill n (fun _ => c.temp * ev2k) r.temp m)).1) r.rho fun k hk => by rw [e1 k hk],
      e _ (fun m => (E'.rePT (fill n (fun m => offs m - 1) r.idxs m) (fill n (fun _ => c.press) r.press m)
      (fill n (fun _ => c.temp * ev2k) r.temp m)).2) r.sie fun k hk => by rw [e1 k hk]]
    rw [finalFunctor_eos]
    intro k hk
    dsimp only
    rw [fill_apply, if_pos hk]
    exact hE _ (rng k hk).1 (rng k hk).2

/-! ## Examples and violations -/

/-- A call for one cell exists: it runs the kernel on cell number 1. -/
theorem call_one {R : Type*} (shared : Bool) (flags : Bool × Bool × Bool) (mode : Mode) (f : Cell K × R → Cell K × R)
    (h : Nat → Cell K) (r0 : R) :
    GetSgEos true shared flags mode (fun _ => 1) 1 1 (fun _ => [f]) h
      (fun j => if shared then Function.update h 0 (f (h 0, r0)).1 j
        else copyBack mode flags (h j) (Function.update h 0 (f (h 0, r0)).1 j)) 0 := by
  refine ⟨rfl, ?_⟩
  rw [if_pos rfl]
  have h0 := MemReach.init (ncell := 1) (ntok := 1) (cellOf := cellOf fun _ => 1)
    (progs := fun _ => [f]) (c0 := h) (r0 := fun _ => r0)
  have h1 := MemReach.step h0 (MemStep.start _ 0 0 (by norm_num) (by simp) (by norm_num) (by simp))
  have h2 := MemReach.step h1 (MemStep.run _ [] [] ⟨0, 0⟩ _ _ rfl)
  have h3 := MemReach.step h2 (MemStep.finish _ [] [] ⟨0, 0⟩ rfl)
  exact ⟨_, _, h3, fun i hi => by simp; omega, rfl, rfl⟩

/-- The hypotheses of `C152_call` are met: two materials of equal mass in cell 1 of an array, any EOS, a solver that leaves
the row as it is. -/
example (E : Eos ℚ) (rootT : Int → ℚ → ℚ → ℚ) (offs : Nat → Int) (flags : Bool × Bool × Bool) (mode : Mode) (h : Nat → Cell ℚ)
    (hm : ∀ m, (h 0).fmass m = 1 / 2) :
    let S : SolverOracle ℚ := fun _ _ _ r => r
    ∃ h', SolverLocal S ∧ (1 / 10 : ℚ) * (2 : Nat) < 1 ∧
      Bodies E S rootT 11604 2 (1 / 10) offs flags mode 1
        (fun _ => [fun x => kernel E S rootT 11604 2 (1 / 10) offs flags mode x.1 x.2]) ∧
      Distinct (fun _ => 1) 1 ∧
      (∀ i, i < 1 → ∑ m ∈ Finset.range 2, (h ((1 : Int) - 1).toNat).fmass m ≠ 0) ∧
      GetSgEos true false flags mode (fun _ => 1) 1 1
        (fun _ => [fun x => kernel E S rootT 11604 2 (1 / 10) offs flags mode x.1 x.2]) h h' 0 := by
  intro S
  refine ⟨_, fun k vs x r r' hr => hr, by norm_num, fun i hi x => rfl, ⟨fun i _ => le_rfl, fun i j hi hj _ => by omega⟩,
    fun i hi => by simp [Finset.sum_range_succ, hm], call_one false flags mode _ h
      ⟨fun _ => 0, fun _ => 0, fun _ => 0, fun _ => 0, fun _ => 0, fun _ => 0, fun _ => 0⟩⟩

/-- The hypotheses of `C152_eos_range` are met: three materials using EOS 2, 1 and 2 of the caller's array; the array of two
EOS is copied. -/
example : (∀ m, m < 3 → (1 : Int) ≤ (fun m : Nat => if m = 1 then (1 : Int) else 2) m) ∧
    eosNmat 3 (fun m => if m = 1 then 1 else 2) = 2 := by
  refine ⟨fun m _ => ?_, by decide⟩
  dsimp only
  split_ifs <;> norm_num

/-- C152 is violated when no material is above the cutoff (two materials of equal mass, cutoff 1/2): the energy reported in
(density, temperature) mode is computed from whatever density the scratch memory held. -/
theorem C152_no_material_violated :
    let E : Eos ℚ := ⟨fun _ r t => r * t, fun _ r _ => r, fun _ _ e => e, fun _ _ _ => 1, fun _ _ _ => 1, fun _ _ _ => 1,
      fun _ _ _ => (1, 1)⟩
    let c : Cell ℚ := ⟨0, 0, 1, 1, 0, 1, 0, 0, 0, fun _ => 1 / 2, fun _ => 0, fun _ => 0, fun _ => 0, fun _ => 0, fun _ => 0⟩
    let row : ℚ → Row ℚ := fun x => ⟨fun _ => 0, fun _ => 0, fun _ => 0, fun _ => 0, fun _ => 0, fun _ => 0, fun _ => x⟩
    ∀ x, (kernel E (fun _ _ _ r => r) (fun _ _ _ => 0) 1 2 (1 / 2) (fun i => i + 1) (false, false, false) .rhoT c (row x)).1.sie
      = x := by
  intro E c row x
  have hn : (initFunctor 1 2 (1 / 2) (fun i => (i : Int) + 1) 1 0 0 c (row x)).npte = 0 := by
    norm_num [initFunctor, selectMats, forN, mapN, c, row, Function.update_apply]
  simp only [kernel, kernelRhoT, hn]
  norm_num [initFunctor, selectMats, forN, mapN, fill, finalFunctor, setPmax, Function.update_apply, E, c, row]

/-- Cells of the list whose PTE solve the solver reports as not converged; `conv` is the flag of the solver's status. -/
def failures (conv : Nat → K → K → Row K → Bool) (ev2k : K) (n : Nat) (cutoff : K) (offs : Nat → Int) (offsets : Nat → Int)
    (ncell : Nat) (h : Nat → Cell K) (r : Row K) : Nat :=
  ((List.range ncell).filter fun i =>
    let o := initFunctor ev2k n cutoff offs 0 1 0 (h (offsets i - 1).toNat) r
    decide (1 < o.npte) && !(conv o.npte o.vfracSum o.cell.sie o.row)).length

/-- C152 is violated by the return value, announced as the number of failures: it is zero even when the PTE solve of the only
cell did not converge. -/
theorem C152_return_violated : ∃ (E : Eos ℚ) (S : SolverOracle ℚ) (h h' : Nat → Cell ℚ) (r : Row ℚ) (ret : Int),
    failures (fun _ _ _ _ => false) 1 2 0 (fun i => i + 1) (fun _ => 1) 1 h r = 1 ∧
    GetSgEos true true (false, false, false) .rhoE (fun _ => 1) 1 1
      (fun _ => [fun x => kernel E S (fun _ _ _ => 0) 1 2 0 (fun i => i + 1) (false, false, false) .rhoE x.1 x.2]) h h' ret ∧
    ret = 0 := by
  refine ⟨⟨fun _ r t => r * t, fun _ _ t => t, fun _ _ e => e, fun _ _ _ => 1, fun _ _ _ => 1, fun _ _ _ => 1,
      fun _ _ _ => (1, 1)⟩, fun _ _ _ r => r, fun _ => ⟨0, 0, 1, 1, 1, 0, 0, 0, 0, fun _ => 1 / 2, fun _ => 0, fun _ => 0,
      fun _ => 0, fun _ => 0, fun _ => 0⟩, _, ⟨fun _ => 0, fun _ => 0, fun _ => 0, fun _ => 0, fun _ => 0, fun _ => 0,
      fun _ => 0⟩, 0, ?_, call_one true (false, false, false) .rhoE _ _ ⟨fun _ => 0, fun _ => 0, fun _ => 0, fun _ => 0,
      fun _ => 0, fun _ => 0, fun _ => 0⟩, rfl⟩
  simp [failures, initFunctor, selectMats, forN, mapN, Function.update_apply, List.range_succ]

/-- C152 is violated in a build without Kokkos: a call returns zero, as for success, and computes nothing. Cell 1 has pressure
0 before and after, although its material's pressure at the given density and energy is 1. -/
theorem C152_no_kokkos_violated :
    let E : Eos ℚ := ⟨fun _ r t => r * t, fun _ _ t => t, fun _ _ e => e, fun _ _ _ => 1, fun _ _ _ => 1, fun _ _ _ => 1,
      fun _ _ _ => (1, 1)⟩
    let c : Cell ℚ := ⟨0, 0, 1, 1, 1, 0, 0, 0, 0, fun _ => 1, fun _ => 0, fun _ => 0, fun _ => 0, fun _ => 0, fun _ => 0⟩
    ∀ (r : Row ℚ) (progs : Nat → Prog (Cell ℚ) (Row ℚ)),
      GetSgEos false true (false, false, false) .rhoE (fun _ => 1) 1 1 progs (fun _ => c) (fun _ => c) 0 ∧
      (kernel E (fun _ _ _ r => r) (fun _ _ _ => 0) 1 1 0 (fun i => i + 1) (false, false, false) .rhoE c r).1.press = 1 ∧
      c.press = 0 := by
  intro E c r progs
  refine ⟨⟨rfl, by simp⟩, ?_, rfl⟩
  have hn : (initFunctor 1 1 0 (fun i => (i : Int) + 1) 0 1 0 c r).npte = 1 := by
    simp [initFunctor, selectMats, forN, mapN, c, Function.update_apply]
  simp only [kernel, kernelRhoE, hn]
  simp [initFunctor, selectMats, forN, mapN, fill, finalFunctor, finalBody, setPmax, Function.update_apply, E, c]

end Verif.CApi
