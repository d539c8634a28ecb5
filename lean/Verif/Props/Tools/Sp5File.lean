import Verif.Lemmas.Sp5
import Mathlib.Tactic.FieldSimp

set_option linter.unusedSectionVars false

/-! # C124: materials written by `sesame2spiner` are the materials the Spiner EOS read -/

namespace Verif.Sp5

open Verif.RhoSie Verif.Spec.Sp5

variable {K : Type} [Field K] [LinearOrder K] [IsStrictOrderedRing K] {G : Type}

/-- The dataset has the given grid and holds the values of `f` at its points. -/
def IsTable1 (d : Dset K G) (bR : Bnd K G) (f : K → K) : Prop :=
  ∃ v, d = .d1 bR.grid v ∧ Tabulates1 bR.n bR.pt f v

/-- The dataset has the given grids (density first) and holds the values of `f` at their points. -/
def IsTable2 (d : Dset K G) (bR bX : Bnd K G) (f : K → K → K) : Prop :=
  ∃ v, d = .d2 bR.grid bX.grid v ∧ Tabulates2 bR.n bR.pt bX.n bX.pt f v

/-- The dataset has the given grids and, for each of `n` phases, holds the values of `f` at their points. -/
def IsTable3 (d : Dset K G) (bR bT : Bnd K G) (n : Nat) (f : Nat → K → K → K) : Prop :=
  ∃ v, d = .d3 bR.grid bT.grid n v ∧ ∀ k < n, Tabulates2 bR.n bR.pt bT.n bT.pt (f k) (fun j i => v j i k)

/-- The mass fractions found are those of the library, or there are none if the library has none. -/
def IsMf (L : Lib K) (m : Mat K G) : Option (Int × Dset K G) → Prop
  | none => L.nph = none
  | some (n, d) => ∃ k : Nat, L.nph = some k ∧ n = k ∧ IsTable3 d m.bR m.bT k L.M

/-- The cold curves of a material in cgs units. -/
structure IsCold (L : Lib K) (m : Mat K G) (P sie bMod dPdRho : Dset K G) : Prop where
  P : IsTable1 P m.bR fun r => 10 ^ 10 * (L.Pc r).v
  sie : IsTable1 sie m.bR fun r => 10 ^ 10 * (L.Uc r).v
  bMod : IsTable1 bMod m.bR fun r => 10 ^ 10 * max (r * (L.Pc r).dx) 0
  dPdRho : IsTable1 dPdRho m.bR fun r => 10 ^ 10 * (L.Pc r).dx

/-- Members tabulated on density and temperature, from the library's tables of the part `s` of the material, in cgs units; the
derivatives of the temperature are those the library gives at the energy it gives. -/
structure IsMaterialT (L : Lib K) (m : Mat K G) (s : Split) (t : LoadedT K G) : Prop where
  matid : t.matid = m.matid
  rhoOffset : t.rhoOffset = |m.bR.offset|
  TOffset : t.TOffset = |m.bT.offset|
  rhoNormal : t.rhoNormal = |m.rhoNormal|
  abar : t.abar = m.abar
  zbar : t.zbar = m.zbar
  P : IsTable2 t.P m.bR m.bT fun r T => 10 ^ 10 * (L.P s r T).v
  sie : IsTable2 t.sie m.bR m.bT fun r T => 10 ^ 10 * (L.U s r T).v
  bMod : IsTable2 t.bMod m.bR m.bT fun r T => 10 ^ 10 * max (r * (L.P s r T).dx +
    (L.P s r T).dy / (L.U s r T).dy * ((L.P s r T).v / r - r * (L.U s r T).dx)) 0
  dPdRho : IsTable2 t.dPdRho m.bR m.bT fun r T =>
    10 ^ 10 * ((L.P s r T).dx + (L.T s r (L.U s r T).v).dx * (L.P s r T).dy)
  dPdE : IsTable2 t.dPdE m.bR m.bT fun r T => (L.P s r T).dy * (L.T s r (L.U s r T).v).dy
  dTdRho : IsTable2 t.dTdRho m.bR m.bT fun r T => (L.T s r (L.U s r T).v).dx
  dTdE : IsTable2 t.dTdE m.bR m.bT fun r T => (L.T s r (L.U s r T).v).dy / 10 ^ 10
  dEdRho : IsTable2 t.dEdRho m.bR m.bT fun r T => 10 ^ 10 * (L.U s r T).dx
  dEdT : IsTable2 t.dEdT m.bR m.bT fun r T => 10 ^ 10 * (L.U s r T).dy
  cold : IsCold L m t.PCold t.sieCold t.bModCold t.dPdRhoCold
  mF : IsMf L m t.mF

/-- Members tabulated on density and temperature (`t…`) and on density and energy (`e…`): in the second group pressure and its
derivatives are those the library gives at the temperature it gives for the energy. -/
structure IsMaterialE (L : Lib K) (m : Mat K G) (s : Split) (t : LoadedE K G) : Prop where
  matid : t.matid = m.matid
  rhoOffset : t.rhoOffset = |m.bR.offset|
  TOffset : t.TOffset = |m.bT.offset|
  sieOffset : t.sieOffset = |m.bE.offset|
  rhoNormal : t.rhoNormal = |m.rhoNormal|
  abar : t.abar = m.abar
  zbar : t.zbar = m.zbar
  sie : IsTable2 t.sie m.bR m.bT fun r T => 10 ^ 10 * (L.U s r T).v
  tP : IsTable2 t.tP m.bR m.bT fun r T => 10 ^ 10 * (L.P s r T).v
  tbMod : IsTable2 t.tbMod m.bR m.bT fun r T => 10 ^ 10 * max (r * (L.P s r T).dx +
    (L.P s r T).dy / (L.U s r T).dy * ((L.P s r T).v / r - r * (L.U s r T).dx)) 0
  tdPdRho : IsTable2 t.tdPdRho m.bR m.bT fun r T =>
    10 ^ 10 * ((L.P s r T).dx + (L.T s r (L.U s r T).v).dx * (L.P s r T).dy)
  tdPdE : IsTable2 t.tdPdE m.bR m.bT fun r T => (L.P s r T).dy * (L.T s r (L.U s r T).v).dy
  tdTdRho : IsTable2 t.tdTdRho m.bR m.bT fun r T => (L.T s r (L.U s r T).v).dx
  tdTdE : IsTable2 t.tdTdE m.bR m.bT fun r T => (L.T s r (L.U s r T).v).dy / 10 ^ 10
  tdEdRho : IsTable2 t.tdEdRho m.bR m.bT fun r T => 10 ^ 10 * (L.U s r T).dx
  T : IsTable2 t.T m.bR m.bE fun r e => (L.T s r (e / 10 ^ 10)).v
  eP : IsTable2 t.eP m.bR m.bE fun r e => 10 ^ 10 * (L.P s r (L.T s r (e / 10 ^ 10)).v).v
  ebMod : IsTable2 t.ebMod m.bR m.bE fun r e =>
    let T := (L.T s r (e / 10 ^ 10)).v
    10 ^ 10 * max (r * (L.P s r T).dx + (L.P s r T).dy / (L.U s r T).dy * ((L.P s r T).v / r - r * (L.U s r T).dx)) 0
  edPdRho : IsTable2 t.edPdRho m.bR m.bE fun r e =>
    let T := (L.T s r (e / 10 ^ 10)).v
    10 ^ 10 * ((L.P s r T).dx + (L.T s r (e / 10 ^ 10)).dx * (L.P s r T).dy)
  edPdE : IsTable2 t.edPdE m.bR m.bE fun r e =>
    (L.P s r (L.T s r (e / 10 ^ 10)).v).dy * (L.T s r (e / 10 ^ 10)).dy
  edTdRho : IsTable2 t.edTdRho m.bR m.bE fun r e => (L.T s r (e / 10 ^ 10)).dx
  edTdE : IsTable2 t.edTdE m.bR m.bE fun r e => (L.T s r (e / 10 ^ 10)).dy / 10 ^ 10
  edEdRho : IsTable2 t.edEdRho m.bR m.bE fun r e => 10 ^ 10 * (L.U s r (L.T s r (e / 10 ^ 10)).v).dx
  cold : IsCold L m t.PCold t.sieCold t.bModCold t.dPdRhoCold
  mF : IsMf L m t.mF

/-! ## What is in the group of a material -/

theorem mem_rhoT (L : Lib K) (m : Mat K G) (s : Split) (hs : s = .total ∨ m.subtables = true) :
    ∀ o ∈ saveRhoT L (sub .dependsLogRhoLogT s) s m, o ∈ ops L m := by
  intro o ho
  cases s
  · simp only [ops, List.mem_append]; simp only [sub] at ho; tauto
  all_goals
    have hs' : m.subtables = true := by simpa using hs
    simp only [sub] at ho
    simp only [ops, saveSub, hs', if_true, List.mem_append, List.mem_cons]
    tauto

theorem mem_rhoSie (L : Lib K) (m : Mat K G) (s : Split) (hs : s = .total ∨ m.subtables = true) :
    ∀ o ∈ saveRhoSie L (sub .dependsLogRhoLogSie s) s m, o ∈ ops L m := by
  intro o ho
  cases s
  · simp only [ops, List.mem_append]; simp only [sub] at ho; tauto
  all_goals
    have hs' : m.subtables = true := by simpa using hs
    simp only [sub] at ho
    simp only [ops, saveSub, hs', if_true, List.mem_append, List.mem_cons]
    tauto

theorem mem_cold (L : Lib K) (m : Mat K G) : ∀ o ∈ saveCold L m, o ∈ ops L m := by
  intro o ho
  simp only [ops, List.mem_append]; tauto

theorem open_T (L : Lib K) (m : Mat K G) (s : Split) (hs : s = .total ∨ m.subtables = true) :
    (written L m).open? (sub .dependsLogRhoLogT s) = some (sub .dependsLogRhoLogT s) := by
  cases s
  · exact written_open L m (loc := []) (by simp [ops])
  all_goals
    have hs' : m.subtables = true := by simpa using hs
    exact written_open L m (loc := [.dependsLogRhoLogT]) (by simp [ops, saveSub, hs'])

theorem open_E (L : Lib K) (m : Mat K G) (s : Split) (hs : s = .total ∨ m.subtables = true) :
    (written L m).open? (sub .dependsLogRhoLogSie s) = some (sub .dependsLogRhoLogSie s) := by
  cases s
  · exact written_open L m (loc := []) (by simp [ops])
  all_goals
    have hs' : m.subtables = true := by simpa using hs
    exact written_open L m (loc := [.dependsLogRhoLogSie]) (by simp [ops, saveSub, hs'])

theorem open_cold (L : Lib K) (m : Mat K G) : (written L m).open? [.coldCurve] = some [.coldCurve] :=
  written_open L m (loc := []) (by simp [ops])

theorem no_sub (L : Lib K) (m : Mat K G) (s : Split) (hs : s ≠ .total) (hm : m.subtables = false) (k : Key) :
    (written L m).obj (sub k s) = none := by
  refine (written_obj L m).2 _ ?_ (by cases s <;> simp [sub])
  cases s
  · exact absurd rfl hs
  all_goals
    cases hn : L.nph <;>
    simp [ops, saveSub, hm, saveMf, hn, saveRhoT, saveRhoSie, saveCold, Op.path, sub]

theorem mf_spec (L : Lib K) (m : Mat K G) : ∃ o, loadMf (written L m) = some o ∧ IsMf L m o := by
  cases hn : L.nph with
  | none =>
    have : (written L m).obj [.massFrac] = none := (written_obj L m).2 _ (by
      cases hm : m.subtables <;>
      simp [ops, saveSub, hm, saveMf, hn, saveRhoT, saveRhoSie, saveCold, Op.path]) (by simp)
    refine ⟨none, by simp [loadMf, this], hn⟩
  | some n =>
    have h1 := (written_obj L m).1 (.mkgroup [] .massFrac) (by simp [ops, saveMf, hn])
    have h2 := written_box L m (loc := [.massFrac]) (k := .massFractions)
      (d := .d3 m.bR.grid m.bT.grid n (dataMf L n m.bR m.bT)) (by simp [ops, saveMf, hn])
    have h3 := (written_attr L m).2 n hn
    simp only [Op.path, Op.obj, List.nil_append] at h1
    refine ⟨some (n, .d3 m.bR.grid m.bT.grid n (dataMf L n m.bR m.bT)), ?_, n, hn, rfl, _, rfl, ?_⟩
    · simp only [loadMf, h1, h2, MGroup.int, h3]
    · intro k hk j hj i hi
      exact dataMf_spec L n m.bR m.bT hj hi hk

theorem real_spec (L : Lib K) (m : Mat K G) : (written L m).real .rhoOffset = some m.bR.offset ∧
    (written L m).real .TOffset = some m.bT.offset ∧ (written L m).real .sieOffset = some m.bE.offset ∧
    (written L m).real .normalDensity = some m.rhoNormal ∧ (written L m).real .meanAtomicMass = some m.abar ∧
    (written L m).real .meanAtomicNumber = some m.zbar ∧ (written L m).int [] .matid = some m.matid := by
  simp [MGroup.real, MGroup.int, (written_attr L m).1, attrs]

theorem cold_spec (L : Lib K) (m : Mat K G) : ∃ P e b d, (written L m).box [.coldCurve] .P = some P ∧
    (written L m).box [.coldCurve] .sie = some e ∧ (written L m).box [.coldCurve] .bMod = some b ∧
    (written L m).box [.coldCurve] .dPdRho = some d ∧ IsCold L m P e b d := by
  refine ⟨_, _, _, _, written_box L m (mem_cold L m _ (by simp only [saveCold, List.mem_cons]; exact Or.inl rfl)),
    written_box L m (mem_cold L m _ (by simp only [saveCold, List.mem_cons]; exact Or.inr (Or.inl rfl))),
    written_box L m (mem_cold L m _ (by simp only [saveCold, List.mem_cons]; exact Or.inr (Or.inr (Or.inl rfl)))),
    written_box L m (mem_cold L m _ (by simp only [saveCold, List.mem_cons]; exact Or.inr (Or.inr (Or.inr (Or.inl rfl))))),
    ⟨⟨_, rfl, ?_⟩, ⟨_, rfl, ?_⟩, ⟨_, rfl, ?_⟩, ⟨_, rfl, ?_⟩⟩⟩ <;>
  · intro j hj
    simp only [dataCold_spec L m.bR hj, storeCold, sesU, getBulk, zero_mul, add_zero]

/-- The material `m` with the number and the attributes of `b`. -/
def Mat.relabel (m b : Mat K G) (i : Int) : Mat K G :=
  { m with
    matid := i
    abar := b.abar
    zbar := b.zbar
    rhoNormal := b.rhoNormal
    bR := { m.bR with offset := b.bR.offset }
    bT := { m.bT with offset := b.bT.offset }
    bE := { m.bE with offset := b.bE.offset } }

theorem reals_of (a : MGroup K G) (b : Mat K G) (ha : a.attr [] = attrs b) : a.real .rhoOffset = some b.bR.offset ∧
    a.real .TOffset = some b.bT.offset ∧ a.real .sieOffset = some b.bE.offset ∧
    a.real .normalDensity = some b.rhoNormal ∧ a.real .meanAtomicMass = some b.abar ∧
    a.real .meanAtomicNumber = some b.zbar := by
  simp [MGroup.real, ha, attrs]

theorem some_bind {α β : Type} (x : α) (f : α → Option β) : (some x >>= f) = f x := rfl

theorem loadT_spec (L : Lib K) (m b : Mat K G) (s : Split) (hs : s = .total ∨ m.subtables = true) (i : Int) (a g : MGroup K G)
    (hg : g.obj = (written L m).obj) (hgm : g.attr [.massFrac] = (written L m).attr [.massFrac]) (ha : a.attr [] = attrs b) :
    ∃ t, loadBoxesT i a g s = some t ∧ IsMaterialT L (m.relabel b i) s t := by
  have hbox : ∀ l k, g.box l k = (written L m).box l k := by intro l k; simp only [MGroup.box, hg]
  have hopen : ∀ l, g.open? l = (written L m).open? l := by intro l; simp only [MGroup.open?, hg]
  have hmf : loadMf g = loadMf (written L m) := by simp only [loadMf, hg, hbox, MGroup.int, hgm]
  obtain ⟨o, ho1, ho2⟩ := mf_spec L m
  obtain ⟨cP, ce, cb, cd, c1, c2, c3, c4, cc⟩ := cold_spec L m
  obtain ⟨r1, r2, -, r4, r5, r6⟩ := reals_of a b ha
  have hm : ∀ o ∈ saveRhoT L (sub .dependsLogRhoLogT s) s m, ∀ d k, o = .save (sub .dependsLogRhoLogT s) k d →
      g.box (sub .dependsLogRhoLogT s) k = some d := by
    rintro o ho d k rfl
    rw [hbox]; exact written_box L m (mem_rhoT L m s hs _ ho)
  simp only [saveRhoT, List.mem_cons, List.not_mem_nil, or_false, forall_eq_or_imp, forall_eq] at hm
  obtain ⟨b1, b2, b3, b4, b5, b6, b7, b8, b9⟩ := hm
  have b1 := b1 _ _ rfl
  have b2 := b2 _ _ rfl
  have b3 := b3 _ _ rfl
  have b4 := b4 _ _ rfl
  have b5 := b5 _ _ rfl
  have b6 := b6 _ _ rfl
  have b7 := b7 _ _ rfl
  have b8 := b8 _ _ rfl
  have b9 := b9 _ _ rfl
  have d1 := (hbox _ _).trans c1
  have d2 := (hbox _ _).trans c2
  have d3 := (hbox _ _).trans c3
  have d4 := (hbox _ _).trans c4
  have hl : loadBoxesT i a g s = loadBoxesT i a g s := rfl
  conv_rhs at hl =>
    unfold loadBoxesT
    rw [hopen, open_T L m s hs, some_bind, hopen, open_cold L m, some_bind, r1, some_bind, r2, some_bind, r4, some_bind, r5, some_bind, r6, some_bind, b1, some_bind, b2, some_bind, b3, some_bind, b4, some_bind, b5, some_bind, b6, some_bind, b7, some_bind, b8, some_bind, b9, some_bind, d1, some_bind, d2, some_bind, d3, some_bind, d4, some_bind, hmf, ho1, some_bind]
  refine ⟨_, hl, ?_⟩
  · have key : ∀ (f : Stored K → K) (F : K → K → K), (∀ r T, f (store r ⟨(L.P s r T).v, (L.P s r T).dx, (L.P s r T).dy, (L.U s r T).v,
        (L.U s r T).dx, (L.U s r T).dy, (L.T s r (L.U s r T).v).v, (L.T s r (L.U s r T).v).dx, (L.T s r (L.U s r T).v).dy⟩) = F r T) →
        IsTable2 (Dset.d2 m.bR.grid m.bT.grid fun j i => f (dataRhoT L s m.bR m.bT j i)) (m.relabel b i).bR (m.relabel b i).bT F := by
      intro f F h
      refine ⟨_, rfl, ?_⟩
      intro j hj i hi
      have := dataRhoT_spec L s m.bR m.bT hj hi
      dsimp only at this ⊢
      rw [this, h]; rfl
    refine ⟨rfl, rfl, rfl, rfl, rfl, rfl, key _ _ ?_, key _ _ ?_, key _ _ ?_, key _ _ ?_, key _ _ ?_, key _ _ ?_, key _ _ ?_, key _ _ ?_,
      key _ _ ?_, ⟨cc.1, cc.2, cc.3, cc.4⟩, ho2⟩ <;> intro r T <;> simp only [store, sesU, getBulk]
    · rw [one_div, inv_mul_cancel_left₀ (by positivity)]
    · rw [one_div, mul_comm, div_eq_mul_inv]

theorem loadE_spec (L : Lib K) (m b : Mat K G) (s : Split) (hs : s = .total ∨ m.subtables = true) (i : Int) (a g : MGroup K G)
    (hg : g.obj = (written L m).obj) (hgm : g.attr [.massFrac] = (written L m).attr [.massFrac]) (ha : a.attr [] = attrs b) :
    ∃ t, loadBoxesE i a g s = some t ∧ IsMaterialE L (m.relabel b i) s t := by
  have hbox : ∀ l k, g.box l k = (written L m).box l k := by intro l k; simp only [MGroup.box, hg]
  have hopen : ∀ l, g.open? l = (written L m).open? l := by intro l; simp only [MGroup.open?, hg]
  have hmf : loadMf g = loadMf (written L m) := by simp only [loadMf, hg, hbox, MGroup.int, hgm]
  obtain ⟨o, ho1, ho2⟩ := mf_spec L m
  obtain ⟨cP, ce, cb, cd, c1, c2, c3, c4, cc⟩ := cold_spec L m
  obtain ⟨r1, r2, r3, r4, r5, r6⟩ := reals_of a b ha
  have hm : ∀ o ∈ saveRhoT L (sub .dependsLogRhoLogT s) s m, ∀ d k, o = .save (sub .dependsLogRhoLogT s) k d →
      g.box (sub .dependsLogRhoLogT s) k = some d := by
    rintro o ho d k rfl
    rw [hbox]; exact written_box L m (mem_rhoT L m s hs _ ho)
  simp only [saveRhoT, List.mem_cons, List.not_mem_nil, or_false, forall_eq_or_imp, forall_eq] at hm
  obtain ⟨b1, b2, b3, b4, b5, b6, b7, b8, -⟩ := hm
  have b1 := b1 _ _ rfl
  have b2 := b2 _ _ rfl
  have b3 := b3 _ _ rfl
  have b4 := b4 _ _ rfl
  have b5 := b5 _ _ rfl
  have b6 := b6 _ _ rfl
  have b7 := b7 _ _ rfl
  have b8 := b8 _ _ rfl
  have hm : ∀ o ∈ saveRhoSie L (sub .dependsLogRhoLogSie s) s m, ∀ d k, o = .save (sub .dependsLogRhoLogSie s) k d →
      g.box (sub .dependsLogRhoLogSie s) k = some d := by
    rintro o ho d k rfl
    rw [hbox]; exact written_box L m (mem_rhoSie L m s hs _ ho)
  simp only [saveRhoSie, List.mem_cons, List.not_mem_nil, or_false, forall_eq_or_imp, forall_eq] at hm
  obtain ⟨e1, e2, e3, e4, e5, e6, e7, e8⟩ := hm
  have e1 := e1 _ _ rfl
  have e2 := e2 _ _ rfl
  have e3 := e3 _ _ rfl
  have e4 := e4 _ _ rfl
  have e5 := e5 _ _ rfl
  have e6 := e6 _ _ rfl
  have e7 := e7 _ _ rfl
  have e8 := e8 _ _ rfl
  have d1 := (hbox _ _).trans c1
  have d2 := (hbox _ _).trans c2
  have d3 := (hbox _ _).trans c3
  have d4 := (hbox _ _).trans c4
  have hl : loadBoxesE i a g s = loadBoxesE i a g s := rfl
  conv_rhs at hl =>
    unfold loadBoxesE
    rw [hopen, open_T L m s hs, some_bind, hopen, open_E L m s hs, some_bind, hopen, open_cold L m, some_bind, r1, some_bind, r2, some_bind, r3, some_bind, r4, some_bind, r5, some_bind, r6, some_bind, b2, some_bind, e2, some_bind, d1, some_bind, d2, some_bind, d3, some_bind, d4, some_bind, b1, some_bind, b3, some_bind, b4, some_bind, b5, some_bind, b6, some_bind, b7, some_bind, b8, some_bind, e1, some_bind, e3, some_bind, e4, some_bind, e5, some_bind, e6, some_bind, e7, some_bind, e8, some_bind, hmf, ho1, some_bind]
  refine ⟨_, hl, ?_⟩
  · have key : ∀ (f : Stored K → K) (F : K → K → K), (∀ r T, f (store r ⟨(L.P s r T).v, (L.P s r T).dx, (L.P s r T).dy, (L.U s r T).v,
        (L.U s r T).dx, (L.U s r T).dy, (L.T s r (L.U s r T).v).v, (L.T s r (L.U s r T).v).dx, (L.T s r (L.U s r T).v).dy⟩) = F r T) →
        IsTable2 (Dset.d2 m.bR.grid m.bT.grid fun j i => f (dataRhoT L s m.bR m.bT j i)) (m.relabel b i).bR (m.relabel b i).bT F := by
      intro f F h
      refine ⟨_, rfl, ?_⟩
      intro j hj i hi
      have := dataRhoT_spec L s m.bR m.bT hj hi
      dsimp only at this ⊢
      rw [this, h]; rfl
    have keyE : ∀ (f : Stored K → K) (F : K → K → K), (∀ r e, f (store r ⟨(L.P s r (L.T s r (e / 10 ^ 10)).v).v,
        (L.P s r (L.T s r (e / 10 ^ 10)).v).dx, (L.P s r (L.T s r (e / 10 ^ 10)).v).dy, (L.U s r (L.T s r (e / 10 ^ 10)).v).v,
        (L.U s r (L.T s r (e / 10 ^ 10)).v).dx, (L.U s r (L.T s r (e / 10 ^ 10)).v).dy, (L.T s r (e / 10 ^ 10)).v,
        (L.T s r (e / 10 ^ 10)).dx, (L.T s r (e / 10 ^ 10)).dy⟩) = F r e) →
        IsTable2 (Dset.d2 m.bR.grid m.bE.grid fun j i => f (dataRhoSie L s m.bR m.bE j i)) (m.relabel b i).bR (m.relabel b i).bE F := by
      intro f F h
      refine ⟨_, rfl, ?_⟩
      intro j hj i hi
      have := dataRhoSie_spec L s m.bR m.bE hj hi
      dsimp only at this ⊢
      have hd : 1 / sesU * m.bE.pt i = m.bE.pt i / 10 ^ 10 := by rw [sesU, one_div, mul_comm, div_eq_mul_inv]
      rw [this, hd, h]; rfl
    refine ⟨rfl, rfl, rfl, rfl, rfl, rfl, rfl, key _ _ ?_, key _ _ ?_, key _ _ ?_, key _ _ ?_, key _ _ ?_, key _ _ ?_, key _ _ ?_,
      key _ _ ?_, keyE _ _ ?_, keyE _ _ ?_, keyE _ _ ?_, keyE _ _ ?_, keyE _ _ ?_, keyE _ _ ?_, keyE _ _ ?_, keyE _ _ ?_,
      ⟨cc.1, cc.2, cc.3, cc.4⟩, ho2⟩ <;> intro r T <;> simp only [store, sesU, getBulk]
    all_goals
      first
        | rw [one_div, inv_mul_cancel_left₀ (by positivity)]
        | rw [one_div, inv_mul_eq_div]

theorem relabel_self (m : Mat K G) : m.relabel m m.matid = m := rfl

/-! ## The file as a whole -/

/-- C124: every material written can be loaded by its number or by its name, and what is loaded is the material: its number, its
attributes, and tables of the library's values in cgs units. The cold curves are those of the whole material whatever the part. -/
theorem C124_rhoT (lt : Int) (L : Int → Lib K) (ms : List (Mat K G)) (hp : ∀ m ∈ ms, GoodName m.name)
    (hd : Distinct (ms.map fun m => (m.matid, m.name))) (m : Mat K G) (hm : m ∈ ms) (k : Name)
    (hk : k = .byId m.matid ∨ k = .byName m.name) (s : Split) (hs : s = .total ∨ m.subtables = true) :
    ∃ t, loadRhoT lt (saveAll lt L ms) k s = some t ∧ IsMaterialT (L m.matid) m s t := by
  obtain ⟨h0, h1⟩ := saveAll_find lt L ms hp hd
  obtain ⟨f1, f2⟩ := h1 m hm
  obtain ⟨t, ht, hi⟩ := loadT_spec (L m.matid) m m s hs m.matid _ _ rfl rfl (written_attr (L m.matid) m).1
  refine ⟨t, ?_, hi⟩
  rcases hk with rfl | rfl
  · simp only [loadRhoT, h0, Option.getD_some, if_true, f1, ht]
  · simp only [loadRhoT, f2, (real_spec (L m.matid) m).2.2.2.2.2.2, f1, ht]

/-- C124: the same for the EOS tabulated on density and energy. -/
theorem C124_rhoSie (lt : Int) (L : Int → Lib K) (ms : List (Mat K G)) (hp : ∀ m ∈ ms, GoodName m.name)
    (hd : Distinct (ms.map fun m => (m.matid, m.name))) (m : Mat K G) (hm : m ∈ ms) (k : Name)
    (hk : k = .byId m.matid ∨ k = .byName m.name) (s : Split) (hs : s = .total ∨ m.subtables = true) :
    ∃ t, loadRhoSie (saveAll lt L ms) k s = some t ∧ IsMaterialE (L m.matid) m s t := by
  obtain ⟨h0, h1⟩ := saveAll_find lt L ms hp hd
  obtain ⟨f1, f2⟩ := h1 m hm
  obtain ⟨t, ht, hi⟩ := loadE_spec (L m.matid) m m s hs m.matid _ _ rfl rfl (written_attr (L m.matid) m).1
  refine ⟨t, ?_, hi⟩
  rcases hk with rfl | rfl
  · simp only [loadRhoSie, f1, ht]
  · simp only [loadRhoSie, f2, (real_spec (L m.matid) m).2.2.2.2.2.2, f1, ht]

/-- C124: a part of a material that was not written is not silently replaced by the whole: the program stops. -/
theorem C124_no_subtables (lt : Int) (L : Int → Lib K) (ms : List (Mat K G)) (hp : ∀ m ∈ ms, GoodName m.name)
    (hd : Distinct (ms.map fun m => (m.matid, m.name))) (m : Mat K G) (hm : m ∈ ms) (k : Name)
    (hk : k = .byId m.matid ∨ k = .byName m.name) (s : Split) (hs : s ≠ .total) (hsub : m.subtables = false) :
    loadRhoT lt (saveAll lt L ms) k s = none ∧ loadRhoSie (saveAll lt L ms) k s = none := by
  obtain ⟨h0, h1⟩ := saveAll_find lt L ms hp hd
  obtain ⟨f1, f2⟩ := h1 m hm
  have hT : ∀ i a, loadBoxesT i a (written (L m.matid) m) s = none := by
    intro i a
    unfold loadBoxesT
    have : (written (L m.matid) m).open? (sub .dependsLogRhoLogT s) = none := by
      unfold MGroup.open?; rw [no_sub (L m.matid) m s hs hsub]
    rw [this]; rfl
  have hE : ∀ i a, loadBoxesE i a (written (L m.matid) m) s = none := by
    intro i a
    unfold loadBoxesE
    have : (written (L m.matid) m).open? (sub .dependsLogRhoLogT s) = none := by
      unfold MGroup.open?; rw [no_sub (L m.matid) m s hs hsub]
    rw [this]; rfl
  rcases hk with rfl | rfl
  · simp only [loadRhoT, loadRhoSie, h0, Option.getD_some, if_true, f1, hT, hE, and_self]
  · simp only [loadRhoT, loadRhoSie, f2, (real_spec (L m.matid) m).2.2.2.2.2.2, f1, hT, hE, and_self]

/-- C124: a number that was not written is not found. -/
theorem C124_unknown_material (lt : Int) (L : Int → Lib K) (ms : List (Mat K G)) (hp : ∀ m ∈ ms, GoodName m.name)
    (hd : Distinct (ms.map fun m => (m.matid, m.name))) (i : Int)
    (hi : ∀ m ∈ ms, m.matid ≠ i ∧ m.name ≠ numeral i) (n : Str) (hn : ∀ m ∈ ms, m.name ≠ n ∧ numeral m.matid ≠ n) (s : Split) :
    loadRhoT lt (saveAll lt L ms) (.byId i) s = none ∧ loadRhoSie (saveAll lt L ms) (.byId i) s = none ∧
    loadRhoT lt (saveAll lt L ms) (.byName n) s = none ∧ loadRhoSie (saveAll lt L ms) (.byName n) s = none := by
  obtain ⟨h0, -, h2⟩ := saveAll_aux L ms ⟨some lt, fun _ => none⟩ (fun _ _ => ⟨rfl, rfl⟩)
    (fun m hm => (plain_iff _).2 (hp m hm)) (by
      unfold Spec.Sp5.Distinct at hd
      rw [List.pairwise_map] at hd
      refine hd.imp ?_
      intro a b h
      simpa only [toStr_toString, Spec.Sp5.numeral] using h)
  have hid : (saveAll lt L ms).find (toStr i) = none := by
    unfold File.find saveAll
    rw [if_pos (plain_toStr i), h2 (toStr i)]
    intro m hm
    refine ⟨fun h => (hi m hm).2 ?_, fun h => (hi m hm).1 (toStr_inj h).symm⟩
    rw [← h, toStr_toString]; rfl
  have hna : (saveAll lt L ms).find n = none := by
    unfold File.find saveAll
    split_ifs
    · rw [h2 n]
      intro m hm
      refine ⟨fun h => (hn m hm).1 h.symm, fun h => (hn m hm).2 ?_⟩
      rw [h, toStr_toString]; rfl
    · rfl
  have h0' : (saveAll lt L ms).logType = some lt := h0
  simp only [loadRhoT, loadRhoSie, h0', hid, hna, Option.getD_some, if_true, and_self]

/-- C124: a file made with another kind of logarithm is refused when a material is loaded by its number into the EOS tabulated on
density and temperature. -/
theorem C124_log_type (lt lt' : Int) (h : lt ≠ lt') (L : Int → Lib K) (ms : List (Mat K G)) (i : Int) (s : Split)
    (hp : ∀ m ∈ ms, GoodName m.name) (hd : Distinct (ms.map fun m => (m.matid, m.name))) :
    loadRhoT lt' (saveAll lt L ms) (.byId i) s = none := by
  have h0 := (saveAll_find lt L ms hp hd).1
  simp only [loadRhoT, h0, Option.getD_some, if_neg h]

/-- C124 does not hold for the other ways to load: by name, or into the EOS tabulated on density and energy, a file made with another
kind of logarithm is taken without complaint, although its grids are positions in the other logarithm. -/
theorem C124_log_type_violated (lt lt' : Int) (L : Int → Lib K) (ms : List (Mat K G)) (hp : ∀ m ∈ ms, GoodName m.name)
    (hd : Distinct (ms.map fun m => (m.matid, m.name))) (m : Mat K G) (hm : m ∈ ms) :
    (∃ t, loadRhoT lt' (saveAll lt L ms) (.byName m.name) .total = some t ∧ IsMaterialT (L m.matid) m .total t) ∧
    ∃ t, loadRhoSie (saveAll lt L ms) (.byId m.matid) .total = some t := by
  refine ⟨?_, ?_⟩
  · obtain ⟨t, ht, hi⟩ := C124_rhoT lt L ms hp hd m hm (.byName m.name) (Or.inr rfl) .total (Or.inl rfl)
    exact ⟨t, ht, hi⟩
  · obtain ⟨t, ht, -⟩ := C124_rhoSie lt L ms hp hd m hm (.byId m.matid) (Or.inl rfl) .total (Or.inl rfl)
    exact ⟨t, ht⟩

/-- C124 does not hold for names with a slash: a material so named is written, but cannot be loaded by its name. -/
theorem C124_slash_violated (lt : Int) (L : Int → Lib K) (ms : List (Mat K G)) (n : Str) (hn : '/' ∈ n) (s : Split) :
    loadRhoT lt (saveAll lt L ms) (.byName n) s = none ∧ loadRhoSie (saveAll lt L ms) (.byName n) s = none := by
  have : (saveAll lt L ms).find n = none := by
    unfold File.find
    rw [if_neg]
    intro h; exact ((plain_iff n).1 h).2.2 hn
  simp only [loadRhoT, loadRhoSie, this, and_self]

/-- C124 does not hold if a material is named after the number of a later one: the later material is not written. Its attributes
replace those of the first, and loading either number gives the first material's tables with the second material's offsets, normal
density and composition. -/
theorem C124_named_after_number_violated (lt : Int) (L : Int → Lib K) (a b : Mat K G) (hab : a.matid ≠ b.matid)
    (hn : a.name = numeral b.matid) :
    ∀ i, i = a.matid ∨ i = b.matid →
    ∃ t, loadRhoT lt (saveAll lt L [a, b]) (.byId i) .total = some t ∧ t.matid = i ∧
      t.rhoOffset = |b.bR.offset| ∧ t.TOffset = |b.bT.offset| ∧ t.rhoNormal = |b.rhoNormal| ∧ t.abar = b.abar ∧ t.zbar = b.zbar ∧
      (IsTable2 t.P a.bR a.bT fun r T => 10 ^ 10 * ((L a.matid).P .total r T).v) := by
  have hn' : a.name = toStr b.matid := by rw [hn, toStr_toString]; rfl
  have hpn : plain a.name = true := by rw [hn']; exact plain_toStr _
  obtain ⟨e0, e1, e2, e3⟩ := saveMaterial_fresh L ⟨some lt, fun _ => none⟩ a rfl rfl hpn
  have hne : toStr b.matid ≠ toStr a.matid := fun h => hab (toStr_inj h).symm
  have e2' := e2 (by rw [hn']; exact hne)
  rw [hn'] at e2'
  set f := saveMaterial L ⟨some lt, fun _ => none⟩ a with hf
  -- the second material
  set w := written (L a.matid) a with hw
  set w' := w.setAttrs [] (attrs b) with hw'
  have hmain : (saveAll lt L [a, b]).logType = some lt ∧
      (saveAll lt L [a, b]).find (toStr a.matid) = some (toStr a.matid, w') ∧
      (saveAll lt L [a, b]).find (toStr b.matid) = some (toStr a.matid, w') := by
    have hs : saveAll lt L [a, b] = saveMaterial L f b := rfl
    rw [hs]
    unfold saveMaterial
    simp only [e2', Option.isNone_some, Bool.false_eq_true, if_false]
    -- the name of the second material changes nothing that matters
    have key : ∀ f' : File K G, f'.logType = some lt → f'.top (toStr a.matid) = some (.mat w) →
        f'.top (toStr b.matid) = some (.link (toStr a.matid)) →
        let f'' := (match f'.find (toStr b.matid) with
          | some (k, g) => f'.set k (.mat (g.setAttrs [] (attrs b)))
          | none => f')
        f''.logType = some lt ∧ f''.find (toStr a.matid) = some (toStr a.matid, w') ∧
          f''.find (toStr b.matid) = some (toStr a.matid, w') := by
      intro f' k0 k1 k2
      have hfind : f'.find (toStr b.matid) = some (toStr a.matid, w) := by
        unfold File.find; rw [if_pos (plain_toStr _), k2]; simp only [k1]
      simp only [hfind]
      refine ⟨k0, ?_, ?_⟩
      · unfold File.find
        rw [if_pos (plain_toStr _)]
        simp only [File.set, Function.update_self, hw']
      · unfold File.find
        rw [if_pos (plain_toStr _)]
        simp only [File.set, Function.update_of_ne hne, k2, Function.update_self, hw']
    split_ifs with hc
    · simp only [Bool.and_eq_true, Option.isNone_iff_eq_none] at hc
      have h1 : b.name ≠ toStr a.matid := by
        intro h; rw [h, e1] at hc; exact absurd hc.2 (by simp)
      have h2 : b.name ≠ toStr b.matid := by
        intro h; rw [h, e2'] at hc; exact absurd hc.2 (by simp)
      exact key _ (by simp only [File.set]; exact e0)
        (by simp only [File.set, Function.update_of_ne h1.symm]; exact e1)
        (by simp only [File.set, Function.update_of_ne h2.symm]; exact e2')
    · exact key _ e0 e1 e2'
  obtain ⟨m0, m1, m2⟩ := hmain
  have hattr : w'.attr [] = attrs b := by
    funext x
    have : w.attr [] x = attrs a x := by rw [hw, (written_attr (L a.matid) a).1]
    simp only [hw', MGroup.setAttrs, if_true, this]
    cases x <;> rfl
  intro i hi
  obtain ⟨t, ht, hi'⟩ := loadT_spec (L a.matid) a b .total (Or.inl rfl) i w' w' rfl
    (setAttrs_other _ _ (by simp)) hattr
  refine ⟨t, ?_, hi'.matid, hi'.rhoOffset, hi'.TOffset, hi'.rhoNormal, hi'.abar, hi'.zbar, hi'.P⟩
  rcases hi with rfl | rfl
  · simp only [loadRhoT, m0, Option.getD_some, if_true, m1, ht]
  · simp only [loadRhoT, m0, Option.getD_some, if_true, m2, ht]

/-- A material on a grid of two densities, three temperatures and two energies. -/
def exMat (i : Int) (n : Str) : Mat ℚ Unit :=
  { matid := i
    name := n
    exchange := 0
    abar := 56
    zbar := 26
    bulk := 0
    rhoNormal := 8
    bR := ⟨(), -1, 2, fun j => j + 1⟩
    bT := ⟨(), 0, 3, fun j => j + 1⟩
    bE := ⟨(), 1, 2, fun j => j⟩
    subtables := true }

/-- A library whose material has pressure `rho T`. -/
def exLib : Lib ℚ :=
  ⟨fun _ r T => ⟨r * T, T, r⟩, fun _ _ T => ⟨T, 0, 1⟩, fun _ _ e => ⟨e, 0, 1⟩, fun _ => ⟨0, 0, 0⟩, fun _ => ⟨0, 0, 0⟩, some 2,
    fun k _ _ => k, []⟩

/-- The hypotheses of `C124_rhoT` are met by two materials, and the loaded pressure is the library's. -/
example : ∃ t, loadRhoT 1 (saveAll 1 (fun _ => exLib)
      [exMat 2140 ['i', 'r', 'o', 'n'], exMat 3333 ['c', 'o']]) (.byName ['c', 'o']) .electronOnly = some t ∧
    t.matid = 3333 ∧ t.rhoOffset = 1 ∧ ∃ v, t.P = .d2 () () v ∧ v 1 2 = 10 ^ 10 * (2 * 3) := by
  obtain ⟨t, ht, hi⟩ := C124_rhoT 1 (fun _ => exLib)
      [exMat 2140 ['i', 'r', 'o', 'n'], exMat 3333 ['c', 'o']] (by simp [exMat, GoodName]) (by
        simp only [Distinct, exMat, List.map_cons, List.map_nil]
        refine List.pairwise_pair.2 ⟨by decide, by decide, by decide, by decide⟩) (exMat 3333 ['c', 'o']) (by simp)
      (.byName ['c', 'o']) (Or.inr rfl) .electronOnly (Or.inr rfl)
  obtain ⟨v, hv, hv2⟩ := hi.P
  refine ⟨t, ht, hi.matid, ?_, v, hv, ?_⟩
  · rw [hi.rhoOffset]; norm_num [exMat]
  · have := hv2 1 (by decide) 2 (by decide)
    rw [this]; norm_num [exMat, exLib]

/-- C124: a file without the attribute naming its logarithm is read, by matid, as one written with the first-order
logarithm (type 1): a build with another refuses it. -/
theorem C124_no_log_type (lt : Int) (f : File K G) (i : Int) (s : Split) (h : f.logType = none) :
    (lt ≠ 1 → loadRhoT lt f (.byId i) s = none) ∧
    loadRhoT 1 f (.byId i) s = loadRhoT 1 { f with logType := some 1 } (.byId i) s := by
  constructor
  · intro hl
    simp only [loadRhoT, h, Option.getD_none]
    rw [if_neg (fun hc => hl hc.symm)]
  · simp only [loadRhoT, h, Option.getD_none, Option.getD_some, if_true, File.find]

end Verif.Sp5
