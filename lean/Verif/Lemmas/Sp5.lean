import Verif.Model.Tools.Sp5File
import Verif.Spec.Sp5

set_option linter.unusedSectionVars false

/-! # Lemmas about the `sp5` file -/

namespace Verif.Sp5

open Verif.RhoSie

variable {K : Type} [Field K] [LinearOrder K] {G : Type}

/-! ## Flat arrays -/

theorem flat_spec (nR nX : Nat) (g : Nat → Nat → K) :
    (flat nR nX g).1 = nR * nX ∧ ∀ j < nR, ∀ i < nX, (flat nR nX g).2 (j * nX + i) = g j i := by
  unfold flat
  refine forN_inv (P := fun n (st : Nat × (Nat → K)) => st.1 = n * nX ∧ ∀ j < n, ∀ i < nX, st.2 (j * nX + i) = g j i) ⟨by simp, by simp⟩ ?_
  rintro m t - ⟨h1, h2⟩
  have := forN_inv (n := nX) (body := fun st i => (st.1 + 1, Function.update st.2 st.1 (g m i))) (s := t)
    (P := fun q (st : Nat × (Nat → K)) => st.1 = m * nX + q ∧ (∀ j < m, ∀ i < nX, st.2 (j * nX + i) = g j i) ∧
      ∀ i < q, st.2 (m * nX + i) = g m i) ⟨by simp [h1], h2, by simp⟩ ?_
  · refine ⟨by rw [this.1]; ring, fun j hj i hi => ?_⟩
    rcases Nat.lt_succ_iff_lt_or_eq.1 hj with h | rfl
    · exact this.2.1 j h i hi
    · exact this.2.2 i hi
  · rintro q st hq ⟨a1, a2, a3⟩
    refine ⟨by simp only [a1]; ring, fun j hj i hi => ?_, fun i hi => ?_⟩
    · dsimp only
      rw [Function.update_of_ne, a2 j hj i hi]
      have : j * nX + nX ≤ m * nX := by rw [← Nat.succ_mul]; exact Nat.mul_le_mul_right _ hj
      omega
    · dsimp only
      rcases Nat.lt_succ_iff_lt_or_eq.1 hi with h | rfl
      · rw [Function.update_of_ne (by omega), a3 i h]
      · rw [a1, Function.update_self]

theorem unflat_spec {α : Type*} (nR nX : Nat) (h : Nat → Nat → Nat → α) (d : α) :
    ∀ j < nR, ∀ i < nX, (unflat nR nX h d).2 j i = h j i (j * nX + i) := by
  have : (unflat nR nX h d).1 = nR * nX ∧ ∀ j < nR, ∀ i < nX, (unflat nR nX h d).2 j i = h j i (j * nX + i) := by
    unfold unflat
    refine forN_inv (P := fun n (st : Nat × (Nat → Nat → α)) => st.1 = n * nX ∧ ∀ j < n, ∀ i < nX, st.2 j i = h j i (j * nX + i)) ⟨by simp, by simp⟩ ?_
    rintro m t - ⟨h1, h2⟩
    have := forN_inv (n := nX)
      (body := fun (st : Nat × (Nat → Nat → α)) i =>
        (st.1 + 1, Function.update st.2 m (Function.update (st.2 m) i (h m i st.1)))) (s := t)
      (P := fun q (st : Nat × (Nat → Nat → α)) => st.1 = m * nX + q ∧ (∀ j < m, ∀ i < nX, st.2 j i = h j i (j * nX + i)) ∧
        ∀ i < q, st.2 m i = h m i (m * nX + i)) ⟨by simp [h1], h2, by simp⟩ ?_
    · refine ⟨by rw [this.1]; ring, fun j hj i hi => ?_⟩
      rcases Nat.lt_succ_iff_lt_or_eq.1 hj with h | rfl
      · exact this.2.1 j h i hi
      · exact this.2.2 i hi
    · rintro q st hq ⟨a1, a2, a3⟩
      refine ⟨by simp only [a1]; ring, fun j hj i hi => ?_, fun i hi => ?_⟩
      · dsimp only
        rw [Function.update_of_ne (by omega), a2 j hj i hi]
      · dsimp only
        rw [Function.update_self]
        rcases Nat.lt_succ_iff_lt_or_eq.1 hi with h' | rfl
        · rw [Function.update_of_ne (by omega), a3 i h']
        · rw [Function.update_self, a1]
  exact this.2

theorem idx_lt {nR nX j i : Nat} (hj : j < nR) (hi : i < nX) : j * nX + i < nR * nX := by
  have : j * nX + nX ≤ nR * nX := by rw [← Nat.succ_mul]; exact Nat.mul_le_mul_right _ hj
  omega

theorem look_spec (f : K → K → Res K) {n k : Nat} (x y : Nat → K) (hk : k < n) : look f n x y k = f (x k) (y k) := by
  unfold look; rw [fill_apply, if_pos hk]

theorem dataRhoT_spec (L : Lib K) (s : Split) (bR bT : Bnd K G) {j i : Nat} (hj : j < bR.n) (hi : i < bT.n) :
    dataRhoT L s bR bT j i =
      let p := L.P s (bR.pt j) (bT.pt i)
      let e := L.U s (bR.pt j) (bT.pt i)
      let t := L.T s (bR.pt j) e.v
      store (bR.pt j) ⟨p.v, p.dx, p.dy, e.v, e.dx, e.dy, t.v, t.dx, t.dy⟩ := by
  unfold dataRhoT
  dsimp only
  rw [unflat_spec _ _ _ _ j hj i hi]
  have hk := idx_lt hj hi
  simp only [look_spec _ _ _ hk, (flat_spec _ _ _).2 j hj i hi]

theorem dataRhoSie_spec (L : Lib K) (s : Split) (bR bE : Bnd K G) {j i : Nat} (hj : j < bR.n) (hi : i < bE.n) :
    dataRhoSie L s bR bE j i =
      let t := L.T s (bR.pt j) (1 / sesU * bE.pt i)
      let p := L.P s (bR.pt j) t.v
      let e := L.U s (bR.pt j) t.v
      store (bR.pt j) ⟨p.v, p.dx, p.dy, e.v, e.dx, e.dy, t.v, t.dx, t.dy⟩ := by
  unfold dataRhoSie
  dsimp only
  rw [unflat_spec _ _ _ _ j hj i hi]
  have hk := idx_lt hj hi
  simp only [look_spec _ _ _ hk, (flat_spec _ _ _).2 j hj i hi]

theorem dataCold_spec (L : Lib K) (bR : Bnd K G) {j : Nat} (hj : j < bR.n) :
    dataCold L bR j = storeCold (bR.pt j) (L.Pc (bR.pt j)).v (L.Pc (bR.pt j)).dx (L.Uc (bR.pt j)).v (L.Uc (bR.pt j)).dx := by
  unfold dataCold; rw [fill_apply, if_pos hj]

theorem dataMf_spec (L : Lib K) (n : Nat) (bR bT : Bnd K G) {j i k : Nat} (hj : j < bR.n) (hi : i < bT.n) (hk : k < n) :
    dataMf L n bR bT j i k = L.M k (bR.pt j) (bT.pt i) := by
  unfold dataMf
  dsimp only
  rw [unflat_spec _ _ _ _ j hj i hi]
  have hq := idx_lt hj hi
  set N := bR.n * bT.n
  set q := j * bT.n + i with hqd
  have h1 : k * N + q < N * n := by
    have : k * N + N ≤ n * N := by rw [← Nat.succ_mul]; exact Nat.mul_le_mul_right _ hk
    rw [Nat.mul_comm N n]; omega
  have h2 : (k * N + q) / N = k := by
    rw [Nat.mul_comm k N, Nat.mul_add_div (by omega), Nat.div_eq_of_lt hq, Nat.add_zero]
  have h3 : (k * N + q) % N = q := by
    rw [Nat.mul_comm k N, Nat.mul_add_mod, Nat.mod_eq_of_lt hq]
  simp only [if_pos hk, if_pos h1, h2, h3]
  rw [hqd, (flat_spec _ _ _).2 j hj i hi, (flat_spec _ _ _).2 j hj i hi]

/-! ## Writing into the group of a material -/

/-- The place an operation writes to. -/
def Op.path : Op K G → List Key
  | .mkgroup loc k => loc ++ [k]
  | .save loc k _ => loc ++ [k]

/-- The object an operation writes. -/
def Op.obj : Op K G → Obj K G
  | .mkgroup _ _ => .group
  | .save _ _ d => .data d

/-- Every operation finds its group (among `S` or made before) and an empty place (`T` are those taken). -/
def fits : List (List Key) → List (List Key) → List (Op K G) → Bool
  | _, _, [] => true
  | S, T, .mkgroup loc k :: r => S.contains loc && !T.contains (loc ++ [k]) && fits ((loc ++ [k]) :: S) ((loc ++ [k]) :: T) r
  | S, T, .save loc k _ :: r => S.contains loc && !T.contains (loc ++ [k]) && fits S ((loc ++ [k]) :: T) r

theorem fold_spec (os : List (Op K G)) : ∀ (S T : List (List Key)) (g : MGroup K G), fits S T os = true →
    (∀ p ∈ S, g.obj p = some .group) → (∀ p, g.obj p ≠ none → p ∈ T) →
    (∀ o ∈ os, ((os.foldl MGroup.step g).obj o.path) = some o.obj) ∧
    (∀ p, p ∈ T → (os.foldl MGroup.step g).obj p = g.obj p) ∧
    (∀ p, p ∉ os.map Op.path → (os.foldl MGroup.step g).obj p = g.obj p) ∧
    (os.foldl MGroup.step g).attr = g.attr := by
  induction os with
  | nil => intro S T g _ _ _; exact ⟨by simp, fun _ _ => rfl, fun _ _ => rfl, rfl⟩
  | cons o r ih =>
    intro S T g hf hS hT
    -- what is common to both kinds of operation
    have key : ∀ (loc : List Key) (k : Key) (ob : Obj K G) (S' : List (List Key)), o.path = loc ++ [k] → o.obj = ob →
        MGroup.step g o = g.put loc k ob →
        loc ∈ S → loc ++ [k] ∉ T → fits S' ((loc ++ [k]) :: T) r = true →
        (∀ p ∈ S', p ∈ S ∨ (p = loc ++ [k] ∧ ob = .group)) →
        (∀ o' ∈ o :: r, (((o :: r).foldl MGroup.step g).obj o'.path) = some o'.obj) ∧
        (∀ p, p ∈ T → ((o :: r).foldl MGroup.step g).obj p = g.obj p) ∧
        (∀ p, p ∉ (o :: r).map Op.path → ((o :: r).foldl MGroup.step g).obj p = g.obj p) ∧
        ((o :: r).foldl MGroup.step g).attr = g.attr := by
      intro loc k ob S' hp ho hst hl hn hf' hS'
      have hg : g.obj (loc ++ [k]) = none := by
        by_contra h; exact hn (hT _ h)
      have hput : g.put loc k ob = { g with obj := Function.update g.obj (loc ++ [k]) (some ob) } := by
        unfold MGroup.put; rw [hS loc hl, hg]
      set g' := g.put loc k ob with hg'
      have hob : g'.obj = Function.update g.obj (loc ++ [k]) (some ob) := by rw [hput]
      have hat : g'.attr = g.attr := by rw [hput]
      obtain ⟨c1, c2, c3, c4⟩ := ih S' ((loc ++ [k]) :: T) g' hf' (by
        intro p hp'
        rw [hob]
        rcases hS' p hp' with h | ⟨rfl, rfl⟩
        · have hne : p ≠ loc ++ [k] := by
            rintro rfl; rw [hS _ h] at hg; exact absurd hg (by simp)
          rw [Function.update_of_ne hne, hS _ h]
        · rw [Function.update_self]) (by
        intro p hp'
        rw [hob] at hp'
        by_cases h : p = loc ++ [k]
        · rw [h]; exact List.mem_cons_self
        · rw [Function.update_of_ne h] at hp'; exact List.mem_cons_of_mem _ (hT _ hp'))
      have hfold : (o :: r).foldl MGroup.step g = r.foldl MGroup.step g' := by rw [List.foldl_cons, hst]
      rw [hfold]
      refine ⟨fun o' ho' => ?_, fun p hpT => ?_, fun p hpm => ?_, by rw [c4, hat]⟩
      · rcases List.mem_cons.1 ho' with rfl | h
        · rw [hp, c2 _ List.mem_cons_self, hob, Function.update_self, ho]
        · exact c1 o' h
      · rw [c2 p (List.mem_cons_of_mem _ hpT), hob, Function.update_of_ne]
        rintro rfl; exact hn hpT
      · simp only [List.map_cons, List.mem_cons, not_or] at hpm
        rw [c3 p hpm.2, hob, Function.update_of_ne (by rw [← hp]; exact hpm.1)]
    cases o with
    | mkgroup loc k =>
      simp only [fits, Bool.and_eq_true, Bool.not_eq_true', List.contains_eq_mem, decide_eq_true_eq, decide_eq_false_iff_not] at hf
      exact key loc k .group _ rfl rfl rfl hf.1.1 hf.1.2 hf.2 (by
        intro p hp
        rcases List.mem_cons.1 hp with rfl | h
        · exact Or.inr ⟨rfl, rfl⟩
        · exact Or.inl h)
    | save loc k d =>
      simp only [fits, Bool.and_eq_true, Bool.not_eq_true', List.contains_eq_mem, decide_eq_true_eq, decide_eq_false_iff_not] at hf
      exact key loc k (.data d) _ rfl rfl rfl hf.1.1 hf.1.2 hf.2 (fun p hp => Or.inl hp)

theorem ops_fits (L : Lib K) (m : Mat K G) : fits [[]] [[]] (ops L m) = true := by
  unfold ops saveMf saveSub
  cases L.nph <;> cases m.subtables <;> rfl

/-- The group of a material after everything is written. -/
def written (L : Lib K) (m : Mat K G) : MGroup K G :=
  let g := (ops L m).foldl MGroup.step (MGroup.empty.setAttrs [] (attrs m))
  match L.nph with
  | some n => g.setAttrs [.massFrac] fun a => if a = .numphases then some (.int n) else none
  | none => g

theorem written_obj (L : Lib K) (m : Mat K G) : (∀ o ∈ ops L m, (written L m).obj o.path = some o.obj) ∧
    (∀ p, p ∉ (ops L m).map Op.path → p ≠ [] → (written L m).obj p = none) := by
  have h := fold_spec (ops L m) [[]] [[]] (MGroup.empty.setAttrs [] (attrs m)) (ops_fits L m)
    (by simp [MGroup.empty, MGroup.setAttrs]) (by
      intro p hp
      by_contra h
      apply hp
      have : p ≠ [] := by simpa using h
      simp [MGroup.empty, MGroup.setAttrs, this])
  have hw : (written L m).obj = ((ops L m).foldl MGroup.step (MGroup.empty.setAttrs [] (attrs m))).obj := by
    unfold written
    cases L.nph <;> rfl
  rw [hw]
  refine ⟨h.1, fun p hp hne => ?_⟩
  rw [h.2.2.1 p hp]
  simp [MGroup.empty, MGroup.setAttrs, hne]

theorem setAttrs_other (g : MGroup K G) (a : Att → Option (Val K)) {loc p : List Key} (h : p ≠ loc) :
    (g.setAttrs loc a).attr p = g.attr p := by
  funext k; simp [MGroup.setAttrs, h]

theorem written_attr (L : Lib K) (m : Mat K G) : (written L m).attr [] = attrs m ∧
    ∀ n, L.nph = some n → (written L m).attr [.massFrac] .numphases = some (.int n) := by
  have h := fold_spec (ops L m) [[]] [[]] (MGroup.empty.setAttrs [] (attrs m)) (ops_fits L m)
    (by simp [MGroup.empty, MGroup.setAttrs]) (by
      intro p hp
      by_contra h
      apply hp
      have : p ≠ [] := by simpa using h
      simp [MGroup.empty, MGroup.setAttrs, this])
  have ha := h.2.2.2
  constructor
  · funext a
    unfold written
    cases hn : L.nph with
    | none =>
      dsimp only
      rw [ha]
      simp only [MGroup.setAttrs, MGroup.empty, if_true]
      cases attrs m a <;> rfl
    | some n =>
      dsimp only
      rw [setAttrs_other _ _ (by simp), ha]
      simp only [MGroup.setAttrs, MGroup.empty, if_true]
      cases attrs m a <;> rfl
  · intro n hn
    unfold written
    rw [hn]
    simp [MGroup.setAttrs]

theorem written_box (L : Lib K) (m : Mat K G) {loc : List Key} {k : Key} {d : Dset K G} (h : Op.save loc k d ∈ ops L m) :
    (written L m).box loc k = some d := by
  have := (written_obj L m).1 _ h
  simp only [Op.path, Op.obj] at this
  unfold MGroup.box
  rw [this]

theorem written_open (L : Lib K) (m : Mat K G) {loc : List Key} {k : Key} (h : Op.mkgroup loc k ∈ ops L m) :
    (written L m).open? (loc ++ [k]) = some (loc ++ [k]) := by
  have := (written_obj L m).1 _ h
  simp only [Op.path, Op.obj] at this
  unfold MGroup.open?
  rw [this]

/-! ## Numbers as names -/

theorem toStr_toString (i : Int) : toStr i = (toString i).toList := by
  cases i with
  | ofNat n =>
    have h : ¬ (Int.ofNat n < 0) := by simp
    simp only [toStr, h, if_false]
    show Nat.toDigits 10 n = (Nat.repr n).toList
    simp [Nat.repr]
  | negSucc n =>
    have h : Int.negSucc n < 0 := Int.negSucc_lt_zero n
    simp only [toStr, h, if_true]
    show _ = ("-" ++ Nat.repr (n + 1)).toList
    simp [Nat.repr, Int.natAbs]

theorem digit_ne {c : Char} {n : Nat} (h : c ∈ Nat.toDigits 10 n) : c ≠ '-' ∧ c ≠ '/' ∧ c ≠ '.' := by
  have := Nat.isDigit_of_mem_toDigits (by decide) (by decide) h
  refine ⟨?_, ?_, ?_⟩ <;> (rintro rfl; revert this; decide)

theorem toStr_inj {i j : Int} (h : toStr i = toStr j) : i = j := by
  have hd : ∀ a b : Nat, Nat.toDigits 10 a = Nat.toDigits 10 b → a = b := by
    intro a b h
    have := congrArg (fun l => Nat.ofDigitChars 10 l 0) h
    simpa only [Nat.ofDigitChars_ten_toDigits] using this
  have hm : ∀ a b : Nat, '-' :: Nat.toDigits 10 a ≠ Nat.toDigits 10 b := by
    intro a b h
    exact (digit_ne (n := b) (c := '-') (by rw [← h]; simp)).1 rfl
  unfold toStr at h
  split_ifs at h with h1 h2 h2
  · have := hd _ _ (List.cons.inj h).2; omega
  · exact absurd h (hm _ _)
  · exact absurd h.symm (hm _ _)
  · have := hd _ _ h; omega

theorem plain_iff (s : Str) : plain s = true ↔ s ≠ [] ∧ s ≠ ['.'] ∧ '/' ∉ s := by
  simp [plain, and_assoc]

theorem plain_toStr (i : Int) : plain (toStr i) = true := by
  rw [plain_iff]
  have hne : ∀ n : Nat, Nat.toDigits 10 n ≠ [] := fun n => Nat.toDigits_ne_nil
  unfold toStr
  split_ifs
  · refine ⟨by simp, ?_, ?_⟩
    · intro h; exact absurd (List.cons.inj h).1 (by decide)
    · intro h
      rcases List.mem_cons.1 h with h | h
      · exact absurd h (by decide)
      · exact (digit_ne h).2.1 rfl
  · refine ⟨hne _, ?_, ?_⟩
    · intro h
      exact (digit_ne (n := _) (c := '.') (by rw [h]; simp)).2.2 rfl
    · intro h; exact (digit_ne h).2.1 rfl

/-! ## Several materials -/

theorem saveMaterial_fresh (L : Int → Lib K) (f : File K G) (m : Mat K G) (h1 : f.top (toStr m.matid) = none)
    (h2 : f.top m.name = none) (hp : plain m.name = true) :
    (saveMaterial L f m).logType = f.logType ∧
    (saveMaterial L f m).top (toStr m.matid) = some (.mat (written (L m.matid) m)) ∧
    (m.name ≠ toStr m.matid → (saveMaterial L f m).top m.name = some (.link (toStr m.matid))) ∧
    ∀ s, s ≠ m.name → s ≠ toStr m.matid → (saveMaterial L f m).top s = f.top s := by
  have hpi := plain_toStr m.matid
  unfold saveMaterial written
  simp only [h1, Option.isNone_none, if_true, hp, Bool.true_and]
  by_cases hn : m.name = toStr m.matid
  · simp only [File.set, hn, Function.update_self, Option.isNone_some, Bool.false_eq_true, if_false, File.find, hpi, if_true]
    refine ⟨trivial, ?_, fun h => absurd rfl h, fun s hs _ => ?_⟩
    · rfl
    · rw [Function.update_of_ne hs, Function.update_of_ne hs, Function.update_of_ne hs]
  · have hn' : toStr m.matid ≠ m.name := fun h => hn h.symm
    simp only [File.set, Function.update_of_ne hn, h2, Option.isNone_none, if_true, File.find, hpi, Function.update_of_ne hn',
      Function.update_self]
    refine ⟨trivial, ?_, fun _ => ?_, fun s hs hs' => ?_⟩
    · rfl
    · trivial
    · rw [Function.update_of_ne hs', Function.update_of_ne hs', Function.update_of_ne hs, Function.update_of_ne hs']

theorem saveAll_aux (L : Int → Lib K) (ms : List (Mat K G)) : ∀ f : File K G,
    (∀ m ∈ ms, f.top (toStr m.matid) = none ∧ f.top m.name = none) →
    (∀ m ∈ ms, plain m.name = true) →
    ms.Pairwise (fun a b => a.matid ≠ b.matid ∧ a.name ≠ b.name ∧ a.name ≠ toStr b.matid ∧ b.name ≠ toStr a.matid) →
    (ms.foldl (saveMaterial L) f).logType = f.logType ∧
    (∀ m ∈ ms, (ms.foldl (saveMaterial L) f).top (toStr m.matid) = some (.mat (written (L m.matid) m)) ∧
      (m.name ≠ toStr m.matid → (ms.foldl (saveMaterial L) f).top m.name = some (.link (toStr m.matid)))) ∧
    ∀ s, (∀ m ∈ ms, s ≠ m.name ∧ s ≠ toStr m.matid) → (ms.foldl (saveMaterial L) f).top s = f.top s := by
  induction ms with
  | nil => intro f _ _ _; exact ⟨rfl, by simp, fun _ _ => rfl⟩
  | cons m r ih =>
    intro f hf hp hd
    obtain ⟨hd1, hd2⟩ := List.pairwise_cons.1 hd
    obtain ⟨e0, e1, e2, e3⟩ := saveMaterial_fresh L f m (hf m (by simp)).1 (hf m (by simp)).2 (hp m (by simp))
    obtain ⟨c0, c1, c2⟩ := ih (saveMaterial L f m) (by
      intro q hq
      obtain ⟨a, b, c, d⟩ := hd1 q hq
      refine ⟨?_, ?_⟩
      · rw [e3 _ (fun h => c h.symm) (fun h => a (toStr_inj h).symm)]; exact (hf q (by simp [hq])).1
      · rw [e3 _ (fun h => b h.symm) d]; exact (hf q (by simp [hq])).2) (fun q hq => hp q (by simp [hq])) hd2
    rw [List.foldl_cons]
    refine ⟨c0.trans e0, fun q hq => ?_, fun s hs => ?_⟩
    · rcases List.mem_cons.1 hq with rfl | h
      · refine ⟨?_, fun hne => ?_⟩
        · rw [c2 _ (fun x hx => ⟨fun h => (hd1 x hx).2.2.2 h.symm, fun h => (hd1 x hx).1 (toStr_inj h)⟩), e1]
        · rw [c2 _ (fun x hx => ⟨(hd1 x hx).2.1, (hd1 x hx).2.2.1⟩), e2 hne]
      · exact c1 q h
    · rw [c2 s (fun x hx => hs x (by simp [hx])), e3 s (hs m (by simp)).1 (hs m (by simp)).2]

theorem saveAll_find (lt : Int) (L : Int → Lib K) (ms : List (Mat K G)) (hp : ∀ m ∈ ms, Spec.Sp5.GoodName m.name)
    (hd : Spec.Sp5.Distinct (ms.map fun m => (m.matid, m.name))) :
    (saveAll lt L ms).logType = some lt ∧ ∀ m ∈ ms,
    (saveAll lt L ms).find (toStr m.matid) = some (toStr m.matid, written (L m.matid) m) ∧
    (saveAll lt L ms).find m.name = some (toStr m.matid, written (L m.matid) m) := by
  have hp' : ∀ m ∈ ms, plain m.name = true := fun m hm => (plain_iff _).2 (hp m hm)
  obtain ⟨h0, h1, -⟩ := saveAll_aux L ms ⟨some lt, fun _ => none⟩ (fun _ _ => ⟨rfl, rfl⟩) hp' (by
    unfold Spec.Sp5.Distinct at hd
    rw [List.pairwise_map] at hd
    refine hd.imp ?_
    intro a b h
    simpa only [toStr_toString, Spec.Sp5.numeral] using h)
  refine ⟨h0, fun m hm => ?_⟩
  obtain ⟨a, b⟩ := h1 m hm
  have e1 : (saveAll lt L ms).find (toStr m.matid) = some (toStr m.matid, written (L m.matid) m) := by
    unfold File.find saveAll
    rw [if_pos (plain_toStr _), a]
  refine ⟨e1, ?_⟩
  by_cases hn : m.name = toStr m.matid
  · rw [hn, e1]
  · unfold File.find saveAll
    rw [if_pos (hp' m hm), b hn]
    simp only [a]

end Verif.Sp5
