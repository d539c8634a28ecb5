import Verif.Lemmas.Serialize

set_option linter.unusedSectionVars false

namespace Verif
namespace Ser

variable {β S : Type}

/-- The bytes of all dynamic memory of a list of EOS. -/
def allBytes (m : Mem β) (os : List (Obj S)) : List β :=
  (os.map fun o => bytesOf m (blocks o)).flatten

/-- Sum of the dynamic memory sizes. -/
def dynSum (os : List (Obj S)) : Nat := (os.map dynSize).sum

/-- Sum of the serialised sizes. -/
def serSum (L : Layout (Obj S) β) (os : List (Obj S)) : Nat := (os.map (serializedSize L)).sum

/-- Memory `m` holds at `p` the images of the EOS whose tables were in `m0`. -/
def Image (L : Layout (Obj S) β) (m0 m : Mem β) : Nat → List (Obj S) → Prop
  | _, [] => True
  | p, o :: os => load m p L.size = L.enc o ∧
      load m (p + L.size) (dynSize o) = bytesOf m0 (blocks o) ∧
      Image L m0 m (p + serializedSize L o) os

theorem image_congr {L : Layout (Obj S) β} {m0 m m' : Mem β} : ∀ {os : List (Obj S)} {p q : Nat},
    Image L m0 m p os → (∀ i, i < serSum L os → m' (q + i) = m (p + i)) → Image L m0 m' q os := by
  intro os
  induction os with
  | nil => intros; trivial
  | cons o os ih =>
    intro p q h hm
    obtain ⟨h1, h2, h3⟩ := h
    simp only [serSum, List.map_cons, List.sum_cons, serializedSize] at hm
    refine ⟨?_, ?_, ?_⟩
    · rw [← h1]; apply load_congr; intro i hi; exact hm i (by omega)
    · rw [← h2]; apply load_congr; intro i hi
      have := hm (L.size + i) (by omega)
      rw [← Nat.add_assoc, ← Nat.add_assoc] at this
      exact this
    · apply ih h3
      intro i hi
      have := hm (L.size + dynSize o + i) (by unfold serSum at hi; omega)
      simp only [serializedSize]
      rw [← Nat.add_assoc, ← Nat.add_assoc] at this
      rw [← Nat.add_assoc, ← Nat.add_assoc]
      simpa [Nat.add_assoc] using this

/-- Images depend on the original memory only through the tables. -/
theorem image_orig {L : Layout (Obj S) β} {m0 m0' m : Mem β} : ∀ {os : List (Obj S)} {p : Nat},
    Image L m0 m p os → (∀ o ∈ os, bytesOf m0' (blocks o) = bytesOf m0 (blocks o)) →
      Image L m0' m p os := by
  intro os
  induction os with
  | nil => intros; trivial
  | cons o os ih =>
    intro p h hm
    exact ⟨h.1, h.2.1.trans (hm o (by simp)).symm, ih h.2.2 (fun x hx => hm x (by simp [hx]))⟩

theorem serializeAll_spec (L : Layout (Obj S) β) (dst : Nat) : ∀ (os : List (Obj S)) (m : Mem β)
    (off lo n : Nat), (∀ o ∈ os, NamesOk o) → (∀ o ∈ os, ∀ r ∈ blocks o, Apart r lo n) →
    lo ≤ dst + off → dst + off + serSum L os ≤ lo + n →
    ∃ m', serializeAll L dst off os m = some (m', off + serSum L os) ∧ Image L m m' (dst + off) os ∧
      (∀ a, ¬ (dst + off ≤ a ∧ a < dst + off + serSum L os) → m' a = m a) := by
  intro os
  induction os with
  | nil => intro m off lo n _ _ _ _; exact ⟨m, by simp [serializeAll, serSum], trivial, fun _ _ => rfl⟩
  | cons o os ih =>
    intro m off lo n hn hap hlo hhi
    have hsum : serSum L (o :: os) = serializedSize L o + serSum L os := by simp [serSum]
    rw [hsum] at hhi ⊢
    obtain ⟨m1, e1, e2, e3, e4⟩ := serialize_spec L m o (dst + off) (hn o (by simp))
      (fun r hr a ha hb hc => hap o (by simp) r hr a ha hb (by omega))
    obtain ⟨m2, f1, f2, f3⟩ := ih m1 (off + serializedSize L o) lo n
      (fun x hx => hn x (by simp [hx])) (fun x hx => hap x (by simp [hx])) (by omega) (by omega)
    have hsz : serializedSize L o = L.size + dynSize o := rfl
    refine ⟨m2, ?_, ⟨?_, ?_, ?_⟩, ?_⟩
    · simp only [serializeAll, e1, Option.bind_some, f1, Nat.add_assoc]
    · rw [← e2]; apply load_congr; intro i hi; exact f3 _ (by omega)
    · rw [← e3]; apply load_congr; intro i hi; exact f3 _ (by omega)
    · rw [Nat.add_assoc]
      apply image_orig f2
      intro x hx
      symm
      apply bytesOf_apart (lo := lo) (n := n) (hap x (by simp [hx]))
      intro a ha
      exact e4 a (by omega)
    · intro a ha
      rw [f3 a (by omega), e4 a (by omega)]

/-- The de-serialising loop when a shared block is given. -/
theorem deserializeAll_shared (L : Layout (Obj S) β) (src : Nat) (m0 : Mem β) :
    ∀ (os : List (Obj S)) (m : Mem β) (off sh : Nat) (t : Settings), t.data ≠ 0 →
    (∀ o ∈ os, o.kind ≠ .helm) → Image L m0 m (src + off) os →
    (∀ a, src + off ≤ a → a < src + off + serSum L os →
      ¬ (t.data ≤ a ∧ a < t.data + dynSum os)) →
    ∃ m' os', deserializeAll L src os.length off sh t m =
        some (m', os', off + serSum L os, sh + dynSum os) ∧
      os'.length = os.length ∧ serSum L os' = serSum L os ∧ dynSum os' = dynSum os ∧
      (∀ mm : Mem β, load mm t.data (dynSum os) = allBytes m0 os →
        os'.map (observe mm) = os.map (observe m0)) ∧
      (∀ o' ∈ os', ∀ r ∈ blocks o', 0 < dynSize o' → Inside r t.data (dynSum os)) ∧
      (∀ a, ¬ (t.data ≤ a ∧ a < t.data + dynSum os) → m' a = m a) ∧
      (t.root = true → load m' t.data (dynSum os) = allBytes m0 os) ∧
      (t.root = false → m' = m) := by
  intro os
  induction os with
  | nil =>
    intro m off sh t _ _ _ _
    refine ⟨m, [], by simp [deserializeAll, serSum, dynSum], rfl, rfl, rfl, ?_, ?_, ?_, ?_, ?_⟩ <;>
      simp [dynSum, allBytes]
  | cons o os ih =>
    intro m off sh t ht hk him hdj
    obtain ⟨i1, i2, i3⟩ := him
    have hsum : serSum L (o :: os) = serializedSize L o + serSum L os := by simp [serSum]
    have hdsum : dynSum (o :: os) = dynSize o + dynSum os := by simp [dynSum]
    have habs : allBytes m0 (o :: os) = bytesOf m0 (blocks o) ++ allBytes m0 os := by simp [allBytes]
    have hsz : serializedSize L o = L.size + dynSize o := rfl
    rw [hsum, hdsum] at hdj
    obtain ⟨m1, o', d1, d2, d3, d4, d5, d6, d7, d8⟩ := deserialize_spec L m (src + off) t o i1
    have hbase : base o (src + off + L.size) t = t.data := by
      unfold base; rw [if_neg (hk o (by simp)), if_neg ht]
    rw [hbase] at d6 d7
    have hfr1 : ∀ a, ¬ (t.data ≤ a ∧ a < t.data + dynSize o) → m1 a = m a := by
      intro a ha
      rw [d8]
      split_ifs
      · exact memcpy_apart ha
      · rfl
    have him' : Image L m0 m1 (src + (off + serializedSize L o)) os := by
      rw [← Nat.add_assoc]
      apply image_congr i3
      intro i hi
      apply hfr1
      have := hdj (src + off + serializedSize L o + i) (by omega) (by omega)
      omega
    obtain ⟨m2, os', e1, e2, e3, e4, e5, e6, e7, e8, e9⟩ := ih m1 (off + serializedSize L o)
      (sh + dynSize o) { t with data := t.data + dynSize o } (by simp only; omega)
      (fun x hx => hk x (by simp [hx])) him'
      (by intro a ha hb; have := hdj a (by omega) (by omega); simp only; omega)
    simp only at e5 e6 e7 e8 e9
    refine ⟨m2, o' :: os', ?_, by simp [e2], ?_, ?_, ?_, ?_, ?_, ?_, ?_⟩
    · simp only [List.length_cons, deserializeAll, d1, Option.bind_some, sharedSize, d3, e1,
        Option.map_some, hsum, hdsum, Nat.add_assoc]
    · have : serSum L (o' :: os') = serializedSize L o' + serSum L os' := by simp [serSum]
      rw [this, d2, e3, hsum]
    · have : dynSum (o' :: os') = dynSize o' + dynSum os' := by simp [dynSum]
      rw [this, d3, e4, hdsum]
    · intro mm h
      rw [hdsum, load_add, habs] at h
      obtain ⟨ha, hb⟩ := List.append_inj h (by rw [load_length, bytesOf_length, dynSize_blocks])
      simp [d7 mm m0 ha, e5 mm hb]
    · intro x hx r hr hpos
      rw [hdsum]
      rcases List.mem_cons.1 hx with rfl | hx
      · intro a ha hb
        have := d6 r hr (by omega) a ha hb
        omega
      · intro a ha hb
        have := e6 x hx r hr hpos a ha hb
        omega
    · intro a ha
      rw [hdsum] at ha
      rw [e7 a (by omega), hfr1 a (by omega)]
    · intro hr
      rw [hdsum, load_add, habs, e8 hr]
      congr 1
      have : load m2 t.data (dynSize o) = load m1 t.data (dynSize o) := by
        apply load_congr; intro i hi; exact e7 _ (by omega)
      rw [this, ← i2, d8]
      by_cases h0 : 0 < dynSize o
      · rw [if_pos ⟨by simp [Settings.copyNeeded, ht, hr], h0⟩, load_memcpy]
      · have : dynSize o = 0 := by omega
        rw [this]; rfl
    · intro hr
      rw [e9 hr, d8, if_neg]
      simp [Settings.copyNeeded, hr]

/-- The de-serialising loop without shared memory: no EOS with tables follows another one. -/
theorem deserializeAll_private (L : Layout (Obj S) β) (src : Nat) (m0 m : Mem β) :
    ∀ (os : List (Obj S)) (off sh : Nat) (t : Settings), t.root = false →
    (∀ o ∈ os, t.data = 0 ∨ dynSize o = 0 ∨ o.kind = .helm) →
    os.Pairwise (fun a b => dynSize a = 0 ∨ dynSize b = 0 ∨ b.kind = .helm) →
    Image L m0 m (src + off) os →
    ∃ os', deserializeAll L src os.length off sh t m =
        some (m, os', off + serSum L os, sh + dynSum os) ∧
      os'.length = os.length ∧ serSum L os' = serSum L os ∧ dynSum os' = dynSum os ∧
      (∀ mm : Mem β, (∀ a, src + off ≤ a → a < src + off + serSum L os → mm a = m a) →
        os'.map (observe mm) = os.map (observe m0)) ∧
      (∀ o' ∈ os', ∀ r ∈ blocks o', 0 < dynSize o' → Inside r (src + off) (serSum L os)) := by
  intro os
  induction os with
  | nil =>
    intro off sh t _ _ _ _
    exact ⟨[], by simp [deserializeAll, serSum, dynSum], rfl, rfl, rfl, by simp, by simp⟩
  | cons o os ih =>
    intro off sh t hr hz hpw him
    obtain ⟨i1, i2, i3⟩ := him
    have hsum : serSum L (o :: os) = serializedSize L o + serSum L os := by simp [serSum]
    have hdsum : dynSum (o :: os) = dynSize o + dynSum os := by simp [dynSum]
    have hsz : serializedSize L o = L.size + dynSize o := rfl
    obtain ⟨m1, o', d1, d2, d3, d4, d5, d6, d7, d8⟩ := deserialize_spec L m (src + off) t o i1
    have hm1 : m1 = m := by rw [d8, if_neg]; simp [Settings.copyNeeded, hr]
    subst hm1
    rw [List.pairwise_cons] at hpw
    obtain ⟨os', e1, e2, e3, e4, e5, e6⟩ := ih (off + serializedSize L o) (sh + dynSize o)
      { t with data := t.data + dynSize o } hr
      (by
        intro x hx
        simp only
        have h1 := hz x (by simp [hx])
        have h2 := hpw.1 x hx
        rcases h1 with h1 | h1 | h1
        · rcases h2 with h2 | h2 | h2
          · left; omega
          · exact Or.inr (Or.inl h2)
          · exact Or.inr (Or.inr h2)
        · exact Or.inr (Or.inl h1)
        · exact Or.inr (Or.inr h1)) hpw.2 (by rw [← Nat.add_assoc]; exact i3)
    have hbase : 0 < dynSize o → base o (src + off + L.size) t = src + off + L.size := by
      intro h0
      unfold base
      split_ifs with h1 h2
      · rfl
      · rfl
      · exfalso
        rcases hz o (by simp) with h | h | h
        · exact h2 h
        · omega
        · exact h1 h
    refine ⟨o' :: os', ?_, by simp [e2], ?_, ?_, ?_, ?_⟩
    · simp only [List.length_cons, deserializeAll, d1, Option.bind_some, sharedSize, d3, e1,
        Option.map_some, hsum, hdsum, Nat.add_assoc]
    · have : serSum L (o' :: os') = serializedSize L o' + serSum L os' := by simp [serSum]
      rw [this, d2, e3, hsum]
    · have : dynSum (o' :: os') = dynSize o' + dynSum os' := by simp [dynSum]
      rw [this, d3, e4, hdsum]
    · intro mm hmm
      rw [hsum] at hmm
      have h1 : observe mm o' = observe m0 o := by
        apply d7
        by_cases h0 : 0 < dynSize o
        · rw [hbase h0, ← i2]
          apply load_congr; intro i hi; exact hmm _ (by omega) (by omega)
        · have h00 : dynSize o = 0 := by omega
          have : (bytesOf m0 (blocks o)).length = 0 := by rw [bytesOf_length, ← dynSize_blocks, h00]
          rw [h00, List.length_eq_zero_iff.1 this]; rfl
      simp [h1, e5 mm (fun a ha hb => hmm a (by omega) (by omega))]
    · intro x hx r hr hpos
      rw [hsum]
      rcases List.mem_cons.1 hx with rfl | hx
      · intro a ha hb
        have h0 : 0 < dynSize o := by omega
        have := d6 r hr h0 a ha hb
        rw [hbase h0] at this
        omega
      · intro a ha hb
        have := e6 x hx r hr hpos a ha hb
        omega

end Ser
end Verif
