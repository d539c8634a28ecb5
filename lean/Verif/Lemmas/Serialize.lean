import Verif.Spec.Serialize
import Mathlib.Tactic.Ring
import Mathlib.Tactic.Linarith

set_option linter.unusedSectionVars false

namespace Verif
namespace Ser

variable {β S : Type}

@[simp] theorem load_length (m : Mem β) (p n : Nat) : (load m p n).length = n := by simp [load]

@[simp] theorem load_zero (m : Mem β) (p : Nat) : load m p 0 = [] := rfl

theorem load_add (m : Mem β) (p a b : Nat) : load m p (a + b) = load m p a ++ load m (p + a) b := by
  unfold load
  rw [List.range_add, List.map_append, List.map_map]
  congr 1
  apply List.map_congr_left
  intro i _
  simp [Nat.add_assoc]

theorem load_congr {m m' : Mem β} {p q n : Nat} (h : ∀ i, i < n → m (p + i) = m' (q + i)) :
    load m p n = load m' q n := by
  unfold load
  apply List.map_congr_left
  intro i hi
  exact h i (List.mem_range.1 hi)

theorem load_eq_iff {m m' : Mem β} {p q n : Nat} :
    load m p n = load m' q n ↔ SameBytes m p m' q n := by
  constructor
  · intro h i hi
    have := congrArg (fun l => l[i]?) h
    simpa [load, hi] using this
  · exact load_congr

theorem load_memcpy (m : Mem β) (dst src n : Nat)  :
    load (memcpy m dst src n) dst n = load m src n := by
  apply load_congr
  intro i hi
  simp [memcpy, hi]

theorem memcpy_apart {m : Mem β} {dst src n a : Nat} (h : ¬ (dst ≤ a ∧ a < dst + n)) :
    memcpy m dst src n a = m a := by simp [memcpy, h]

theorem store_apart {m : Mem β} {dst a : Nat} {l : List β}
    (h : ¬ (dst ≤ a ∧ a < dst + l.length)) : store m dst l a = m a := by
  unfold store
  split_ifs with h1
  · rw [List.getElem?_eq_none (by omega)]; rfl
  · rfl

theorem load_store (m : Mem β) (dst : Nat) (l : List β) : load (store m dst l) dst l.length = l := by
  apply List.ext_getElem (by simp)
  intro i h1 h2
  simp [load, store, h2]

/-- All bytes of a list of regions, in order. -/
def bytesOf (m : Mem β) (rs : List Region) : List β := (rs.map fun r => load m r.ptr r.size).flatten

theorem bytesOf_length (m : Mem β) (rs : List Region) : (bytesOf m rs).length = boxBytes rs := by
  induction rs with
  | nil => rfl
  | cons r rs ih => simp only [bytesOf, List.map_cons, List.flatten_cons, List.length_append,
      load_length, boxBytes] at *; rw [ih]

theorem boxBytes_append (a b : List Region) : boxBytes (a ++ b) = boxBytes a + boxBytes b := by
  induction a with
  | nil => simp [boxBytes]
  | cons r rs ih => simp [boxBytes, ih, Nat.add_assoc]

theorem load_apart {m m' : Mem β} {r : Region} {lo n : Nat} (h : Apart r lo n)
    (hm : ∀ a, ¬ (lo ≤ a ∧ a < lo + n) → m' a = m a) : load m' r.ptr r.size = load m r.ptr r.size := by
  apply load_congr
  intro i hi
  exact hm _ (h _ (by omega) (by omega))

theorem bytesOf_apart {m m' : Mem β} {rs : List Region} {lo n : Nat} (h : ∀ r ∈ rs, Apart r lo n)
    (hm : ∀ a, ¬ (lo ≤ a ∧ a < lo + n) → m' a = m a) : bytesOf m' rs = bytesOf m rs := by
  unfold bytesOf
  congr 1
  apply List.map_congr_left
  intro r hr
  exact load_apart (h r hr) hm

/-- The DataBox loop of `DumpDynamicMemory`. -/
theorem dumpBoxes_spec (dst : Nat) (rs : List Region) : ∀ (m : Mem β) (off lo n : Nat),
    (∀ r ∈ rs, Apart r lo n) → lo ≤ dst + off → dst + off + boxBytes rs ≤ lo + n →
    (dumpBoxes m dst off rs).2 = off + boxBytes rs ∧
    load (dumpBoxes m dst off rs).1 (dst + off) (boxBytes rs) = bytesOf m rs ∧
    (∀ a, ¬ (dst + off ≤ a ∧ a < dst + off + boxBytes rs) →
      (dumpBoxes m dst off rs).1 a = m a) := by
  induction rs with
  | nil => intro m off lo n _ _ _; simp [dumpBoxes, boxBytes, bytesOf]
  | cons r rs ih =>
    intro m off lo n hap hlo hhi
    simp only [boxBytes] at hhi ⊢
    have hfr : ∀ a, ¬ (lo ≤ a ∧ a < lo + n) → memcpy m (dst + off) r.ptr r.size a = m a := by
      intro a ha
      apply memcpy_apart
      omega
    obtain ⟨h1, h2, h3⟩ := ih (memcpy m (dst + off) r.ptr r.size) (off + r.size) lo n
      (fun x hx => hap x (List.mem_cons_of_mem _ hx)) (by omega) (by omega)
    simp only [dumpBoxes]
    refine ⟨by rw [h1]; omega, ?_, ?_⟩
    · rw [load_add]
      have e1 : load (dumpBoxes (memcpy m (dst + off) r.ptr r.size) dst (off + r.size) rs).1
          (dst + off) r.size = load m r.ptr r.size := by
        rw [← load_memcpy m (dst + off) r.ptr r.size]
        apply load_congr
        intro i hi
        apply h3
        omega
      have e2 : dst + off + r.size = dst + (off + r.size) := by omega
      rw [e1, e2, h2, bytesOf_apart (fun x hx => hap x (List.mem_cons_of_mem _ hx)) hfr]
      simp [bytesOf]
    · intro a ha
      rw [h3 a (by omega)]
      apply memcpy_apart
      omega

/-- The DataBox loop of `SetDynamicMemory`. -/
theorem setBoxes_spec (base : Nat) (rs : List Region) : ∀ off,
    (setBoxes base off rs).2 = off + boxBytes rs ∧
    (setBoxes base off rs).1.map Region.size = rs.map Region.size ∧
    boxBytes (setBoxes base off rs).1 = boxBytes rs ∧
    (∀ r ∈ (setBoxes base off rs).1, Inside r (base + off) (boxBytes rs)) ∧
    (∀ (m m0 : Mem β), load m (base + off) (boxBytes rs) = bytesOf m0 rs →
      (setBoxes base off rs).1.map (fun r => load m r.ptr r.size) =
        rs.map fun r => load m0 r.ptr r.size) := by
  induction rs with
  | nil => intro off; simp [setBoxes, boxBytes]
  | cons r rs ih =>
    intro off
    obtain ⟨h1, h2, h3, h4, h5⟩ := ih (off + r.size)
    simp only [setBoxes, boxBytes]
    refine ⟨by rw [h1]; omega, by simp [h2], by rw [h3], ?_, ?_⟩
    · intro x hx
      rcases List.mem_cons.1 hx with rfl | hx
      · intro a ha hb; simp only at ha hb; omega
      · intro a ha hb
        have := h4 x hx a ha hb
        omega
    · intro m m0 h
      rw [load_add] at h
      have hsp : load m (base + off) r.size = load m0 r.ptr r.size ∧
          load m (base + off + r.size) (boxBytes rs) = bytesOf m0 rs := by
        have : bytesOf m0 (r :: rs) = load m0 r.ptr r.size ++ bytesOf m0 rs := by simp [bytesOf]
        rw [this] at h
        exact List.append_inj h (by simp)
      simp only [List.map_cons, List.cons.injEq]
      refine ⟨hsp.1, ?_⟩
      apply h5 m m0
      rw [← hsp.2]
      congr 1
      omega

theorem dynSize_blocks (o : Obj S) : dynSize o = boxBytes (blocks o) := by
  unfold dynSize blocks
  cases o.kind <;> simp [boxBytes_append, boxBytes]

/-- What `Serialize` leaves in memory. -/
theorem serialize_spec (L : Layout (Obj S) β) (m : Mem β) (o : Obj S) (dst : Nat)
    (hn : NamesOk o) (hap : ∀ r ∈ blocks o, Apart r dst (serializedSize L o)) :
    ∃ m', serialize L m o dst = some (m', serializedSize L o) ∧
      load m' dst L.size = L.enc o ∧
      load m' (dst + L.size) (dynSize o) = bytesOf m (blocks o) ∧
      (∀ a, ¬ (dst ≤ a ∧ a < dst + serializedSize L o) → m' a = m a) := by
  have hl := L.enc_len o
  set m1 := store m dst (L.enc o) with hm1
  have hfr1 : ∀ a, ¬ (dst ≤ a ∧ a < dst + L.size) → m1 a = m a := by
    intro a ha; exact store_apart (by rw [hl]; exact ha)
  have hld : load m1 dst L.size = L.enc o := by rw [← hl]; exact load_store _ _ _
  by_cases h0 : 0 < dynSize o
  · have hk : o.kind ≠ .plain := by
      intro hk; simp [dynSize, hk] at h0
    have hb : blocks o = o.boxes ++ [o.names] := by
      unfold blocks; revert hk; cases o.kind <;> simp
    have hds : dynSize o = boxBytes o.boxes + o.names.size := by
      rw [dynSize_blocks, hb, boxBytes_append]; simp [boxBytes]
    have hss : serializedSize L o = L.size + (boxBytes o.boxes + o.names.size) := by
      rw [serializedSize, hds]
    rw [hss] at hap ⊢
    have hbytes : bytesOf m1 (o.boxes ++ [o.names]) = bytesOf m (o.boxes ++ [o.names]) := by
      apply bytesOf_apart (lo := dst) (n := L.size + (boxBytes o.boxes + o.names.size))
      · rw [← hb]; exact hap
      · intro a ha; exact hfr1 a (by omega)
    obtain ⟨g1, g2, g3⟩ := dumpBoxes_spec (dst + L.size) o.boxes m1 0 dst
      (L.size + (boxBytes o.boxes + o.names.size))
      (fun r hr => hap r (by rw [hb]; exact List.mem_append_left _ hr)) (by omega) (by omega)
    simp only [Nat.zero_add, Nat.add_zero] at g1 g2 g3
    have hapn := hap o.names (by rw [hb]; simp)
    have hspl : ∀ mm : Mem β, bytesOf mm (o.boxes ++ [o.names]) =
        bytesOf mm o.boxes ++ load mm o.names.ptr o.names.size := by
      intro mm; simp [bytesOf]
    by_cases hz : 0 < o.names.size
    · set m2 := (dumpBoxes m1 (dst + L.size) 0 o.boxes).1 with hm2
      refine ⟨memcpy m2 (dst + L.size + boxBytes o.boxes) o.names.ptr o.names.size, ?_, ?_, ?_, ?_⟩
      · unfold serialize dumpDynamic
        simp only [h0, if_true]
        revert hk
        cases hkk : o.kind <;> intro hk
        · exact absurd rfl hk
        all_goals
          simp only [hz, if_true, hn hz, ne_eq, not_false_eq_true, Option.map_some, ← hm1, g1, ← hm2,
            Option.bind_some]
          rw [if_pos (by rw [hss])]
      · rw [← hld]
        apply load_congr
        intro i hi
        rw [memcpy_apart (by omega), g3 _ (by omega)]
      · rw [hds, load_add, hb, ← hbytes, hspl]
        congr 1
        · rw [← g2]
          apply load_congr
          intro i hi
          rw [memcpy_apart (by omega)]
        · rw [load_memcpy]
          apply load_apart hapn
          intro a ha
          exact g3 a (by omega)
      · intro a ha
        rw [memcpy_apart (by omega), g3 a (by omega), hfr1 a (by omega)]
    · have hz0 : o.names.size = 0 := by omega
      set m2 := (dumpBoxes m1 (dst + L.size) 0 o.boxes).1 with hm2
      refine ⟨m2, ?_, ?_, ?_, ?_⟩
      · unfold serialize dumpDynamic
        simp only [h0, if_true]
        revert hk
        cases hkk : o.kind <;> intro hk
        · exact absurd rfl hk
        all_goals
          simp only [hz, if_false, Option.map_some, ← hm1, g1, ← hm2, Option.bind_some]
          rw [if_pos (by rw [hss, hz0]; omega), hz0]; simp
      · rw [← hld]
        apply load_congr
        intro i hi
        rw [g3 _ (by omega)]
      · rw [hds, hz0, hb, ← hbytes, hspl, hz0]
        simpa using g2
      · intro a ha
        rw [g3 a (by omega), hfr1 a (by omega)]
  · have hd0 : dynSize o = 0 := by omega
    refine ⟨m1, ?_, hld, ?_, ?_⟩
    · unfold serialize
      simp [hd0, serializedSize, ← hm1]
    · have : (bytesOf m (blocks o)).length = 0 := by rw [bytesOf_length, ← dynSize_blocks, hd0]
      rw [hd0, List.length_eq_zero_iff.1 this]; rfl
    · intro a ha
      rw [serializedSize, hd0] at ha
      exact hfr1 a (by simpa using ha)

/-- Where `SetDynamicMemory` points an EOS. -/
def base (o : Obj S) (src : Nat) (t : Settings) : Nat :=
  if o.kind = .helm then src else if t.data = 0 then src else t.data

theorem setDynamic_eq (o : Obj S) (src : Nat) (t : Settings) (hk : o.kind ≠ .plain) :
    setDynamic o src t =
      if 0 < o.names.size then
        ({ o with boxes := (setBoxes (base o src t) 0 o.boxes).1, status := .UnManaged,
                  names := ⟨base o src t + (setBoxes (base o src t) 0 o.boxes).2, o.names.size⟩,
                  namesStatus := .UnManaged },
          (setBoxes (base o src t) 0 o.boxes).2 + o.names.size)
      else
        ({ o with boxes := (setBoxes (base o src t) 0 o.boxes).1, status := .UnManaged,
                  names := ⟨0, 0⟩, namesStatus := .Deallocated },
          (setBoxes (base o src t) 0 o.boxes).2) := by
  unfold setDynamic base
  revert hk
  cases h : o.kind <;> intro hk
  · exact absurd rfl hk
  all_goals rfl

theorem setDynamic_spec (o : Obj S) (src : Nat) (t : Settings) :
    (setDynamic o src t).2 = dynSize o ∧ dynSize (setDynamic o src t).1 = dynSize o ∧
    (setDynamic o src t).1.kind = o.kind ∧ (setDynamic o src t).1.scal = o.scal ∧
    (∀ r ∈ blocks (setDynamic o src t).1, Inside r (base o src t) (dynSize o)) ∧
    (∀ m m0 : Mem β, load m (base o src t) (dynSize o) = bytesOf m0 (blocks o) →
      observe m (setDynamic o src t).1 = observe m0 o) := by
  rcases hk : o.kind with _ | _ | _
  · simp [setDynamic, hk, dynSize, blocks, observe]
  all_goals
    have hb : blocks o = o.boxes ++ [o.names] := by unfold blocks; simp [hk]
    have hds : dynSize o = boxBytes o.boxes + o.names.size := by
      rw [dynSize_blocks, hb, boxBytes_append]; simp [boxBytes]
    obtain ⟨s1, s2, s3, s4, s5⟩ := setBoxes_spec (β := β) (base o src t) o.boxes 0
    simp only [Nat.zero_add, Nat.add_zero] at s1 s4 s5
    by_cases hz : 0 < o.names.size
    · have hset : setDynamic o src t =
          ({ o with boxes := (setBoxes (base o src t) 0 o.boxes).1, status := .UnManaged,
                    names := ⟨base o src t + boxBytes o.boxes, o.names.size⟩,
                    namesStatus := .UnManaged }, boxBytes o.boxes + o.names.size) := by
        rw [setDynamic_eq o src t (by rw [hk]; decide), if_pos hz, s1]
      have hb' : blocks (setDynamic o src t).1 = (setBoxes (base o src t) 0 o.boxes).1 ++
          [⟨base o src t + boxBytes o.boxes, o.names.size⟩] := by
        rw [hset]; unfold blocks; simp [hk]
      refine ⟨by rw [hset, hds], ?_, by rw [hset]; exact hk, by rw [hset], ?_, ?_⟩
      · rw [dynSize_blocks, hb', boxBytes_append, s3, hds]; simp [boxBytes]
      · rw [hb', hds]
        intro r hr
        rcases List.mem_append.1 hr with hr | hr
        · intro a ha hb2; have := s4 r hr a ha hb2; omega
        · simp only [List.mem_singleton] at hr; subst hr
          intro a ha hb2; simp only at ha hb2; omega
      · intro m m0 h
        rw [hds, load_add, hb] at h
        have hsp := List.append_inj (h.trans (by simp [bytesOf] :
          bytesOf m0 (o.boxes ++ [o.names]) = bytesOf m0 o.boxes ++
            load m0 o.names.ptr o.names.size)) (by simp [bytesOf_length])
        have := s5 m m0 hsp.1
        unfold observe
        rw [hb', hb, hset]
        simp [this, hsp.2]
    · have hz0 : o.names.size = 0 := by omega
      have hset : setDynamic o src t =
          ({ o with boxes := (setBoxes (base o src t) 0 o.boxes).1, status := .UnManaged,
                    names := ⟨0, 0⟩, namesStatus := .Deallocated }, boxBytes o.boxes) := by
        rw [setDynamic_eq o src t (by rw [hk]; decide), if_neg hz, s1]
      have hb' : blocks (setDynamic o src t).1 = (setBoxes (base o src t) 0 o.boxes).1 ++
          [⟨0, 0⟩] := by
        rw [hset]; unfold blocks; simp [hk]
      refine ⟨by rw [hset, hds, hz0]; rfl, ?_, by rw [hset]; exact hk, by rw [hset], ?_, ?_⟩
      · rw [dynSize_blocks, hb', boxBytes_append, s3, hds, hz0]; simp [boxBytes]
      · rw [hb', hds]
        intro r hr
        rcases List.mem_append.1 hr with hr | hr
        · intro a ha hb2; have := s4 r hr a ha hb2; omega
        · simp only [List.mem_singleton] at hr; subst hr
          intro a ha hb2; simp only at ha hb2; omega
      · intro m m0 h
        rw [hds, hz0, Nat.add_zero, hb] at h
        have hsp : bytesOf m0 (o.boxes ++ [o.names]) = bytesOf m0 o.boxes := by
          simp [bytesOf, hz0]
        have := s5 m m0 (h.trans hsp)
        unfold observe
        rw [hb', hb, hset]
        simp [this, hz0]

/-- `DeSerialize` from a buffer holding an object's image. -/
theorem deserialize_spec (L : Layout (Obj S) β) (m : Mem β) (src : Nat) (t : Settings) (o : Obj S)
    (h1 : load m src L.size = L.enc o) :
    ∃ m' o', deserialize L m src t = some (m', o', serializedSize L o) ∧
      serializedSize L o' = serializedSize L o ∧ dynSize o' = dynSize o ∧ o'.kind = o.kind ∧
      o'.scal = o.scal ∧
      (∀ r ∈ blocks o', 0 < dynSize o → Inside r (base o (src + L.size) t) (dynSize o)) ∧
      (∀ mm m0 : Mem β, load mm (base o (src + L.size) t) (dynSize o) = bytesOf m0 (blocks o) →
        observe mm o' = observe m0 o) ∧
      m' = (if t.copyNeeded ∧ 0 < dynSize o then memcpy m t.data (src + L.size) (dynSize o) else m)
      := by
  obtain ⟨s1, s2, s3, s4, s5, s6⟩ := setDynamic_spec (β := β) o (src + L.size) t
  have hdec : L.dec (load m src L.size) = o := by rw [h1, L.dec_enc]
  by_cases h0 : 0 < dynSize o
  · refine ⟨_, (setDynamic o (src + L.size) t).1, ?_, ?_, s2, s3, s4, fun r hr _ => s5 r hr, s6, rfl⟩
    · unfold deserialize
      simp only [hdec, h0, if_true, and_true]
      rw [if_pos (by rw [s1, serializedSize, s2])]
      rw [s1]; rfl
    · rw [serializedSize, s2]; rfl
  · have hd0 : dynSize o = 0 := by omega
    refine ⟨m, o, ?_, rfl, rfl, rfl, rfl, ?_, ?_, ?_⟩
    · unfold deserialize
      simp [hdec, hd0, serializedSize]
    · intro r _ h; exact absurd h h0
    · intro mm m0 h
      unfold observe
      congr 2
      apply List.map_congr_left
      intro r hr
      have hb : ∀ rs : List Region, boxBytes rs = 0 → ∀ r ∈ rs, r.size = 0 := by
        intro rs
        induction rs with
        | nil => simp
        | cons x xs ih =>
          intro h r hr
          simp only [boxBytes] at h
          rcases List.mem_cons.1 hr with rfl | hr
          · omega
          · exact ih (by omega) r hr
      rw [hb _ (by rw [← dynSize_blocks, hd0]) r hr]; rfl
    · simp [hd0]

end Ser
end Verif
