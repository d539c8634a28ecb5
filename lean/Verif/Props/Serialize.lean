import Verif.Lemmas.SerializeBulk
import Mathlib.Logic.Equiv.List

/-!
# C54, C55: serialisation round-trips

`observe m o` is everything a query on EOS `o` can read when memory is `m`.
-/

set_option linter.unusedSectionVars false

namespace Verif
namespace Ser

variable {β S : Type}

/-- C54: `Serialize` succeeds, writes and returns exactly `SerializedSizeInBytes` bytes, and changes
no byte outside the destination. -/
theorem C54_serialize_size (L : Layout (Obj S) β) (m : Mem β) (o : Obj S) (dst : Nat)
    (hn : NamesOk o) (hap : ∀ r ∈ blocks o, Apart r dst (serializedSize L o)) :
    ∃ m', serialize L m o dst = some (m', serializedSize L o) ∧
      (∀ a, ¬ (dst ≤ a ∧ a < dst + serializedSize L o) → m' a = m a) := by
  obtain ⟨m', h1, _, _, h4⟩ := serialize_spec L m o dst hn hap
  exact ⟨m', h1, h4⟩

/-- C54: without shared memory, deserialising a copy of the serialised bytes (at any address, in any
other memory) gives back the EOS: same variant, same scalars, same table contents; it consumes
exactly the bytes written, writes nothing, and the tables are read from the buffer alone. -/
theorem C54_roundtrip (L : Layout (Obj S) β) (m : Mem β) (o : Obj S) (dst : Nat)
    (hn : NamesOk o) (hap : ∀ r ∈ blocks o, Apart r dst (serializedSize L o))
    (m1 : Mem β) (n : Nat) (hs : serialize L m o dst = some (m1, n))
    (m2 : Mem β) (src : Nat) (hc : SameBytes m2 src m1 dst n) :
    ∃ o', deserialize L m2 src dflt = some (m2, o', n) ∧
      (∀ m3 : Mem β, SameBytes m3 src m2 src n → observe m3 o' = observe m o) := by
  obtain ⟨m', h1, h2, h3, _⟩ := serialize_spec L m o dst hn hap
  rw [h1] at hs
  simp only [Option.some.injEq, Prod.mk.injEq] at hs
  obtain ⟨rfl, rfl⟩ := hs
  have hsz : serializedSize L o = L.size + dynSize o := rfl
  have i1 : load m2 src L.size = L.enc o := by
    rw [← h2]; apply load_congr; intro i hi; exact hc i (by omega)
  obtain ⟨m3, o', d1, d2, d3, d4, d5, d6, d7, d8⟩ := deserialize_spec L m2 src dflt o i1
  have hb : base o (src + L.size) dflt = src + L.size := by unfold base dflt; simp
  rw [hb] at d7
  have hm3 : m3 = m2 := by rw [d8, if_neg]; simp [Settings.copyNeeded, dflt]
  subst hm3
  refine ⟨o', d1, ?_⟩
  intro m4 h4
  apply d7
  rw [← h3]
  apply load_congr
  intro i hi
  rw [Nat.add_assoc, Nat.add_assoc, h4 _ (by omega), hc _ (by omega)]

/-- C54: with a shared block, the root copies the tables into the block and afterwards reads them
from there only: whatever happens to the buffer (`m4` agrees with the result on the block), the EOS
is unchanged.  Nothing outside the block is written. -/
theorem C54_roundtrip_shared_root (L : Layout (Obj S) β) (m : Mem β) (o : Obj S) (dst : Nat)
    (hn : NamesOk o) (hap : ∀ r ∈ blocks o, Apart r dst (serializedSize L o))
    (hk : o.kind ≠ .helm)
    (m1 : Mem β) (n : Nat) (hs : serialize L m o dst = some (m1, n))
    (m2 : Mem β) (src : Nat) (hc : SameBytes m2 src m1 dst n) (data : Nat) (hd : data ≠ 0) :
    ∃ m3 o', deserialize L m2 src ⟨data, true⟩ = some (m3, o', n) ∧
      (∀ m4 : Mem β, SameBytes m4 data m3 data (sharedSize o) → observe m4 o' = observe m o) ∧
      (∀ a, ¬ (data ≤ a ∧ a < data + sharedSize o) → m3 a = m2 a) ∧
      (∀ r ∈ blocks o', 0 < sharedSize o → Inside r data (sharedSize o)) := by
  obtain ⟨m', h1, h2, h3, _⟩ := serialize_spec L m o dst hn hap
  rw [h1] at hs
  simp only [Option.some.injEq, Prod.mk.injEq] at hs
  obtain ⟨rfl, rfl⟩ := hs
  have hsz : serializedSize L o = L.size + dynSize o := rfl
  have i1 : load m2 src L.size = L.enc o := by
    rw [← h2]; apply load_congr; intro i hi; exact hc i (by omega)
  obtain ⟨m3, o', d1, d2, d3, d4, d5, d6, d7, d8⟩ := deserialize_spec L m2 src ⟨data, true⟩ o i1
  have hb : base o (src + L.size) ⟨data, true⟩ = data := by unfold base; simp [hk, hd]
  rw [hb] at d6 d7
  refine ⟨m3, o', d1, ?_, ?_, fun r hr h0 => d6 r hr h0⟩
  · intro m4 h4
    apply d7
    by_cases h0 : 0 < dynSize o
    · rw [if_pos ⟨by simp [Settings.copyNeeded, hd], h0⟩] at d8
      have e : load m4 data (dynSize o) = load m3 data (dynSize o) := load_congr h4
      rw [e, d8, load_memcpy, ← h3]
      apply load_congr
      intro i hi
      rw [Nat.add_assoc, Nat.add_assoc, hc _ (by omega)]
    · have h00 : dynSize o = 0 := by omega
      rw [← h3, h00]; rfl
  · intro a ha
    rw [d8]
    split_ifs
    · exact memcpy_apart ha
    · rfl

/-- C54: a process that is not the root of the shared domain writes nothing and reads the tables from
the block, provided the block (possibly mapped at another address `data`) already holds what the
root put there. -/
theorem C54_roundtrip_shared_peer (L : Layout (Obj S) β) (m : Mem β) (o : Obj S) (dst : Nat)
    (hn : NamesOk o) (hap : ∀ r ∈ blocks o, Apart r dst (serializedSize L o))
    (hk : o.kind ≠ .helm)
    (m1 : Mem β) (n : Nat) (hs : serialize L m o dst = some (m1, n))
    (mr : Mem β) (srcr datar : Nat) (hcr : SameBytes mr srcr m1 dst n) (hdr : datar ≠ 0)
    (mr' : Mem β) (or : Obj S) (hroot : deserialize L mr srcr ⟨datar, true⟩ = some (mr', or, n))
    (m2 : Mem β) (src : Nat) (hc : SameBytes m2 src m1 dst n) (data : Nat) (hd : data ≠ 0)
    (hblk : SameBytes m2 data mr' datar (sharedSize o)) :
    ∃ o', deserialize L m2 src ⟨data, false⟩ = some (m2, o', n) ∧
      (∀ m4 : Mem β, SameBytes m4 data m2 data (sharedSize o) → observe m4 o' = observe m o) := by
  obtain ⟨m', h1, h2, h3, _⟩ := serialize_spec L m o dst hn hap
  rw [h1] at hs
  simp only [Option.some.injEq, Prod.mk.injEq] at hs
  obtain ⟨rfl, rfl⟩ := hs
  have hsz : serializedSize L o = L.size + dynSize o := rfl
  have i1 : load m2 src L.size = L.enc o := by
    rw [← h2]; apply load_congr; intro i hi; exact hc i (by omega)
  have j1 : load mr srcr L.size = L.enc o := by
    rw [← h2]; apply load_congr; intro i hi; exact hcr i (by omega)
  obtain ⟨m3, o', d1, d2, d3, d4, d5, d6, d7, d8⟩ := deserialize_spec L m2 src ⟨data, false⟩ o i1
  obtain ⟨m5, o5, f1, _, _, _, _, _, _, f8⟩ := deserialize_spec L mr srcr ⟨datar, true⟩ o j1
  have hb : base o (src + L.size) ⟨data, false⟩ = data := by unfold base; simp [hk, hd]
  rw [hb] at d7
  have hm3 : m3 = m2 := by rw [d8, if_neg]; simp [Settings.copyNeeded]
  subst hm3
  rw [f1] at hroot
  simp only [Option.some.injEq, Prod.mk.injEq] at hroot
  obtain ⟨rfl, _, _⟩ := hroot
  refine ⟨o', d1, ?_⟩
  intro m4 h4
  apply d7
  by_cases h0 : 0 < dynSize o
  · rw [if_pos ⟨by simp [Settings.copyNeeded, hdr], h0⟩] at f8
    have e : load m4 data (dynSize o) = load m5 datar (dynSize o) :=
      (load_congr h4).trans (load_congr hblk)
    rw [e, f8, load_memcpy, ← h3]
    apply load_congr
    intro i hi
    rw [Nat.add_assoc, Nat.add_assoc, hcr _ (by omega)]
  · have h00 : dynSize o = 0 := by omega
    rw [← h3, h00]; rfl

/-- C54, violated for `Helmholtz`: deserialising into shared memory leaves every table in the source
buffer (`Helmholtz::SetDynamicMemory` drops the settings), so the shared block is never read and the
EOS dangles once the buffer is freed. -/
theorem C54_helmholtz_shared_violated (L : Layout (Obj S) β) (m2 : Mem β) (src : Nat) (t : Settings)
    (o : Obj S) (hk : o.kind = .helm) (h1 : load m2 src L.size = L.enc o) (h0 : 0 < dynSize o) :
    ∃ m3 o', deserialize L m2 src t = some (m3, o', serializedSize L o) ∧
      ∀ r ∈ blocks o', Inside r (src + L.size) (dynSize o) := by
  obtain ⟨m3, o', d1, _, _, _, _, d6, _, _⟩ := deserialize_spec L m2 src t o h1
  have hb : base o (src + L.size) t = src + L.size := by unfold base; simp [hk]
  rw [hb] at d6
  exact ⟨m3, o', d1, fun r hr => d6 r hr h0⟩

/-- C54, violated for the energy transformer of `SpinerEOSDependsRhoSieTransformable`: its DataBox
copies keep the addresses they had in the process that serialised the EOS, for every buffer, every
setting.  (With the identity transformer they are never read.) -/
theorem C54_transformer_stale_violated (L : Layout (Obj S) β) (m : Mem β) (o : Obj S) (dst : Nat)
    (hn : NamesOk o) (hap : ∀ r ∈ blocks o, Apart r dst (serializedSize L o))
    (m1 : Mem β) (n : Nat) (hs : serialize L m o dst = some (m1, n))
    (m2 : Mem β) (src : Nat) (hc : SameBytes m2 src m1 dst n) (t : Settings) :
    ∃ m3 o', deserialize L m2 src t = some (m3, o', n) ∧ o'.aliases = o.aliases := by
  obtain ⟨m', h1, h2, h3, _⟩ := serialize_spec L m o dst hn hap
  rw [h1] at hs
  simp only [Option.some.injEq, Prod.mk.injEq] at hs
  obtain ⟨rfl, rfl⟩ := hs
  have hsz : serializedSize L o = L.size + dynSize o := rfl
  have i1 : load m2 src L.size = L.enc o := by
    rw [← h2]; apply load_congr; intro i hi; exact hc i (by omega)
  obtain ⟨m3, o', d1, d2, d3, d4, d5, d6, d7, d8⟩ := deserialize_spec L m2 src t o i1
  refine ⟨m3, o', d1, ?_⟩
  unfold deserialize at d1
  simp only [i1, L.dec_enc] at d1
  have hset : (setDynamic o (src + L.size) t).1.aliases = o.aliases := by
    by_cases hk : o.kind = .plain
    · simp [setDynamic, hk]
    · rw [setDynamic_eq _ _ _ hk]; split_ifs <;> rfl
  split_ifs at d1 <;>
  · simp only [Option.some.injEq, Prod.mk.injEq] at d1
    obtain ⟨_, rfl, _⟩ := d1
    first | exact hset | rfl

/-! ## A concrete EOS with two tables and phase names -/

/-- Objects over `Nat` scalars can be coded by one number. -/
def toTuple (o : Obj Nat) : Fin 3 × Nat × List (Nat × Nat) × (Nat × Nat) × Fin 4 × Fin 4 × List (Nat × Nat) :=
  (match o.kind with | .plain => 0 | .table => 1 | .helm => 2, o.scal,
    o.boxes.map (fun r => (r.ptr, r.size)), (o.names.ptr, o.names.size),
    (match o.status with | .Deallocated => 0 | .OnDevice => 1 | .OnHost => 2 | .UnManaged => 3),
    (match o.namesStatus with | .Deallocated => 0 | .OnDevice => 1 | .OnHost => 2 | .UnManaged => 3),
    o.aliases.map (fun r => (r.ptr, r.size)))

/-- Inverse of `toTuple`. -/
def ofTuple (t : Fin 3 × Nat × List (Nat × Nat) × (Nat × Nat) × Fin 4 × Fin 4 × List (Nat × Nat)) : Obj Nat where
  kind := match t.1 with | 0 => .plain | 1 => .table | 2 => .helm
  scal := t.2.1
  boxes := t.2.2.1.map fun p => ⟨p.1, p.2⟩
  names := ⟨t.2.2.2.1.1, t.2.2.2.1.2⟩
  status := match t.2.2.2.2.1 with | 0 => .Deallocated | 1 => .OnDevice | 2 => .OnHost | 3 => .UnManaged
  namesStatus :=
    match t.2.2.2.2.2.1 with | 0 => .Deallocated | 1 => .OnDevice | 2 => .OnHost | 3 => .UnManaged
  aliases := t.2.2.2.2.2.2.map fun p => ⟨p.1, p.2⟩

theorem ofTuple_toTuple (o : Obj Nat) : ofTuple (toTuple o) = o := by
  obtain ⟨k, s, b, ⟨p, z⟩, u, v, al⟩ := o
  cases k <;> cases u <;> cases v <;> simp [ofTuple, toTuple, Function.comp_def]

/-- A layout exists: one unbounded "byte" per object, padded to eight. -/
def exLayout : Layout (Obj Nat) Nat where
  size := 8
  enc o := Encodable.encode (toTuple o) :: List.replicate 7 0
  dec l := match (Encodable.decode (l.headD 0) :
      Option (Fin 3 × Nat × List (Nat × Nat) × (Nat × Nat) × Fin 4 × Fin 4 × List (Nat × Nat))) with
    | some t => ofTuple t
    | none => ⟨.plain, 0, [], ⟨0, 0⟩, .Deallocated, .Deallocated, []⟩
  enc_len := by simp
  dec_enc o := by simp [ofTuple_toTuple]

/-- A layout for `std::size_t`. -/
def exWord : Layout Nat Nat where
  size := 8
  enc n := n :: List.replicate 7 0
  dec l := l.headD 0
  enc_len := by simp
  dec_enc := by simp

/-- Two tables of 16 and 24 bytes and 5 bytes of phase names. -/
def exObj (p : Nat) : Obj Nat :=
  ⟨.table, 7, [⟨p, 16⟩, ⟨p + 16, 24⟩], ⟨p + 40, 5⟩, .OnHost, .OnHost, [⟨p + 16, 24⟩]⟩

/-- The hypotheses of the C54 theorems are met by `exObj` and a buffer elsewhere. -/
example : NamesOk (exObj 1000) ∧
    (∀ r ∈ blocks (exObj 1000), Apart r 5000 (serializedSize exLayout (exObj 1000))) ∧
    serializedSize exLayout (exObj 1000) = 53 ∧ sharedSize (exObj 1000) = 45 := by
  refine ⟨by intro _; decide, ?_, rfl, rfl⟩
  intro r hr a h1 h2 h3
  simp only [exObj, blocks, List.cons_append, List.nil_append, List.mem_cons, List.not_mem_nil,
    or_false] at hr
  rcases hr with rfl | rfl | rfl <;> simp only at h1 h2 <;> omega

/-! ## C55: many EOS in one buffer -/

/-- C55: the bulk serialiser succeeds, returns exactly its `SerializedSizeInBytes` and writes nothing
outside the destination. -/
theorem C55_bulk_size (W : Layout Nat β) (L : Layout (Obj S) β) (m : Mem β) (os : List (Obj S))
    (dst : Nat) (hn : ∀ o ∈ os, NamesOk o)
    (hap : ∀ o ∈ os, ∀ r ∈ blocks o, Apart r dst (bulkSize W L os)) :
    ∃ m', bulkSerialize W L m os dst = some (m', bulkSize W L os) ∧
      (∀ a, ¬ (dst ≤ a ∧ a < dst + bulkSize W L os) → m' a = m a) := by
  have hl := W.enc_len os.length
  have hbs : bulkSize W L os = W.size + serSum L os := rfl
  obtain ⟨m', e1, e2, e3⟩ := serializeAll_spec L dst os (store m dst (W.enc os.length)) W.size dst
    (bulkSize W L os) hn hap (by omega) (by omega)
  refine ⟨m', ?_, ?_⟩
  · unfold bulkSerialize
    rw [e1]
    simp [hbs]
  · intro a ha
    rw [e3 a (by omega), store_apart (by omega)]

/-- What the bulk serialiser leaves in the buffer. -/
theorem bulk_image (W : Layout Nat β) (L : Layout (Obj S) β) (m : Mem β) (os : List (Obj S))
    (dst : Nat) (hn : ∀ o ∈ os, NamesOk o)
    (hap : ∀ o ∈ os, ∀ r ∈ blocks o, Apart r dst (bulkSize W L os))
    (m1 : Mem β) (n : Nat) (hs : bulkSerialize W L m os dst = some (m1, n)) :
    n = W.size + serSum L os ∧ load m1 dst W.size = W.enc os.length ∧
      Image L m m1 (dst + W.size) os := by
  have hl := W.enc_len os.length
  have hbs : bulkSize W L os = W.size + serSum L os := rfl
  obtain ⟨m', e1, e2, e3⟩ := serializeAll_spec L dst os (store m dst (W.enc os.length)) W.size dst
    (bulkSize W L os) hn hap (by omega) (by omega)
  unfold bulkSerialize at hs
  rw [e1] at hs
  simp only [Option.bind_some, hbs, if_true, Option.some.injEq, Prod.mk.injEq] at hs
  obtain ⟨rfl, rfl⟩ := hs
  refine ⟨rfl, ?_, ?_⟩
  · rw [← load_store m dst (W.enc os.length), hl]
    apply load_congr; intro i hi; exact e3 _ (by omega)
  · apply image_orig e2
    intro o ho
    symm
    apply bytesOf_apart (hap o ho)
    intro a ha
    exact store_apart (by omega)

/-- C55: with a shared block disjoint from the buffer, the root's bulk deserialisation gives back the
whole list in order; every table is then read from the block only and nothing else was written. -/
theorem C55_bulk_shared_root (W : Layout Nat β) (L : Layout (Obj S) β) (m : Mem β)
    (os : List (Obj S)) (dst : Nat) (hn : ∀ o ∈ os, NamesOk o)
    (hap : ∀ o ∈ os, ∀ r ∈ blocks o, Apart r dst (bulkSize W L os))
    (hk : ∀ o ∈ os, o.kind ≠ .helm)
    (m1 : Mem β) (n : Nat) (hs : bulkSerialize W L m os dst = some (m1, n))
    (m2 : Mem β) (src : Nat) (hc : SameBytes m2 src m1 dst n) (data : Nat) (hd : data ≠ 0)
    (hdj : ∀ a, src ≤ a → a < src + n → ¬ (data ≤ a ∧ a < data + bulkShared os)) :
    ∃ m3 os', bulkDeserialize W L m2 src ⟨data, true⟩ = some (m3, os', n) ∧
      (∀ m4 : Mem β, SameBytes m4 data m3 data (bulkShared os) →
        os'.map (observe m4) = os.map (observe m)) ∧
      (∀ a, ¬ (data ≤ a ∧ a < data + bulkShared os) → m3 a = m2 a) := by
  obtain ⟨hn1, hld, him⟩ := bulk_image W L m os dst hn hap m1 n hs
  have hsh : bulkShared os = dynSum os := rfl
  have hcount : load m2 src W.size = W.enc os.length := by
    rw [← hld]; apply load_congr; intro i hi; exact hc i (by omega)
  have him2 : Image L m m2 (src + W.size) os := by
    apply image_congr him
    intro i hi
    rw [Nat.add_assoc, Nat.add_assoc, hc _ (by omega)]
  obtain ⟨m3, os', e1, e2, e3, e4, e5, e6, e7, e8, e9⟩ := deserializeAll_shared L src m os m2 W.size 0
    ⟨data, true⟩ hd hk him2 (by intro a ha hb; exact hdj a (by omega) (by omega))
  refine ⟨m3, os', ?_, ?_, e7⟩
  · unfold bulkDeserialize
    simp only [hcount, W.dec_enc, e1, Option.bind_some, Nat.zero_add]
    rw [if_pos, hn1]
    exact ⟨by rw [← e3]; rfl, by rw [← e4]; rfl⟩
  · intro m4 h4
    apply e5
    rw [← e8 rfl]
    exact load_congr h4

/-- C55: a peer of the shared domain writes nothing and gets the same list from the block the root
filled. -/
theorem C55_bulk_shared_peer (W : Layout Nat β) (L : Layout (Obj S) β) (m : Mem β)
    (os : List (Obj S)) (dst : Nat) (hn : ∀ o ∈ os, NamesOk o)
    (hap : ∀ o ∈ os, ∀ r ∈ blocks o, Apart r dst (bulkSize W L os))
    (hk : ∀ o ∈ os, o.kind ≠ .helm)
    (m1 : Mem β) (n : Nat) (hs : bulkSerialize W L m os dst = some (m1, n))
    (mr : Mem β) (srcr datar : Nat) (hcr : SameBytes mr srcr m1 dst n) (hdr : datar ≠ 0)
    (hdjr : ∀ a, srcr ≤ a → a < srcr + n → ¬ (datar ≤ a ∧ a < datar + bulkShared os))
    (mr' : Mem β) (osr : List (Obj S))
    (hroot : bulkDeserialize W L mr srcr ⟨datar, true⟩ = some (mr', osr, n))
    (m2 : Mem β) (src : Nat) (hc : SameBytes m2 src m1 dst n) (data : Nat) (hd : data ≠ 0)
    (hdj : ∀ a, src ≤ a → a < src + n → ¬ (data ≤ a ∧ a < data + bulkShared os))
    (hblk : SameBytes m2 data mr' datar (bulkShared os)) :
    ∃ os', bulkDeserialize W L m2 src ⟨data, false⟩ = some (m2, os', n) ∧
      (∀ m4 : Mem β, SameBytes m4 data m2 data (bulkShared os) →
        os'.map (observe m4) = os.map (observe m)) := by
  obtain ⟨hn1, hld, him⟩ := bulk_image W L m os dst hn hap m1 n hs
  have hsh : bulkShared os = dynSum os := rfl
  have hcount : ∀ (mm : Mem β) p, SameBytes mm p m1 dst n → load mm p W.size = W.enc os.length := by
    intro mm p h
    rw [← hld]; apply load_congr; intro i hi; exact h i (by omega)
  have him2 : ∀ (mm : Mem β) p, SameBytes mm p m1 dst n → Image L m mm (p + W.size) os := by
    intro mm p h
    apply image_congr him
    intro i hi
    rw [Nat.add_assoc, Nat.add_assoc, h _ (by omega)]
  obtain ⟨m3, os', e1, e2, e3, e4, e5, e6, e7, e8, e9⟩ := deserializeAll_shared L src m os m2 W.size 0
    ⟨data, false⟩ hd hk (him2 _ _ hc) (by intro a ha hb; exact hdj a (by omega) (by omega))
  obtain ⟨m5, os5, f1, f2, f3, f4, f5, f6, f7, f8, f9⟩ := deserializeAll_shared L srcr m os mr W.size 0
    ⟨datar, true⟩ hdr hk (him2 _ _ hcr) (by intro a ha hb; exact hdjr a (by omega) (by omega))
  have hmr : mr' = m5 := by
    unfold bulkDeserialize at hroot
    simp only [hcount _ _ hcr, W.dec_enc, f1, Option.bind_some, Nat.zero_add] at hroot
    rw [if_pos ⟨by rw [← f3]; rfl, by rw [← f4]; rfl⟩] at hroot
    simp only [Option.some.injEq, Prod.mk.injEq] at hroot
    exact hroot.1.symm
  subst hmr
  obtain rfl := e9 rfl
  refine ⟨os', ?_, ?_⟩
  · unfold bulkDeserialize
    simp only [hcount _ _ hc, W.dec_enc, e1, Option.bind_some, Nat.zero_add]
    rw [if_pos, hn1]
    exact ⟨by rw [← e3]; rfl, by rw [← e4]; rfl⟩
  · intro m4 h4
    apply e5
    rw [← f8 rfl]
    exact (load_congr h4).trans (load_congr hblk)

/-- C55, partial: without shared memory the bulk round trip is right when no EOS with tables comes
after another EOS with tables (`Helmholtz` excepted, which ignores the settings).  Missing: two
table EOS in one container, which is false, see `C55_bulk_private_violated`. -/
theorem C55_bulk_private_partial (W : Layout Nat β) (L : Layout (Obj S) β) (m : Mem β)
    (os : List (Obj S)) (dst : Nat) (hn : ∀ o ∈ os, NamesOk o)
    (hap : ∀ o ∈ os, ∀ r ∈ blocks o, Apart r dst (bulkSize W L os))
    (hone : os.Pairwise fun a b => dynSize a = 0 ∨ dynSize b = 0 ∨ b.kind = .helm)
    (m1 : Mem β) (n : Nat) (hs : bulkSerialize W L m os dst = some (m1, n))
    (m2 : Mem β) (src : Nat) (hc : SameBytes m2 src m1 dst n) :
    ∃ os', bulkDeserialize W L m2 src dflt = some (m2, os', n) ∧
      (∀ m4 : Mem β, SameBytes m4 src m2 src n → os'.map (observe m4) = os.map (observe m)) := by
  obtain ⟨hn1, hld, him⟩ := bulk_image W L m os dst hn hap m1 n hs
  have hcount : load m2 src W.size = W.enc os.length := by
    rw [← hld]; apply load_congr; intro i hi; exact hc i (by omega)
  have him2 : Image L m m2 (src + W.size) os := by
    apply image_congr him
    intro i hi
    rw [Nat.add_assoc, Nat.add_assoc, hc _ (by omega)]
  obtain ⟨os', e1, e2, e3, e4, e5, e6⟩ := deserializeAll_private L src m m2 os W.size 0 dflt rfl
    (fun _ _ => Or.inl rfl) hone him2
  refine ⟨os', ?_, ?_⟩
  · unfold bulkDeserialize
    simp only [hcount, W.dec_enc, e1, Option.bind_some, Nat.zero_add]
    rw [if_pos, hn1]
    exact ⟨by rw [← e3]; rfl, by rw [← e4]; rfl⟩
  · intro m4 h4
    apply e5
    intro a ha hb
    have := h4 (a - src) (by omega)
    rwa [Nat.add_sub_cancel' (by omega)] at this

/-- C55, violated: two table EOS, deserialised without shared memory.  The loop adds the first EOS's
size to a null pointer, and the second EOS's tables end up at addresses
`[dynSize a, dynSize a + dynSize b)`, whatever the buffer. -/
theorem C55_bulk_private_violated (W : Layout Nat β) (L : Layout (Obj S) β) (m : Mem β)
    (a b : Obj S) (dst : Nat) (hn : ∀ o ∈ [a, b], NamesOk o)
    (hap : ∀ o ∈ [a, b], ∀ r ∈ blocks o, Apart r dst (bulkSize W L [a, b]))
    (hb : b.kind = .table) (ha0 : 0 < dynSize a) (hb0 : 0 < dynSize b)
    (m1 : Mem β) (n : Nat) (hs : bulkSerialize W L m [a, b] dst = some (m1, n))
    (m2 : Mem β) (src : Nat) (hc : SameBytes m2 src m1 dst n) :
    ∃ a' b', bulkDeserialize W L m2 src dflt = some (m2, [a', b'], n) ∧
      ∀ r ∈ blocks b', Inside r (dynSize a) (dynSize b) := by
  obtain ⟨hn1, hld, him⟩ := bulk_image W L m [a, b] dst hn hap m1 n hs
  have hcount : load m2 src W.size = W.enc 2 := by
    have : W.enc 2 = W.enc [a, b].length := rfl
    rw [this, ← hld]; apply load_congr; intro i hi; exact hc i (by omega)
  have him2 : Image L m m2 (src + W.size) [a, b] := by
    apply image_congr him
    intro i hi
    rw [Nat.add_assoc, Nat.add_assoc, hc _ (by omega)]
  obtain ⟨i1, i2, j1, j2, _⟩ := him2
  obtain ⟨m3, a', d1, d2, d3, d4, d5, d6, d7, d8⟩ := deserialize_spec L m2 (src + W.size) dflt a i1
  have hm3 : m3 = m2 := by rw [d8, if_neg]; simp [Settings.copyNeeded, dflt]
  subst hm3
  rw [Nat.add_assoc] at j1
  obtain ⟨m4, b', e1, e2, e3, e4, e5, e6, e7, e8⟩ := deserialize_spec L m3
    (src + (W.size + serializedSize L a)) ⟨dynSize a, false⟩ b j1
  have hm4 : m4 = m3 := by rw [e8, if_neg]; simp [Settings.copyNeeded]
  subst hm4
  have hbase : base b (src + (W.size + serializedSize L a) + L.size) ⟨dynSize a, false⟩ = dynSize a := by
    unfold base; rw [hb]; simp; omega
  rw [hbase] at e6
  refine ⟨a', b', ?_, fun r hr => e6 r hr hb0⟩
  have hd : dflt.data = 0 ∧ dflt.root = false := ⟨rfl, rfl⟩
  unfold bulkDeserialize
  simp only [hcount, W.dec_enc, deserializeAll, d1, Option.bind_some, sharedSize, d3, hd.1, hd.2,
    Nat.zero_add, e1, e3, Option.map_some]
  rw [if_pos]
  · rw [hn1]; simp [serSum, Nat.add_assoc]
  · constructor
    · simp [bulkSize, d2, e2, Nat.add_assoc]
    · simp [bulkShared, sharedSize, d3, e3]

/-- The hypotheses of the bulk theorems are met by two EOS with tables; the buffer of 114 bytes at
5000 does not contain the addresses `[45, 90)` given to the second one. -/
example : (∀ o ∈ [exObj 1000, exObj 2000], NamesOk o) ∧
    (∀ o ∈ [exObj 1000, exObj 2000], ∀ r ∈ blocks o,
      Apart r 5000 (bulkSize exWord exLayout [exObj 1000, exObj 2000])) ∧
    bulkSize exWord exLayout [exObj 1000, exObj 2000] = 114 ∧ dynSize (exObj 1000) = 45 ∧
    (exObj 2000).kind = .table := by
  refine ⟨?_, ?_, rfl, rfl, rfl⟩
  · intro o ho
    simp only [List.mem_cons, List.not_mem_nil, or_false] at ho
    rcases ho with rfl | rfl <;> intro _ <;> decide
  · intro o ho r hr a h1 h2 h3
    simp only [List.mem_cons, List.not_mem_nil, or_false] at ho
    rcases ho with rfl | rfl <;>
    · simp only [exObj, blocks, List.cons_append, List.nil_append, List.mem_cons, List.not_mem_nil,
        or_false] at hr
      rcases hr with rfl | rfl | rfl <;> simp only at h1 h2 <;> omega

/-! ## Alignment of the tables -/

theorem setBoxes_aligned (base : Nat) (rs : List Region) : ∀ off, 8 ∣ base + off →
    (∀ r ∈ rs, 8 ∣ r.size) → ∀ r ∈ (setBoxes base off rs).1, 8 ∣ r.ptr := by
  induction rs with
  | nil => intro off _ _ r hr; simp [setBoxes] at hr
  | cons x xs ih =>
    intro off h hs r hr
    simp only [setBoxes, List.mem_cons] at hr
    rcases hr with rfl | hr
    · exact h
    · exact ih (off + x.size) (by have := hs x (by simp); omega)
        (fun y hy => hs y (by simp [hy])) r hr

/-- C54: tables of 8-byte reals stay 8-byte aligned when the buffer (or shared block), `sizeof` and
every table size are multiples of 8. -/
theorem C54_tables_aligned (o : Obj S) (src : Nat) (t : Settings) (hk : o.kind ≠ .plain)
    (hsrc : 8 ∣ src) (hd : 8 ∣ t.data) (hs : ∀ r ∈ o.boxes, 8 ∣ r.size) :
    ∀ r ∈ (setDynamic o src t).1.boxes, 8 ∣ r.ptr := by
  have hb : 8 ∣ base o src t + 0 := by unfold base; split_ifs <;> simpa
  rw [setDynamic_eq o src t hk]
  split_ifs
  · exact setBoxes_aligned _ _ 0 hb hs
  · exact setBoxes_aligned _ _ 0 hb hs

theorem deserialize_obj (L : Layout (Obj S) β) (m : Mem β) (src : Nat) (t : Settings) (o : Obj S)
    (h1 : load m src L.size = L.enc o) (h0 : 0 < dynSize o) (m' : Mem β) (o' : Obj S) (n : Nat)
    (h : deserialize L m src t = some (m', o', n)) : o' = (setDynamic o (src + L.size) t).1 := by
  unfold deserialize at h
  simp only [h1, L.dec_enc, h0, if_true] at h
  split_ifs at h <;>
  · simp only [Option.some.injEq, Prod.mk.injEq] at h
    exact h.2.1.symm

/-- C55, violated alignment: in a bulk shared deserialisation the second EOS's tables start
`dynSize a` bytes into the block.  If the first EOS's phase names make that not a multiple of 8, a
table of doubles is placed at a misaligned address, although the block itself is aligned. -/
theorem C55_alignment_violated (W : Layout Nat β) (L : Layout (Obj S) β) (m : Mem β)
    (a b : Obj S) (dst : Nat) (hn : ∀ o ∈ [a, b], NamesOk o)
    (hap : ∀ o ∈ [a, b], ∀ r ∈ blocks o, Apart r dst (bulkSize W L [a, b]))
    (hb : b.kind = .table) (ha0 : 0 < dynSize a) (hb0 : 0 < dynSize b) (ha8 : ¬ 8 ∣ dynSize a)
    (x : Region) (xs : List Region) (hx : b.boxes = x :: xs)
    (m1 : Mem β) (n : Nat) (hs : bulkSerialize W L m [a, b] dst = some (m1, n))
    (m2 : Mem β) (src : Nat) (hc : SameBytes m2 src m1 dst n)
    (data : Nat) (_hd0 : data ≠ 0) (hd : 8 ∣ data) :
    ∃ a' b' y ys, bulkDeserialize W L m2 src ⟨data, false⟩ = some (m2, [a', b'], n) ∧
      b'.boxes = y :: ys ∧ ¬ 8 ∣ y.ptr := by
  obtain ⟨hn1, hld, him⟩ := bulk_image W L m [a, b] dst hn hap m1 n hs
  have hcount : load m2 src W.size = W.enc 2 := by
    have : W.enc 2 = W.enc [a, b].length := rfl
    rw [this, ← hld]; apply load_congr; intro i hi; exact hc i (by omega)
  have him2 : Image L m m2 (src + W.size) [a, b] := by
    apply image_congr him
    intro i hi
    rw [Nat.add_assoc, Nat.add_assoc, hc _ (by omega)]
  obtain ⟨i1, i2, j1, j2, _⟩ := him2
  obtain ⟨m3, a', d1, d2, d3, d4, d5, d6, d7, d8⟩ :=
    deserialize_spec L m2 (src + W.size) ⟨data, false⟩ a i1
  have hm3 : m3 = m2 := by rw [d8, if_neg]; simp [Settings.copyNeeded]
  subst hm3
  rw [Nat.add_assoc] at j1
  obtain ⟨m4, b', e1, e2, e3, e4, e5, e6, e7, e8⟩ := deserialize_spec L m3
    (src + (W.size + serializedSize L a)) ⟨data + dynSize a, false⟩ b j1
  have hm4 : m4 = m3 := by rw [e8, if_neg]; simp [Settings.copyNeeded]
  subst hm4
  have hb' := deserialize_obj L _ _ _ b j1 hb0 _ _ _ e1
  have hbase : base b (src + (W.size + serializedSize L a) + L.size) ⟨data + dynSize a, false⟩ =
      data + dynSize a := by
    unfold base; rw [hb]; simp; omega
  refine ⟨a', b', ⟨data + dynSize a, x.size⟩, (setBoxes (data + dynSize a) (0 + x.size) xs).1,
    ?_, ?_, by simp only; omega⟩
  · unfold bulkDeserialize
    simp only [hcount, W.dec_enc, deserializeAll, d1, Option.bind_some, sharedSize, d3,
      Nat.zero_add, e1, e3, Option.map_some]
    rw [if_pos]
    · rw [hn1]; simp [serSum, Nat.add_assoc]
    · constructor
      · simp [bulkSize, d2, e2, Nat.add_assoc]
      · simp [bulkShared, sharedSize, d3, e3]
  · rw [hb', setDynamic_eq b _ _ (by rw [hb]; decide), hbase, hx]
    split_ifs <;> rfl

/-- `exObj` has 45 bytes of dynamic memory. -/
example : ¬ 8 ∣ dynSize (exObj 1000) ∧ 0 < dynSize (exObj 1000) ∧ (exObj 2000).boxes =
    ⟨2000, 16⟩ :: [⟨2016, 24⟩] := ⟨by decide, by decide, rfl⟩

end Ser
end Verif
