import Verif.Spec.EospacSerialize
import Verif.Lemmas.Serialize
import Mathlib.Data.List.Forall2
import Mathlib.Data.List.FinRange
import Mathlib.Data.List.Induction

/-!
# C128: EOSPAC objects survive serialisation, and their tables are released
-/

set_option linter.unusedSectionVars false

namespace Verif.Espz

open Ser

variable {β L A S : Type}

/-- The constructor gives an object whose query handles are those of the handle array, with the sizes of the library. -/
theorem C128_constructed (lib : Lib β L A) (issued : L → Nat → Prop) (sb : Bool) (l : L) (m : Mem β) (s : S) (h : Handles)
    (hh : ∀ i, issued l (h i)) :
    Valid lib issued sb l m (construct lib sb l m s h) ∧ (construct lib sb l m s h).scal = s ∧
      ∀ r, (construct lib sb l m s h).handle r = h r.pos := by
  refine ⟨⟨hh, ?_, rfl, rfl⟩, rfl, ?_⟩ <;> intro r <;> cases r <;> rfl

theorem setNamed_handle (o : Obj S) (h : Handles) (r : Role) : (setNamed o h).handle r = h r.pos := by cases r <;> rfl

theorem serialize_spec (lib : Lib β L A) {issued : L → Nat → Prop} (hL : Contract lib issued) (sb : Bool)
    (Y : Layout (Obj S) β) (l : L) (m : Mem β) (o : Obj S) (dst : Nat)
    (hp : o.packed = lib.packedSize l m o.tablehandle) (ha : TablesApart lib l m o dst (serializedSize Y o)) :
    ∃ m', serialize lib Y l m o dst = some (m', serializedSize Y o) ∧
      load m' dst Y.size = Y.enc o ∧
      load m' (dst + Y.size) o.packed = lib.getPacked l m o.tablehandle ∧
      (∀ a, ¬ (dst ≤ a ∧ a < dst + serializedSize Y o) → m' a = m a) := by
  have hpos : 0 < dynSize o := by rw [dynSize, hp]; exact hL.packed_pos _ _ _
  have hlen : (lib.getPacked l m o.tablehandle).length = o.packed := by rw [hp]; exact hL.packed_len _ _ _
  have hsz : serializedSize Y o = o.packed + Y.size := rfl
  have h1 : lib.getPacked l (store m dst (Y.enc o)) o.tablehandle = lib.getPacked l m o.tablehandle := by
    refine (ha _ ?_).2
    intro a h
    exact store_apart (by rw [Y.enc_len]; omega)
  refine ⟨store (store m dst (Y.enc o)) (dst + Y.size) (lib.getPacked l m o.tablehandle), ?_, ?_, ?_, ?_⟩
  · unfold serialize dumpDynamic
    simp only [if_pos hpos, h1]
    rw [if_pos (by rw [hsz]; omega)]
    rw [hsz, Nat.add_comm o.packed]
  · have : load (store (store m dst (Y.enc o)) (dst + Y.size) (lib.getPacked l m o.tablehandle)) dst Y.size =
        load (store m dst (Y.enc o)) dst Y.size := by
      apply load_congr
      intro i hi
      exact store_apart (by omega)
    rw [this]
    have := load_store m dst (Y.enc o)
    rwa [Y.enc_len] at this
  · have := load_store (store m dst (Y.enc o)) (dst + Y.size) (lib.getPacked l m o.tablehandle)
    rwa [hlen] at this
  · intro a h
    rw [store_apart (by rw [hlen]; omega), store_apart (by rw [Y.enc_len]; omega)]

/-- `Serialize` succeeds, writes and returns exactly `SerializedSizeInBytes` bytes, and changes no byte outside the
destination. -/
theorem C128_serialize_size (lib : Lib β L A) (issued : L → Nat → Prop) (hL : Contract lib issued) (sb : Bool)
    (Y : Layout (Obj S) β) (l : L) (m : Mem β) (o : Obj S) (ho : Valid lib issued sb l m o) (dst : Nat)
    (ha : TablesApart lib l m o dst (serializedSize Y o)) :
    ∃ m', serialize lib Y l m o dst = some (m', serializedSize Y o) ∧
      (∀ a, ¬ (dst ≤ a ∧ a < dst + serializedSize Y o) → m' a = m a) := by
  obtain ⟨m', h1, _, _, h4⟩ := serialize_spec lib hL sb Y l m o dst ho.packed ha
  exact ⟨m', h1, h4⟩

theorem deserialize_private (lib : Lib β L A) {issued : L → Nat → Prop} (hL : Contract lib issued)
    (Y : Layout (Obj S) β) (l : L) (m : Mem β) (o : Obj S) (ho : Valid lib issued false l m o)
    (l2 : L) (m2 : Mem β) (src : Nat) (t : Settings)
    (i1 : load m2 src Y.size = Y.enc o) (i2 : load m2 (src + Y.size) o.packed = lib.getPacked l m o.tablehandle) :
    let r := lib.setPacked l2 (lib.getPacked l m o.tablehandle)
    deserialize lib false Y l2 m2 src t = some (r.1, m2, setNamed o r.2, serializedSize Y o) := by
  intro r
  have hpos : 0 < dynSize o := by rw [dynSize, ho.packed]; exact hL.packed_pos _ _ _
  unfold deserialize setDynamic
  simp only [i1, Y.dec_enc, if_pos hpos, Bool.false_eq_true, if_false, i2, Option.map_some, Option.bind_some]
  rw [if_pos (by simp [serializedSize, dynSize, setNamed, Nat.add_comm])]
  simp [r, serializedSize, dynSize, Nat.add_comm]

theorem private_valid (lib : Lib β L A) {issued : L → Nat → Prop} (hL : Contract lib issued)
    (l : L) (m : Mem β) (o : Obj S) (ho : Valid lib issued false l m o) (l2 : L) (m3 : Mem β) :
    let r := lib.setPacked l2 (lib.getPacked l m o.tablehandle)
    observe lib r.1 m3 (setNamed o r.2) = observe lib l m o := by
  intro r
  simp only [observe, Prod.mk.injEq]
  refine ⟨rfl, ?_⟩
  funext x
  rw [setNamed_handle, ho.names]
  exact hL.set_loads l m o.tablehandle ho.issued l2 m3 x.pos

/-- Build without EOSPAC shared memory: deserialising a copy of the bytes, at any address and in any process, gives an object that
answers like the original whatever happens to the buffer afterwards; it consumes exactly the bytes written and writes no
memory; its handles are new, different, and the ones its `Finalize` releases; no other table of the process changes. -/
theorem C128_roundtrip (lib : Lib β L A) (issued : L → Nat → Prop) (hL : Contract lib issued)
    (Y : Layout (Obj S) β) (l : L) (m : Mem β) (o : Obj S) (ho : Valid lib issued false l m o) (dst : Nat)
    (ha : TablesApart lib l m o dst (serializedSize Y o))
    (m1 : Mem β) (n : Nat) (hs : serialize lib Y l m o dst = some (m1, n))
    (l2 : L) (m2 : Mem β) (src : Nat) (hc : SameBytes m2 src m1 dst n) (t : Settings) :
    ∃ l3 o', deserialize lib false Y l2 m2 src t = some (l3, m2, o', n) ∧
      (∀ m3 : Mem β, observe lib l3 m3 o' = observe lib l m o) ∧
      (∀ r, o'.handle r = o'.tablehandle r.pos) ∧ Function.Injective o'.tablehandle ∧
      (∀ i, ¬ issued l2 (o'.tablehandle i) ∧ issued l3 (o'.tablehandle i)) ∧
      (∀ k m3, issued l2 k → issued l3 k ∧ lib.table l3 m3 k = lib.table l2 m3 k) := by
  obtain ⟨m', h1, h2, h3, _⟩ := serialize_spec lib hL false Y l m o dst ho.packed ha
  rw [h1] at hs
  simp only [Option.some.injEq, Prod.mk.injEq] at hs
  obtain ⟨rfl, rfl⟩ := hs
  have hsz : serializedSize Y o = o.packed + Y.size := rfl
  have i1 : load m2 src Y.size = Y.enc o := by
    rw [← h2]; exact load_congr fun i hi => hc i (by omega)
  have i2 : load m2 (src + Y.size) o.packed = lib.getPacked l m o.tablehandle := by
    rw [← h3]
    apply load_congr
    intro i hi
    rw [Nat.add_assoc, Nat.add_assoc, hc _ (by omega)]
  refine ⟨_, _, deserialize_private lib hL Y l m o ho l2 m2 src t i1 i2, ?_, setNamed_handle _ _, hL.set_inj _ _, ?_, ?_⟩
  · intro m3
    exact private_valid lib hL l m o ho l2 m3
  · intro i
    exact ⟨hL.set_new _ _ i, (hL.set_issued _ _ _).2 (Or.inr ⟨i, rfl⟩)⟩
  · intro k m3 hk
    exact ⟨(hL.set_issued _ _ _).2 (Or.inl hk), hL.set_keeps _ _ _ _ hk⟩

/-- Build with EOSPAC shared memory: without a shared block (the default settings) deserialisation stops the program. -/
theorem C128_shared_needs_block (lib : Lib β L A) (issued : L → Nat → Prop) (hL : Contract lib issued)
    (Y : Layout (Obj S) β) (l : L) (m : Mem β) (o : Obj S) (ho : Valid lib issued true l m o) (dst : Nat)
    (ha : TablesApart lib l m o dst (serializedSize Y o))
    (m1 : Mem β) (n : Nat) (hs : serialize lib Y l m o dst = some (m1, n))
    (l2 : L) (m2 : Mem β) (src : Nat) (hc : SameBytes m2 src m1 dst n) :
    deserialize lib true Y l2 m2 src dflt = none := by
  obtain ⟨m', h1, h2, h3, _⟩ := serialize_spec lib hL true Y l m o dst ho.packed ha
  rw [h1] at hs
  simp only [Option.some.injEq, Prod.mk.injEq] at hs
  obtain ⟨rfl, rfl⟩ := hs
  have hsz : serializedSize Y o = o.packed + Y.size := rfl
  have i1 : load m2 src Y.size = Y.enc o := by
    rw [← h2]; exact load_congr fun i hi => hc i (by omega)
  have hpos : 0 < dynSize o := by rw [dynSize, ho.packed]; exact hL.packed_pos _ _ _
  unfold deserialize setDynamic
  simp [i1, Y.dec_enc, if_pos hpos, dflt]

theorem deserialize_shared (lib : Lib β L A) {issued : L → Nat → Prop} (hL : Contract lib issued)
    (Y : Layout (Obj S) β) (l : L) (m : Mem β) (o : Obj S) (ho : Valid lib issued true l m o)
    (l2 : L) (m2 : Mem β) (src : Nat) (t : Settings) (ht : t.data ≠ 0)
    (i1 : load m2 src Y.size = Y.enc o) (i2 : load m2 (src + Y.size) o.packed = lib.getPacked l m o.tablehandle) :
    let r := lib.setShared l2 m2 (lib.getPacked l m o.tablehandle) t.data t.root
    deserialize lib true Y l2 m2 src t = some (r.1, r.2.1, setNamed o r.2.2, serializedSize Y o) := by
  intro r
  have hpos : 0 < dynSize o := by rw [dynSize, ho.packed]; exact hL.packed_pos _ _ _
  unfold deserialize setDynamic
  simp only [i1, Y.dec_enc, if_pos hpos, if_true, if_neg ht, i2, Option.map_some, Option.bind_some]
  rw [if_pos (by simp [serializedSize, dynSize, setNamed, Nat.add_comm])]
  simp [r, serializedSize, dynSize, Nat.add_comm]

/-- Build with EOSPAC shared memory, root of the shared domain: only the block of `SharedMemorySizeInBytes` bytes is written,
and the object answers like the original as long as that block is left alone. -/
theorem C128_roundtrip_shared_root (lib : Lib β L A) (issued : L → Nat → Prop) (hL : Contract lib issued)
    (Y : Layout (Obj S) β) (l : L) (m : Mem β) (o : Obj S) (ho : Valid lib issued true l m o) (dst : Nat)
    (ha : TablesApart lib l m o dst (serializedSize Y o))
    (m1 : Mem β) (n : Nat) (hs : serialize lib Y l m o dst = some (m1, n))
    (l2 : L) (m2 : Mem β) (src : Nat) (hc : SameBytes m2 src m1 dst n) (data : Nat) (hd : data ≠ 0) :
    ∃ l3 m3 o', deserialize lib true Y l2 m2 src ⟨data, true⟩ = some (l3, m3, o', n) ∧
      (∀ m4 : Mem β, SameBytes m4 data m3 data (sharedSize o) → observe lib l3 m4 o' = observe lib l m o) ∧
      (∀ a, ¬ (data ≤ a ∧ a < data + sharedSize o) → m3 a = m2 a) ∧
      (∀ r, o'.handle r = o'.tablehandle r.pos) ∧ Function.Injective o'.tablehandle ∧
      (∀ i, ¬ issued l2 (o'.tablehandle i) ∧ issued l3 (o'.tablehandle i)) ∧
      (∀ k m3, issued l2 k → issued l3 k ∧ lib.table l3 m3 k = lib.table l2 m3 k) := by
  obtain ⟨m', h1, h2, h3, _⟩ := serialize_spec lib hL true Y l m o dst ho.packed ha
  rw [h1] at hs
  simp only [Option.some.injEq, Prod.mk.injEq] at hs
  obtain ⟨rfl, rfl⟩ := hs
  have hsz : serializedSize Y o = o.packed + Y.size := rfl
  have hsh : sharedSize o = lib.sharedBytes l m o.tablehandle := by rw [sharedSize, ho.shared]; rfl
  have i1 : load m2 src Y.size = Y.enc o := by
    rw [← h2]; exact load_congr fun i hi => hc i (by omega)
  have i2 : load m2 (src + Y.size) o.packed = lib.getPacked l m o.tablehandle := by
    rw [← h3]
    apply load_congr
    intro i hi
    rw [Nat.add_assoc, Nat.add_assoc, hc _ (by omega)]
  refine ⟨_, _, _, deserialize_shared lib hL Y l m o ho l2 m2 src ⟨data, true⟩ hd i1 i2, ?_, ?_, setNamed_handle _ _,
    hL.shared_inj _ _ _ _ _, ?_, ?_⟩
  · intro m4 h4
    simp only [observe, Prod.mk.injEq]
    refine ⟨rfl, ?_⟩
    funext x
    rw [setNamed_handle, ho.names]
    exact hL.root_loads l m o.tablehandle ho.issued l2 m2 data m4 x.pos (hsh ▸ h4)
  · intro a h
    rw [hsh] at h
    exact hL.root_writes l m o.tablehandle ho.issued l2 m2 data a h
  · intro i
    exact ⟨hL.shared_new _ _ _ _ _ i, (hL.shared_issued _ _ _ _ _ _).2 (Or.inr ⟨i, rfl⟩)⟩
  · intro k m3 hk
    exact ⟨(hL.shared_issued _ _ _ _ _ _).2 (Or.inl hk), hL.shared_keeps _ _ _ _ _ _ _ hk⟩

/-- Build with EOSPAC shared memory, a peer: nothing is written, and the object answers like the original if the block
(possibly mapped at another address) holds what the root put there. -/
theorem C128_roundtrip_shared_peer (lib : Lib β L A) (issued : L → Nat → Prop) (hL : Contract lib issued)
    (Y : Layout (Obj S) β) (l : L) (m : Mem β) (o : Obj S) (ho : Valid lib issued true l m o) (dst : Nat)
    (ha : TablesApart lib l m o dst (serializedSize Y o))
    (m1 : Mem β) (n : Nat) (hs : serialize lib Y l m o dst = some (m1, n))
    (lr : L) (mr : Mem β) (srcr datar : Nat) (hcr : SameBytes mr srcr m1 dst n) (hdr : datar ≠ 0)
    (lr' : L) (mr' : Mem β) (or : Obj S)
    (hroot : deserialize lib true Y lr mr srcr ⟨datar, true⟩ = some (lr', mr', or, n))
    (l2 : L) (m2 : Mem β) (src : Nat) (hc : SameBytes m2 src m1 dst n) (data : Nat) (hd : data ≠ 0)
    (hblk : SameBytes m2 data mr' datar (sharedSize o)) :
    ∃ l3 o', deserialize lib true Y l2 m2 src ⟨data, false⟩ = some (l3, m2, o', n) ∧
      (∀ m4 : Mem β, SameBytes m4 data m2 data (sharedSize o) → observe lib l3 m4 o' = observe lib l m o) := by
  obtain ⟨m', h1, h2, h3, _⟩ := serialize_spec lib hL true Y l m o dst ho.packed ha
  rw [h1] at hs
  simp only [Option.some.injEq, Prod.mk.injEq] at hs
  obtain ⟨rfl, rfl⟩ := hs
  have hsz : serializedSize Y o = o.packed + Y.size := rfl
  have hsh : sharedSize o = lib.sharedBytes l m o.tablehandle := by rw [sharedSize, ho.shared]; rfl
  have im : ∀ (mm : Mem β) (s : Nat), SameBytes mm s m' dst (serializedSize Y o) →
      load mm s Y.size = Y.enc o ∧ load mm (s + Y.size) o.packed = lib.getPacked l m o.tablehandle := by
    intro mm s h
    refine ⟨?_, ?_⟩
    · rw [← h2]; exact load_congr fun i hi => h i (by omega)
    · rw [← h3]
      apply load_congr
      intro i hi
      rw [Nat.add_assoc, Nat.add_assoc, h _ (by omega)]
  rw [deserialize_shared lib hL Y l m o ho lr mr srcr ⟨datar, true⟩ hdr (im _ _ hcr).1 (im _ _ hcr).2] at hroot
  simp only [Option.some.injEq, Prod.mk.injEq] at hroot
  obtain ⟨_, rfl, _, _⟩ := hroot
  have hd2 := deserialize_shared lib hL Y l m o ho l2 m2 src ⟨data, false⟩ hd (im _ _ hc).1 (im _ _ hc).2
  simp only [hL.peer_writes] at hd2
  refine ⟨_, _, hd2, ?_⟩
  intro m4 h4
  simp only [observe, Prod.mk.injEq]
  refine ⟨rfl, ?_⟩
  funext x
  rw [setNamed_handle, ho.names]
  exact hL.peer_loads l m o.tablehandle ho.issued l2 m2 data lr mr datar (hsh ▸ hblk) m4 x.pos (hsh ▸ h4)

/-! ## Lists of EOSPAC objects -/

/-- The bytes of a list of objects, from address `p`. -/
def Image (lib : Lib β L A) (Y : Layout (Obj S) β) (l : L) (m m' : Mem β) : Nat → List (Obj S) → Prop
  | _, [] => True
  | p, o :: os => load m' p Y.size = Y.enc o ∧ load m' (p + Y.size) o.packed = lib.getPacked l m o.tablehandle ∧
      Image lib Y l m m' (p + serializedSize Y o) os

theorem Image.copy (lib : Lib β L A) (Y : Layout (Obj S) β) (l : L) (m m' m2 : Mem β) (os : List (Obj S)) :
    ∀ (p q : Nat), Image lib Y l m m' p os → SameBytes m2 q m' p (os.map (serializedSize Y)).sum →
      Image lib Y l m m2 q os := by
  induction os with
  | nil => intro p q _ _; trivial
  | cons o os ih =>
    intro p q h hc
    obtain ⟨h1, h2, h3⟩ := h
    have hsz : serializedSize Y o = o.packed + Y.size := rfl
    simp only [List.map_cons, List.sum_cons] at hc
    refine ⟨?_, ?_, ih _ _ h3 ?_⟩
    · rw [← h1]; exact load_congr fun i hi => hc i (by omega)
    · rw [← h2]
      apply load_congr
      intro i hi
      rw [Nat.add_assoc, Nat.add_assoc, hc _ (by omega)]
    · intro i hi
      rw [Nat.add_assoc, Nat.add_assoc, hc _ (by omega)]

theorem serializeAll_spec (lib : Lib β L A) {issued : L → Nat → Prop} (hL : Contract lib issued) (sb : Bool)
    (Y : Layout (Obj S) β) (l : L) (m : Mem β) (dst N : Nat) (os : List (Obj S)) :
    ∀ (off : Nat) (m0 : Mem β), (∀ o ∈ os, Valid lib issued sb l m o) → (∀ o ∈ os, TablesApart lib l m o dst N) →
      off + (os.map (serializedSize Y)).sum ≤ N → (∀ a, ¬ (dst ≤ a ∧ a < dst + N) → m0 a = m a) →
      ∃ m', serializeAll lib Y l dst off os m0 = some (m', off + (os.map (serializedSize Y)).sum) ∧
        Image lib Y l m m' (dst + off) os ∧
        (∀ a, ¬ (dst + off ≤ a ∧ a < dst + off + (os.map (serializedSize Y)).sum) → m' a = m0 a) := by
  induction os with
  | nil => intro off m0 _ _ _ _; exact ⟨m0, rfl, trivial, fun _ _ => rfl⟩
  | cons o os ih =>
    intro off m0 hv ha hN hm
    simp only [List.map_cons, List.sum_cons] at hN ⊢
    have hvo := hv o (by simp)
    have hao := ha o (by simp)
    have hg : lib.getPacked l m0 o.tablehandle = lib.getPacked l m o.tablehandle := (hao m0 hm).2
    have hap0 : TablesApart lib l m0 o (dst + off) (serializedSize Y o) := by
      intro m' hm'
      have h2 := hao m' (by intro a h; rw [hm' a (by omega), hm a h])
      have h3 := hao m0 hm
      exact ⟨fun i => by rw [h2.1, h3.1], by rw [h2.2, h3.2]⟩
    have hp0 : o.packed = lib.packedSize l m0 o.tablehandle := by
      rw [hvo.packed, ← hL.packed_len, ← hL.packed_len, hg]
    obtain ⟨m1, h1, h2, h3, h4⟩ := serialize_spec lib hL sb Y l m0 o (dst + off) hp0 hap0
    obtain ⟨m', g1, g2, g3⟩ := ih (off + serializedSize Y o) m1 (fun x hx => hv x (by simp [hx]))
      (fun x hx => ha x (by simp [hx])) (by omega) (by intro a h; rw [h4 a (by omega), hm a h])
    refine ⟨m', ?_, ⟨?_, ?_, ?_⟩, ?_⟩
    · simp only [serializeAll, h1, Option.bind_some, g1, Nat.add_assoc]
    · rw [← h2]
      apply load_congr
      intro i hi
      have hsz : serializedSize Y o = o.packed + Y.size := rfl
      exact g3 _ (by omega)
    · rw [← hg, ← h3]
      apply load_congr
      intro i hi
      have hsz : serializedSize Y o = o.packed + Y.size := rfl
      exact g3 _ (by omega)
    · rw [Nat.add_assoc]; exact g2
    · intro a h
      rw [g3 a (by omega), h4 a (by omega)]

theorem bulkSerialize_spec (lib : Lib β L A) {issued : L → Nat → Prop} (hL : Contract lib issued) (sb : Bool)
    (W : Layout Nat β) (Y : Layout (Obj S) β) (l : L) (m : Mem β) (os : List (Obj S)) (dst : Nat)
    (hv : ∀ o ∈ os, Valid lib issued sb l m o) (ha : ∀ o ∈ os, TablesApart lib l m o dst (bulkSize W Y os)) :
    ∃ m', bulkSerialize lib W Y l m os dst = some (m', bulkSize W Y os) ∧
      load m' dst W.size = W.enc os.length ∧ Image lib Y l m m' (dst + W.size) os ∧
      (∀ a, ¬ (dst ≤ a ∧ a < dst + bulkSize W Y os) → m' a = m a) := by
  have hb : bulkSize W Y os = W.size + (os.map (serializedSize Y)).sum := rfl
  obtain ⟨m', h1, h2, h3⟩ := serializeAll_spec lib hL sb Y l m dst (bulkSize W Y os) os W.size
    (store m dst (W.enc os.length)) hv ha (by omega)
    (by intro a h; exact store_apart (by rw [W.enc_len]; omega))
  refine ⟨m', ?_, ?_, h2, ?_⟩
  · unfold bulkSerialize
    rw [h1, Option.bind_some, if_pos (by rw [hb]), hb]
  · have := load_store m dst (W.enc os.length)
    rw [W.enc_len] at this
    rw [← this]
    apply load_congr
    intro i hi
    exact h3 _ (by omega)
  · intro a h
    rw [h3 a (by omega), store_apart (by rw [W.enc_len]; omega)]

theorem deserializeAll_private (lib : Lib β L A) {issued : L → Nat → Prop} (hL : Contract lib issued)
    (Y : Layout (Obj S) β) (l : L) (m m2 : Mem β) (src : Nat) (os : List (Obj S)) :
    ∀ (off sh : Nat) (t : Settings) (l2 : L), (∀ o ∈ os, Valid lib issued false l m o) →
      Image lib Y l m m2 (src + off) os →
      ∃ l3 os', deserializeAll lib false Y src os.length off sh t l2 m2 =
          some (l3, m2, os', off + (os.map (serializedSize Y)).sum, sh) ∧
        List.Forall₂ (fun o o' => (∀ m3, observe lib l3 m3 o' = observe lib l m o) ∧
          (∀ r, o'.handle r = o'.tablehandle r.pos) ∧ (∀ i, ¬ issued l2 (o'.tablehandle i) ∧ issued l3 (o'.tablehandle i)) ∧
          sharedSize o' = 0 ∧ serializedSize Y o' = serializedSize Y o) os os' ∧
        (∀ k m3, issued l2 k → issued l3 k ∧ lib.table l3 m3 k = lib.table l2 m3 k) ∧
        (os'.flatMap fun o' => List.ofFn o'.tablehandle).Nodup := by
  induction os with
  | nil =>
    intro off sh t l2 _ _
    exact ⟨l2, [], by simp [deserializeAll], .nil, fun _ _ h => ⟨h, rfl⟩, by simp⟩
  | cons o os ih =>
    intro off sh t l2 hv hi
    obtain ⟨i1, i2, i3⟩ := hi
    have hvo := hv o (by simp)
    have hd := deserialize_private lib hL Y l m o hvo l2 m2 (src + off) t i1 i2
    have hsh : sharedSize (setNamed o (lib.setPacked l2 (lib.getPacked l m o.tablehandle)).2) = 0 := by
      show o.shared = 0
      rw [hvo.shared]; rfl
    obtain ⟨l3, os', g1, g2, g3, g4⟩ := ih (off + serializedSize Y o) sh { t with data := t.data }
      (lib.setPacked l2 (lib.getPacked l m o.tablehandle)).1 (fun x hx => hv x (by simp [hx]))
      (by rw [← Nat.add_assoc]; exact i3)
    have hnew : ∀ i, issued (lib.setPacked l2 (lib.getPacked l m o.tablehandle)).1
        ((lib.setPacked l2 (lib.getPacked l m o.tablehandle)).2 i) := fun i =>
      (hL.set_issued _ _ _).2 (Or.inr ⟨i, rfl⟩)
    refine ⟨l3, setNamed o (lib.setPacked l2 (lib.getPacked l m o.tablehandle)).2 :: os', ?_, ?_, ?_, ?_⟩
    · simp only [List.length_cons, deserializeAll, hd, Option.bind_some, hsh, Nat.add_zero]
      rw [show ({ data := t.data, root := t.root } : Settings) = t from rfl] at *
      rw [g1]
      simp [Nat.add_assoc]
    · refine .cons ⟨?_, setNamed_handle _ _, ?_, hsh, rfl⟩ ?_
      · intro m3
        rw [← private_valid lib hL l m o hvo l2 m3]
        refine Prod.ext rfl ?_
        funext x
        show lib.table _ _ _ = lib.table _ _ _
        rw [setNamed_handle]
        exact (g3 _ m3 (hnew _)).2
      · intro i
        exact ⟨hL.set_new _ _ i, (g3 _ m2 (hnew i)).1⟩
      · refine g2.imp ?_
        rintro a b ⟨a1, a2, a3, a4, a5⟩
        refine ⟨a1, a2, fun i => ⟨fun hh => (a3 i).1 ?_, (a3 i).2⟩, a4, a5⟩
        exact (hL.set_issued _ _ _).2 (Or.inl hh)
    · intro k m3 hk
      have h1 := g3 k m3 ((hL.set_issued _ _ _).2 (Or.inl hk))
      exact ⟨h1.1, h1.2.trans (hL.set_keeps _ _ _ _ hk)⟩
    · rw [List.flatMap_cons, List.nodup_append]
      refine ⟨List.nodup_ofFn.2 (hL.set_inj _ _), g4, ?_⟩
      rintro k hk k' hk' rfl
      obtain ⟨i, rfl⟩ := List.mem_ofFn.1 hk
      obtain ⟨o', ho', hk'⟩ := List.mem_flatMap.1 hk'
      obtain ⟨j, hj⟩ := List.mem_ofFn.1 hk'
      obtain ⟨n, hn, rfl⟩ := List.getElem_of_mem ho'
      have hget := (List.forall₂_iff_get.1 g2).2 n (by rw [g2.length_eq]; exact hn) hn
      exact (hget.2.2.1 j).1 (by
        show issued _ ((os'[n]).tablehandle j)
        rw [hj]; exact hnew i)

/-- Build without EOSPAC shared memory: the bulk serialiser brings a whole list of EOSPAC objects to another process, with any
settings: each answers like its original, all handles are new and different from each other, and no other table changes. -/
theorem C128_bulk (lib : Lib β L A) (issued : L → Nat → Prop) (hL : Contract lib issued)
    (W : Layout Nat β) (Y : Layout (Obj S) β) (l : L) (m : Mem β) (os : List (Obj S)) (dst : Nat)
    (hv : ∀ o ∈ os, Valid lib issued false l m o) (ha : ∀ o ∈ os, TablesApart lib l m o dst (bulkSize W Y os))
    (m1 : Mem β) (n : Nat) (hs : bulkSerialize lib W Y l m os dst = some (m1, n))
    (l2 : L) (m2 : Mem β) (src : Nat) (hc : SameBytes m2 src m1 dst n) (t : Settings) :
    n = bulkSize W Y os ∧
    ∃ l3 os', bulkDeserialize lib false W Y l2 m2 src t = some (l3, m2, os', n) ∧
      List.Forall₂ (fun o o' => ∀ m3, observe lib l3 m3 o' = observe lib l m o) os os' ∧
      (os'.flatMap fun o' => List.ofFn o'.tablehandle).Nodup ∧
      (∀ k m3, issued l2 k → issued l3 k ∧ lib.table l3 m3 k = lib.table l2 m3 k) := by
  obtain ⟨m', h1, h2, h3, _⟩ := bulkSerialize_spec lib hL false W Y l m os dst hv ha
  rw [h1] at hs
  simp only [Option.some.injEq, Prod.mk.injEq] at hs
  obtain ⟨rfl, rfl⟩ := hs
  refine ⟨rfl, ?_⟩
  have hb : bulkSize W Y os = W.size + (os.map (serializedSize Y)).sum := rfl
  have i0 : load m2 src W.size = W.enc os.length := by
    rw [← h2]; exact load_congr fun i hi => hc i (by omega)
  have i1 : Image lib Y l m m2 (src + W.size) os := h3.copy _ _ _ _ _ _ _ _ _ (by
    intro i hi
    rw [Nat.add_assoc, Nat.add_assoc, hc _ (by omega)])
  obtain ⟨l3, os', g1, g2, g3, g4⟩ := deserializeAll_private lib hL Y l m m2 src os W.size 0 t l2 hv i1
  have hser : ∀ (xs ys : List (Obj S)), List.Forall₂ (fun o o' => sharedSize o' = 0 ∧ serializedSize Y o' = serializedSize Y o)
      xs ys → ys.map (serializedSize Y) = xs.map (serializedSize Y) ∧ bulkShared ys = 0 := by
    intro xs ys h
    induction h with
    | nil => exact ⟨rfl, rfl⟩
    | cons h _ ih =>
      refine ⟨by simp only [List.map_cons, h.2, ih.1], ?_⟩
      have := ih.2
      simp only [bulkShared] at this
      simp only [bulkShared, List.map_cons, List.sum_cons, h.1, this]
  have h2 := hser os os' (g2.imp fun _ _ h => ⟨h.2.2.2.1, h.2.2.2.2⟩)
  refine ⟨l3, os', ?_, g2.imp fun _ _ h => h.1, g4, g3⟩
  unfold bulkDeserialize
  simp only [i0, W.dec_enc, g1, Option.bind_some]
  rw [if_pos ⟨by rw [bulkSize, h2.1], h2.2.symm⟩]
  rfl

theorem deserializeAll_root (lib : Lib β L A) {issued : L → Nat → Prop} (hL : Contract lib issued)
    (Y : Layout (Obj S) β) (l : L) (m : Mem β) (src : Nat) (os : List (Obj S)) :
    ∀ (off sh data : Nat) (l2 : L) (m2 : Mem β), data ≠ 0 → (∀ o ∈ os, Valid lib issued true l m o) →
      Image lib Y l m m2 (src + off) os →
      (∀ a, data ≤ a → a < data + bulkShared os →
        ¬ (src + off ≤ a ∧ a < src + off + (os.map (serializedSize Y)).sum)) →
      ∃ l3 m3 os', deserializeAll lib true Y src os.length off sh ⟨data, true⟩ l2 m2 =
          some (l3, m3, os', off + (os.map (serializedSize Y)).sum, sh + bulkShared os) ∧
        (∀ a, ¬ (data ≤ a ∧ a < data + bulkShared os) → m3 a = m2 a) ∧
        List.Forall₂ (fun o o' => (∀ m4, SameBytes m4 data m3 data (bulkShared os) →
          observe lib l3 m4 o' = observe lib l m o) ∧
          sharedSize o' = sharedSize o ∧ serializedSize Y o' = serializedSize Y o) os os' ∧
        (∀ k m3, issued l2 k → issued l3 k ∧ lib.table l3 m3 k = lib.table l2 m3 k) := by
  induction os with
  | nil =>
    intro off sh data l2 m2 _ _ _ _
    exact ⟨l2, m2, [], by simp [deserializeAll, bulkShared], fun _ _ => rfl, .nil, fun _ _ h => ⟨h, rfl⟩⟩
  | cons o os ih =>
    intro off sh data l2 m2 hd hv hi hdis
    obtain ⟨i1, i2, i3⟩ := hi
    have hvo := hv o (by simp)
    have hds := deserialize_shared lib hL Y l m o hvo l2 m2 (src + off) ⟨data, true⟩ hd i1 i2
    have hsh : sharedSize o = lib.sharedBytes l m o.tablehandle := by rw [sharedSize, hvo.shared]; rfl
    have hbs : bulkShared (o :: os) = sharedSize o + bulkShared os := by simp [bulkShared]
    rw [hbs] at hdis
    simp only [List.map_cons, List.sum_cons] at hdis
    have hw := hL.root_writes l m o.tablehandle hvo.issued l2 m2 data
    rw [← hsh] at hw
    have hld := hL.root_loads l m o.tablehandle hvo.issued l2 m2 data
    rw [← hsh] at hld
    simp only [] at hds
    generalize hR : lib.setShared l2 m2 (lib.getPacked l m o.tablehandle) data true = R at hds hw hld
    have hiss := hL.shared_issued l2 m2 (lib.getPacked l m o.tablehandle) data true
    have hkeep := hL.shared_keeps l2 m2 (lib.getPacked l m o.tablehandle) data true
    rw [hR] at hiss hkeep
    obtain ⟨l3, m3, os', g1, g2, g3, g4⟩ := ih (off + serializedSize Y o) (sh + sharedSize o) (data + sharedSize o)
      R.1 R.2.1 (by omega) (fun x hx => hv x (by simp [hx]))
      (by
        rw [← Nat.add_assoc]
        refine i3.copy _ _ _ _ _ _ _ _ _ ?_
        intro i hi
        apply hw
        intro hh
        have := hdis (src + off + serializedSize Y o + i) (by omega) (by omega)
        omega)
      (by
        intro a h1 h2 h3
        exact hdis a (by omega) (by omega) (by omega))
    refine ⟨l3, m3, setNamed o R.2.2 :: os', ?_, ?_, ?_, ?_⟩
    · simp only [List.length_cons, deserializeAll, hds, Option.bind_some]
      rw [show sharedSize (setNamed o R.2.2) = sharedSize o from rfl, g1, hbs]
      simp [Nat.add_assoc]
    · intro a h
      rw [hbs] at h
      rw [g2 a (by omega), hw a (by omega)]
    · rw [hbs]
      refine .cons ⟨?_, rfl, rfl⟩ ?_
      · intro m4 h4
        refine Prod.ext rfl ?_
        funext x
        show lib.table _ _ _ = lib.table _ _ _
        rw [setNamed_handle, hvo.names]
        rw [(g4 _ m4 ((hiss _).2 (Or.inr ⟨x.pos, rfl⟩))).2]
        apply hld
        intro i hi
        rw [h4 i (by omega), g2 _ (by omega)]
      · refine g3.imp ?_
        rintro a b ⟨a1, a2, a3⟩
        refine ⟨fun m4 h4 => a1 m4 ?_, a2, a3⟩
        intro i hi
        rw [Nat.add_assoc, h4 _ (by omega)]
    · intro k m3 hk
      have h1 := g4 k m3 ((hiss k).2 (Or.inl hk))
      exact ⟨h1.1, h1.2.trans (hkeep k m3 hk)⟩

/-- Build with EOSPAC shared memory: the root's bulk deserialisation, with a block of `SharedMemorySizeInBytes` bytes apart from
the buffer, brings over the whole list: only the block is written, and each object answers like its original as long as
the block is left alone. -/
theorem C128_bulk_shared_root (lib : Lib β L A) (issued : L → Nat → Prop) (hL : Contract lib issued)
    (W : Layout Nat β) (Y : Layout (Obj S) β) (l : L) (m : Mem β) (os : List (Obj S)) (dst : Nat)
    (hv : ∀ o ∈ os, Valid lib issued true l m o) (ha : ∀ o ∈ os, TablesApart lib l m o dst (bulkSize W Y os))
    (m1 : Mem β) (n : Nat) (hs : bulkSerialize lib W Y l m os dst = some (m1, n))
    (l2 : L) (m2 : Mem β) (src : Nat) (hc : SameBytes m2 src m1 dst n) (data : Nat) (hd : data ≠ 0)
    (hdis : ∀ a, data ≤ a → a < data + bulkShared os → ¬ (src ≤ a ∧ a < src + n)) :
    ∃ l3 m3 os', bulkDeserialize lib true W Y l2 m2 src ⟨data, true⟩ = some (l3, m3, os', n) ∧
      (∀ a, ¬ (data ≤ a ∧ a < data + bulkShared os) → m3 a = m2 a) ∧
      List.Forall₂ (fun o o' => ∀ m4, SameBytes m4 data m3 data (bulkShared os) →
        observe lib l3 m4 o' = observe lib l m o) os os' ∧
      (∀ k m3, issued l2 k → issued l3 k ∧ lib.table l3 m3 k = lib.table l2 m3 k) := by
  obtain ⟨m', h1, h2, h3, _⟩ := bulkSerialize_spec lib hL true W Y l m os dst hv ha
  rw [h1] at hs
  simp only [Option.some.injEq, Prod.mk.injEq] at hs
  obtain ⟨rfl, rfl⟩ := hs
  have hb : bulkSize W Y os = W.size + (os.map (serializedSize Y)).sum := rfl
  have i0 : load m2 src W.size = W.enc os.length := by
    rw [← h2]; exact load_congr fun i hi => hc i (by omega)
  have i1 : Image lib Y l m m2 (src + W.size) os := h3.copy _ _ _ _ _ _ _ _ _ (by
    intro i hi
    rw [Nat.add_assoc, Nat.add_assoc, hc _ (by omega)])
  obtain ⟨l3, m3, os', g1, g2, g3, g4⟩ := deserializeAll_root lib hL Y l m src os W.size 0 data l2 m2 hd hv i1
    (fun a h1 h2 h3 => hdis a h1 h2 (by omega))
  have hser : ∀ (xs ys : List (Obj S)), List.Forall₂ (fun o o' => sharedSize o' = sharedSize o ∧
      serializedSize Y o' = serializedSize Y o)
      xs ys → ys.map (serializedSize Y) = xs.map (serializedSize Y) ∧ bulkShared ys = bulkShared xs := by
    intro xs ys h
    induction h with
    | nil => exact ⟨rfl, rfl⟩
    | cons h _ ih =>
      refine ⟨by simp only [List.map_cons, h.2, ih.1], ?_⟩
      have := ih.2
      simp only [bulkShared] at this
      simp only [bulkShared, List.map_cons, List.sum_cons, h.1, this]
  have h2 := hser os os' (g3.imp fun _ _ h => ⟨h.2.1, h.2.2⟩)
  refine ⟨l3, m3, os', ?_, g2, g3.imp fun _ _ h => h.1, g4⟩
  unfold bulkDeserialize
  simp only [i0, W.dec_enc, g1, Option.bind_some]
  rw [if_pos ⟨by rw [bulkSize, h2.1], by rw [h2.2, Nat.zero_add]⟩]
  rfl

/-! ## Release of the tables -/

/-- The objects whose `Finalize` is called by the program, in order, if they exist at that moment. -/
def finalized (ops : List Op) : List Nat :=
  (List.range ops.length).filterMap fun j => match (ops[j]? : Option Op) with
    | some (Op.fin i) => if i < (Own.run (ops.take j)).objs.length then some i else none
    | _ => none

theorem run_snoc (ops : List Op) (op : Op) : Own.run (ops ++ [op]) = (Own.run ops).step op := by
  simp [Own.run, List.foldl_append]

theorem finalized_snoc (ops : List Op) (op : Op) : finalized (ops ++ [op]) = finalized ops ++
    (match op with
      | .fin i => if i < (Own.run ops).objs.length then [i] else []
      | _ => []) := by
  unfold finalized
  rw [List.length_append, List.length_singleton, List.range_succ, List.filterMap_append]
  congr 1
  · apply List.filterMap_congr
    intro j hj
    have hj := List.mem_range.1 hj
    rw [List.getElem?_append_left hj, List.take_append_of_le_length hj.le]
  · rw [List.filterMap_cons, List.filterMap_nil]
    have h1 : (ops ++ [op])[ops.length]? = some op := by simp
    have h2 : List.take ops.length (ops ++ [op]) = ops := by simp
    rw [h1, h2]
    cases op
    case fin i => by_cases h : i < (Own.run ops).objs.length <;> simp [h]
    all_goals simp

/-- Without device copies the objects of a program have all handles different, and what is destroyed is the handles of the
finalised objects. -/
theorem own_inv (ops : List Op) (hdev : ∀ i, Op.device i ∉ ops) :
    (Own.run ops).objs = (List.range (Own.run ops).objs.length).map (fun k => newHandles (8 * k)) ∧
    (Own.run ops).next = 8 * (Own.run ops).objs.length ∧
    (Own.run ops).destroyed = (finalized ops).flatMap (fun k => List.ofFn (newHandles (8 * k))) ∧
    ∀ k ∈ finalized ops, k < (Own.run ops).objs.length := by
  induction ops using List.reverseRecOn with
  | nil => simp [Own.run, finalized]
  | append_singleton ops op ih =>
    obtain ⟨h1, h2, h3, h4⟩ := ih (fun i hi => hdev i (by simp [hi]))
    rw [run_snoc, finalized_snoc]
    generalize Own.run ops = s at h1 h2 h3 h4 ⊢
    cases op with
    | device i => exact absurd (by simp) (hdev i)
    | make =>
      simp only [Own.step, List.length_append, List.length_singleton, List.range_succ, List.map_append, List.map_singleton,
        List.append_nil]
      refine ⟨by rw [← h1, h2], by omega, h3, fun k hk => Nat.lt_succ_of_lt (h4 k hk)⟩
    | deser =>
      simp only [Own.step, List.length_append, List.length_singleton, List.range_succ, List.map_append, List.map_singleton,
        List.append_nil]
      refine ⟨by rw [← h1, h2], by omega, h3, fun k hk => Nat.lt_succ_of_lt (h4 k hk)⟩
    | fin i =>
      by_cases hi : i < s.objs.length
      · have he : s.objs[i]? = some (newHandles (8 * i)) := by
          rw [h1]; simp [hi]
        simp only [Own.step, he, if_pos hi, List.flatMap_append]
        refine ⟨h1, h2, by rw [h3]; simp, ?_⟩
        intro k hk
        rcases List.mem_append.1 hk with hk | hk
        · exact h4 k hk
        · simp at hk; omega
      · have he : s.objs[i]? = none := by simpa using hi
        simp only [Own.step, he, if_neg hi, List.append_nil]
        exact ⟨h1, h2, h3, h4⟩

/-- In a program that constructs and deserialises EOSPAC objects, makes no device copies and finalises no object twice, no
table is destroyed twice; when it has finalised every object, every table ever loaded has been destroyed, once. -/
theorem C128_released (ops : List Op) (hdev : ∀ i, Op.device i ∉ ops) (hf : (finalized ops).Nodup) :
    (Own.run ops).destroyed.Nodup ∧ (∀ h ∈ (Own.run ops).destroyed, h < (Own.run ops).next) ∧
    ((∀ i < (Own.run ops).objs.length, i ∈ finalized ops) →
      ∀ h, h < (Own.run ops).next → (Own.run ops).destroyed.count h = 1) := by
  obtain ⟨h1, h2, h3, h4⟩ := own_inv ops hdev
  have hmem : ∀ k h, h ∈ List.ofFn (newHandles (8 * k)) ↔ 8 * k ≤ h ∧ h < 8 * k + 8 := by
    intro k h
    rw [List.mem_ofFn]
    constructor
    · rintro ⟨i, rfl⟩
      simp only [newHandles]
      omega
    · rintro ⟨a, b⟩
      exact ⟨⟨h - 8 * k, by omega⟩, by simp only [newHandles]; omega⟩
  have hnd : (Own.run ops).destroyed.Nodup := by
    rw [h3, List.nodup_flatMap]
    refine ⟨fun k _ => List.nodup_ofFn.2 (fun i j h => Fin.ext (by simp only [newHandles] at h; omega)), ?_⟩
    refine hf.imp ?_
    intro a b hab h ha hb
    have := (hmem _ _).1 ha
    have := (hmem _ _).1 hb
    omega
  refine ⟨hnd, ?_, ?_⟩
  · intro h hh
    rw [h3] at hh
    obtain ⟨k, hk, hh⟩ := List.mem_flatMap.1 hh
    have := (hmem _ _).1 hh
    have := h4 k hk
    omega
  · intro hall h hh
    apply List.count_eq_one_of_mem hnd
    rw [h3, List.mem_flatMap]
    exact ⟨h / 8, hall _ (by omega), (hmem _ _).2 (by omega)⟩

/-- Violated: unlike the Spiner tables (C56), finalising an EOSPAC object a second time destroys its eight handles again. -/
theorem C128_finalize_twice_violated (ops : List Op) (i : Nat) (hi : i < (Own.run ops).objs.length) :
    ∃ h : Handles, (Own.run (ops ++ [.fin i, .fin i])).destroyed =
      (Own.run ops).destroyed ++ List.ofFn h ++ List.ofFn h := by
  have e : ops ++ [Op.fin i, .fin i] = (ops ++ [.fin i]) ++ [.fin i] := by simp
  refine ⟨(Own.run ops).objs[i], ?_⟩
  rw [e, run_snoc, run_snoc]
  simp [Own.step, List.getElem?_eq_getElem hi]

/-- Violated: `GetOnDevice` shares the handles, so finalising both the object and its device copy, as for any other EOS,
destroys each table twice. -/
theorem C128_device_copy_violated (ops : List Op) (i : Nat) (hi : i < (Own.run ops).objs.length) :
    ∃ h : Handles,
      (Own.run (ops ++ [.device i, .fin i, .fin (Own.run ops).objs.length])).destroyed =
      (Own.run ops).destroyed ++ List.ofFn h ++ List.ofFn h := by
  have e : ops ++ [Op.device i, .fin i, .fin (Own.run ops).objs.length] =
      ((ops ++ [.device i]) ++ [.fin i]) ++ [.fin (Own.run ops).objs.length] := by simp
  refine ⟨(Own.run ops).objs[i], ?_⟩
  rw [e, run_snoc, run_snoc, run_snoc]
  generalize Own.run ops = s at hi ⊢
  simp [Own.step, List.getElem?_eq_getElem hi, List.getElem?_append_left hi]

/-- A program: two objects, one of them read from a buffer, each finalised once. -/
example : (finalized [.make, .deser, .fin 1, .fin 0]) = [1, 0] ∧
    (Own.run [.make, .deser, .fin 1, .fin 0]).destroyed = [8, 9, 10, 11, 12, 13, 14, 15, 0, 1, 2, 3, 4, 5, 6, 7] := by
  refine ⟨by simp [finalized, Own.run, Own.step, List.range_succ], ?_⟩
  simp [Own.run, Own.step, newHandles, List.ofFn_succ]

/-! ## A library that keeps the contract -/

/-- A library: the next handle, and for each handle a table of its own, the address of a shared one, or none. -/
abbrev ExState := Nat × (Nat → Option (Nat ⊕ Nat))

/-- The table behind a handle. -/
def exTable (l : ExState) (m : Mem (Option Nat)) (k : Nat) : Option Nat :=
  if k < l.1 then
    match l.2 k with
    | none => none
    | some (.inl a) => some a
    | some (.inr p) => m p
  else none

/-- A "byte" holds a whole table; the image of eight tables is eight bytes. -/
def exLib : Lib (Option Nat) ExState Nat where
  table := exTable
  packedSize := fun _ _ _ => 8
  sharedBytes := fun _ _ _ => 8
  getPacked := fun l m h => List.ofFn fun i => exTable l m (h i)
  setPacked := fun l b => ((l.1 + 8, fun k => if k < l.1 then l.2 k else ((b[k - l.1]?).join).map Sum.inl), newHandles l.1)
  setShared := fun l m b d r =>
    ((l.1 + 8, fun k => if k < l.1 then l.2 k else some (.inr (d + (k - l.1)))),
      if r then store m d b else m, newHandles l.1)

theorem ex_join (f : Fin 8 → Option Nat) (i : Fin 8) : ((List.ofFn f)[(i : Nat)]?).join = f i := by
  rw [List.getElem?_ofFn, dif_pos i.2]
  rfl

theorem ex_store (m : Mem (Option Nat)) (d : Nat) (f : Fin 8 → Option Nat) (i : Fin 8) :
    store m d (List.ofFn f) (d + i) = f i := by
  unfold store
  rw [if_pos (Nat.le_add_right _ _), Nat.add_sub_cancel_left, List.getElem?_ofFn, dif_pos i.2]
  rfl

theorem exContract : Contract exLib (fun l k => k < l.1) where
  packed_len := by intros; simp [exLib]
  packed_pos := by intros; simp [exLib]
  set_new := by intro l b i; simp [exLib, newHandles]
  set_inj := by intro l b i j h; simp only [exLib, newHandles] at h; exact Fin.ext (by omega)
  set_issued := by
    intro l b k
    simp only [exLib, newHandles]
    constructor
    · intro h
      by_cases hk : k < l.1
      · exact Or.inl hk
      · exact Or.inr ⟨⟨k - l.1, by omega⟩, by simp only []; omega⟩
    · rintro (h | ⟨i, rfl⟩) <;> omega
  set_keeps := by
    intro l b k m h
    simp only [exLib, exTable]
    rw [if_pos (by omega), if_pos h, if_pos h]
  set_loads := by
    intro l m h _ l2 m2 i
    have e := ex_join (fun i => exTable l m (h i)) i
    simp only [exLib, newHandles] at *
    unfold exTable at e ⊢
    have hi := i.2
    rw [if_pos (show l2.1 + (i : Nat) < l2.1 + 8 by omega)]
    simp only [if_neg (show ¬ l2.1 + (i : Nat) < l2.1 by omega), Nat.add_sub_cancel_left]
    rw [e]
    split <;> rename_i q
    · simpa [eq_comm] using q
    · have := q
      simp only [Option.map_eq_some_iff, Sum.inl.injEq, exists_eq_right] at this
      exact this.symm
    · simp at q
  shared_new := by intro l m b d r i; simp [exLib, newHandles]
  shared_inj := by intro l m b d r i j h; simp only [exLib, newHandles] at h; exact Fin.ext (by omega)
  shared_issued := by
    intro l m b d r k
    simp only [exLib, newHandles]
    constructor
    · intro h
      by_cases hk : k < l.1
      · exact Or.inl hk
      · exact Or.inr ⟨⟨k - l.1, by omega⟩, by simp only []; omega⟩
    · rintro (h | ⟨i, rfl⟩) <;> omega
  shared_keeps := by
    intro l m b d r k m' h
    simp only [exLib, exTable]
    rw [if_pos (by omega), if_pos h, if_pos h]
  root_writes := by
    intro l m h _ l2 m2 d a ha
    simp only [exLib, if_true] at ha ⊢
    exact store_apart (by simpa using ha)
  root_loads := by
    intro l m h _ l2 m2 d m4 i hm
    have hi := i.2
    simp only [exLib, newHandles, if_true] at *
    show exTable _ _ _ = _
    have e := ex_store m2 d (fun i => exTable l m (h i)) i
    rw [← e, ← hm i hi]
    unfold exTable
    rw [if_pos (show l2.1 + (i : Nat) < l2.1 + 8 by omega)]
    simp [if_neg (show ¬ l2.1 + (i : Nat) < l2.1 by omega)]
  peer_writes := by intros; simp [exLib]
  peer_loads := by
    intro l m h _ l2 m2 d lr mr dr hb m4 i hm
    have hi := i.2
    simp only [exLib, newHandles, if_true] at *
    show exTable _ _ _ = _
    have e := ex_store mr dr (fun i => exTable l m (h i)) i
    rw [← e, ← hb i hi, ← hm i hi]
    unfold exTable
    rw [if_pos (show l2.1 + (i : Nat) < l2.1 + 8 by omega)]
    simp [if_neg (show ¬ l2.1 + (i : Nat) < l2.1 by omega)]

/-- A library with eight tables loaded, and an object that uses them: the hypotheses of the theorems hold for any buffer. -/
example (sb : Bool) (m : Mem (Option Nat)) (dst n : Nat) :
    let l : ExState := (8, fun k => some (.inl (k + 100)))
    let o := construct exLib sb l m "Cu" (newHandles 0)
    Valid exLib (fun l k => k < l.1) sb l m o ∧ TablesApart exLib l m o dst n ∧
    (observe exLib l m o).2 .EofRT = some 102 := by
  intro l o
  refine ⟨(C128_constructed exLib _ sb l m "Cu" (newHandles 0) ?_).1, ?_, ?_⟩
  · intro i
    have := i.2
    simp only [newHandles, l]; omega
  · intro m' _
    have ht : ∀ k, exTable l m' k = exTable l m k := by intro k; rfl
    exact ⟨fun i => ht _, by simp only [exLib, ht]⟩
  · rfl

end Verif.Espz
