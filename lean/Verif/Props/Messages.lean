import Verif.Model.Messages
import Mathlib.Tactic.Linarith

/-!
# C129: error messages name the EOS and fit their buffer

`Holds d l`: memory `d` starts with the string `l` (no null inside) and its terminator.
-/

namespace Verif.Msg

/-- Memory starts with the string `l`. -/
def Holds (d : Chars) (l : List Char) : Prop :=
  '\x00' ∉ l ∧ (∀ (i : Nat) (h : i < l.length), d i = l[i]) ∧ d l.length = '\x00'

theorem nul_eq : nul = '\x00' := rfl

theorem holds_find {d : Chars} {l : List Char} (h : Holds d l) (hd : ∃ i, d i = nul) : Nat.find hd = l.length := by
  rw [Nat.find_eq_iff]
  refine ⟨h.2.2, ?_⟩
  intro n hn hc
  rw [h.2.1 n hn, nul_eq] at hc
  exact h.1 (hc ▸ List.getElem_mem hn)

theorem copyLoop_spec (dbg : Bool) (d s : Chars) (i : Nat) : ∀ n, (dbg = true → i + n ≤ 120) →
    copyLoop dbg d s i n = some (fun k => if i ≤ k ∧ k < i + n then s (k - i) else d k) := by
  intro n
  induction n with
  | zero =>
    intro _
    simp only [copyLoop, Option.some.injEq]
    funext k
    rw [if_neg (by omega)]
  | succ j ih =>
    intro h
    have hh : ¬ (dbg = true ∧ ¬ i + j < maxNumChars - 1) := by
      rintro ⟨h1, h2⟩
      have := h h1
      simp only [maxNumChars] at h2
      omega
    simp only [copyLoop, ih (fun h1 => by have := h h1; omega), Option.bind_some, if_neg hh, Option.some.injEq]
    funext k
    by_cases hk : k = i + j
    · subst hk
      rw [Function.update_self, if_pos (by omega), Nat.add_sub_cancel_left]
    · rw [Function.update_of_ne hk]
      by_cases h2 : i ≤ k ∧ k < i + j
      · rw [if_pos h2, if_pos (by omega)]
      · rw [if_neg h2, if_neg (by omega)]

theorem strCat_spec (dbg : Bool) (d s : Chars) (a b : List Char) (ha : Holds d a) (hb : Holds s b)
    (hd : ∃ i, d i = nul) (hs : ∃ j, s j = nul) (hfit : dbg = true → a.length + b.length ≤ 120) :
    ∃ d', strCat dbg d s hd hs = some d' ∧ Holds d' (a ++ b) ∧
      ∀ k, k < a.length ∨ a.length + b.length < k → d' k = d k := by
  unfold strCat
  simp only [holds_find ha hd, holds_find hb hs, copyLoop_spec dbg d s a.length b.length hfit, Option.map_some]
  refine ⟨_, rfl, ⟨?_, ?_, ?_⟩, ?_⟩
  · rw [List.mem_append]
    rintro (h | h)
    · exact ha.1 h
    · exact hb.1 h
  · intro i hi
    rw [List.length_append] at hi
    rw [Function.update_of_ne (by omega)]
    by_cases h : i < a.length
    · rw [if_neg (by omega), List.getElem_append_left h, ha.2.1 i h]
    · rw [if_pos (by omega), List.getElem_append_right (by omega), hb.2.1 _ (by omega)]
  · rw [List.length_append, Function.update_self, nul_eq]
  · intro k hk
    rw [Function.update_of_ne (by omega), if_neg (by omega)]

/-- C129: when both strings and the terminator fit the buffer, concatenation appends the source, terminates the result, and
changes nothing else, in particular nothing outside the buffer. -/
theorem C129_concatenate (dbg : Bool) (d s : Chars) (a b : List Char) (ha : Holds d a) (hb : Holds s b)
    (hd : ∃ i, d i = nul) (hs : ∃ j, s j = nul) (hfit : a.length + b.length + 1 ≤ 121) :
    ∃ d', strCat dbg d s hd hs = some d' ∧ Holds d' (a ++ b) ∧
      (∀ k, k < a.length ∨ a.length + b.length < k → d' k = d k) ∧ ∀ k, 121 ≤ k → d' k = d k := by
  obtain ⟨d', h1, h2, h3⟩ := strCat_spec dbg d s a b ha hb hd hs (fun _ => by omega)
  exact ⟨d', h1, h2, h3, fun k hk => h3 k (by omega)⟩

theorem copyLoop_abort (d s : Chars) (i : Nat) : ∀ n, 0 < n → 120 < i + n → copyLoop true d s i n = none := by
  intro n
  induction n with
  | zero => intro h; omega
  | succ j ih =>
    intro _ h
    by_cases hj : 0 < j ∧ 120 < i + j
    · simp [copyLoop, ih hj.1 hj.2]
    · have hc : ¬ i + j < maxNumChars - 1 := by simp only [maxNumChars]; omega
      rcases hc' : copyLoop true d s i j with _ | d'
      · simp [copyLoop, hc']
      · simp only [copyLoop, hc', Option.bind_some]
        simp [hc]

/-- C129: a debug build stops exactly when the result would not fit. -/
theorem C129_debug_stops (d s : Chars) (a b : List Char) (ha : Holds d a) (hb : Holds s b)
    (hd : ∃ i, d i = nul) (hs : ∃ j, s j = nul) (hb0 : b ≠ []) :
    strCat true d s hd hs = none ↔ 121 < a.length + b.length + 1 := by
  constructor
  · intro h
    by_contra hc
    obtain ⟨d', h1, _⟩ := C129_concatenate true d s a b ha hb hd hs (by omega)
    rw [h1] at h
    cases h
  · intro h
    have : 0 < b.length := List.length_pos_of_ne_nil hb0
    unfold strCat
    simp only [holds_find ha hd, holds_find hb hs]
    rw [copyLoop_abort d s a.length b.length this (by omega)]
    rfl

theorem lit_holds (l : List Char) (rest : Chars) (h : nul ∉ l) : Holds (lit l rest) l := by
  refine ⟨h, ?_, by simp [lit, nul_eq]⟩
  intro i hi
  simp [lit, hi]

theorem initArray_holds (l : List Char) (beyond : Chars) (h : nul ∉ l) (hl : l.length < 121) :
    Holds (initArray l beyond) l := by
  refine ⟨h, ?_, ?_⟩
  · intro i hi
    have : i < maxNumChars := by simp only [maxNumChars]; omega
    simp [initArray, hi, this]
  · simp [initArray, maxNumChars, hl, nul_eq]

theorem message_spec (dbg : Bool) (text name : List Char) (ht : nul ∉ text) (htl : text.length < 121) (hn : nul ∉ name)
    (beyond r1 r2 : Chars) (hfit : dbg = true → text.length + name.length + 5 ≤ 120) :
    ∃ d, message dbg text name beyond r1 r2 = some d ∧ Holds d (text ++ name ++ tailText) ∧
      ∀ k, text.length + name.length + 5 < k → d k = initArray text beyond k := by
  have htail : tailText.length = 5 := by decide
  have htailn : nul ∉ tailText := by decide
  have h0 := initArray_holds text beyond ht htl
  have hd0 : ∃ i, initArray text beyond i = nul := ⟨_, h0.2.2⟩
  obtain ⟨d1, e1, h1, k1⟩ := strCat_spec dbg (initArray text beyond) (lit name r1) text name h0 (lit_holds _ _ hn) hd0
    (lit_nul _ _) (fun h => by have := hfit h; omega)
  have hd1 : ∃ i, d1 i = nul := ⟨_, h1.2.2⟩
  obtain ⟨d2, e2, h2, k2⟩ := strCat_spec dbg d1 (lit tailText r2) (text ++ name) tailText h1 (lit_holds _ _ htailn) hd1
    (lit_nul _ _) (fun h => by have := hfit h; rw [List.length_append, htail]; omega)
  refine ⟨d2, ?_, h2, ?_⟩
  · unfold message strCatLit
    rw [dif_pos hd0, e1, Option.bind_some, dif_pos hd1, e2]
  · intro k hk
    rw [k2 k (Or.inr (by rw [List.length_append, htail]; omega)), k1 k (Or.inr (by omega))]

/-- C129: the message of a missing entropy is the text, the name and the closing text, inside the buffer, for every name of at
most 66 characters; that of a missing minimum energy for every name of at most 43. -/
theorem C129_message (dbg : Bool) (name : List Char) (hn : '\x00' ∉ name) (beyond r1 r2 : Chars) :
    (name.length ≤ 66 → ∃ d, message dbg entropyText name beyond r1 r2 = some d ∧
      Holds d ("Singularity-EOS: Entropy is not enabled for the '".toList ++ name ++ "' EOS".toList) ∧
      ∀ k, 121 ≤ k → d k = beyond k) ∧
    (name.length ≤ 43 → ∃ d, message dbg minEnergyText name beyond r1 r2 = some d ∧
      Holds d ("Singularity-EOS: MinInternalEnergyFromDensity() is not enabled for the '".toList ++ name ++ "' EOS".toList) ∧
      ∀ k, 121 ≤ k → d k = beyond k) := by
  have l1 : entropyText.length = 49 := by decide
  have l2 : minEnergyText.length = 72 := by decide
  have n1 : nul ∉ entropyText := by decide
  have n2 : nul ∉ minEnergyText := by decide
  have hb : ∀ (t : List Char) k, 121 ≤ k → initArray t beyond k = beyond k := by
    intro t k hk
    unfold initArray
    rw [if_neg (by simp only [maxNumChars]; omega)]
  refine ⟨fun h => ?_, fun h => ?_⟩
  · obtain ⟨d, a, b, c⟩ := message_spec dbg entropyText name n1 (by omega) hn beyond r1 r2 (fun _ => by omega)
    exact ⟨d, a, b, fun k hk => by rw [c k (by omega), hb _ k hk]⟩
  · obtain ⟨d, a, b, c⟩ := message_spec dbg minEnergyText name n2 (by omega) hn beyond r1 r2 (fun _ => by omega)
    exact ⟨d, a, b, fun k hk => by rw [c k (by omega), hb _ k hk]⟩

/-- C129: every name the library passes is short enough. -/
theorem C129_library_names :
    (∀ n ∈ entropyNames, '\x00' ∉ n ∧ n.length ≤ 66) ∧ (∀ n ∈ minEnergyNames, '\x00' ∉ n ∧ n.length ≤ 43) := by
  decide

/-- C129, violated: the code says names of 44 characters are allowed.  With any such name the message of a missing minimum
energy does not fit: a debug build stops with the wrong message, any other writes a null to the byte after the buffer. -/
theorem C129_name_of_44_violated (name : List Char) (hn : '\x00' ∉ name) (hl : name.length = 44) (beyond r1 r2 : Chars)
    (hbyte : beyond 121 ≠ '\x00') :
    message true minEnergyText name beyond r1 r2 = none ∧
    ∃ d, message false minEnergyText name beyond r1 r2 = some d ∧ d 121 ≠ beyond 121 := by
  have l2 : minEnergyText.length = 72 := by decide
  have n2 : nul ∉ minEnergyText := by decide
  have htail : tailText.length = 5 := by decide
  have htailn : nul ∉ tailText := by decide
  constructor
  · have h0 := initArray_holds minEnergyText beyond n2 (by omega)
    have hd0 : ∃ i, initArray minEnergyText beyond i = nul := ⟨_, h0.2.2⟩
    obtain ⟨d1, e1, h1, k1⟩ := strCat_spec true (initArray minEnergyText beyond) (lit name r1) minEnergyText name h0
      (lit_holds _ _ hn) hd0 (lit_nul _ _) (fun h => by omega)
    have hd1 : ∃ i, d1 i = nul := ⟨_, h1.2.2⟩
    unfold message strCatLit
    rw [dif_pos hd0, e1, Option.bind_some, dif_pos hd1]
    refine (C129_debug_stops d1 _ _ tailText h1 (lit_holds _ _ htailn) hd1 _ (by decide)).2 ?_
    rw [List.length_append]
    omega
  · obtain ⟨d, a, b, _⟩ := message_spec false minEnergyText name n2 (by omega) hn beyond r1 r2 (fun h => by cases h)
    refine ⟨d, a, ?_⟩
    have := b.2.2
    rw [List.length_append, List.length_append, htail, l2, hl] at this
    rw [this]
    exact hbyte.symm

/-- The message for `JWL`. -/
example (beyond r1 r2 : Chars) : ∃ d, message true entropyText "JWL".toList beyond r1 r2 = some d ∧ d 49 = 'J' := by
  obtain ⟨d, h1, h2, _⟩ := (C129_message true "JWL".toList (by decide) beyond r1 r2).1 (by decide)
  exact ⟨d, h1, h2.2.1 49 (by decide)⟩

end Verif.Msg
