import Verif.Model.Tools.Sesame2Spiner
import Verif.Spec.Sesame2Spiner
import Mathlib.Data.List.Forall2
import Mathlib.Tactic.Linarith

/-!
# C116–C118: the decks, the command line and the names of `sesame2spiner`
-/

set_option linter.unusedSectionVars false

namespace Verif.S2S
open Verif.Spec.S2S

/-! ## Decks -/

theorem getlines_line (acc l rest : Str) (h : '\n' ∉ l) :
    getlines acc (l ++ '\n' :: rest) = (acc.reverse ++ l) :: getlines [] rest := by
  induction l generalizing acc with
  | nil => simp [getlines]
  | cons c cs ih =>
    have hc : c ≠ '\n' := fun e => h (by simp [e])
    have hcs : '\n' ∉ cs := fun e => h (by simp [e])
    simp [getlines, hc, ih _ hcs]

theorem getlines_last (acc l : Str) (h : '\n' ∉ l) (hne : acc ≠ [] ∨ l ≠ []) :
    getlines acc l = [acc.reverse ++ l] := by
  induction l generalizing acc with
  | nil =>
    rcases hne with h | h
    · simp [getlines, h]
    · exact absurd rfl h
  | cons c cs ih =>
    have hc : c ≠ '\n' := fun e => h (by simp [e])
    have hcs : '\n' ∉ cs := fun e => h (by simp [e])
    simp [getlines, hc, ih (c :: acc) hcs (Or.inl (by simp))]

theorem getlines_ofLines (lines : List Str) (rest : Str) (h : ∀ l ∈ lines, '\n' ∉ l) :
    getlines [] (ofLines lines ++ rest) = lines ++ getlines [] rest := by
  induction lines with
  | nil => simp [ofLines]
  | cons l ls ih =>
    have := ih (fun x hx => h x (by simp [hx]))
    rw [ofLines] at this ⊢
    simp only [List.flatMap_cons, List.append_assoc, List.cons_append, List.nil_append]
    rw [getlines_line _ _ _ (h l (by simp)), this]; simp

/-- The lines read from a file are its lines. -/
theorem C116_lines (lines : List Str) (t : Str) (h : FileOf lines t) : getlines [] t = lines := by
  obtain ⟨hl, rfl | ⟨ini, last, rfl, hne, rfl⟩⟩ := h
  · have := getlines_ofLines lines [] hl
    simpa [getlines] using this
  · rw [getlines_ofLines ini last (fun l h => hl l (by simp [h])), getlines_last [] last (hl last (by simp)) (Or.inr hne)]
    rfl

theorem strip_eq (l : Str) : strip l = unspaced l := by simp [strip, unspaced, isSpace]

theorem takeWhile_stop {α : Type*} (p : α → Bool) (a : List α) (b : α) (c : List α) (ha : ∀ x ∈ a, p x) (hb : p b = false) :
    (a ++ b :: c).takeWhile p = a := by
  induction a with
  | nil => simp [hb]
  | cons x xs ih =>
    simp [ha x (by simp), ih (fun y hy => ha y (by simp [hy]))]

theorem takeWhile_all {α : Type*} (p : α → Bool) (a : List α) (ha : ∀ x ∈ a, p x) : a.takeWhile p = a := by
  induction a with
  | nil => rfl
  | cons x xs ih => simp [ha x (by simp), ih (fun y hy => ha y (by simp [hy]))]

theorem dropWhile_stop {α : Type*} (p : α → Bool) (a : List α) (b : α) (c : List α) (ha : ∀ x ∈ a, p x) (hb : p b = false) :
    (a ++ b :: c).dropWhile p = b :: c := by
  induction a with
  | nil => simp [hb]
  | cons x xs ih =>
    simp [ha x (by simp), ih (fun y hy => ha y (by simp [hy]))]

theorem keyValue_spec (k v c : Str) (hk : '=' ∉ k) (hv : '#' ∉ v) (hc : c = [] ∨ c.head? = some '#') :
    keyValue (k ++ '=' :: (v ++ c)) = (k, v) := by
  have h1 : ∀ x ∈ k, (decide (x ≠ '=')) = true := by
    intro x hx; simp; rintro rfl; exact hk hx
  have h2 : ∀ x ∈ v, (decide (x ≠ '#')) = true := by
    intro x hx; simp; rintro rfl; exact hv hx
  unfold keyValue
  rw [takeWhile_stop _ _ _ _ h1 (by simp), dropWhile_stop _ _ _ _ h1 (by simp)]
  have hm : '=' ∈ k ++ '=' :: (v ++ c) := by simp
  simp only [hm, if_true, List.tail_cons]
  rcases hc with rfl | hc
  · simp only [List.append_nil]
    rw [takeWhile_all _ _ h2]
  · obtain ⟨r, rfl⟩ : ∃ r, c = '#' :: r := by
      cases c with
      | nil => simp at hc
      | cons a r => simp at hc; exact ⟨r, by rw [hc]⟩
    rw [takeWhile_stop _ _ _ _ h2 (by simp)]

theorem fileLine_spec (s : Params × Mats) (l : Str) (it : Item) (h : LineIs l it) :
    fileLine s l = match it with
      | .skip => .ok s
      | .assign k v => .ok (s.1.set k v, s.2)
      | .header n => (flush s.1 s.2).map fun m => ([(kName, n)], m) := by
  unfold fileLine
  rw [strip_eq]
  cases h with
  | blank h => simp [h, skipped]
  | comment r h => simp [h, skipped]
  | assign k v c h h1 h2 h3 h4 h5 =>
    dsimp only
    rw [h, keyValue_spec k v c h1 h4 h5]
    have hs : skipped (k ++ '=' :: (v ++ c)) = false := by
      cases k with
      | nil => simp [skipped]
      | cons a r =>
        have : a ≠ '#' := fun e => h2 (by simp [e])
        simp [skipped, this]
    have hh : ((k ++ '=' :: (v ++ c)).head? == some '<') = false := by
      cases k with
      | nil => simp
      | cons a r => simpa using h3
    simp only [hs, hh, Bool.false_eq_true, if_false]
  | header n r h h1 =>
    dsimp only
    rw [h]
    have h2 : ∀ x ∈ ('<' :: n : Str), (decide (x ≠ '>')) = true := by
      intro x hx
      rcases List.mem_cons.1 hx with rfl | hx
      · decide
      · simp; rintro rfl; exact h1 hx
    have := takeWhile_stop (fun x => decide (x ≠ '>')) ('<' :: n) '>' r h2 (by simp)
    rw [List.cons_append] at this
    rw [this]
    simp [skipped]

/-- The stored parameters are those of the material. -/
def Rep (p : Params) (m : Material) : Prop := (∀ k, p.get? k = valueOf m k) ∧ (p = [] ↔ m = [])

theorem get?_set (p : Params) (k v k' : Str) : (p.set k v).get? k' = if k = k' then some v else p.get? k' := by
  induction p with
  | nil => by_cases h : k = k' <;> simp [Params.set, Params.get?, h]
  | cons x t ih =>
    obtain ⟨a, b⟩ := x
    unfold Params.get? at ih ⊢
    by_cases h : a = k
    · subst h
      by_cases h2 : a = k' <;> simp [Params.set, h2]
    · simp only [Params.set, h, if_false]
      by_cases h2 : a = k'
      · subst h2
        have : k ≠ a := fun e => h e.symm
        simp [this]
      · simp [h2, ih]

theorem set_ne_nil (p : Params) (k v : Str) : p.set k v ≠ [] := by
  cases p with
  | nil => simp [Params.set]
  | cons x t => obtain ⟨a, b⟩ := x; by_cases h : a = k <;> simp [Params.set, h]

theorem valueOf_append (m : Material) (k v k' : Str) :
    valueOf (m ++ [(k, v)]) k' = if k = k' then some v else valueOf m k' := by
  by_cases h : k = k' <;> simp [valueOf, h]

theorem Rep.set {p : Params} {m : Material} (h : Rep p m) (k v : Str) : Rep (p.set k v) (m ++ [(k, v)]) := by
  refine ⟨fun k' => ?_, ?_⟩
  · rw [get?_set, valueOf_append, h.1]
  · simp [set_ne_nil]

theorem Rep.nil : Rep [] [] := ⟨fun k => rfl, by simp⟩

theorem Rep.name (n : Str) : Rep [(kName, n)] [(kName, n)] := by
  refine ⟨fun k => ?_, by simp⟩
  simp [Params.get?, valueOf]

/-- A number in decimal is read back. -/
theorem stoi_decimal (n : Nat) (h : n ≤ 2147483647) : stoi (decimal n) = some (n : Int) := by
  have hd : ∀ c ∈ Nat.toDigits 10 n, c.isDigit = true := fun c hc => Nat.isDigit_of_mem_toDigits (by decide) (by decide) hc
  have hne : Nat.toDigits 10 n ≠ [] := Nat.toDigits_ne_nil
  have hnd : Nat.toDigits 10 n ≠ [] ∧ ∃ a r, Nat.toDigits 10 n = a :: r := by
    refine ⟨hne, ?_⟩
    cases h : Nat.toDigits 10 n with
    | nil => exact absurd h hne
    | cons a r => exact ⟨a, r, rfl⟩
  obtain ⟨_, a, r, har⟩ := hnd
  have hv : digitsVal (Nat.toDigits 10 n) = n := Nat.ofDigitChars_ten_toDigits
  have ha : a.isDigit = true := hd a (by simp [har])
  have hsp : isSpace a = false := by
    by_contra hs
    have hs : isSpace a = true := by simpa using hs
    simp [isSpace] at hs
    rcases hs with rfl | rfl | rfl | rfl | rfl | rfl <;> revert ha <;> decide
  have hm : a ≠ '-' := by rintro rfl; revert ha; decide
  have hp : a ≠ '+' := by rintro rfl; revert ha; decide
  have htw : (Nat.toDigits 10 n).takeWhile Char.isDigit = Nat.toDigits 10 n := takeWhile_all _ _ hd
  have hdw : (Nat.toDigits 10 n).dropWhile isSpace = Nat.toDigits 10 n := by rw [har]; simp [hsp]
  have hmatch : signOf (Nat.toDigits 10 n) = (false, Nat.toDigits 10 n) := by
    rw [har]
    unfold signOf
    split
    · rename_i h; injection h with h1; exact absurd h1 hm
    · rename_i h; injection h with h1; exact absurd h1 hp
    · rfl
  unfold stoi decimal
  rw [hdw]
  simp only [hmatch, htw, hv]
  have : ¬ ((n : Int) < -2147483648) := by omega
  have h2 : ¬ (2147483647 < (n : Int)) := by omega
  simp [hne, this, h2]

/-- So is a number with a minus sign. -/
theorem stoi_negative (n : Nat) (h : n ≤ 2147483648) : stoi ('-' :: decimal n) = some (-(n : Int)) := by
  have hd : ∀ c ∈ Nat.toDigits 10 n, c.isDigit = true := fun c hc => Nat.isDigit_of_mem_toDigits (by decide) (by decide) hc
  have hne : Nat.toDigits 10 n ≠ [] := Nat.toDigits_ne_nil
  have hv : digitsVal (Nat.toDigits 10 n) = n := Nat.ofDigitChars_ten_toDigits
  have htw : (Nat.toDigits 10 n).takeWhile Char.isDigit = Nat.toDigits 10 n := takeWhile_all _ _ hd
  have hdw : ('-' :: Nat.toDigits 10 n).dropWhile isSpace = '-' :: Nat.toDigits 10 n := by
    rw [List.dropWhile_cons_of_neg (by decide)]
  unfold stoi decimal
  rw [hdw]
  simp only [signOf, htw, hv]
  have h2 : ¬ (2147483648 < (n : Int)) := by omega
  have h3 : ¬ (2147483647 < -(n : Int)) := by omega
  simp [hne, h2, h3]

theorem stoi_writes {v : Str} {i : Int} (h : Writes v i) : stoi v = some i := by
  obtain ⟨h1, h2, n, ⟨rfl, rfl⟩ | ⟨rfl, rfl⟩⟩ := h
  · exact stoi_decimal n (by omega)
  · exact stoi_negative n (by omega)

/-- Without a digit there is no number. -/
theorem stoi_none {v : Str} (h : ∀ c ∈ v, c.isDigit = false) : stoi v = none := by
  have h1 : ∀ c ∈ (signOf (v.dropWhile isSpace)).2, c.isDigit = false := by
    intro c hc
    refine h c ((List.dropWhile_suffix isSpace).subset ?_)
    revert hc
    generalize v.dropWhile isSpace = u
    unfold signOf
    split <;> intro hc <;> first | exact List.mem_cons_of_mem _ hc | exact hc
  have h2 : (signOf (v.dropWhile isSpace)).2.takeWhile Char.isDigit = [] := by
    revert h1
    cases (signOf (v.dropWhile isSpace)).2 with
    | nil => intro _; rfl
    | cons a r => intro h1; rw [List.takeWhile_cons_of_neg (by rw [h1 a (by simp)]; simp)]
  simp [stoi, h2]

theorem kMatid_eq : "matid".toList = kMatid := rfl
theorem kName_eq : "name".toList = kName := rfl

theorem flush_ok (p : Params) (m : Material) (h : Rep p m) (M : Mats) (hm : m ≠ [] → HasId m) :
    ∃ ps is, flush p M = .ok ⟨M.params ++ ps, M.ids ++ is⟩ ∧
      List.Forall₂ Rep ps (if m = [] then [] else [m]) ∧ List.Forall₂ IsId is (if m = [] then [] else [m]) := by
  by_cases hp : p = []
  · have : m = [] := h.2.1 hp
    subst hp this
    exact ⟨[], [], by simp [flush], by simp, by simp⟩
  · have hm' : m ≠ [] := fun e => hp (h.2.2 e)
    obtain ⟨v, i, hn, hv⟩ := hm hm'
    refine ⟨[p], [i], ?_, by simp [hm', h], ?_⟩
    · have : p.get? kMatid = some v := by rw [h.1]; exact hv
      simp [flush, hp, addParam, this, stoi_writes hn]
    · simp only [hm', if_false, List.forall₂_cons, List.forall₂_nil_right_iff, and_true]
      exact ⟨v, hn, hv⟩

theorem run_ok (lines : List Str) (items : List Item) (h : List.Forall₂ LineIs lines items) :
    ∀ (p : Params) (pre : Material) (M : Mats), Rep p pre →
      (∀ m ∈ (if pre ++ (sections items).1 = [] then [] else [pre ++ (sections items).1]) ++ (sections items).2, HasId m) →
      ∃ ps is, ((lines.foldlM fileLine (p, M)).bind fun s => flush s.1 s.2) = .ok ⟨M.params ++ ps, M.ids ++ is⟩ ∧
        List.Forall₂ Rep ps ((if pre ++ (sections items).1 = [] then [] else [pre ++ (sections items).1]) ++ (sections items).2) ∧
        List.Forall₂ IsId is ((if pre ++ (sections items).1 = [] then [] else [pre ++ (sections items).1]) ++ (sections items).2) := by
  induction h with
  | nil =>
    intro p pre M hr hm
    simp only [sections, List.append_nil] at hm ⊢
    exact flush_ok p pre hr M (fun hne => hm pre (by simp [hne]))
  | @cons l it ls its hl _ ih =>
    intro p pre M hr hm
    rw [List.foldlM_cons, fileLine_spec _ l it hl]
    cases it with
    | skip => exact ih p pre M hr hm
    | assign k v =>
      have := ih (p.set k v) (pre ++ [(k, v)]) M (hr.set k v)
      simp only [sections, List.append_assoc, List.cons_append, List.nil_append] at this hm ⊢
      exact this hm
    | header n =>
      simp only [sections, List.append_nil] at hm ⊢
      obtain ⟨ps, is, h1, h2, h3⟩ := flush_ok p pre hr M (fun hne => hm pre (by simp [hne]))
      have := ih [(kName, n)] [(kName, n)] ⟨M.params ++ ps, M.ids ++ is⟩ (Rep.name n)
      obtain ⟨ps', is', h4, h5, h6⟩ := this (by
        intro m hmm
        simp only [List.cons_append, List.nil_append, List.cons_ne_nil, if_false] at hmm
        exact hm m (by rw [kName_eq]; simp only [List.mem_append]; right; simpa using hmm))
      refine ⟨ps ++ ps', is ++ is', ?_, ?_, ?_⟩
      · simp only [h1, Except.map]
        rw [show (Except.ok ([(kName, n)], (⟨M.params ++ ps, M.ids ++ is⟩ : Mats)) >>= fun s' => List.foldlM fileLine s' ls)
          = List.foldlM fileLine ([(kName, n)], (⟨M.params ++ ps, M.ids ++ is⟩ : Mats)) ls from rfl]
        rw [h4]; simp [List.append_assoc]
      · rw [kName_eq]
        refine List.rel_append h2 ?_
        simpa using h5
      · rw [kName_eq]
        refine List.rel_append h3 ?_
        simpa using h6

/-- The parameters and the numbers the tool keeps are those of these materials, in this order. -/
def Holds (r : Mats) (ms : List Material) : Prop :=
  List.Forall₂ (fun p m => ∀ k, Params.get? p k = valueOf m k) r.params ms ∧ List.Forall₂ IsId r.ids ms

theorem run_files (files : List (Str × List Str × List Item)) (M : Mats)
    (h : ∀ f ∈ files, FileOf f.2.1 f.1 ∧ List.Forall₂ LineIs f.2.1 f.2.2 ∧ ∀ m ∈ materials f.2.2, HasId m) :
    ∃ ps is, (files.map (·.1)).foldlM parseFile M = .ok ⟨M.params ++ ps, M.ids ++ is⟩ ∧
      List.Forall₂ Rep ps (files.flatMap fun f => materials f.2.2) ∧
      List.Forall₂ IsId is (files.flatMap fun f => materials f.2.2) := by
  induction files generalizing M with
  | nil => exact ⟨[], [], by simp [pure, Except.pure], by simp, by simp⟩
  | cons f fs ih =>
    obtain ⟨h1, h2, h3⟩ := h f (by simp)
    obtain ⟨ps, is, h4, h5, h6⟩ := run_ok f.2.1 f.2.2 h2 [] [] M Rep.nil (by simpa [materials] using h3)
    obtain ⟨ps', is', h7, h8, h9⟩ := ih ⟨M.params ++ ps, M.ids ++ is⟩ (fun g hg => h g (by simp [hg]))
    refine ⟨ps ++ ps', is ++ is', ?_, ?_, ?_⟩
    · have : parseFile M f.1 = .ok ⟨M.params ++ ps, M.ids ++ is⟩ := by
        unfold parseFile; rw [C116_lines _ _ h1]; exact h4
      simp only [List.map_cons, List.foldlM_cons, this]
      show List.foldlM parseFile ⟨M.params ++ ps, M.ids ++ is⟩ _ = _
      rw [h7]; simp [List.append_assoc]
    · rw [List.flatMap_cons]; exact List.rel_append (by simpa [materials] using h5) h8
    · rw [List.flatMap_cons]; exact List.rel_append (by simpa [materials] using h6) h9

/-- **C116.** Well-formed decks whose materials all have a number are read as they are meant: all materials of all the files,
in order, each with the last value assigned to every key and no other keys, and the number written after `matid`. -/
theorem C116_decks (files : List (Str × List Str × List Item))
    (h : ∀ f ∈ files, FileOf f.2.1 f.1 ∧ List.Forall₂ LineIs f.2.1 f.2.2 ∧ ∀ m ∈ materials f.2.2, HasId m) :
    ∃ r, addMaterials (files.map (·.1)) = .ok r ∧ Holds r (files.flatMap fun f => materials f.2.2) := by
  obtain ⟨ps, is, h1, h2, h3⟩ := run_files files ⟨[], []⟩ h
  exact ⟨⟨ps, is⟩, by simpa [addMaterials] using h1, h2.imp (fun _ _ h => h.1), h3⟩

/-- Two decks: the second material gets its number from the second `matid` line; a comment line, a blank line and a
trailing comment are there. -/
example : ∃ files : List (Str × List Str × List Item),
    (∀ f ∈ files, FileOf f.2.1 f.1 ∧ List.Forall₂ LineIs f.2.1 f.2.2 ∧ ∀ m ∈ materials f.2.2, HasId m) ∧
      (files.flatMap fun f => materials f.2.2).length = 2 ∧
      files.map (·.1) = ["# deck\n\n matid = 3 # air\n".toList, "<cu> x\nmatid=1\nmatid = 22".toList] := by
  refine ⟨[("# deck\n\n matid = 3 # air\n".toList, ["# deck".toList, [], " matid = 3 # air".toList],
      [.skip, .skip, .assign "matid".toList ['3']]),
    ("<cu> x\nmatid=1\nmatid = 22".toList, ["<cu> x".toList, "matid=1".toList, "matid = 22".toList],
      [.header "cu".toList, .assign "matid".toList ['1'], .assign "matid".toList ['2', '2']])], ?_, rfl, rfl⟩
  intro f hf
  simp only [List.mem_cons, List.not_mem_nil, or_false] at hf
  rcases hf with rfl | rfl
  · refine ⟨⟨by decide, Or.inl rfl⟩, ?_, ?_⟩
    · exact .cons (.comment _ "deck".toList rfl) (.cons (.blank _ rfl)
        (.cons (.assign _ "matid".toList ['3'] "#air".toList rfl (by decide) (by decide) (by decide) (by decide)
          (Or.inr rfl)) .nil))
    · intro m hm
      have : m = [("matid".toList, ['3'])] := by simpa [materials, sections] using hm
      subst this; exact ⟨_, 3, ⟨by decide, by decide, 3, Or.inl ⟨rfl, rfl⟩⟩, rfl⟩
  · refine ⟨⟨by decide, Or.inr ⟨["<cu> x".toList, "matid=1".toList], "matid = 22".toList, rfl, by decide, rfl⟩⟩, ?_, ?_⟩
    · exact .cons (.header _ "cu".toList ['x'] rfl (by decide))
        (.cons (.assign _ "matid".toList ['1'] [] rfl (by decide) (by decide) (by decide) (by decide) (Or.inl rfl))
        (.cons (.assign _ "matid".toList ['2', '2'] [] rfl (by decide) (by decide) (by decide) (by decide) (Or.inl rfl))
          .nil))
    · intro m hm
      have : m = [("name".toList, "cu".toList), ("matid".toList, ['1']), ("matid".toList, ['2', '2'])] := by
        simpa [materials, sections] using hm
      subst this; exact ⟨_, 22, ⟨by decide, by decide, 22, Or.inl ⟨rfl, rfl⟩⟩, rfl⟩

theorem foldlM_err {α β ε : Type*} (f : β → α → Except ε β) (x : α) (hx : ∀ b, ∃ e, f b x = .error e) (xs : List α)
    (h : x ∈ xs) (b : β) : ∃ e, xs.foldlM f b = .error e := by
  induction xs generalizing b with
  | nil => simp at h
  | cons y ys ih =>
    rw [List.foldlM_cons]
    rcases List.mem_cons.1 h with rfl | h
    · obtain ⟨e, he⟩ := hx b
      exact ⟨e, by rw [he]; rfl⟩
    · cases hy : f b y with
      | error e => exact ⟨e, rfl⟩
      | ok b' => exact ih h b'

theorem flush_err (p : Params) (m : Material) (h : Rep p m) (M : Mats) (hne : m ≠ [])
    (hm : NoId m) : ∃ e, flush p M = .error e := by
  have hp : p ≠ [] := fun e => hne (h.2.1 e)
  have he : p.get? kMatid = valueOf m "matid".toList := by rw [h.1]; rfl
  cases hv : valueOf m "matid".toList with
  | none => exact ⟨.noMatid, by rw [hv] at he; simp [flush, hp, addParam, he]⟩
  | some v => exact ⟨.notANumber, by rw [hv] at he; simp [flush, hp, addParam, he, stoi_none (hm v hv)]⟩

theorem run_err (lines : List Str) (items : List Item) (h : List.Forall₂ LineIs lines items) :
    ∀ (p : Params) (pre : Material) (M : Mats), Rep p pre →
      (∃ m ∈ (if pre ++ (sections items).1 = [] then [] else [pre ++ (sections items).1]) ++ (sections items).2,
        NoId m) →
      ∃ e, ((lines.foldlM fileLine (p, M)).bind fun s => flush s.1 s.2) = .error e := by
  induction h with
  | nil =>
    rintro p pre M hr ⟨m, hm, hv⟩
    simp only [sections, List.append_nil] at hm
    by_cases hp : pre = []
    · simp [hp] at hm
    · simp only [hp, if_false, List.mem_singleton] at hm
      subst hm
      exact flush_err p m hr M hp hv
  | @cons l it ls its hl _ ih =>
    rintro p pre M hr ⟨m, hm, hv⟩
    rw [List.foldlM_cons, fileLine_spec _ l it hl]
    cases it with
    | skip => exact ih p pre M hr ⟨m, hm, hv⟩
    | assign k v =>
      have := ih (p.set k v) (pre ++ [(k, v)]) M (hr.set k v)
      simp only [sections, List.append_assoc, List.cons_append, List.nil_append] at this hm ⊢
      exact this ⟨m, hm, hv⟩
    | header n =>
      simp only [sections, List.append_nil, List.mem_append] at hm
      cases hfl : flush p M with
      | error e => exact ⟨e, by simp [hfl, Except.map, bind, Except.bind]⟩
      | ok M' =>
        simp only [hfl, Except.map]
        rcases hm with hm | hm
        · by_cases hp : pre = []
          · simp [hp] at hm
          · simp only [hp, if_false, List.mem_singleton] at hm
            subst hm
            obtain ⟨e, he⟩ := flush_err p m hr M hp hv
            rw [he] at hfl; cases hfl
        · refine ih [(kName, n)] [(kName, n)] M' (Rep.name n) ⟨m, ?_, hv⟩
          rw [kName_eq] at hm
          simpa using hm

/-- **C116.** A deck with a material without number (no `matid`, or one without a digit) is rejected, whatever the other files hold. -/
theorem C116_matid_required (files : List Str) (t : Str) (ht : t ∈ files) (lines : List Str) (items : List Item)
    (h : FileOf lines t) (hl : List.Forall₂ LineIs lines items)
    (hm : ∃ m ∈ materials items, NoId m) : ∃ e, addMaterials files = .error e := by
  refine foldlM_err parseFile t (fun M => ?_) files ht _
  obtain ⟨e, he⟩ := run_err lines items hl [] [] M Rep.nil (by simpa [materials] using hm)
  exact ⟨e, by unfold parseFile; rw [C116_lines _ _ h]; exact he⟩

example : ∃ e, addMaterials ["matid=2".toList, "<a>\nrhomin=1\n".toList] = .error e :=
  C116_matid_required _ "<a>\nrhomin=1\n".toList (by simp) ["<a>".toList, "rhomin=1".toList]
    [.header ['a'], .assign "rhomin".toList ['1']] ⟨by decide, Or.inl rfl⟩
    (.cons (.header _ ['a'] [] rfl (by decide))
      (.cons (.assign _ "rhomin".toList ['1'] [] rfl (by decide) (by decide) (by decide) (by decide) (Or.inl rfl)) .nil))
    ⟨[("name".toList, ['a']), ("rhomin".toList, ['1'])], by simp [materials, sections], fun v hv => by cases hv⟩

example : NoId [("matid".toList, "copper".toList)] := fun v hv => by
  obtain rfl : "copper".toList = v := Option.some.inj hv
  decide

/-- **C116.** A header without its `>` is rejected, whatever else the deck and the other files hold. -/
theorem C116_header_closed (files : List Str) (t : Str) (ht : t ∈ files) (lines : List Str) (h : FileOf lines t)
    (l r : Str) (hl : l ∈ lines) (hr : unspaced l = '<' :: r) (hn : '>' ∉ r) : ∃ e, addMaterials files = .error e := by
  refine foldlM_err parseFile t (fun M => ?_) files ht _
  unfold parseFile
  rw [C116_lines _ _ h]
  obtain ⟨e, he⟩ := foldlM_err fileLine l (fun s => ⟨.noCloser, by
    unfold fileLine; rw [strip_eq, hr]; simp [skipped, hn]⟩) lines hl ([], M)
  exact ⟨e, by rw [he]; rfl⟩

example : ∃ e, addMaterials ["matid=2\n <a \n".toList] = .error e :=
  C116_header_closed _ "matid=2\n <a \n".toList (by simp) ["matid=2".toList, " <a ".toList] ⟨by decide, Or.inl rfl⟩
    " <a ".toList ['a'] (by simp) rfl (by decide)

/-- **C116 is violated** for lines that are not well formed: a line without `=` (and which is no comment and no header) is not
rejected; it adds a parameter named like the whole line, and the parameter the user meant keeps its default. -/
theorem C116_no_equals_violated (s : Params × Mats) (l u : Str) (hu : unspaced l = u) (hne : u ≠ []) (h1 : '=' ∉ u)
    (h2 : '#' ∉ u) (h3 : u.head? ≠ some '<') : fileLine s l = .ok (s.1.set u u, s.2) := by
  have hk : keyValue u = (u, u) := by
    unfold keyValue
    simp only [h1, if_false]
    rw [takeWhile_all _ _ (by intro x hx; simp; rintro rfl; exact h1 hx),
      takeWhile_all _ _ (by intro x hx; simp; rintro rfl; exact h2 hx)]
  have hs : skipped u = false := by
    cases u with
    | nil => exact absurd rfl hne
    | cons a r =>
      have : a ≠ '#' := fun e => h2 (by simp [e])
      simp [skipped, this]
  have hh : (u.head? == some '<') = false := by simpa using h3
  unfold fileLine
  dsimp only
  rw [strip_eq, hu, hk]
  simp only [hs, hh, Bool.false_eq_true, if_false]

/-- `rhomin 0.1`, the `=` forgotten: accepted, and there is no parameter `rhomin`. -/
example : ∃ r, addMaterials ["matid=3\nrhomin 0.1\n".toList] = .ok r ∧
    ∀ p ∈ r.params, p.get? "rhomin".toList = none ∧ p.get? "rhomin0.1".toList = some "rhomin0.1".toList := by
  refine ⟨⟨[[("matid".toList, ['3']), ("rhomin0.1".toList, "rhomin0.1".toList)]], [3]⟩, rfl, ?_⟩
  intro p hp
  rw [List.mem_singleton.1 hp]
  exact ⟨rfl, rfl⟩

/-- **C116 is violated**: a comment after a key hides nothing; with a `=` in the comment, the text of the comment becomes part
of the key. -/
theorem C116_comment_in_key_violated : ∃ r, addMaterials ["matid=3\nrhomin # lo=hi\n".toList] = .ok r ∧
    ∀ p ∈ r.params, p.get? "rhomin#lo".toList = some "hi".toList := by
  refine ⟨⟨[[("matid".toList, ['3']), ("rhomin#lo".toList, "hi".toList)]], [3]⟩, rfl, ?_⟩
  intro p hp
  rw [List.mem_singleton.1 hp]
  rfl

/-- **C116 is violated** for the material number: what follows the digits is ignored. -/
theorem C116_matid_trailing_violated (n : Nat) (h : n ≤ 2147483647) (c : Char) (r : Str) (hc : c.isDigit = false) :
    stoi (decimal n ++ c :: r) = some (n : Int) := by
  have hd : ∀ c ∈ Nat.toDigits 10 n, c.isDigit = true := fun c hc => Nat.isDigit_of_mem_toDigits (by decide) (by decide) hc
  have hne : Nat.toDigits 10 n ≠ [] := Nat.toDigits_ne_nil
  obtain ⟨a, t, har⟩ : ∃ a t, Nat.toDigits 10 n = a :: t := by
    cases h : Nat.toDigits 10 n with
    | nil => exact absurd h hne
    | cons a r => exact ⟨a, r, rfl⟩
  have hv : digitsVal (Nat.toDigits 10 n) = n := Nat.ofDigitChars_ten_toDigits
  have ha : a.isDigit = true := hd a (by simp [har])
  have hsp : isSpace a = false := by
    by_contra hs
    have hs : isSpace a = true := by simpa using hs
    simp [isSpace] at hs
    rcases hs with rfl | rfl | rfl | rfl | rfl | rfl <;> revert ha <;> decide
  have hm : a ≠ '-' := by rintro rfl; revert ha; decide
  have hp : a ≠ '+' := by rintro rfl; revert ha; decide
  have htw : (Nat.toDigits 10 n ++ c :: r).takeWhile Char.isDigit = Nat.toDigits 10 n :=
    takeWhile_stop _ _ _ _ hd hc
  have hdw : (Nat.toDigits 10 n ++ c :: r).dropWhile isSpace = Nat.toDigits 10 n ++ c :: r := by rw [har]; simp [hsp]
  have hmatch : signOf (Nat.toDigits 10 n ++ c :: r) = (false, Nat.toDigits 10 n ++ c :: r) := by
    rw [har]
    unfold signOf
    split
    · rename_i h; injection h with h1; exact absurd h1 hm
    · rename_i h; injection h with h1; exact absurd h1 hp
    · rfl
  unfold stoi decimal
  rw [hdw]
  simp only [hmatch, htw, hv]
  have : ¬ ((n : Int) < -2147483648) := by omega
  have h2 : ¬ (2147483647 < (n : Int)) := by omega
  simp [hne, this, h2]

example : stoi "5030.7".toList = some 5030 := C116_matid_trailing_violated 5030 (by decide) '.' ['7'] rfl

/-! ## Command line -/

theorem head_dash (f : Str) (h : f.head? ≠ some '-') : f ≠ ['-', 'h'] ∧ f ≠ ['-', 'p'] ∧ f ≠ ['-', 'w'] ∧ f ≠ ['-', 'v'] ∧
    f ≠ ['-', 'd'] ∧ f ≠ ['-', 'v', 'v'] ∧ f ≠ ['-', 's'] := by
  refine ⟨?_, ?_, ?_, ?_, ?_, ?_, ?_⟩ <;> rintro rfl <;> simp at h

theorem cliLoop_cons (c : Cli) (a : Str) (rest : List Str) : cliLoop c (a :: rest) =
    if a = ['-', 'h'] then .help
    else if a = ['-', 'p'] then cliLoop { c with print := true } rest
    else if (a = ['-', 'w'] ∨ a = ['-', 'v']) ∧ c.verb = .quiet then cliLoop { c with verb := .verbose } rest
    else if (a = ['-', 'd'] ∨ a = ['-', 'v', 'v']) ∧ c.verb ≠ .debug then cliLoop { c with verb := .debug } rest
    else if a = ['-', 's'] then
      match rest with
      | [] => .nullDeref
      | f :: rest => cliLoop { c with savename := f } rest
    else cliLoop { c with files := c.files ++ [a] } rest := by
  cases rest <;> simp only [cliLoop]

/-- Number of a verbosity. -/
def Verb.level : Verb → Nat
  | .quiet => 0
  | .verbose => 1
  | .debug => 2

theorem cliLoop_spec (as : List Arg) (hp : ∀ a ∈ as, a.plain) (c : Cli)
    (hv : (as.map Arg.level).Pairwise (fun x y => y = 0 ∨ x < y)) (hc : ∀ a ∈ as, a.level = 0 ∨ c.verb.level < a.level) :
    ∃ c', cliLoop c (as.flatMap Arg.written) = .run c' ∧ c'.files = c.files ++ filesOf as ∧ c'.savename = saveOf c.savename as ∧
      c'.print = (c.print || printOf as) ∧ c'.verb.level = as.foldl (fun n a => max n a.level) c.verb.level := by
  induction as generalizing c with
  | nil => exact ⟨c, rfl, by simp [filesOf], rfl, by simp [printOf], rfl⟩
  | cons a as ih =>
    have hp' : ∀ a ∈ as, a.plain := fun x hx => hp x (by simp [hx])
    rw [List.map_cons, List.pairwise_cons] at hv
    have hc' : ∀ b ∈ as, b.level = 0 ∨ c.verb.level < b.level := fun x hx => hc x (by simp [hx])
    have ha := hc a (by simp)
    cases a with
    | print =>
      obtain ⟨c', h1, h2, h3, h4, h5⟩ := ih hp' { c with print := true } hv.2 hc'
      refine ⟨c', ?_, h2, h3, by simp [h4, printOf], by simpa [Arg.level] using h5⟩
      rw [← h1]; simp [Arg.written, cliLoop_cons]
    | save f =>
      obtain ⟨c', h1, h2, h3, h4, h5⟩ := ih hp' { c with savename := f } hv.2 hc'
      refine ⟨c', ?_, h2, h3, by simp [h4, printOf], by simpa [Arg.level] using h5⟩
      rw [← h1]; simp [Arg.written, cliLoop_cons]
    | file f =>
      obtain ⟨c', h1, h2, h3, h4, h5⟩ := ih hp' { c with files := c.files ++ [f] } hv.2 hc'
      have hf : f.head? ≠ some '-' := hp (.file f) (by simp)
      obtain ⟨g1, g2, g3, g4, g5, g6, g7⟩ := head_dash f hf
      refine ⟨c', ?_, by simp [h2, filesOf], h3, by simp [h4, printOf], by simpa [Arg.level] using h5⟩
      rw [← h1]
      simp [Arg.written, cliLoop_cons, g1, g2, g3, g4, g5, g6, g7]
    | warn b =>
      have hq : c.verb = .quiet := by
        cases hcv : c.verb <;> simp [hcv, Verb.level, Arg.level] at ha ⊢
      obtain ⟨c', h1, h2, h3, h4, h5⟩ := ih hp' { c with verb := .verbose } hv.2 (by
        intro x hx
        have := hv.1 x.level (by simpa using ⟨x, hx, rfl⟩)
        simpa [Arg.level, Verb.level] using this)
      refine ⟨c', ?_, h2, h3, by simp [h4, printOf], ?_⟩
      · rw [← h1]; cases b <;> simp [Arg.written, cliLoop_cons, hq]
      · rw [h5]; simp [Arg.level, Verb.level, hq]
    | debug b =>
      have hq : c.verb ≠ .debug := by
        intro e; simp [e, Verb.level, Arg.level] at ha
      obtain ⟨c', h1, h2, h3, h4, h5⟩ := ih hp' { c with verb := .debug } hv.2 (by
        intro x hx
        have := hv.1 x.level (by simpa using ⟨x, hx, rfl⟩)
        simpa [Arg.level, Verb.level] using this)
      refine ⟨c', ?_, h2, h3, by simp [h4, printOf], ?_⟩
      · rw [← h1]; cases b <;> simp [Arg.written, cliLoop_cons, hq]
      · rw [h5]
        have : max c.verb.level 2 = 2 := by cases c.verb <;> simp [Verb.level]
        rw [List.foldl_cons]
        show _ = List.foldl _ (max c.verb.level 2) as
        rw [this]; rfl

/-- **C117.** A command line with at least one file, in which the verbosity is only ever raised by a later flag, is taken as it is
meant, whatever the order of its arguments: the files in order, the last `-s`, `-p`, the verbosity. -/
theorem C117_command_line_partial (as : List Arg) (hp : ∀ a ∈ as, a.plain) (hf : filesOf as ≠ [])
    (hv : (as.map Arg.level).Pairwise (fun x y => y = 0 ∨ x < y)) :
    ∃ c, parseCLI (as.flatMap Arg.written) = .run c ∧ c.files = filesOf as ∧ c.savename = saveOf "materials.sp5".toList as ∧
      c.print = printOf as ∧ c.verb.level = levelOf as := by
  obtain ⟨c, h1, h2, h3, h4, h5⟩ := cliLoop_spec as hp ⟨defaultSave, [], false, .quiet⟩ hv (by
    intro a _; rcases Nat.eq_zero_or_pos a.level with h | h
    · exact Or.inl h
    · exact Or.inr h)
  refine ⟨c, ?_, by simpa using h2, h3, by simpa using h4, h5⟩
  have hne : as.flatMap Arg.written ≠ [] := by
    intro e
    have : as = [] := by
      cases as with
      | nil => rfl
      | cons a r => cases a <;> simp [Arg.written] at e
    subst this; exact hf rfl
  have hcf : c.files ≠ [] := by simpa [h2] using hf
  unfold parseCLI
  rw [h1]
  simp [hne, hcf]

example : ∃ c, parseCLI ["a.dat".toList, "-v".toList, "-s".toList, "o.sp5".toList, "-p".toList, "-vv".toList, "b".toList] = .run c ∧
    c.files = ["a.dat".toList, ['b']] ∧ c.savename = "o.sp5".toList ∧ c.print = true ∧ c.verb.level = 2 :=
  C117_command_line_partial [.file "a.dat".toList, .warn false, .save "o.sp5".toList, .print, .debug false, .file ['b']]
    (by simp [Arg.plain]) (by simp [filesOf]) (by simp [Arg.level])

/-- **C117.** Without a file the tool stops with the help text. -/
theorem C117_no_file (as : List Arg) (hp : ∀ a ∈ as, a.plain) (hf : filesOf as = [])
    (hv : (as.map Arg.level).Pairwise (fun x y => y = 0 ∨ x < y)) : parseCLI (as.flatMap Arg.written) = .usage := by
  obtain ⟨c, h1, h2, -⟩ := cliLoop_spec as hp ⟨defaultSave, [], false, .quiet⟩ hv (by
    intro a _; rcases Nat.eq_zero_or_pos a.level with h | h
    · exact Or.inl h
    · exact Or.inr h)
  unfold parseCLI
  rw [h1]
  by_cases hne : as.flatMap Arg.written = []
  · simp [hne]
  · simp [hne, h2, hf]

example : parseCLI ["-p".toList, "-s".toList, "x".toList] = .usage :=
  C117_no_file [.print, .save ['x']] (by simp [Arg.plain]) rfl (by simp [Arg.level])

/-- **C117.** `-h` prints the help and stops, wherever it stands among the options and files. -/
theorem C117_help (as : List Arg) (hp : ∀ a ∈ as, a.plain) (rest : List Str) :
    parseCLI (as.flatMap Arg.written ++ "-h".toList :: rest) = .help := by
  have key : ∀ (as : List Arg) (c : Cli), (∀ a ∈ as, a.plain) →
      cliLoop c (as.flatMap Arg.written ++ "-h".toList :: rest) = .help := by
    intro as
    induction as with
    | nil => intro c _; simp [cliLoop_cons]
    | cons a as ih =>
      intro c hp
      have hp' : ∀ a ∈ as, a.plain := fun x hx => hp x (by simp [hx])
      have ih' := fun c => ih c hp'
      cases a with
      | print => simpa [Arg.written, cliLoop_cons] using ih' _
      | save f => simpa [Arg.written, cliLoop_cons] using ih' _
      | file f =>
        obtain ⟨g1, g2, g3, g4, g5, g6, g7⟩ := head_dash f (hp (.file f) (by simp))
        simpa [Arg.written, cliLoop_cons, g1, g2, g3, g4, g5, g6, g7] using ih' _
      | warn b => cases b <;> by_cases hq : c.verb = .quiet <;> simpa [Arg.written, cliLoop_cons, hq] using ih' _
      | debug b => cases b <;> by_cases hq : c.verb = .debug <;> simpa [Arg.written, cliLoop_cons, hq] using ih' _
  unfold parseCLI
  rw [key as _ hp]
  simp

example : parseCLI ["-v".toList, "-v".toList, "deck".toList, "-h".toList, "-s".toList] = .help :=
  C117_help [.warn false, .warn false, .file "deck".toList] (by simp [Arg.plain]) ["-s".toList]

/-- **C117 is violated**: asking twice for the same verbosity, or for less than before, makes the flag the name of an input
file. For instance `-v -v deck` reads the files `-v` and `deck`. -/
theorem C117_repeated_flag_violated (a b : Arg) (ha : a.level ≠ 0) (hb : b.level ≠ 0) (hab : b.level ≤ a.level) (f : Str)
    (hf : f.head? ≠ some '-') :
    ∃ c, parseCLI (a.written ++ b.written ++ [f]) = .run c ∧ c.files = b.written ++ [f] ∧ c.files ≠ filesOf [a, b, .file f] := by
  obtain ⟨g1, g2, g3, g4, g5, g6, g7⟩ := head_dash f hf
  cases a with
  | print => simp [Arg.level] at ha
  | save => simp [Arg.level] at ha
  | file => simp [Arg.level] at ha
  | warn x =>
    cases b with
    | print => simp [Arg.level] at hb
    | save => simp [Arg.level] at hb
    | file => simp [Arg.level] at hb
    | debug y => simp [Arg.level] at hab
    | warn y =>
      refine ⟨⟨defaultSave, (Arg.warn y).written ++ [f], false, .verbose⟩, ?_, rfl, by simp [filesOf, Arg.written]⟩
      cases x <;> cases y <;> simp [Arg.written, parseCLI, cliLoop_cons, cliLoop, g1, g2, g3, g4, g5, g6, g7]
  | debug x =>
    cases b with
    | print => simp [Arg.level] at hb
    | save => simp [Arg.level] at hb
    | file => simp [Arg.level] at hb
    | debug y =>
      refine ⟨⟨defaultSave, (Arg.debug y).written ++ [f], false, .debug⟩, ?_, rfl, by simp [filesOf, Arg.written]⟩
      cases x <;> cases y <;> simp [Arg.written, parseCLI, cliLoop_cons, cliLoop, g1, g2, g3, g4, g5, g6, g7]
    | warn y =>
      refine ⟨⟨defaultSave, (Arg.warn y).written ++ [f], false, .debug⟩, ?_, rfl, by simp [filesOf, Arg.written]⟩
      cases x <;> cases y <;> simp [Arg.written, parseCLI, cliLoop_cons, cliLoop, g1, g2, g3, g4, g5, g6, g7]

/-- **C117 is violated**: `-s` as the last argument reads a null pointer. -/
theorem C117_save_last_violated (f : Str) (hf : f.head? ≠ some '-') : parseCLI [f, "-s".toList] = .nullDeref := by
  obtain ⟨g1, g2, g3, g4, g5, g6, g7⟩ := head_dash f hf
  simp [parseCLI, cliLoop_cons, cliLoop, g1, g2, g3, g4, g5, g6, g7]

/-- **C117 is violated**: a mistyped option is the name of an input file. -/
theorem C117_unknown_option_violated (o f : Str) (hf : f.head? ≠ some '-')
    (ho : o ∉ ["-h", "-p", "-w", "-v", "-d", "-vv", "-s"].map String.toList) :
    ∃ c, parseCLI [o, f] = .run c ∧ c.files = [o, f] := by
  obtain ⟨g1, g2, g3, g4, g5, g6, g7⟩ := head_dash f hf
  simp only [List.map_cons, List.map_nil, List.mem_cons, List.not_mem_nil, or_false, not_or] at ho
  obtain ⟨o1, o2, o3, o4, o5, o6, o7⟩ := ho
  have o1 : o ≠ ['-', 'h'] := o1
  have o2 : o ≠ ['-', 'p'] := o2
  have o3 : o ≠ ['-', 'w'] := o3
  have o4 : o ≠ ['-', 'v'] := o4
  have o5 : o ≠ ['-', 'd'] := o5
  have o6 : o ≠ ['-', 'v', 'v'] := o6
  have o7 : o ≠ ['-', 's'] := o7
  refine ⟨⟨defaultSave, [o, f], false, .quiet⟩, ?_, rfl⟩
  simp [parseCLI, cliLoop_cons, cliLoop, g1, g2, g3, g4, g5, g6, g7, o1, o2, o3, o4, o5, o6, o7]

/-! ## Names -/

/-- The name a saved material asked for. -/
def asked (lib : Int → Str) (all : List (Params × Int)) (r : Saved) : Str :=
  match all[r.idx]? with
  | some x => requestedName x.1 (lib x.2) r.idx
  | none => []

theorem at_set (c : Counts) (k : Str) (v : Nat) (k' : Str) : (c.set k v).at k' = if k = k' then v else c.at k' := by
  induction c with
  | nil => by_cases h : k = k' <;> simp [Counts.set, Counts.at, h]
  | cons x t ih =>
    obtain ⟨a, b⟩ := x
    unfold Counts.at at ih ⊢
    by_cases h : a = k
    · subst h
      by_cases h2 : a = k' <;> simp [Counts.set, h2]
    · simp only [Counts.set, h, if_false]
      by_cases h2 : a = k'
      · subst h2
        have : k ≠ a := fun e => h e.symm
        simp [this]
      · simp [h2, ih]

theorem usedName_spec (c : Counts) (n : Str) :
    (usedName c n).2 = nameFor (c.at n) n ∧ ∀ k, (usedName c n).1.at k = c.at k + if n = k then 1 else 0 := by
  unfold usedName
  cases h : c.at n with
  | zero =>
    refine ⟨by simp [nameFor], fun k => ?_⟩
    simp only [lt_self_iff_false, if_false, at_set]
    by_cases hk : n = k
    · subst hk; simp [h]
    · simp [hk]
  | succ j =>
    refine ⟨by simp [nameFor, num, decimal], fun k => ?_⟩
    simp only [Nat.succ_pos, if_true, at_set]
    by_cases hk : n = k
    · subst hk; simp [h]
    · simp [hk]

/-- Invariant of the loop after the materials `pre`. -/
structure SInv (lib : Int → Str) (all pre : List (Params × Int)) (s : SaveSt) : Prop where
  ids : ∀ id, id ∈ s.ids ↔ ∃ x ∈ pre, x.2 = id
  out : ∀ id, id ∈ s.ids ↔ id ∈ s.out.map Saved.matid
  nodup : (s.out.map Saved.matid).Nodup
  first : ∀ r ∈ s.out, (∃ p, all[r.idx]? = some (p, r.matid)) ∧ r.idx < pre.length ∧
    ∀ j < r.idx, ∀ y, all[j]? = some y → y.2 ≠ r.matid
  order : (s.out.map Saved.idx).Pairwise (· < ·)
  count : ∀ n, s.names.at n = (s.out.map (asked lib all)).count n
  name : ∀ A r B, s.out = A ++ r :: B → r.name = nameFor ((A.map (asked lib all)).count (asked lib all r)) (asked lib all r)

theorem saveOne_inv (lib : Int → Str) (all pre rest : List (Params × Int)) (x : Params × Int) (hall : all = pre ++ x :: rest)
    (s : SaveSt) (h : SInv lib all pre s) : SInv lib all (pre ++ [x]) (saveOne lib s pre.length x) := by
  have hx : all[pre.length]? = some x := by rw [hall]; simp
  unfold saveOne
  by_cases hm : x.2 ∈ s.ids
  · simp only [hm, if_true]
    refine ⟨fun id => ?_, h.out, h.nodup, fun r hr => ?_, h.order, h.count, h.name⟩
    · rw [h.ids]
      constructor
      · rintro ⟨y, hy, rfl⟩; exact ⟨y, by simp [hy], rfl⟩
      · rintro ⟨y, hy, rfl⟩
        rcases List.mem_append.1 hy with hy | hy
        · exact ⟨y, hy, rfl⟩
        · rw [List.mem_singleton.1 hy]; exact (h.ids _).1 hm
    · obtain ⟨h1, h2, h3⟩ := h.first r hr
      exact ⟨h1, by simp; omega, h3⟩
  · simp only [hm, if_false]
    have hreq : asked lib all ⟨x.2, (usedName s.names (requestedName x.1 (lib x.2) pre.length)).2, pre.length⟩
        = requestedName x.1 (lib x.2) pre.length := by
      simp [asked, hx]
    obtain ⟨u1, u2⟩ := usedName_spec s.names (requestedName x.1 (lib x.2) pre.length)
    refine ⟨fun id => ?_, fun id => ?_, ?_, fun r hr => ?_, ?_, fun n => ?_, fun A r B hAB => ?_⟩
    · rw [List.mem_cons, h.ids]
      constructor
      · rintro (rfl | ⟨y, hy, rfl⟩)
        · exact ⟨x, by simp, rfl⟩
        · exact ⟨y, by simp [hy], rfl⟩
      · rintro ⟨y, hy, rfl⟩
        rcases List.mem_append.1 hy with hy | hy
        · exact Or.inr ⟨y, hy, rfl⟩
        · rw [List.mem_singleton.1 hy]; exact Or.inl rfl
    · rw [List.mem_cons, h.out]; simp [or_comm]
    · rw [List.map_append, List.nodup_append]
      refine ⟨h.nodup, by simp, ?_⟩
      intro a ha b hb
      have hb : b = x.2 := by simpa using hb
      rintro rfl
      exact hm (by rw [h.out, ← hb]; exact ha)
    · rcases List.mem_append.1 hr with hr | hr
      · obtain ⟨h1, h2, h3⟩ := h.first r hr
        exact ⟨h1, by simp; omega, h3⟩
      · rw [List.mem_singleton.1 hr]
        refine ⟨⟨x.1, hx⟩, by simp, fun j hj y hy e => ?_⟩
        have hj' : pre[j]? = some y := by
          rw [hall, List.getElem?_append_left hj] at hy; exact hy
        exact hm ((h.ids _).2 ⟨y, List.mem_of_getElem? hj', e⟩)
    · rw [List.map_append, List.pairwise_append]
      refine ⟨h.order, by simp, ?_⟩
      intro a ha b hb
      have hb : b = pre.length := by simpa using hb
      obtain ⟨r, hr, rfl⟩ := List.mem_map.1 ha
      rw [hb]; exact (h.first r hr).2.1
    · dsimp only
      rw [u2, h.count, List.map_append, List.count_append]
      simp [hreq, List.count_singleton]
    · dsimp only at hAB
      rcases List.append_eq_append_iff.1 hAB with ⟨C, hC1, hC2⟩ | ⟨C, hC1, hC2⟩
      · cases C with
        | nil =>
          simp only [List.nil_append, List.cons.injEq] at hC2
          simp only [List.append_nil] at hC1
          obtain ⟨hr, -⟩ := hC2
          rw [← hr, hreq, hC1, u1, h.count]
        | cons c C =>
          simp at hC2
      · cases C with
        | nil =>
          simp only [List.nil_append, List.cons.injEq] at hC2
          simp only [List.append_nil] at hC1
          obtain ⟨hr, -⟩ := hC2
          rw [hr, hreq, ← hC1, u1, h.count]
        | cons c C =>
          simp only [List.cons_append, List.cons.injEq] at hC2
          obtain ⟨rfl, -⟩ := hC2
          exact h.name A r C hC1

theorem saveLoop_inv (lib : Int → Str) (all : List (Params × Int)) (rest pre : List (Params × Int)) (hall : all = pre ++ rest)
    (s : SaveSt) (h : SInv lib all pre s) : SInv lib all all (saveLoop lib s pre.length rest) := by
  induction rest generalizing pre s with
  | nil => simp only [List.append_nil] at hall; subst hall; exact h
  | cons x xs ih =>
    have := ih (pre ++ [x]) (by simp [hall]) _ (saveOne_inv lib all pre xs x hall s h)
    simpa [saveLoop] using this

theorem saveAll_inv (lib : Int → Str) (m : Mats) : SInv lib (m.params.zip m.ids) (m.params.zip m.ids)
    (saveLoop lib ⟨[], [], []⟩ 0 (m.params.zip m.ids)) := by
  refine saveLoop_inv lib _ _ [] rfl _ ⟨?_, ?_, ?_, ?_, ?_, ?_, ?_⟩ <;> simp [Counts.at]

theorem zip_get {α β : Type*} (a : List α) (b : List β) (h : a.length = b.length) (i : Nat) :
    ((a.zip b)[i]?).map (·.2) = b[i]? := by
  induction a generalizing b i with
  | nil => cases b <;> simp at h ⊢
  | cons x xs ih =>
    cases b with
    | nil => simp at h
    | cons y ys =>
      cases i with
      | zero => simp
      | succ i => simpa using ih ys (by simpa using h) i

/-- **C118.** Every material number asked for is written exactly once. -/
theorem C118_each_once (lib : Int → Str) (m : Mats) (hl : m.params.length = m.ids.length) :
    ((saveAll lib m).map Saved.matid).Nodup ∧ ∀ id, id ∈ (saveAll lib m).map Saved.matid ↔ id ∈ m.ids := by
  have h := saveAll_inv lib m
  refine ⟨h.nodup, fun id => ?_⟩
  have h1 := (h.out id).symm.trans (h.ids id)
  refine Iff.trans h1 ?_
  constructor
  · rintro ⟨x, hx, rfl⟩; exact (List.of_mem_zip (a := x.1) (b := x.2) hx).2
  · intro hi
    obtain ⟨i, hi', he⟩ := List.getElem_of_mem hi
    refine ⟨(m.params[i]'(by omega), id), ?_, rfl⟩
    rw [List.mem_iff_getElem]
    exact ⟨i, by simp; omega, by simp [he]⟩

/-- **C118.** A number asked for several times is written with the parameters that came first, and the materials are written in
the order in which they were asked for. -/
theorem C118_first_wins (lib : Int → Str) (m : Mats) (hl : m.params.length = m.ids.length) :
    (∀ r ∈ saveAll lib m, m.ids[r.idx]? = some r.matid ∧ ∀ j < r.idx, m.ids[j]? ≠ some r.matid) ∧
      ((saveAll lib m).map Saved.idx).Pairwise (· < ·) := by
  have h := saveAll_inv lib m
  refine ⟨fun r hr => ?_, h.order⟩
  obtain ⟨⟨p, h1⟩, -, h3⟩ := h.first r hr
  refine ⟨by rw [← zip_get _ _ hl, h1]; rfl, fun j hj he => ?_⟩
  rw [← zip_get _ _ hl] at he
  cases hj' : (m.params.zip m.ids)[j]? with
  | none => simp [hj'] at he
  | some y =>
    simp [hj'] at he
    exact h3 j hj y hj' he

/-- **C118.** The names: a material is written under the name it asked for if no material written before it asked for the same;
otherwise `_2`, `_3`, … is appended. -/
theorem C118_names (lib : Int → Str) (m : Mats) (A B : List Saved) (r : Saved) (h : saveAll lib m = A ++ r :: B) :
    r.name = nameFor ((A.map (asked lib (m.params.zip m.ids))).count (asked lib (m.params.zip m.ids) r))
      (asked lib (m.params.zip m.ids) r) := (saveAll_inv lib m).name A r B h

theorem nameFor_inj (n n' : Str) (k k' : Nat) (h1 : ∀ j, n ≠ n' ++ '_' :: decimal j) (h2 : ∀ j, n' ≠ n ++ '_' :: decimal j)
    (h : nameFor k n = nameFor k' n') : n = n' ∧ k = k' := by
  cases k with
  | zero =>
    cases k' with
    | zero => exact ⟨h, rfl⟩
    | succ k' => exact absurd h (h1 _)
  | succ k =>
    cases k' with
    | zero => exact absurd h.symm (h2 _)
    | succ k' =>
      simp only [nameFor] at h
      have e : ∀ (a : Str) (j : Nat), (a ++ '_' :: decimal j).reverse.takeWhile (· ≠ '_') = (decimal j).reverse ∧
          (a ++ '_' :: decimal j).reverse.dropWhile (· ≠ '_') = '_' :: a.reverse := by
        intro a j
        have hd : ∀ c ∈ (decimal j).reverse, decide (c ≠ '_') = true := by
          intro c hc
          have := @Nat.underscore_not_in_toDigits j
          simp only [decide_eq_true_eq]
          rintro rfl
          exact this (by simpa [decimal] using hc)
        rw [List.reverse_append, List.reverse_cons, List.append_assoc, List.singleton_append]
        exact ⟨takeWhile_stop _ _ _ _ hd (by simp), dropWhile_stop _ _ _ _ hd (by simp)⟩
      have a1 := (e n (k + 2)).1
      have a2 := (e n (k + 2)).2
      rw [h] at a1 a2
      rw [(e n' (k' + 2)).1] at a1
      rw [(e n' (k' + 2)).2] at a2
      have a1 := List.reverse_injective a1
      have a2 : n' = n := by
        have := (List.cons.inj a2).2
        exact List.reverse_injective this
      refine ⟨a2.symm, ?_⟩
      have := congrArg digitsVal a1
      have v : ∀ j, digitsVal (decimal j) = j := fun j => Nat.ofDigitChars_ten_toDigits
      rw [v, v] at this
      omega

/-- **C118, partly.** If no name asked for is another one followed by `_` and a number, then no two materials are written under
the same name. -/
theorem C118_names_distinct_partial (lib : Int → Str) (m : Mats)
    (hn : ∀ r ∈ saveAll lib m, ∀ r' ∈ saveAll lib m, ∀ j,
      asked lib (m.params.zip m.ids) r ≠ asked lib (m.params.zip m.ids) r' ++ '_' :: decimal j) :
    ((saveAll lib m).map Saved.name).Nodup := by
  rw [List.nodup_iff_pairwise_ne, List.pairwise_iff_getElem]
  intro i j hi hj hij he
  simp only [List.length_map] at hi hj
  simp only [List.getElem_map] at he
  set out := saveAll lib m with hout
  set q := asked lib (m.params.zip m.ids) with hq
  have split : ∀ k (hk : k < out.length), out = out.take k ++ out[k] :: out.drop (k + 1) := by
    intro k hk; simp
  have n1 := C118_names lib m _ _ _ (split i hi)
  have n2 := C118_names lib m _ _ _ (split j hj)
  rw [← hq] at n1 n2
  rw [n1, n2] at he
  obtain ⟨e1, e2⟩ := nameFor_inj _ _ _ _ (hn _ (List.getElem_mem hi) _ (List.getElem_mem hj))
    (hn _ (List.getElem_mem hj) _ (List.getElem_mem hi)) he
  rw [← e1] at e2
  have hlt : ((out.take i).map q).count (q out[i]) < ((out.take j).map q).count (q out[i]) := by
    have h1 : (out.take j) = out.take i ++ (out.drop i).take (j - i) := by
      rw [← List.take_append_drop i (out.take j), List.take_take, List.drop_take, min_eq_left (le_of_lt hij)]
    rw [h1, List.map_append, List.count_append]
    have : 0 < ((((out.drop i).take (j - i))).map q).count (q out[i]) := by
      rw [List.count_pos_iff]
      refine List.mem_map.2 ⟨out[i], ?_, rfl⟩
      rw [List.drop_eq_getElem_cons hi, show j - i = (j - i - 1) + 1 by omega, List.take_succ_cons]
      simp
    omega
  omega

/-- **C118 is violated**: materials that ask for the names `a`, `a` and `a_2` are written as `a`, `a_2` and `a_2`. -/
theorem C118_name_collision_violated (lib : Int → Str) :
    saveAll lib ⟨[[(kName, "a".toList)], [(kName, "a".toList)], [(kName, "a_2".toList)]], [1, 2, 3]⟩ =
      [⟨1, "a".toList, 0⟩, ⟨2, "a_2".toList, 1⟩, ⟨3, "a_2".toList, 2⟩] := by
  simp [saveAll, saveLoop, saveOne, requestedName, usedName, Params.get?, Counts.at, Counts.set, num, Nat.toDigits,
    Nat.toDigitsCore, Nat.digitChar]

/-- Three materials, one of them asked for twice, two asking for the same name, one for none. -/
example : saveAll (fun _ => []) ⟨[[(kName, "a".toList)], [(kName, "a".toList)], [], [(kName, "b".toList)]], [1, 2, 3, 1]⟩ =
    [⟨1, "a".toList, 0⟩, ⟨2, "a_2".toList, 1⟩, ⟨3, "material_2".toList, 2⟩] := rfl

end Verif.S2S
