import Verif.Spec.IeeeFinite
import Verif.Model.IeeePTE

/-! # Where finite results can come from -/

namespace Verif.Ieee

open Classical

variable {rnd : ℝ → ℝ} {Ω : ℝ}

theorem IsFin.fin (r : ℝ) : IsFin (.fin r) := ⟨r, rfl⟩

theorem not_isFin_nan : ¬ IsFin .nan := by rintro ⟨r, h⟩; cases h

theorem not_isFin_inf (s : Bool) : ¬ IsFin (.inf s) := by rintro ⟨r, h⟩; cases h

theorem IsFin.of_add {x y : Ext} (h : IsFin (add rnd Ω x y)) : IsFin x ∧ IsFin y := by
  rcases x with _ | s | a <;> rcases y with _ | t | b
  all_goals first
    | exact ⟨⟨_, rfl⟩, ⟨_, rfl⟩⟩
    | (exfalso; revert h; simp only [add]; first | exact not_isFin_nan | exact not_isFin_inf _ | skip)
  split_ifs
  · exact not_isFin_inf _
  · exact not_isFin_nan

theorem IsFin.of_neg {x : Ext} (h : IsFin (neg x)) : IsFin x := by
  rcases x with _ | s | a
  · exact absurd h not_isFin_nan
  · exact absurd h (not_isFin_inf _)
  · exact ⟨a, rfl⟩

theorem IsFin.of_sub {x y : Ext} (h : IsFin (sub rnd Ω x y)) : IsFin x ∧ IsFin y :=
  ⟨h.of_add.1, h.of_add.2.of_neg⟩

theorem IsFin.of_mul {x y : Ext} (h : IsFin (mul rnd Ω x y)) : IsFin x ∧ IsFin y := by
  rcases x with _ | s | a <;> rcases y with _ | t | b
  all_goals first
    | exact ⟨⟨_, rfl⟩, ⟨_, rfl⟩⟩
    | (exfalso; revert h; simp only [mul]; first | exact not_isFin_nan | exact not_isFin_inf _ | skip)
  all_goals
    split_ifs
    · exact not_isFin_nan
    · exact not_isFin_inf _

theorem IsFin.of_abs {x : Ext} (h : IsFin (absE x)) : IsFin x := by
  rcases x with _ | s | a
  · exact absurd h not_isFin_nan
  · exact absurd h (not_isFin_inf _)
  · exact ⟨a, rfl⟩

theorem IsFin.of_sqrt {x : Ext} (h : IsFin (sqrtE rnd x)) : IsFin x := by
  rcases x with _ | s | a
  · exact absurd h not_isFin_nan
  · cases s
    · exact absurd h (not_isFin_inf _)
    · exact absurd h not_isFin_nan
  · exact ⟨a, rfl⟩

theorem isFin_of_abs_lt {x y : Ext} (h : lt (absE x) y) : IsFin x := by
  rcases x with _ | s | a
  · cases y <;> exact h.elim
  · rcases y with _ | t | b
    · exact h.elim
    · simp [absE, lt] at h
    · simp [absE, lt] at h
  · exact ⟨a, rfl⟩

theorem isFin_of_sqrt_lt {x y : Ext} (h : lt (sqrtE rnd x) y) : IsFin (sqrtE rnd x) := by
  rcases x with _ | s | a
  · cases y <;> exact h.elim
  · cases s
    · rcases y with _ | t | b <;> simp [sqrtE, lt] at h
    · rcases y with _ | t | b <;> exact h.elim
  · by_cases ha : a < 0
    · have e : sqrtE rnd (.fin a) = .nan := by simp only [sqrtE]; rw [if_pos ha]
      rw [e] at h
      cases y <;> exact h.elim
    · have e : sqrtE rnd (.fin a) = .fin (rnd (Real.sqrt a)) := by simp only [sqrtE]; rw [if_neg ha]
      exact ⟨_, e⟩

theorem isFin_of_smallE_sqrt {x rel scale abs : Ext} (h : smallE rnd Ω (sqrtE rnd x) rel scale abs) : IsFin x := by
  rcases h with h | h <;> exact (isFin_of_sqrt_lt h).of_sqrt

theorem isFin_of_sq {x : Ext} (h : IsFin (sqE rnd Ω x)) : IsFin x := h.of_mul.1

/-- A running sum that is finite had only finite terms. -/
theorem IsFin.of_forN_add {n : Nat} {term : Nat → Ext} {init : Ext}
    (h : IsFin (forN n (fun a m => add rnd Ω a (term m)) init)) : IsFin init ∧ ∀ m, m < n → IsFin (term m) := by
  induction n with
  | zero => exact ⟨h, fun m hm => absurd hm (by omega)⟩
  | succ n ih =>
    rw [forN_succ] at h
    obtain ⟨h1, h2⟩ := ih h.of_add.1
    refine ⟨h1, fun m hm => ?_⟩
    rcases Nat.lt_succ_iff_lt_or_eq.1 hm with hm | rfl
    · exact h2 m hm
    · exact h.of_add.2

theorem IsFin.of_accE {n : Nat} {term : Nat → Ext} {init : Ext} (h : IsFin (accE rnd Ω n init term)) :
    IsFin init ∧ ∀ m, 1 ≤ m → m < n → IsFin (term m) := by
  obtain ⟨h1, h2⟩ := IsFin.of_forN_add h
  refine ⟨h1, fun m hm hn => ?_⟩
  have := h2 (m - 1) (by omega)
  rwa [Nat.sub_add_cancel hm] at this

/-- One step of the compensated sum. -/
noncomputable def neuStep (rnd : ℝ → ℝ) (Ω : ℝ) (s : Ext × Ext) (x : Ext) : Ext × Ext :=
  if le (absE x) (absE s.1) then (add rnd Ω s.1 x, add rnd Ω s.2 (add rnd Ω (sub rnd Ω s.1 (add rnd Ω s.1 x)) x))
  else (add rnd Ω s.1 x, add rnd Ω s.2 (add rnd Ω (sub rnd Ω x (add rnd Ω s.1 x)) s.1))

theorem neuStep_fst (s : Ext × Ext) (x : Ext) : (neuStep rnd Ω s x).1 = add rnd Ω s.1 x := by
  unfold neuStep; split_ifs <;> rfl

theorem sumNeumaierE_eq (data : Nat → Ext) (n offset : Nat) (op : Ext → Ext) :
    sumNeumaierE rnd Ω data n offset (-1) op =
      add rnd Ω (forN n (fun s i => neuStep rnd Ω s (op (data (i + offset)))) (.fin 0, .fin 0)).1
        (forN n (fun s i => neuStep rnd Ω s (op (data (i + offset)))) (.fin 0, .fin 0)).2 := by
  unfold sumNeumaierE
  have : ∀ i : Nat, ¬ ((-1 : Int) ≥ 0 ∧ (i : Int) = -1) := by intro i; omega
  dsimp only
  simp only [if_neg (this _)]
  rfl

/-- What a compensated sum remembers once it is not finite. -/
def Lost (s : Ext × Ext) : Prop := s.1 = .nan ∨ (∃ b, s.1 = .inf b ∧ (s.2 = .nan ∨ s.2 = .inf !b))

theorem Lost.add {s : Ext × Ext} (h : Lost s) : add rnd Ω s.1 s.2 = .nan := by
  rcases s with ⟨a, c⟩
  rcases h with h | ⟨b, h, h' | h'⟩
  · cases h; rfl
  · cases h; cases h'; rfl
  · cases h; cases h'; cases b <;> rfl

theorem add_nan (x : Ext) : add rnd Ω x .nan = .nan := by cases x <;> rfl

theorem add_nan' (x : Ext) : add rnd Ω .nan x = .nan := by cases x <;> rfl

/-- An infinite or NaN sum stays lost whatever is added. -/
theorem Lost.step {s : Ext × Ext} (h : Lost s) (x : Ext) : Lost (neuStep rnd Ω s x) := by
  rcases s with ⟨a, c⟩
  rcases h with h | ⟨b, h, h'⟩
  · left
    dsimp only at h
    rw [neuStep_fst, h]
    exact add_nan' x
  · dsimp only at h h'
    subst h
    have key : (neuStep rnd Ω (.inf b, c) x).2 = .nan := by
      unfold neuStep
      dsimp only
      rcases x with _ | t | r
      · rw [if_neg (show ¬ le (absE .nan) (absE (.inf b)) from fun h => h)]
        have e1 : Ieee.add rnd Ω (sub rnd Ω .nan (Ieee.add rnd Ω (.inf b) .nan)) (.inf b) = .nan := rfl
        rw [e1]
        exact add_nan _
      · have e1 : Ieee.add rnd Ω (sub rnd Ω (.inf b) (Ieee.add rnd Ω (.inf b) (.inf t))) (.inf t) = .nan := by
          cases b <;> cases t <;> simp [sub, neg, Ieee.add]
        rw [if_pos (show le (absE (.inf t)) (absE (.inf b)) from Or.inr rfl), e1]
        exact add_nan _
      · have e1 : Ieee.add rnd Ω (sub rnd Ω (.inf b) (Ieee.add rnd Ω (.inf b) (.fin r))) (.fin r) = .nan := by
          cases b <;> simp [sub, neg, Ieee.add]
        rw [if_pos (show le (absE (.fin r)) (absE (.inf b)) from rfl), e1]
        exact add_nan _
    rcases hx : (neuStep rnd Ω (.inf b, c) x).1 with _ | t | r
    · exact Or.inl hx
    · exact Or.inr ⟨t, hx, Or.inl key⟩
    · rw [neuStep_fst] at hx
      exact absurd ⟨r, hx⟩ (fun hf => not_isFin_inf b (IsFin.of_add (x := .inf b) (y := x) (rnd := rnd) (Ω := Ω) hf).1)

/-- A term that is not finite, or a partial sum that overflows, loses the sum. -/
theorem lost_of_step {s : Ext × Ext} {x : Ext} (hc : s.1 = .inf true ∨ s.1 = .inf false → Lost s)
    (h : ¬ IsFin (neuStep rnd Ω s x).1) : Lost (neuStep rnd Ω s x) := by
  rcases s with ⟨a, c⟩
  rcases a with _ | b | a
  · exact Lost.step (Or.inl rfl) x
  · refine Lost.step (hc ?_) x
    cases b
    · exact Or.inr rfl
    · exact Or.inl rfl
  · clear hc
    rcases x with _ | t | r
    · exact Or.inl (by rw [neuStep_fst]; rfl)
    · refine Or.inr ⟨t, by rw [neuStep_fst]; rfl, Or.inl ?_⟩
      unfold neuStep
      dsimp only
      rw [if_neg (show ¬ le (absE (.inf t)) (absE (.fin a)) from by simp [le, absE])]
      have e1 : Ieee.add rnd Ω (sub rnd Ω (.inf t) (Ieee.add rnd Ω (.fin a) (.inf t))) (.fin a) = .nan := by
        cases t <;> simp [sub, neg, Ieee.add]
      dsimp only
      rw [e1]
      exact add_nan _
    · rw [neuStep_fst] at h
      dsimp only at h
      rcases ht : Ieee.add rnd Ω (.fin a) (.fin r) with _ | t | z
      · exact Or.inl (by rw [neuStep_fst]; exact ht)
      · refine Or.inr ⟨t, by rw [neuStep_fst]; exact ht, ?_⟩
        unfold neuStep
        dsimp only
        rw [ht]
        have e1 : ∀ v w : ℝ, Ieee.add rnd Ω (sub rnd Ω (.fin v) (.inf t)) (.fin w) = .inf !t := fun v w => rfl
        rw [e1, e1]
        have e2 : Ieee.add rnd Ω c (.inf !t) = .nan ∨ Ieee.add rnd Ω c (.inf !t) = .inf !t := by
          rcases c with _ | q | q
          · exact Or.inl rfl
          · by_cases hq : q = !t
            · right; simp [Ieee.add, hq]
            · left; simp [Ieee.add, hq]
          · exact Or.inr rfl
        split_ifs <;> exact e2
      · exact absurd ⟨z, ht⟩ h

theorem forN_lost {term : Nat → Ext} : ∀ n : Nat,
    let r := forN n (fun s i => neuStep rnd Ω s (term i)) (.fin 0, .fin 0)
    (¬ IsFin r.1 → Lost r) ∧ ((∃ i, i < n ∧ ¬ IsFin (term i)) → Lost r) := by
  intro n
  induction n with
  | zero => exact ⟨fun h => absurd (IsFin.fin 0) h, fun ⟨i, h, _⟩ => absurd h (by omega)⟩
  | succ n ih =>
    dsimp only at ih ⊢
    rw [forN_succ]
    set r := forN n (fun s i => neuStep rnd Ω s (term i)) (.fin 0, .fin 0) with hr
    have h1 : ¬ IsFin (neuStep rnd Ω r (term n)).1 → Lost (neuStep rnd Ω r (term n)) := by
      refine lost_of_step (fun h => ih.1 ?_)
      rcases h with h | h <;> rw [h] <;> exact not_isFin_inf _
    refine ⟨h1, ?_⟩
    rintro ⟨i, hi, hf⟩
    rcases Nat.lt_succ_iff_lt_or_eq.1 hi with hi | rfl
    · exact (ih.2 ⟨i, hi, hf⟩).step _
    · refine h1 ?_
      rw [neuStep_fst]
      exact fun h => hf h.of_add.2

/-- A compensated sum with a term that is not finite is NaN (not an infinity). -/
theorem sumNeumaierE_nan {data : Nat → Ext} {n offset : Nat} {op : Ext → Ext} {i : Nat} (hi : i < n)
    (h : ¬ IsFin (op (data (i + offset)))) : sumNeumaierE rnd Ω data n offset (-1) op = .nan := by
  rw [sumNeumaierE_eq]
  exact Lost.add ((forN_lost (rnd := rnd) (Ω := Ω) (term := fun i => op (data (i + offset))) n).2 ⟨i, hi, h⟩)

theorem IsFin.of_sumNeumaierE {data : Nat → Ext} {n offset : Nat} {op : Ext → Ext}
    (h : IsFin (sumNeumaierE rnd Ω data n offset (-1) op)) : ∀ i, i < n → IsFin (op (data (i + offset))) := by
  intro i hi
  by_contra hf
  rw [sumNeumaierE_nan hi hf] at h
  exact not_isFin_nan h

end Verif.Ieee
