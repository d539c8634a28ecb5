import Verif.Model.RootFind
import Mathlib.Algebra.Order.Group.Abs
import Verif.Tactics

set_option linter.unusedSectionVars false

/-! Loop invariants for the root finders. -/

namespace Verif.RootFind

variable {K : Type*} [Field K] [LinearOrder K] [IsStrictOrderedRing K]

/-- Invariant of the `regula_falsi` loop: an ordered interval inside `[lo, hi]`, with a sign change, and
working values that have the right signs. -/
structure RFInv (func : K → K) (sign lo hi : K) (s : RF K) : Prop where
  lo_le : lo ≤ s.a
  le_hi : s.b ≤ hi
  ord : s.a ≤ s.b
  change : func s.a * func s.b ≤ 0
  signs : s.a = s.b ∨ (s.ya = 0 ∧ func s.a = 0) ∨
    (s.ya < 0 ∧ 0 ≤ s.yb ∧ sign * func s.a < 0 ∧ (s.yb = 0 → func s.b = 0) ∧ 0 ≤ sign * func s.b)
  iter : s.iter ≤ 1000

theorem mul_nonpos_of_signs {sign x y : K} (hsq : sign * sign = 1) (hx : sign * x ≤ 0)
    (hy : 0 ≤ sign * y) : x * y ≤ 0 := by
  have : x * y = (sign * x) * (sign * y) := by
    calc x * y = (sign * sign) * (x * y) := by rw [hsq, one_mul]
      _ = _ := by ring
  rw [this]
  exact mul_nonpos_of_nonpos_of_nonneg hx hy

theorem half_factor_pos (p : Prop) [Decidable p] : (0 : K) < (if p then 1 / 2 else 1) := by
  split_ifs <;> norm_num

theorem rfBody_inv {func : K → K} {sign lo hi xtol ytol : K} {s : RF K} (hsg : sign = 1 ∨ sign = -1)
    (hx : 0 ≤ xtol) (hy : 0 ≤ ytol) (hc : rfCond xtol ytol s) (h : RFInv func sign lo hi s) :
    RFInv func sign lo hi (rfBody func sign s) := by
  have hlt : s.a < s.b := by have := hc.1; linarith
  have hit : s.iter < 1000 := hc.2.2
  have hsq : sign * sign = 1 := by rcases hsg with rfl | rfl <;> ring
  have hs0 : sign ≠ 0 := by rcases hsg with rfl | rfl <;> norm_num
  set c := (s.a * s.yb - s.b * s.ya) / (s.yb - s.ya) with hcdef
  unfold rfBody
  simp only [← hcdef]
  rcases h.signs with he | ⟨h0, hf0⟩ | ⟨hya, hyb, hfa, hyb0, hfb⟩
  · exact absurd he hlt.ne
  · have hyb : s.yb ≠ 0 := by
      intro hyb
      have habs := hc.2.1
      rw [h0, hyb] at habs
      simp only [abs_zero, or_self] at habs
      exact absurd habs (not_lt.mpr hy)
    have hca : c = s.a := by rw [hcdef, h0]; field_simp; ring
    simp only [if_pos hca]
    exact ⟨h.lo_le, le_trans hlt.le h.le_hi, le_rfl, by simp [hf0], Or.inl rfl, h.iter⟩
  · have hden : 0 < s.yb - s.ya := by linarith
    have hca : s.a ≤ c := by
      rw [hcdef, le_div_iff₀ hden]; nlinarith
    have hcb : c ≤ s.b := by
      rw [hcdef, div_le_iff₀ hden]; nlinarith
    have hcne : c ≠ s.a := by
      intro he
      rw [hcdef, div_eq_iff hden.ne'] at he
      nlinarith
    rw [if_neg hcne]
    by_cases hcb' : c = s.b
    · rw [if_pos hcb']
      have hyb' : s.yb = 0 := by
        rw [hcdef, div_eq_iff hden.ne'] at hcb'
        have : s.yb * (s.a - s.b) = 0 := by linear_combination hcb'
        rcases mul_eq_zero.mp this with h' | h'
        · exact h'
        · linarith
      have hfb0 := hyb0 hyb'
      exact ⟨le_trans h.lo_le hlt.le, h.le_hi, le_rfl, by simp [hfb0], Or.inl rfl, h.iter⟩
    · rw [if_neg hcb']
      by_cases hp : sign * func c > 0
      · rw [if_pos hp]
        refine ⟨h.lo_le, le_trans hcb h.le_hi, hca, ?_, Or.inr (Or.inr ⟨?_, hp.le, hfa, ?_, hp.le⟩),
          hit⟩
        · exact mul_nonpos_of_signs hsq hfa.le hp.le
        · exact mul_neg_of_neg_of_pos hya (half_factor_pos _)
        · intro he; exact absurd he hp.ne'
      rw [if_neg hp]
      by_cases hn : sign * func c < 0
      · rw [if_pos hn]
        refine ⟨le_trans h.lo_le hca, h.le_hi, hcb, ?_, Or.inr (Or.inr ⟨hn, ?_, hn, ?_, hfb⟩), hit⟩
        · exact mul_nonpos_of_signs hsq hn.le hfb
        · exact mul_nonneg hyb (half_factor_pos _).le
        · intro he
          rcases mul_eq_zero.mp he with h' | h'
          · exact hyb0 h'
          · exact absurd h' (half_factor_pos _).ne'
      · rw [if_neg hn]
        have hz : func c = 0 := by
          have : sign * func c = 0 := le_antisymm (not_lt.mp hp) (not_lt.mp hn)
          rcases mul_eq_zero.mp this with h' | h'
          · exact absurd h' hs0
          · exact h'
        exact ⟨le_trans h.lo_le hca, le_trans hcb h.le_hi, le_rfl, by simp [hz], Or.inl rfl, hit⟩

theorem rfLoop_inv {func : K → K} {sign lo hi xtol ytol : K} (hsg : sign = 1 ∨ sign = -1)
    (hx : 0 ≤ xtol) (hy : 0 ≤ ytol) (n : Nat) {s t : RF K} (h : RFInv func sign lo hi s)
    (he : rfLoop func sign xtol ytol n s = some t) :
    RFInv func sign lo hi t ∧ ¬ rfCond xtol ytol t := by
  induction n generalizing s with
  | zero =>
    unfold rfLoop at he
    split_ifs at he with hc
    injection he with he; subst he; exact ⟨h, hc⟩
  | succ n ih =>
    unfold rfLoop at he
    split_ifs at he with hc
    · exact ih (rfBody_inv hsg hx hy hc h) he
    · injection he with he; subst he; exact ⟨h, hc⟩

theorem rfLoop_stop {func : K → K} {sign xtol ytol : K} {s : RF K} (hc : ¬ rfCond xtol ytol s)
    (n : Nat) : rfLoop func sign xtol ytol n s = some s := by
  cases n <;> simp [rfLoop, hc]

theorem rfLoop_terminates {func : K → K} {sign xtol ytol : K} (hx : 0 ≤ xtol) (n : Nat) (s : RF K)
    (hn : 1000 ≤ s.iter + n) : ∃ t, rfLoop func sign xtol ytol n s = some t := by
  induction n generalizing s with
  | zero =>
    refine ⟨s, rfLoop_stop ?_ 0⟩
    intro hc; have := hc.2.2; omega
  | succ n ih =>
    unfold rfLoop
    split_ifs with hc
    · have hcol : ∀ t : RF K, t.a = t.b → ¬ rfCond xtol ytol t := by
        intro t ht hct; have := hct.1; rw [ht] at this; linarith
      have hbody : (rfBody func sign s).a = (rfBody func sign s).b ∨
          (rfBody func sign s).iter = s.iter + 1 := by
        unfold rfBody
        simp only
        split_ifs <;> simp
      rcases hbody with hb | hb
      · exact ⟨_, rfLoop_stop (hcol _ hb) n⟩
      · exact ih _ (by rw [hb]; omega)
    · exact ⟨s, rfl⟩

theorem rfStart_inv {func : K → K} {lo hi : K} {br : Br K} (h1 : lo ≤ br.a) (h2 : br.b ≤ hi)
    (h3 : br.a ≤ br.b) (hya : br.ya = func br.a) (hyb : br.yb = func br.b)
    (hch : func br.a * func br.b ≤ 0) :
    ((rfStart br).1 = 1 ∨ (rfStart br).1 = -1) ∧ RFInv func (rfStart br).1 lo hi (rfStart br).2 := by
  refine ⟨by unfold rfStart; simp only; split_ifs <;> simp, ?_⟩
  unfold rfStart
  simp only
  refine ⟨h1, h2, h3, hch, ?_, by simp⟩
  simp only
  rw [hya, hyb]
  right
  split_ifs with hn
  · right
    have : 0 ≤ func br.b := by
      by_contra hh; push Not at hh; nlinarith
    refine ⟨by simpa using hn, by simpa using this, by simpa using hn, by simp, by simpa using this⟩
  · rcases eq_or_lt_of_le (not_lt.mp hn) with h0 | h0
    · left; rw [← h0]; simp
    · right
      have : func br.b ≤ 0 := by
        by_contra hh; push Not at hh; nlinarith
      refine ⟨by simpa using h0, by simpa using this, by simpa using h0, by simp, by simpa using this⟩

theorem levelSearch_spec {f : K → K} {a dx guess yg : K} (hdx : 0 ≤ dx) (hg : yg = f guess)
    (i n : Nat) {br : Br K} (h : levelSearch f a dx guess yg i n = some br) :
    br.ya = f br.a ∧ br.yb = f br.b ∧ f br.a * f br.b ≤ 0 ∧ br.a ≤ br.b ∧
    min a guess ≤ br.a ∧ br.b ≤ max guess (a + ((i + n : Nat) - 1 / 2) * dx) := by
  induction n generalizing i with
  | zero => simp [levelSearch] at h
  | succ n ih =>
    unfold levelSearch at h
    simp only at h
    have hn1 : (0 : K) ≤ n := Nat.cast_nonneg n
    have hi1 : (0 : K) ≤ i := Nat.cast_nonneg i
    have hxle : a + ((i : K) + 1 / 2) * dx ≤ a + (((i + (n + 1) : Nat) : K) - 1 / 2) * dx := by
      push_cast
      nlinarith
    have hxge : a ≤ a + ((i : K) + 1 / 2) * dx := by nlinarith
    split_ifs at h with hb hlt
    · injection h with h; subst h
      have hb : f (a + ((i : K) + 1 / 2) * dx) * yg ≤ 0 := by simpa [checkBracket] using hb
      refine ⟨rfl, hg, by rw [← hg]; exact hb, hlt.le, ?_, le_max_left _ _⟩
      exact le_trans (min_le_left _ _) hxge
    · injection h with h; subst h
      have hb : f (a + ((i : K) + 1 / 2) * dx) * yg ≤ 0 := by simpa [checkBracket] using hb
      refine ⟨hg, rfl, by rw [← hg, mul_comm]; exact hb, not_lt.mp hlt, min_le_right _ _, ?_⟩
      exact le_trans hxle (le_max_right _ _)
    · have := ih (i + 1) h
      rw [show i + 1 + n = i + (n + 1) by omega] at this
      exact this

theorem levels_spec {f : K → K} {a dx guess yg : K} (hdx : 0 ≤ dx) (hg : yg = f guess)
    (l n : Nat) {br : Br K} (h : levels f a dx guess yg l n = some br) :
    br.ya = f br.a ∧ br.yb = f br.b ∧ f br.a * f br.b ≤ 0 ∧ br.a ≤ br.b ∧
    min a guess ≤ br.a ∧ br.b ≤ max guess (a + (((2 ^ (l + n - 1) : Nat) : K) - 1 / 2) * dx) := by
  induction n generalizing l with
  | zero => simp [levels] at h
  | succ n ih =>
    unfold levels at h
    cases hls : levelSearch f a dx guess yg 0 (2 ^ l) with
    | some r =>
      rw [hls] at h
      injection h with h; subst h
      obtain ⟨a1, a2, a3, a4, a5, a6⟩ := levelSearch_spec hdx hg 0 _ hls
      refine ⟨a1, a2, a3, a4, a5, le_trans a6 (max_le_max le_rfl ?_)⟩
      have : ((2 ^ l : Nat) : K) ≤ ((2 ^ (l + (n + 1) - 1) : Nat) : K) := by
        exact_mod_cast Nat.pow_le_pow_right (by norm_num) (by omega)
      rw [Nat.zero_add]
      nlinarith
    | none =>
      rw [hls] at h
      have := ih (l + 1) h
      rw [show l + 1 + n - 1 = l + (n + 1) - 1 by omega] at this
      exact this

/-- Any bracket chosen by `initBracket` has matching values and a sign change, and lies between `a` and
`max b (a + 31.5 (b - a))`. -/
theorem initBracket_spec {func : K → K} {guess a b : K} (h1 : a ≤ guess) (h2 : guess ≤ b) {br : Br K}
    (h : initBracket func guess a b = some br) :
    br.ya = func br.a ∧ br.yb = func br.b ∧ func br.a * func br.b ≤ 0 ∧ br.a ≤ br.b ∧
    a ≤ br.a ∧ br.b ≤ max b (a + 63 / 2 * (b - a)) := by
  unfold initBracket at h
  simp only at h
  split_ifs at h with hb1 hb2
  · injection h with h; subst h
    exact ⟨rfl, rfl, by simpa [checkBracket] using hb1, h1, le_rfl, le_max_of_le_left h2⟩
  · injection h with h; subst h
    exact ⟨rfl, rfl, by simpa [checkBracket] using hb2, h2, h1, le_max_left _ _⟩
  · unfold setBracket at h
    obtain ⟨a1, a2, a3, a4, a5, a6⟩ := levels_spec (by linarith) rfl 0 6 h
    refine ⟨a1, a2, a3, a4, by simpa [h1] using a5, le_trans a6 (max_le_max h2 ?_)⟩
    norm_num

/-- Invariant for bisection. -/
def BrOk (f : K → K) (yt : K) (br : Br K) : Prop :=
  br.ya = f br.a - yt ∧ br.yb = f br.b - yt ∧ br.ya * br.yb ≤ 0

theorem bisectStep_ok {f : K → K} {yt : K} {br : Br K} (h : BrOk f yt br) :
    BrOk f yt (bisectStep f yt br) ∧
    (bisectStep f yt br).b - (bisectStep f yt br).a = (br.b - br.a) / 2 ∧
    ((bisectStep f yt br).a = br.a ∧ (bisectStep f yt br).b = (br.a + br.b) / 2 ∨
      (bisectStep f yt br).a = (br.a + br.b) / 2 ∧ (bisectStep f yt br).b = br.b) := by
  obtain ⟨h1, h2, h3⟩ := h
  unfold bisectStep
  simp only
  split_ifs with hc
  · refine ⟨⟨h1, rfl, hc⟩, ?_, Or.inl ⟨rfl, ?_⟩⟩ <;> simp only <;> ring
  · refine ⟨⟨rfl, h2, ?_⟩, ?_, Or.inr ⟨?_, rfl⟩⟩
    · simp only
      push Not at hc
      by_contra hh
      push Not at hh
      have : 0 < (br.ya * (f (1 / 2 * (br.a + br.b)) - yt)) *
          ((f (1 / 2 * (br.a + br.b)) - yt) * br.yb) := mul_pos hc hh
      have e : (br.ya * (f (1 / 2 * (br.a + br.b)) - yt)) *
          ((f (1 / 2 * (br.a + br.b)) - yt) * br.yb)
          = (f (1 / 2 * (br.a + br.b)) - yt) ^ 2 * (br.ya * br.yb) := by ring
      rw [e] at this
      nlinarith [sq_nonneg (f (1 / 2 * (br.a + br.b)) - yt)]
    · simp only; ring
    · simp only; ring

theorem bisectLoop_ok {f : K → K} {yt xtol : K} (n : Nat) {br : Br K} (h : BrOk f yt br) :
    BrOk f yt (bisectLoop f yt xtol n br).2 ∧
    ((bisectLoop f yt xtol n br).1 = true →
      (bisectLoop f yt xtol n br).2.b - (bisectLoop f yt xtol n br).2.a < xtol) ∧
    ∃ k ≤ n, (bisectLoop f yt xtol n br).2.b - (bisectLoop f yt xtol n br).2.a
      = (br.b - br.a) / 2 ^ k ∧ ((bisectLoop f yt xtol n br).1 = false → k = n) := by
  induction n generalizing br with
  | zero => exact ⟨h, by simp [bisectLoop], 0, le_rfl, by simp [bisectLoop], fun _ => rfl⟩
  | succ n ih =>
    obtain ⟨a1, a2, _⟩ := bisectStep_ok h
    unfold bisectLoop
    simp only
    split_ifs with hc
    · exact ⟨a1, fun _ => hc, 1, by omega, by rw [a2]; simp, by simp⟩
    · obtain ⟨b1, b2, k, hk, b3, b4⟩ := ih a1
      refine ⟨b1, b2, k + 1, by omega, ?_, fun hf => by rw [b4 hf]⟩
      rw [b3, a2, pow_succ]; field_simp

theorem region_vals {f : K → K} {yt xmin xmax x : K} (n : Nat) (g : K) {br : Br K}
    (h : region f yt xmin xmax x n g = some br) :
    br.ya = f br.a - yt ∧ br.yb = f br.b - yt := by
  induction n generalizing g with
  | zero => simp [region] at h
  | succ n ih =>
    unfold region at h
    simp only at h
    split_ifs at h with hc
    · injection h with h; subst h; exact ⟨rfl, rfl⟩
    · exact ih _ h

theorem repair_ok {f : K → K} {yt xmin xmax : K} {br br' : Br K}
    (h0 : br.ya = f br.a - yt ∧ br.yb = f br.b - yt)
    (h : repair f yt xmin xmax br = some br') : BrOk f yt br' := by
  obtain ⟨h1, h2⟩ := h0
  unfold repair at h
  simp only at h
  split_ifs at h <;>
    first
    | (injection h with h; subst h
       refine ⟨?_, ?_, ?_⟩ <;> first | rfl | assumption | (apply not_lt.mp; assumption))
    | contradiction

theorem nrLoop_range {dv : K → K → K} {f : K → K × K} {yt a b ytol : K} (hab : a ≤ b) (n : Nat)
    (x : K) (hx : a ≤ x ∧ x ≤ b) :
    ((nrLoop dv f yt a b ytol n x).2 ≠ some false →
      a ≤ (nrLoop dv f yt a b ytol n x).1 ∧ (nrLoop dv f yt a b ytol n x).1 ≤ b) := by
  induction n generalizing x with
  | zero => intro _; exact hx
  | succ n ih =>
    unfold nrLoop
    simp only
    split_ifs with h1 h2
    · intro _; exact hx
    · intro h; exact absurd rfl h
    · exact ih _ ⟨le_max_right _ _, max_le (min_le_right _ _) hab⟩

theorem nrLoop_conv {dv : K → K → K} {f : K → K × K} {yt a b ytol : K} (n : Nat) (x : K)
    (h : (nrLoop dv f yt a b ytol n x).2 = some true) :
    |(f (nrLoop dv f yt a b ytol n x).1).1 - yt| < |ytol * yt| := by
  induction n generalizing x with
  | zero => simp [nrLoop] at h
  | succ n ih =>
    unfold nrLoop at h ⊢
    simp only at h ⊢
    split_ifs at h ⊢ with h1 h2
    · exact h1
    · simp at h
    · exact ih _ h

theorem secantStep_range {dv : K → K → K} {f : K → K} {yt xmin xmax xtol : K} (h : xmin ≤ xmax)
    (x : K) : xmin ≤ secantStep dv f yt xmin xmax xtol x ∧
      secantStep dv f yt xmin xmax xtol x ≤ xmax := by
  unfold secantStep
  simp only
  split_ifs <;> constructor <;> linarith

theorem secantLoop_range {dv : K → K → K} {f : K → K} {yt xmin xmax xtol : K} (h : xmin ≤ xmax)
    (n : Nat) (p : K × K) : xmin ≤ (secantLoop dv f yt xmin xmax xtol (n + 1) p).1 ∧
      (secantLoop dv f yt xmin xmax xtol (n + 1) p).1 ≤ xmax := by
  induction n generalizing p with
  | zero =>
    unfold secantLoop
    simp only
    split_ifs
    · exact secantStep_range h _
    · simp only [secantLoop]; exact secantStep_range h _
  | succ n ih =>
    unfold secantLoop
    simp only
    split_ifs
    · exact secantStep_range h _
    · exact ih _

end Verif.RootFind
