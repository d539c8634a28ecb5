import Verif.Spec.Rounding
import Mathlib.Tactic.Linarith
import Mathlib.Tactic.Ring
import Mathlib.Tactic.FieldSimp
import Mathlib.Tactic.Positivity
import Mathlib.Data.Int.Log
import Mathlib.Algebra.Order.Round
import Mathlib.Data.Real.Archimedean

/-! # Rounding to nearest: exactness lemmas and the relative error -/

namespace Verif

namespace Rounding

variable {p : ℕ} {emin : ℤ} {rnd : ℝ → ℝ}

theorem two_zpow_pos (e : ℤ) : (0 : ℝ) < (2 : ℝ) ^ e := zpow_pos two_pos e

theorem two_zpow_add (a b : ℤ) : (2 : ℝ) ^ (a + b) = 2 ^ a * 2 ^ b := zpow_add₀ two_ne_zero a b

/-- `x` is an integer multiple of `2^e`. -/
def Mult (e : ℤ) (x : ℝ) : Prop := ∃ k : ℤ, x = (k : ℝ) * (2 : ℝ) ^ e

theorem Mult.add {e : ℤ} {x y : ℝ} (hx : Mult e x) (hy : Mult e y) : Mult e (x + y) := by
  obtain ⟨k, rfl⟩ := hx
  obtain ⟨l, rfl⟩ := hy
  exact ⟨k + l, by push_cast; ring⟩

theorem Mult.neg {e : ℤ} {x : ℝ} (hx : Mult e x) : Mult e (-x) := by
  obtain ⟨k, rfl⟩ := hx
  exact ⟨-k, by push_cast; ring⟩

theorem Mult.sub {e : ℤ} {x y : ℝ} (hx : Mult e x) (hy : Mult e y) : Mult e (x - y) := by
  rw [sub_eq_add_neg]
  exact hx.add hy.neg

theorem Mult.mono {e f : ℤ} (h : f ≤ e) {x : ℝ} (hx : Mult e x) : Mult f x := by
  obtain ⟨k, rfl⟩ := hx
  obtain ⟨d, rfl⟩ := Int.le.dest h
  refine ⟨k * 2 ^ d, ?_⟩
  rw [two_zpow_add]
  push_cast
  rw [zpow_natCast]
  ring

theorem IsFloat.mult {x : ℝ} (h : IsFloat p emin x) : Mult emin x := by
  obtain ⟨m, e, -, he, rfl⟩ := h
  exact Mult.mono he ⟨m, rfl⟩

theorem IsFloat.neg {x : ℝ} (h : IsFloat p emin x) : IsFloat p emin (-x) := by
  obtain ⟨m, e, hm, he, rfl⟩ := h
  exact ⟨-m, e, by rwa [abs_neg], he, by push_cast; ring⟩

theorem isFloat_zero : IsFloat p emin 0 := ⟨0, emin, by simp, le_rfl, by simp⟩

/-- A multiple of `2^e` of size at most `2^p · 2^e` is in the format. -/
theorem isFloat_of_mult (hp : 1 ≤ p) {e : ℤ} (he : emin ≤ e) {x : ℝ} (hx : Mult e x) (hb : |x| ≤ 2 ^ p * 2 ^ e) :
    IsFloat p emin x := by
  obtain ⟨k, rfl⟩ := hx
  have h2 := two_zpow_pos e
  rw [abs_mul, abs_of_pos h2] at hb
  have hk : |(k : ℝ)| ≤ 2 ^ p := le_of_mul_le_mul_right hb h2
  have hk' : |k| ≤ 2 ^ p := by exact_mod_cast hk
  rcases lt_or_eq_of_le hk' with h | h
  · exact ⟨k, e, h, he, rfl⟩
  · have h1 : (1 : ℤ) < 2 ^ p := one_lt_pow₀ (by norm_num) (by omega)
    rcases abs_choice k with h3 | h3
    · refine ⟨1, e + p, by simpa using h1, by omega, ?_⟩
      rw [h3] at h
      rw [h, two_zpow_add]
      push_cast
      rw [zpow_natCast]
      ring
    · refine ⟨-1, e + p, by simpa using h1, by omega, ?_⟩
      rw [h3] at h
      have : k = -2 ^ p := by omega
      rw [this, two_zpow_add]
      push_cast
      rw [zpow_natCast]
      ring

theorem ToNearest.exact (h : ToNearest p emin rnd) {x : ℝ} (hx : IsFloat p emin x) : rnd x = x := by
  have := h.nearest x x hx
  rw [sub_self, abs_zero] at this
  have := abs_nonpos_iff.mp this
  linarith

/-- A number of the format of size at least `2^p · 2^e` is a multiple of `2^(e+1)`. -/
theorem IsFloat.mult_of_large {f : ℝ} {e : ℤ} (hf : IsFloat p emin f) (h : 2 ^ p * 2 ^ e ≤ |f|) : Mult (e + 1) f := by
  obtain ⟨m, g, hm, -, rfl⟩ := hf
  refine Mult.mono ?_ ⟨m, rfl⟩
  have h2 := two_zpow_pos g
  rw [abs_mul, abs_of_pos h2] at h
  have hm' : |(m : ℝ)| < 2 ^ p := by exact_mod_cast hm
  have h3 : (2 : ℝ) ^ p * 2 ^ e < 2 ^ p * 2 ^ g := lt_of_le_of_lt h (mul_lt_mul_of_pos_right hm' h2)
  have h4 : (2 : ℝ) ^ e < 2 ^ g := lt_of_mul_lt_mul_left h3 (by positivity)
  have := (zpow_lt_zpow_iff_right₀ (one_lt_two : (1 : ℝ) < 2)).mp h4
  omega

/-- A number larger than `2^p · 2^e` rounds to one at least as large. -/
theorem ToNearest.large (h : ToNearest p emin rnd) (hp : 1 ≤ p) {e : ℤ} (he : emin ≤ e) {x : ℝ}
    (hx : 2 ^ p * 2 ^ e ≤ |x|) : 2 ^ p * 2 ^ e ≤ |rnd x| := by
  have hP : IsFloat p emin (2 ^ p * 2 ^ e) :=
    isFloat_of_mult hp he ⟨2 ^ p, by push_cast; ring⟩ (le_of_eq (abs_of_pos (by positivity)))
  set P := (2 : ℝ) ^ p * 2 ^ e with hPd
  have hPpos : 0 < P := by positivity
  by_contra hc
  push Not at hc
  have h1 := abs_lt.mp hc
  rcases le_or_gt 0 x with h0 | h0
  · rw [abs_of_nonneg h0] at hx
    have h2 := h.nearest x P hP
    rw [abs_of_nonneg (by linarith), abs_of_nonneg (by linarith)] at h2
    linarith
  · rw [abs_of_neg h0] at hx
    have h2 := h.nearest x (-P) hP.neg
    rw [abs_of_nonpos (by linarith), abs_of_nonpos (by linarith)] at h2
    linarith

/-- Either a multiple of `2^e` is in the format, or it and its rounding are larger than `2^p · 2^e` and the rounding is a
multiple of `2^(e+1)`. -/
theorem ToNearest.cases (h : ToNearest p emin rnd) (hp : 1 ≤ p) {e : ℤ} (he : emin ≤ e) {x : ℝ} (hx : Mult e x) :
    rnd x = x ∨ (2 ^ p * 2 ^ e < |x| ∧ Mult (e + 1) (rnd x)) := by
  rcases le_or_gt (|x|) (2 ^ p * 2 ^ e) with h1 | h1
  · exact Or.inl (h.exact (isFloat_of_mult hp he hx h1))
  · exact Or.inr ⟨h1, (h.isFloat x).mult_of_large (h.large hp he h1.le)⟩

/-- The error of a rounded sum of two numbers of the format is in the format. -/
theorem ToNearest.error_isFloat (h : ToNearest p emin rnd) (hp : 1 ≤ p) {a b : ℝ} (ha : IsFloat p emin a)
    (hb : IsFloat p emin b) : IsFloat p emin ((a + b) - rnd (a + b)) := by
  have key : ∀ {a b : ℝ} {ma ea mb eb : ℤ}, IsFloat p emin a → |mb| < 2 ^ p → emin ≤ eb →
      a = ma * (2 : ℝ) ^ ea → b = mb * (2 : ℝ) ^ eb → eb ≤ ea → IsFloat p emin ((a + b) - rnd (a + b)) := by
    intro a b ma ea mb eb hfa hmb heb rfla rflb hle
    have hma : Mult eb a := Mult.mono hle ⟨ma, rfla⟩
    have hmb' : Mult eb b := ⟨mb, rflb⟩
    rcases h.cases hp heb (hma.add hmb') with h1 | ⟨-, h1⟩
    · rw [h1, sub_self]
      exact isFloat_zero
    · refine isFloat_of_mult hp heb ((hma.add hmb').sub (h1.mono (by omega))) ?_
      have h2 := h.nearest (a + b) a hfa
      rw [add_sub_cancel_left] at h2
      refine h2.trans ?_
      rw [rflb, abs_mul, abs_of_pos (two_zpow_pos eb)]
      have : |(mb : ℝ)| < 2 ^ p := by exact_mod_cast hmb
      exact mul_le_mul_of_nonneg_right this.le (two_zpow_pos eb).le
  obtain ⟨ma, ea, hma, hea, rfla⟩ := id ha
  obtain ⟨mb, eb, hmb, heb, rflb⟩ := id hb
  rcases le_total eb ea with hle | hle
  · exact key ha hmb heb rfla rflb hle
  · rw [add_comm a b]
    exact key hb hma hea rflb rfla hle

/-- If `|b| ≤ |a|`, the difference between the rounded sum and `a` is in the format. -/
theorem ToNearest.sum_sub_isFloat (h : ToNearest p emin rnd) (hp : 1 ≤ p) {a b : ℝ} (ha : IsFloat p emin a)
    (hb : IsFloat p emin b) (hab : |b| ≤ |a|) : IsFloat p emin (rnd (a + b) - a) := by
  have herr := h.nearest (a + b) a ha
  rw [add_sub_cancel_left] at herr
  have htri : |rnd (a + b) - a| ≤ |b| + |a + b - rnd (a + b)| := by
    have : rnd (a + b) - a = b - (a + b - rnd (a + b)) := by ring
    rw [this]
    exact abs_sub _ _
  obtain ⟨ma, ea, hma, hea, rfla⟩ := id ha
  obtain ⟨mb, eb, hmb, heb, rflb⟩ := id hb
  have hmb' : |(mb : ℝ)| < 2 ^ p := by exact_mod_cast hmb
  have hbb : |b| < 2 ^ p * 2 ^ eb := by
    rw [rflb, abs_mul, abs_of_pos (two_zpow_pos eb)]
    exact mul_lt_mul_of_pos_right hmb' (two_zpow_pos eb)
  have hMa : Mult ea a := ⟨ma, rfla⟩
  have hMb : Mult eb b := ⟨mb, rflb⟩
  rcases lt_or_ge eb ea with hle | hle
  · rcases h.cases hp heb ((hMa.mono hle.le).add hMb) with h1 | ⟨-, h1⟩
    · rw [h1, add_sub_cancel_left]
      exact hb
    · refine isFloat_of_mult hp (by omega : emin ≤ eb + 1) (h1.sub (hMa.mono (by omega))) ?_
      rw [two_zpow_add, zpow_one]
      linarith
  · rcases h.cases hp hea (hMa.add (hMb.mono hle)) with h1 | ⟨-, h1⟩
    · rw [h1, add_sub_cancel_left]
      exact hb
    · refine isFloat_of_mult hp hea ((h1.mono (by omega)).sub hMa) ?_
      have hma1 : |ma| ≤ 2 ^ p - 1 := by omega
      have hma' : |(ma : ℝ)| ≤ 2 ^ p - 1 := by exact_mod_cast hma1
      have haa : |a| ≤ 2 ^ p * 2 ^ ea - 2 ^ ea := by
        rw [rfla, abs_mul, abs_of_pos (two_zpow_pos ea)]
        have := mul_le_mul_of_nonneg_right hma' (two_zpow_pos ea).le
        linarith
      -- the nearest multiple of `2^(ea+1)` is in the format
      obtain ⟨k, hk⟩ := hMa.add (hMb.mono hle)
      have hs : |a + b| ≤ 2 ^ p * 2 ^ (ea + 1) - 2 ^ (ea + 1) := by
        have := abs_add_le a b
        rw [two_zpow_add, zpow_one]
        linarith
      have hb2 : |a + b - rnd (a + b)| ≤ 2 ^ ea := by
        rcases Int.even_or_odd' k with ⟨j, hj | hj⟩
        · have hf : IsFloat p emin (a + b) := by
            refine isFloat_of_mult hp (by omega : emin ≤ ea + 1) ⟨j, ?_⟩ ?_
            · rw [hk, hj, two_zpow_add, zpow_one]
              push_cast
              ring
            · exact hs.trans (by have := two_zpow_pos (ea + 1); linarith)
          rw [h.exact hf, sub_self, abs_zero]
          exact (two_zpow_pos ea).le
        · have hm : Mult (ea + 1) ((j : ℝ) * 2 ^ (ea + 1)) := ⟨j, rfl⟩
          have hd : a + b - (j : ℝ) * 2 ^ (ea + 1) = 2 ^ ea := by
            rw [hk, hj, two_zpow_add, zpow_one]
            push_cast
            ring
          have hf : IsFloat p emin ((j : ℝ) * 2 ^ (ea + 1)) := by
            refine isFloat_of_mult hp (by omega : emin ≤ ea + 1) hm ?_
            have h5 : |(j : ℝ) * 2 ^ (ea + 1)| ≤ |a + b| + 2 ^ ea := by
              have e1 : (j : ℝ) * 2 ^ (ea + 1) = (a + b) - 2 ^ ea := by linarith
              rw [e1]
              have := abs_sub (a + b) ((2 : ℝ) ^ ea)
              rwa [abs_of_pos (two_zpow_pos ea)] at this
            have h6 : (2 : ℝ) ^ (ea + 1) = 2 ^ ea * 2 := by rw [two_zpow_add, zpow_one]
            have := two_zpow_pos ea
            linarith
          have := h.nearest (a + b) _ hf
          rwa [hd, abs_of_pos (two_zpow_pos ea)] at this
      linarith

/-- The relative error of rounding a multiple of the smallest number of the format. -/
theorem ToNearest.rel_error (h : ToNearest p emin rnd) (hp : 1 ≤ p) {x : ℝ} (hx : Mult emin x) :
    |x - rnd x| ≤ unitRoundoff p * |x| := by
  have hu : 0 ≤ unitRoundoff p := by unfold unitRoundoff; positivity
  rcases h.cases hp le_rfl hx with h1 | ⟨h1, -⟩
  · rw [h1, sub_self, abs_zero]
    positivity
  · have hx0 : 0 < |x| := lt_of_le_of_lt (by positivity) h1
    set g := Int.log 2 |x| with hg
    have hlo : (2 : ℝ) ^ g ≤ |x| := by
      have := Int.zpow_log_le_self (b := 2) (by norm_num) hx0
      exact_mod_cast this
    have hhi : |x| < (2 : ℝ) ^ (g + 1) := by
      have := Int.lt_zpow_succ_log_self (b := 2) (by norm_num) |x|
      exact_mod_cast this
    -- spacing
    set e := g + 1 - p with he
    have hpe : (2 : ℝ) ^ p * 2 ^ e = 2 ^ (g + 1) := by
      rw [he, ← zpow_natCast, ← two_zpow_add]
      congr 1
      ring
    have hee : emin ≤ e := by
      have h3 : (2 : ℝ) ^ (emin + p) < 2 ^ (g + 1) := by
        rw [two_zpow_add, zpow_natCast]
        linarith
      have := (zpow_lt_zpow_iff_right₀ (one_lt_two : (1 : ℝ) < 2)).mp h3
      omega
    set k := round (x / 2 ^ e) with hkd
    have h2e := two_zpow_pos e
    have hk1 : |x / 2 ^ e - k| ≤ 1 / 2 := abs_sub_round _
    have hk2 : |x - k * 2 ^ e| ≤ 2 ^ e / 2 := by
      have : x - k * 2 ^ e = (x / 2 ^ e - k) * 2 ^ e := by field_simp
      rw [this, abs_mul, abs_of_pos h2e]
      linarith [mul_le_mul_of_nonneg_right hk1 h2e.le]
    have hf : IsFloat p emin ((k : ℝ) * 2 ^ e) := by
      refine isFloat_of_mult hp hee ⟨k, rfl⟩ ?_
      have hlt : |x / 2 ^ e| < 2 ^ p := by
        rw [abs_div, abs_of_pos h2e, div_lt_iff₀ h2e, hpe]
        exact hhi
      have h4 : |(k : ℝ)| < 2 ^ p + 1 := by
        have : (k : ℝ) = x / 2 ^ e - (x / 2 ^ e - k) := by ring
        rw [this]
        have := abs_sub (x / 2 ^ e) (x / 2 ^ e - k)
        linarith
      have h5 : |k| < 2 ^ p + 1 := by exact_mod_cast h4
      have h6 : |k| ≤ 2 ^ p := by omega
      have h7 : |(k : ℝ)| ≤ 2 ^ p := by exact_mod_cast h6
      rw [abs_mul, abs_of_pos h2e]
      exact mul_le_mul_of_nonneg_right h7 h2e.le
    refine (h.nearest x _ hf).trans (hk2.trans ?_)
    have h8 : (2 : ℝ) ^ e / 2 = unitRoundoff p * 2 ^ g := by
      have : (2 : ℝ) ^ (g + 1) = 2 ^ g * 2 := by rw [two_zpow_add, zpow_one]
      unfold unitRoundoff
      have hp2 : (0 : ℝ) < 2 ^ p := by positivity
      field_simp
      linarith
    rw [h8]
    exact mul_le_mul_of_nonneg_left hlo hu

end Rounding

end Verif
