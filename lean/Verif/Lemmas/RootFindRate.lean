import Verif.Lemmas.RootFind
import Mathlib.Tactic.Positivity
import Mathlib.Tactic.FieldSimp

set_option linter.unusedSectionVars false

/-! `regula_falsi` on functions with a slope bounded away from zero: invariants that survive the halving of the stored
end values. -/

namespace Verif.RootFind

variable {K : Type*} [Field K] [LinearOrder K] [IsStrictOrderedRing K]

/-- The chords of `g` through `r` rise at least at rate `m` on `[lo, hi]`. -/
def RateGe (g : K → K) (m r lo hi : K) : Prop :=
  ∀ x y, lo ≤ x → x ≤ y → y ≤ hi → (x = r ∨ y = r) → m * (y - x) ≤ g y - g x

/-- Invariant with lower slope bound `m` and root `r`. -/
structure RateInv (g : K → K) (m r lo hi : K) (s : RF K) : Prop where
  lo_le : lo ≤ s.a
  le_r : s.a ≤ r
  r_le : r ≤ s.b
  le_hi : s.b ≤ hi
  val : s.a = s.b ∨ (m / 2 * (r - s.a) ≤ -s.ya ∧ m / 2 * (s.b - r) ≤ s.yb ∧ (0 < s.b1 → s.yb = g s.b) ∧
    (0 < s.b2 → s.ya = g s.a))

theorem rate_body {func : K → K} {sign m r lo hi xtol ytol : K} {s : RF K} (hm : 0 < m)
    (hg : RateGe (fun x => sign * func x) m r lo hi) (hr : sign * func r = 0) (hx : 0 ≤ xtol)
    (hc : rfCond xtol ytol s) (h : RateInv (fun x => sign * func x) m r lo hi s) :
    RateInv (fun x => sign * func x) m r lo hi (rfBody func sign s) := by
  have hlt : s.a < s.b := by have := hc.1; linarith
  obtain ⟨h1, h2, h3, h4, h5⟩ := h
  rcases h5 with h5 | ⟨ha, hb, hb1, hb2⟩
  · exact absurd h5 hlt.ne
  have hlr : lo ≤ r := h1.trans h2
  have hrh : r ≤ hi := h3.trans h4
  have hA : 0 ≤ m / 2 * (r - s.a) := mul_nonneg (by linarith) (by linarith)
  have hB : 0 ≤ m / 2 * (s.b - r) := mul_nonneg (by linarith) (by linarith)
  have hden : 0 < s.yb - s.ya := by nlinarith
  set c := (s.a * s.yb - s.b * s.ya) / (s.yb - s.ya) with hcdef
  have hcm : c * (s.yb - s.ya) = s.a * s.yb - s.b * s.ya := by rw [hcdef]; field_simp
  have hca : s.a ≤ c := by rw [hcdef, le_div_iff₀ hden]; nlinarith
  have hcb : c ≤ s.b := by rw [hcdef, div_le_iff₀ hden]; nlinarith
  unfold rfBody
  simp only [← hcdef]
  by_cases e1 : c = s.a
  · rw [if_pos e1]
    have hya : s.ya = 0 := by
      rw [e1] at hcm
      have : (s.b - s.a) * s.ya = 0 := by linear_combination hcm
      rcases mul_eq_zero.1 this with h | h
      · linarith
      · exact h
    have : r ≤ s.a := by
      rw [hya] at ha
      by_contra hh; push Not at hh
      have := mul_pos (by linarith : (0 : K) < m / 2) (by linarith : 0 < r - s.a)
      linarith
    exact ⟨h1, h2, this, hlt.le.trans h4, Or.inl rfl⟩
  rw [if_neg e1]
  by_cases e2 : c = s.b
  · rw [if_pos e2]
    have hyb : s.yb = 0 := by
      rw [e2] at hcm
      have : (s.b - s.a) * s.yb = 0 := by linear_combination hcm
      rcases mul_eq_zero.1 this with h | h
      · linarith
      · exact h
    have : s.b ≤ r := by
      rw [hyb] at hb
      by_contra hh; push Not at hh
      have := mul_pos (by linarith : (0 : K) < m / 2) (by linarith : 0 < s.b - r)
      linarith
    exact ⟨h1.trans hlt.le, this, h3, h4, Or.inl rfl⟩
  rw [if_neg e2]
  have cl : lo ≤ c := h1.trans hca
  have ch : c ≤ hi := hcb.trans h4
  by_cases hp : sign * func c > 0
  · rw [if_pos hp]
    have hcr : r < c := by
      by_contra hh; push Not at hh
      have := hg c r cl hh hrh (Or.inr rfl)
      have h0 : 0 ≤ m * (r - c) := mul_nonneg hm.le (by linarith)
      simp only [hr] at this; linarith
    have gc : m * (c - r) ≤ sign * func c := by have := hg r c hlr hcr.le ch (Or.inl rfl); simp only [hr] at this; linarith
    have gc' : m / 2 * (c - r) ≤ sign * func c := by
      have : 0 ≤ m / 2 * (c - r) := mul_nonneg (by linarith) (by linarith)
      linarith
    refine ⟨h1, h2, hcr.le, ch, Or.inr ⟨?_, gc', fun _ => rfl, fun h => by simp at h⟩⟩
    dsimp only
    split_ifs with hk
    · have hyb : s.yb = sign * func s.b := hb1 (by omega)
      have gb : m * (s.b - r) ≤ s.yb := by
        have := hg r s.b hlr h3 h4 (Or.inl rfl)
        simp only [hr] at this; rw [hyb]; linarith
      have key : r * (s.yb - s.ya) < c * (s.yb - s.ya) := mul_lt_mul_of_pos_right hcr hden
      rw [hcm] at key
      have hbr : 0 < s.b - r := by linarith
      have : m * (r - s.a) * (s.b - r) ≤ -s.ya * (s.b - r) := by nlinarith
      have := le_of_mul_le_mul_right this hbr
      linarith
    · rw [mul_one]; exact ha
  rw [if_neg hp]
  by_cases hn : sign * func c < 0
  · rw [if_pos hn]
    have hcr : c < r := by
      by_contra hh; push Not at hh
      have := hg r c hlr hh ch (Or.inl rfl)
      have h0 : 0 ≤ m * (c - r) := mul_nonneg hm.le (by linarith)
      simp only [hr] at this; linarith
    have gc : m * (r - c) ≤ -(sign * func c) := by have := hg c r cl hcr.le hrh (Or.inr rfl); simp only [hr] at this; linarith
    have gc' : m / 2 * (r - c) ≤ -(sign * func c) := by
      have : 0 ≤ m / 2 * (r - c) := mul_nonneg (by linarith) (by linarith)
      linarith
    refine ⟨cl, hcr.le, h3, h4, Or.inr ⟨gc', ?_, fun h => by simp at h, fun _ => rfl⟩⟩
    dsimp only
    split_ifs with hk
    · have hya : s.ya = sign * func s.a := hb2 (by omega)
      have ga : m * (r - s.a) ≤ -s.ya := by
        have := hg s.a r h1 h2 hrh (Or.inr rfl)
        simp only [hr] at this; rw [hya]; linarith
      have key : c * (s.yb - s.ya) < r * (s.yb - s.ya) := mul_lt_mul_of_pos_right hcr hden
      rw [hcm] at key
      have har : 0 < r - s.a := by linarith
      have : m * (s.b - r) * (r - s.a) ≤ s.yb * (r - s.a) := by nlinarith
      have := le_of_mul_le_mul_right this har
      linarith
    · rw [mul_one]; exact hb
  · rw [if_neg hn]
    have hz : sign * func c = 0 := le_antisymm (not_lt.1 hp) (not_lt.1 hn)
    have hcr : c = r := by
      rcases lt_trichotomy c r with hh | hh | hh
      · have := hg c r cl hh.le hrh (Or.inr rfl)
        have h0 : 0 < m * (r - c) := mul_pos hm (by linarith)
        simp only [hr, hz] at this; linarith
      · exact hh
      · have := hg r c hlr hh.le ch (Or.inl rfl)
        have h0 : 0 < m * (c - r) := mul_pos hm (by linarith)
        simp only [hr, hz] at this; linarith
    exact ⟨cl, hcr.le, hcr.ge, ch, Or.inl rfl⟩

theorem rate_loop {func : K → K} {sign m r lo hi xtol ytol : K} (hm : 0 < m)
    (hg : RateGe (fun x => sign * func x) m r lo hi) (hr : sign * func r = 0) (hx : 0 ≤ xtol) (n : Nat) {s t : RF K}
    (h : RateInv (fun x => sign * func x) m r lo hi s) (he : rfLoop func sign xtol ytol n s = some t) :
    RateInv (fun x => sign * func x) m r lo hi t ∧ ¬ rfCond xtol ytol t := by
  induction n generalizing s with
  | zero =>
    unfold rfLoop at he
    split_ifs at he with hc
    injection he with he; subst he; exact ⟨h, hc⟩
  | succ n ih =>
    unfold rfLoop at he
    split_ifs at he with hc
    · exact ih (rate_body hm hg hr hx hc h) he
    · injection he with he; subst he; exact ⟨h, hc⟩

/-- What the final state says about the midpoint. -/
theorem rate_final {g : K → K} {m r lo hi xtol ytol : K} {t : RF K} (hm : 0 < m) (hx : 0 ≤ xtol) (hy : 0 ≤ ytol)
    (h : RateInv g m r lo hi t) (hc : ¬ rfCond xtol ytol t) (hi1 : t.iter < 1000) :
    |(t.a + t.b) / 2 - r| ≤ xtol ∨ |(t.a + t.b) / 2 - r| ≤ 2 * ytol / m := by
  obtain ⟨-, h2, h3, -, h5⟩ := h
  by_cases hw : t.b - t.a > 2 * xtol
  · right
    have hres : |t.ya| ≤ ytol ∧ |t.yb| ≤ ytol := by
      by_contra hh
      refine hc ⟨hw, ?_, hi1⟩
      by_contra hh2
      push Not at hh2
      exact hh hh2
    rcases h5 with h5 | ⟨ha, hb, -, -⟩
    · rw [h5] at hw; linarith
    · have hya := (neg_le_abs t.ya).trans hres.1
      have hyb := (le_abs_self t.yb).trans hres.2
      rw [le_div_iff₀ hm, ← abs_of_pos hm, ← abs_mul, abs_le]
      constructor <;> nlinarith
  · left
    push Not at hw
    rw [abs_le]
    constructor <;> linarith

/-- What `regula_falsi` starts its loop from, when the caller's interval contains the root: an interval inside with the
root in it and the true end values. -/
theorem initBracket_root {func : K → K} {τ m r guess a b : K} (hτ : τ = 1 ∨ τ = -1) (hm : 0 < m)
    (hg : RateGe (fun x => τ * func x) m r a b) (hra : a ≤ r) (hrb : r ≤ b) (hr : func r = 0)
    (h1 : a ≤ guess) (h2 : guess ≤ b) :
    ∃ br, initBracket func guess a b = some br ∧ a ≤ br.a ∧ br.a ≤ r ∧ r ≤ br.b ∧ br.b ≤ b ∧
      br.ya = func br.a ∧ br.yb = func br.b := by
  have hlt : ∀ x, a ≤ x → x < r → τ * func x < 0 := fun x hx hxr => by
    have := hg x r hx hxr.le hrb (Or.inr rfl)
    have h0 : 0 < m * (r - x) := mul_pos hm (by linarith)
    simp only [hr, mul_zero] at this; linarith
  have hgt : ∀ x, r < x → x ≤ b → 0 < τ * func x := fun x hxr hx => by
    have := hg r x hra hxr.le hx (Or.inl rfl)
    have h0 : 0 < m * (x - r) := mul_pos hm (by linarith)
    simp only [hr, mul_zero] at this; linarith
  have hle : ∀ x, a ≤ x → x ≤ r → τ * func x ≤ 0 := fun x hx hxr => by
    rcases hxr.lt_or_eq with h | h
    · exact (hlt x hx h).le
    · rw [h, hr, mul_zero]
  have hge : ∀ x, r ≤ x → x ≤ b → 0 ≤ τ * func x := fun x hxr hx => by
    rcases hxr.lt_or_eq with h | h
    · exact (hgt x h hx).le
    · rw [← h, hr, mul_zero]
  have hsq : τ * τ = 1 := by rcases hτ with rfl | rfl <;> ring
  unfold initBracket
  simp only [checkBracket]
  by_cases hb1 : func a * func guess ≤ 0
  · simp only [hb1, decide_true, if_true]
    refine ⟨_, rfl, le_rfl, hra, ?_, h2, rfl, rfl⟩
    by_contra hh; push Not at hh
    have e1 := hlt guess h1 hh
    have e2 : τ * func a < 0 := hlt a le_rfl (h1.trans_lt hh)
    have : func a * func guess = (τ * func a) * (τ * func guess) := by linear_combination -(func a * func guess) * hsq
    rw [this] at hb1
    exact absurd (mul_pos_of_neg_of_neg e2 e1) (not_lt.2 hb1)
  · have hgr : guess < r := by
      by_contra hh; push Not at hh
      apply hb1
      have e1 := hge guess hh h2
      have e2 := hle a le_rfl hra
      have : func a * func guess = (τ * func a) * (τ * func guess) := by linear_combination -(func a * func guess) * hsq
      rw [this]
      exact mul_nonpos_of_nonpos_of_nonneg e2 e1
    have hb2 : func guess * func b ≤ 0 := by
      have e1 := hge b hrb le_rfl
      have e2 := hle guess h1 hgr.le
      have : func guess * func b = (τ * func guess) * (τ * func b) := by linear_combination -(func guess * func b) * hsq
      rw [this]
      exact mul_nonpos_of_nonpos_of_nonneg e2 e1
    simp only [hb1, decide_false, Bool.false_eq_true, if_false, hb2, decide_true, if_true]
    exact ⟨_, rfl, h1, hgr.le, hrb, le_rfl, rfl, rfl⟩

/-- The start of the loop: either the working function is the rising one and the invariant holds, or the left end is the
root. -/
theorem rfStart_rate {func : K → K} {τ m r a b : K} {br : Br K} (hτ : τ = 1 ∨ τ = -1) (hm : 0 < m)
    (hg : RateGe (fun x => τ * func x) m r a b) (hr : func r = 0)
    (h1 : a ≤ br.a) (h2 : br.a ≤ r) (h3 : r ≤ br.b) (h4 : br.b ≤ b) (hya : br.ya = func br.a) (hyb : br.yb = func br.b) :
    ((rfStart br).1 = τ ∧ RateInv (fun x => τ * func x) m r a b (rfStart br).2) ∨
    (br.a = r ∧ br.ya = 0) := by
  have ga := hg br.a r h1 h2 (h3.trans h4) (Or.inr rfl)
  have gb := hg r br.b (h1.trans h2) h3 h4 (Or.inl rfl)
  simp only [hr, mul_zero] at ga gb
  have pA : 0 ≤ m * (r - br.a) := mul_nonneg hm.le (by linarith)
  have pB : 0 ≤ m * (br.b - r) := mul_nonneg hm.le (by linarith)
  by_cases h0 : br.ya = 0
  · right
    refine ⟨le_antisymm h2 ?_, h0⟩
    rw [← hya, h0] at ga
    by_contra hh; push Not at hh
    have := mul_pos hm (by linarith : 0 < r - br.a)
    linarith
  · left
    have hs : (rfStart br).1 = τ := by
      unfold rfStart; dsimp only
      rw [← hya] at ga
      rcases hτ with rfl | rfl
      · rw [if_pos]
        rcases lt_trichotomy br.ya 0 with h | h | h
        · exact h
        · exact absurd h h0
        · linarith
      · rw [if_neg]
        intro h; linarith
    refine ⟨hs, ?_⟩
    have e1 : (rfStart br).2 = ⟨br.a, br.b, br.ya * τ, br.yb * τ, 0, 0, 0⟩ := by rw [← hs]; rfl
    rw [e1]
    refine ⟨h1, h2, h3, h4, Or.inr ⟨?_, ?_, fun h => by simp at h, fun h => by simp at h⟩⟩
    · dsimp only; rw [hya]; linarith
    · dsimp only; rw [hyb]; linarith

/-- Total form: the loop from the start bracket ends within the tolerances. -/
theorem regulaFalsi_rate {f : K → K} {yt guess a b xtol ytol τ m r : K} (hτ : τ = 1 ∨ τ = -1) (hm : 0 < m)
    (hg : RateGe (fun x => τ * f x) m r a b) (hra : a ≤ r) (hrb : r ≤ b) (hr : f r = yt)
    (h1 : a ≤ guess) (h2 : guess ≤ b) (hx : 0 ≤ xtol) (hy : 0 ≤ ytol) {fuel : Nat} {xr : K} {o : Option (RF K)}
    (h : regulaFalsi fuel f yt guess a b xtol ytol = some (⟨.success, some xr⟩, o)) :
    |xr - r| ≤ xtol ∨ |xr - r| ≤ 2 * ytol / m := by
  have hg' : RateGe (fun x => τ * (f x - yt)) m r a b := fun x y p q s w => by
    have := hg x y p q s w
    simp only at this ⊢
    linarith
  have hr' : (fun x => f x - yt) r = 0 := by simp [hr]
  obtain ⟨br, he, i1, i2, i3, i4, i5, i6⟩ := initBracket_root (func := fun x => f x - yt) hτ hm hg' hra hrb hr' h1 h2
  unfold regulaFalsi at h
  simp only [he] at h
  cases hl : rfLoop (fun x => f x - yt) (rfStart br).1 xtol ytol fuel (rfStart br).2 with
  | none => rw [hl] at h; simp at h
  | some t =>
    rw [hl] at h
    simp only [Option.some.injEq, Prod.mk.injEq, Res.mk.injEq] at h
    obtain ⟨⟨hst, rfl⟩, -⟩ := h
    have hit : t.iter ≠ 1000 := by intro hh; simp [hh] at hst
    rcases rfStart_rate (func := fun x => f x - yt) hτ hm hg' hr' i1 i2 i3 i4 i5 i6 with ⟨hs, hi⟩ | ⟨hae, hya⟩
    · rw [hs] at hl
      obtain ⟨hi', hc⟩ := rate_loop (func := fun x => f x - yt) hm hg' (by simp [hr]) hx fuel hi hl
      have hlt : t.iter < 1000 := by
        have hsg := rfStart_inv (func := fun x => f x - yt) (lo := a) (hi := b) (br := br) i1 i4 (i2.trans i3) i5 i6 ?_
        · rw [hs] at hsg
          have := (rfLoop_inv (func := fun x => f x - yt) (hτ) hx hy fuel hsg.2 hl).1.iter
          omega
        · have hsq : τ * τ = 1 := by rcases hτ with rfl | rfl <;> ring
          have e1 := hg' br.a r i1 i2 hrb (Or.inr rfl)
          have e2 := hg' r br.b hra i3 i4 (Or.inl rfl)
          have pA : 0 ≤ m * (r - br.a) := mul_nonneg hm.le (by linarith)
          have pB : 0 ≤ m * (br.b - r) := mul_nonneg hm.le (by linarith)
          simp only [hr, sub_self, mul_zero] at e1 e2
          exact mul_nonpos_of_signs hsq (by linarith) (by linarith)
      exact rate_final hm hx hy hi' hc hlt
    · -- the left end is the root
      have hst2 : (rfStart br).2 = ⟨br.a, br.b, 0, br.yb * (rfStart br).1, 0, 0, 0⟩ := by
        unfold rfStart; simp [hya]
      rw [hst2] at hl
      have gb := hg r br.b hra i3 i4 (Or.inl rfl)
      have hybm : m * (br.b - r) ≤ |br.yb| := by
        rw [i6]
        have hτa : |τ| = 1 := by rcases hτ with rfl | rfl <;> simp
        calc m * (br.b - r) ≤ τ * (f br.b - yt) := by rw [← hr]; linarith
          _ ≤ |τ * (f br.b - yt)| := le_abs_self _
          _ = |f br.b - yt| := by rw [abs_mul, hτa, one_mul]
      have hsga : |(rfStart br).1| = 1 := by unfold rfStart; dsimp only; split_ifs <;> simp
      by_cases hc : rfCond xtol ytol (⟨br.a, br.b, 0, br.yb * (rfStart br).1, 0, 0, 0⟩ : RF K)
      · -- one pass collapses the interval onto the left end
        have hyb : br.yb * (rfStart br).1 ≠ 0 := by
          intro hh
          have := hc.2.1
          simp only [hh, abs_zero, or_self] at this
          linarith
        have hbody : rfBody (fun x => f x - yt) (rfStart br).1 (⟨br.a, br.b, 0, br.yb * (rfStart br).1, 0, 0, 0⟩ : RF K)
            = ⟨br.a, br.a, 0, br.yb * (rfStart br).1, 0, 0, 0⟩ := by
          unfold rfBody
          have : (br.a * (br.yb * (rfStart br).1) - br.b * 0) / (br.yb * (rfStart br).1 - 0) = br.a := by
            rw [mul_zero, sub_zero, sub_zero, mul_div_assoc, div_self hyb, mul_one]
          simp only [this, if_true]
        have hnc : ¬ rfCond xtol ytol (⟨br.a, br.a, 0, br.yb * (rfStart br).1, 0, 0, 0⟩ : RF K) := by
          intro hh; have := hh.1; simp only [sub_self] at this; linarith
        have ht : t = ⟨br.a, br.a, 0, br.yb * (rfStart br).1, 0, 0, 0⟩ := by
          cases fuel with
          | zero => rw [rfLoop, if_pos hc] at hl; simp at hl
          | succ n =>
            rw [rfLoop, if_pos hc, hbody, rfLoop_stop hnc] at hl
            exact (Option.some.injEq _ _ ▸ hl).symm
        left
        rw [ht, hae]
        simp [hx]
      · rw [rfLoop_stop hc] at hl
        have ht : t = ⟨br.a, br.b, 0, br.yb * (rfStart br).1, 0, 0, 0⟩ := (Option.some.injEq _ _ ▸ hl).symm
        rw [ht, hae]
        dsimp only
        have e : (r + br.b) / 2 - r = (br.b - r) / 2 := by ring
        rw [e, abs_of_nonneg (by linarith)]
        by_cases hw : br.b - br.a > 2 * xtol
        · right
          have : |br.yb| ≤ ytol := by
            by_contra hh
            push Not at hh
            refine hc ⟨hw, Or.inr ?_, by norm_num⟩
            dsimp only; rw [abs_mul, hsga, mul_one]; exact hh
          rw [le_div_iff₀ hm]
          linarith
        · left
          push Not at hw; rw [hae] at hw; linarith

/-! ## Speed -/

/-- The chords of `g` through `r` rise at most at rate `M` on `[lo, hi]`. -/
def RateLe (g : K → K) (M r lo hi : K) : Prop :=
  ∀ x y, lo ≤ x → x ≤ y → y ≤ hi → (x = r ∨ y = r) → g y - g x ≤ M * (y - x)

/-- Invariant with both bounds: after `nA` moves of the left and `nB` of the right end each distance to the root has shrunk
by the factor `θ` that often, and neither end waits longer than `p + 1` moves of the other. -/
structure SpeedInv (M r θ L : K) (p : Nat) (s : RF K) : Prop where
  val : s.a = s.b ∨ (-s.ya ≤ M * (r - s.a) ∧ s.yb ≤ M * (s.b - r) ∧
    (0 < s.b1 → -s.ya * 2 ^ (s.b1 - 1) ≤ M * (r - s.a)) ∧ (0 < s.b2 → s.yb * 2 ^ (s.b2 - 1) ≤ M * (s.b - r)))
  cnt : s.a = s.b ∨ ∃ nA nB : Nat, s.iter = nA + nB ∧ r - s.a ≤ θ ^ nA * L ∧ s.b - r ≤ θ ^ nB * L ∧
    nB ≤ (p + 1) * nA + s.b1 ∧ nA ≤ (p + 1) * nB + s.b2 ∧ s.b1 ≤ p + 1 ∧ s.b2 ≤ p + 1

theorem shrink {m M A B u v : K} (hm : 0 < m) (hM : 0 < M) (hmM : m ≤ M) (hA : 0 ≤ A) (hB : 0 ≤ B) (hu : u ≤ M * A)
    (hv : m / 2 * B ≤ v) (hd : 0 < v + u) :
    (u * B - v * A) / (v + u) ≤ (1 - m / (2 * M)) * B := by
  rw [div_le_iff₀ hd]
  have hk : m / (2 * M) * (2 * M) = m := by field_simp
  set κ := m / (2 * M) with hκ
  have hκ0 : 0 < κ := by positivity
  have hκ1 : κ ≤ 1 := by rw [hκ, div_le_one (by positivity)]; linarith
  have hv0 : 0 ≤ v := le_trans (mul_nonneg (by linarith) hB) hv
  have e1 : κ * B * u ≤ κ * B * (M * A) := mul_le_mul_of_nonneg_left hu (mul_nonneg hκ0.le hB)
  have e2 : κ * B * (M * A) = m / 2 * B * A := by linear_combination B * A / 2 * hk
  have e3 : m / 2 * B * A ≤ v * A := mul_le_mul_of_nonneg_right hv hA
  have e4 : κ * (B * v) ≤ 1 * (B * v) := mul_le_mul_of_nonneg_right hκ1 (mul_nonneg hB hv0)
  nlinarith

/-- A side that moves again after `b1` moves in a row has not been halved too often. -/
theorem run_bound {m M A B u v : K} {k p : Nat} (hm : 0 < m) (hp2 : M ≤ m * 2 ^ p) (hA : 0 ≤ A) (hB : 0 < B) (hu : 0 ≤ u)
    (hv : m * B ≤ v) (hk : u * 2 ^ k ≤ M * A) (hlt : v * A < u * B) : k < p := by
  by_contra hh; push Not at hh
  have e5 : m * A * B < u * B := lt_of_le_of_lt (by nlinarith) hlt
  have e6 := lt_of_mul_lt_mul_right e5 hB.le
  have e8 : (2 : K) ^ p ≤ 2 ^ k := pow_le_pow_right₀ (by norm_num) hh
  have e9 : u * 2 ^ p ≤ u * 2 ^ k := mul_le_mul_of_nonneg_left e8 hu
  have e10 : m * A * 2 ^ p < u * 2 ^ p := mul_lt_mul_of_pos_right e6 (by positivity)
  have e11 : M * A ≤ m * 2 ^ p * A := mul_le_mul_of_nonneg_right hp2 hA
  linarith

theorem speed_body {func : K → K} {sign m M r lo hi L xtol ytol : K} {p : Nat} {s : RF K} (hm : 0 < m) (hmM : m ≤ M)
    (hp2 : M ≤ m * 2 ^ p)
    (hg : RateGe (fun x => sign * func x) m r lo hi) (hG : RateLe (fun x => sign * func x) M r lo hi) (hr : sign * func r = 0)
    (hx : 0 ≤ xtol) (hc : rfCond xtol ytol s) (h : RateInv (fun x => sign * func x) m r lo hi s)
    (hS : SpeedInv M r (1 - m / (2 * M)) L p s) :
    SpeedInv M r (1 - m / (2 * M)) L p (rfBody func sign s) := by
  have hlt : s.a < s.b := by have := hc.1; linarith
  have hM : 0 < M := hm.trans_le hmM
  obtain ⟨h1, h2, h3, h4, h5⟩ := h
  rcases h5 with h5 | ⟨ha, hb, hb1, hb2⟩
  · exact absurd h5 hlt.ne
  obtain ⟨hv, hn⟩ := hS
  rcases hv with hv | ⟨va, vb, v1, v2⟩
  · exact absurd hv hlt.ne
  rcases hn with hn | ⟨nA, nB, cit, cA, cB, n1, n2, n3, n4⟩
  · exact absurd hn hlt.ne
  have hlr : lo ≤ r := h1.trans h2
  have hrh : r ≤ hi := h3.trans h4
  have hA : 0 ≤ m / 2 * (r - s.a) := mul_nonneg (by linarith) (by linarith)
  have hB : 0 ≤ m / 2 * (s.b - r) := mul_nonneg (by linarith) (by linarith)
  have hden : 0 < s.yb - s.ya := by nlinarith
  have hθ0 : 0 ≤ 1 - m / (2 * M) := by
    rw [sub_nonneg, div_le_one (by positivity)]; linarith
  set c := (s.a * s.yb - s.b * s.ya) / (s.yb - s.ya) with hcdef
  have hcm : c * (s.yb - s.ya) = s.a * s.yb - s.b * s.ya := by rw [hcdef]; field_simp
  have hca : s.a ≤ c := by rw [hcdef, le_div_iff₀ hden]; nlinarith
  have hcb : c ≤ s.b := by rw [hcdef, div_le_iff₀ hden]; nlinarith
  have hcr1 : c - r = (-s.ya * (s.b - r) - s.yb * (r - s.a)) / (s.yb + -s.ya) := by
    have : s.yb + -s.ya ≠ 0 := by linarith [hden] |> fun h : 0 < s.yb + -s.ya => h.ne'
    rw [eq_div_iff this]; linear_combination hcm
  have hcr2 : r - c = (s.yb * (r - s.a) - -s.ya * (s.b - r)) / (-s.ya + s.yb) := by
    have : -s.ya + s.yb ≠ 0 := by linarith [hden] |> fun h : 0 < -s.ya + s.yb => h.ne'
    rw [eq_div_iff this]; linear_combination -hcm
  have sB : c - r ≤ (1 - m / (2 * M)) * (s.b - r) := by
    rw [hcr1]; exact shrink hm hM hmM (by linarith) (by linarith) va hb (by linarith)
  have sA : r - c ≤ (1 - m / (2 * M)) * (r - s.a) := by
    rw [hcr2]; exact shrink hm hM hmM (by linarith) (by linarith) vb ha (by linarith)
  unfold rfBody
  simp only [← hcdef]
  by_cases e1 : c = s.a
  · rw [if_pos e1]; exact ⟨Or.inl rfl, Or.inl rfl⟩
  rw [if_neg e1]
  by_cases e2 : c = s.b
  · rw [if_pos e2]; exact ⟨Or.inl rfl, Or.inl rfl⟩
  rw [if_neg e2]
  have cl : lo ≤ c := h1.trans hca
  have ch : c ≤ hi := hcb.trans h4
  by_cases hp : sign * func c > 0
  · rw [if_pos hp]
    have hcr : r < c := by
      by_contra hh; push Not at hh
      have := hg c r cl hh hrh (Or.inr rfl)
      have h0 : 0 ≤ m * (r - c) := mul_nonneg hm.le (by linarith)
      simp only [hr] at this; linarith
    have gc : sign * func c ≤ M * (c - r) := by have := hG r c hlr hcr.le ch (Or.inl rfl); simp only [hr] at this; linarith
    have key : r * (s.yb - s.ya) < c * (s.yb - s.ya) := mul_lt_mul_of_pos_right hcr hden
    rw [hcm] at key
    have hbr : 0 < s.b - r := by linarith
    have hyan : 0 ≤ -s.ya := hA.trans ha
    have bound : s.b1 ≤ p := by
      by_contra hh; push Not at hh
      have hk : 0 < s.b1 := by omega
      have hyb : s.yb = sign * func s.b := hb1 hk
      have gb : m * (s.b - r) ≤ s.yb := by
        have := hg r s.b hlr h3 h4 (Or.inl rfl)
        simp only [hr] at this; rw [hyb]; linarith
      have := run_bound hm hp2 (by linarith) hbr hyan gb (v1 hk) (by linarith)
      omega
    refine ⟨Or.inr ⟨?_, gc, fun _ => ?_, fun h => by simp at h⟩,
      Or.inr ⟨nA, nB + 1, by simp [cit]; omega, cA, ?_, by dsimp only; omega, by dsimp only; rw [Nat.mul_succ]; omega,
        by dsimp only; omega, by simp⟩⟩
    · dsimp only
      split_ifs with hk
      · linarith
      · linarith
    · dsimp only
      by_cases hk : s.b1 = 0
      · simp only [hk]; simpa using va
      · rw [if_pos (by omega)]
        have := v1 (by omega)
        have e : s.b1 + 1 - 1 = (s.b1 - 1) + 1 := by omega
        rw [e, pow_succ]
        linarith
    · dsimp only
      rw [pow_succ]
      calc c - r ≤ (1 - m / (2 * M)) * (s.b - r) := sB
        _ ≤ (1 - m / (2 * M)) * ((1 - m / (2 * M)) ^ nB * L) := mul_le_mul_of_nonneg_left cB hθ0
        _ = _ := by ring
  rw [if_neg hp]
  by_cases hn : sign * func c < 0
  · rw [if_pos hn]
    have hcr : c < r := by
      by_contra hh; push Not at hh
      have := hg r c hlr hh ch (Or.inl rfl)
      have h0 : 0 ≤ m * (c - r) := mul_nonneg hm.le (by linarith)
      simp only [hr] at this; linarith
    have gc : -(sign * func c) ≤ M * (r - c) := by have := hG c r cl hcr.le hrh (Or.inr rfl); simp only [hr] at this; linarith
    have key : c * (s.yb - s.ya) < r * (s.yb - s.ya) := mul_lt_mul_of_pos_right hcr hden
    rw [hcm] at key
    have har : 0 < r - s.a := by linarith
    have hybn : 0 ≤ s.yb := hB.trans hb
    have bound : s.b2 ≤ p := by
      by_contra hh; push Not at hh
      have hk : 0 < s.b2 := by omega
      have hya : s.ya = sign * func s.a := hb2 hk
      have ga : m * (r - s.a) ≤ -s.ya := by
        have := hg s.a r h1 h2 hrh (Or.inr rfl)
        simp only [hr] at this; rw [hya]; linarith
      have := run_bound hm hp2 (by linarith) har hybn ga (v2 hk) (by linarith)
      omega
    refine ⟨Or.inr ⟨gc, ?_, fun h => by simp at h, fun _ => ?_⟩,
      Or.inr ⟨nA + 1, nB, by simp [cit]; omega, ?_, cB, by dsimp only; rw [Nat.mul_succ]; omega, by dsimp only; omega, by simp,
        by dsimp only; omega⟩⟩
    · dsimp only
      split_ifs with hk
      · linarith
      · linarith
    · dsimp only
      by_cases hk : s.b2 = 0
      · simp only [hk]; simpa using vb
      · rw [if_pos (by omega)]
        have := v2 (by omega)
        have e : s.b2 + 1 - 1 = (s.b2 - 1) + 1 := by omega
        rw [e, pow_succ]
        linarith
    · dsimp only
      rw [pow_succ]
      calc r - c ≤ (1 - m / (2 * M)) * (r - s.a) := sA
        _ ≤ (1 - m / (2 * M)) * ((1 - m / (2 * M)) ^ nA * L) := mul_le_mul_of_nonneg_left cA hθ0
        _ = _ := by ring
  · rw [if_neg hn]; exact ⟨Or.inl rfl, Or.inl rfl⟩

/-- While the loop goes on, fewer than `(p + 2) q` iterations have been made. -/
theorem speed_iter {M r m L xtol ytol : K} {p q : Nat} {s : RF K} (hm : 0 < m) (hmM : m ≤ M) (hL : 0 ≤ L)
    (hS : SpeedInv M r (1 - m / (2 * M)) L p s) (hx : 0 ≤ xtol) (hq : (1 - m / (2 * M)) ^ q * L ≤ xtol)
    (hc : rfCond xtol ytol s) : s.iter < (p + 2) * q := by
  have hM : 0 < M := hm.trans_le hmM
  have hlt : s.a < s.b := by have := hc.1; linarith
  obtain ⟨-, hn⟩ := hS
  rcases hn with hn | ⟨nA, nB, cit, cA, cB, n1, n2, n3, n4⟩
  · exact absurd hn hlt.ne
  have hθ0 : 0 ≤ 1 - m / (2 * M) := by
    rw [sub_nonneg, div_le_one (by positivity)]; linarith
  have hθ1 : 1 - m / (2 * M) ≤ 1 := by have : 0 < m / (2 * M) := by positivity
                                       linarith
  have anti : ∀ n, q ≤ n → (1 - m / (2 * M)) ^ n * L ≤ xtol := fun n hn =>
    (mul_le_mul_of_nonneg_right (pow_le_pow_of_le_one hθ0 hθ1 hn) hL).trans hq
  by_cases hA : q ≤ nA
  · by_cases hB : q ≤ nB
    · have := anti nA hA
      have := anti nB hB
      have := hc.1
      linarith
    · rw [cit]; nlinarith
  · rw [cit]; nlinarith

theorem body_iter (func : K → K) (sign : K) (s : RF K) : (rfBody func sign s).iter ≤ s.iter + 1 := by
  unfold rfBody
  dsimp only
  split_ifs <;> simp

theorem speed_loop {func : K → K} {sign m M r lo hi L xtol ytol : K} {p q : Nat} (hm : 0 < m) (hmM : m ≤ M)
    (hp2 : M ≤ m * 2 ^ p)
    (hg : RateGe (fun x => sign * func x) m r lo hi) (hG : RateLe (fun x => sign * func x) M r lo hi) (hr : sign * func r = 0)
    (hx : 0 ≤ xtol) (hL : 0 ≤ L) (hq : (1 - m / (2 * M)) ^ q * L ≤ xtol) (n : Nat) {s t : RF K}
    (h : RateInv (fun x => sign * func x) m r lo hi s) (hS : SpeedInv M r (1 - m / (2 * M)) L p s)
    (hi1 : s.iter ≤ (p + 2) * q) (he : rfLoop func sign xtol ytol n s = some t) : t.iter ≤ (p + 2) * q := by
  induction n generalizing s with
  | zero =>
    unfold rfLoop at he
    split_ifs at he with hc
    injection he with he; subst he; exact hi1
  | succ n ih =>
    unfold rfLoop at he
    split_ifs at he with hc
    · have h1 := speed_iter hm hmM hL hS hx hq hc
      have h2 := body_iter func sign s
      exact ih (rate_body hm hg hr hx hc h) (speed_body hm hmM hp2 hg hG hr hx hc h hS) (by omega) he
    · injection he with he; subst he; exact hi1

/-- Total correctness for slopes between `m` and `M`. -/
theorem regulaFalsi_total {f : K → K} {yt guess a b xtol ytol τ m M r : K} {p q : Nat} (hτ : τ = 1 ∨ τ = -1) (hm : 0 < m)
    (hmM : m ≤ M) (hp2 : M ≤ m * 2 ^ p)
    (hg : RateGe (fun x => τ * f x) m r a b) (hG : RateLe (fun x => τ * f x) M r a b) (hra : a ≤ r) (hrb : r ≤ b) (hr : f r = yt)
    (h1 : a ≤ guess) (h2 : guess ≤ b) (hx : 0 ≤ xtol) (hy : 0 ≤ ytol)
    (hq : (1 - m / (2 * M)) ^ q * (b - a) ≤ xtol) (hpq : (p + 2) * q < 1000) :
    ∃ xr s, regulaFalsi 1000 f yt guess a b xtol ytol = some (⟨.success, some xr⟩, some s) ∧
      (|xr - r| ≤ xtol ∨ |xr - r| ≤ 2 * ytol / m) ∧ s.iter ≤ max 1 ((p + 2) * q) := by
  have hg' : RateGe (fun x => τ * (f x - yt)) m r a b := fun x y p q s w => by
    have := hg x y p q s w
    simp only at this ⊢
    linarith
  have hG' : RateLe (fun x => τ * (f x - yt)) M r a b := fun x y p q s w => by
    have := hG x y p q s w
    simp only at this ⊢
    linarith
  have hr' : (fun x => f x - yt) r = 0 := by simp [hr]
  obtain ⟨br, he, i1, i2, i3, i4, i5, i6⟩ := initBracket_root (func := fun x => f x - yt) hτ hm hg' hra hrb hr' h1 h2
  obtain ⟨t, ht⟩ := rfLoop_terminates (func := fun x => f x - yt) (sign := (rfStart br).1) (ytol := ytol) hx 1000
    (rfStart br).2 (by simp [rfStart])
  have hit : t.iter ≤ max 1 ((p + 2) * q) := by
    rcases rfStart_rate (func := fun x => f x - yt) hτ hm hg' hr' i1 i2 i3 i4 i5 i6 with ⟨hs, hi⟩ | ⟨hae, hya⟩
    · rw [hs] at ht
      have e1 : (rfStart br).2 = ⟨br.a, br.b, br.ya * τ, br.yb * τ, 0, 0, 0⟩ := by rw [← hs]; rfl
      refine le_trans ?_ (le_max_right _ _)
      refine speed_loop (func := fun x => f x - yt) (L := b - a) hm hmM hp2 hg' hG' (by simp [hr]) hx (by linarith) hq 1000
        hi ?_ (by rw [e1]; simp) ht
      have ga := hG' br.a r i1 i2 hrb (Or.inr rfl)
      have gb := hG' r br.b hra i3 i4 (Or.inl rfl)
      simp only [hr, sub_self, mul_zero] at ga gb
      rw [e1]
      refine ⟨Or.inr ⟨?_, ?_, fun h => by simp at h, fun h => by simp at h⟩, Or.inr ⟨0, 0, rfl, ?_, ?_, by simp, by simp, by simp, by simp⟩⟩
      · dsimp only; rw [i5]; linarith
      · dsimp only; rw [i6]; linarith
      · simp; linarith
      · simp; linarith
    · refine le_trans ?_ (le_max_left _ _)
      have hst2 : (rfStart br).2 = ⟨br.a, br.b, 0, br.yb * (rfStart br).1, 0, 0, 0⟩ := by
        unfold rfStart; simp [hya]
      rw [hst2] at ht
      by_cases hc : rfCond xtol ytol (⟨br.a, br.b, 0, br.yb * (rfStart br).1, 0, 0, 0⟩ : RF K)
      · have hyb : br.yb * (rfStart br).1 ≠ 0 := by
          intro hh
          have := hc.2.1
          simp only [hh, abs_zero, or_self] at this
          linarith
        have hbody : rfBody (fun x => f x - yt) (rfStart br).1 (⟨br.a, br.b, 0, br.yb * (rfStart br).1, 0, 0, 0⟩ : RF K)
            = ⟨br.a, br.a, 0, br.yb * (rfStart br).1, 0, 0, 0⟩ := by
          unfold rfBody
          have : (br.a * (br.yb * (rfStart br).1) - br.b * 0) / (br.yb * (rfStart br).1 - 0) = br.a := by
            rw [mul_zero, sub_zero, sub_zero, mul_div_assoc, div_self hyb, mul_one]
          simp only [this, if_true]
        have hnc : ¬ rfCond xtol ytol (⟨br.a, br.a, 0, br.yb * (rfStart br).1, 0, 0, 0⟩ : RF K) := by
          intro hh; have := hh.1; simp only [sub_self] at this; linarith
        rw [show (1000 : Nat) = 999 + 1 from rfl, rfLoop, if_pos hc, hbody, rfLoop_stop hnc] at ht
        rw [← (Option.some.injEq _ _ ▸ ht : _ = t)]; simp
      · rw [rfLoop_stop hc] at ht
        rw [← (Option.some.injEq _ _ ▸ ht : _ = t)]; simp
  have hne : t.iter ≠ 1000 := by
    intro hh
    rw [hh, le_max_iff] at hit
    omega
  have hres : regulaFalsi 1000 f yt guess a b xtol ytol = some (⟨.success, some ((t.a + t.b) / 2)⟩, some t) := by
    unfold regulaFalsi
    simp only [he, ht, if_neg hne]
  exact ⟨_, _, hres, regulaFalsi_rate hτ hm hg hra hrb hr h1 h2 hx hy hres, hit⟩

end Verif.RootFind
