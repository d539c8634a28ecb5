import Verif.Lemmas.FloatRootFind
import Verif.Spec.Damped
import Verif.Props.SetBracket
import Verif.Props.FloatRootFind

/-! # C134: what a successful `regula_falsi` certifies in floating-point arithmetic -/

namespace Verif

open RootFind

namespace RootFind

variable {u : ℝ} {rnd : ℝ → ℝ}

/-- The claim about the interval `[s.a, s.b]` the loop holds: while it is not collapsed, the computed residual changes sign
between its ends, and the working value of the end set last is the computed residual there, up to its sign. -/
structure Fresh (rnd : ℝ → ℝ) (func : ℝ → ℝ) (sign : ℝ) (s : RF ℝ) : Prop where
  neg : s.ya ≤ 0
  pos : 0 ≤ s.yb
  left : sign * func s.a ≤ 0
  right : 0 ≤ sign * func s.b
  one : s.b1 = 0 ∨ s.b2 = 0
  fa : s.b1 = 0 → s.ya = rnd (sign * func s.a)
  fb : s.b2 = 0 → s.yb = rnd (sign * func s.b)
  it : s.iter ≤ 1000
  da : Damped (fun y c => rnd (y * c)) (rnd (sign * func s.a)) s.ya
  db : Damped (fun y c => rnd (y * c)) (rnd (sign * func s.b)) s.yb

/-- How the interval can have collapsed to a point: on an exact zero of the computed residual, or because the rounded secant
of a bracketing pair is one of its ends. -/
def Collapsed (rnd : ℝ → ℝ) (func : ℝ → ℝ) (s : RF ℝ) : Prop :=
  s.a = s.b ∧ (func s.a = 0 ∨ ∃ (t : RF ℝ) (σ : ℝ), (σ = 1 ∨ σ = -1) ∧ func t.a * func t.b ≤ 0 ∧
    Damped (fun y c => rnd (y * c)) (rnd (σ * func t.a)) t.ya ∧ Damped (fun y c => rnd (y * c)) (rnd (σ * func t.b)) t.yb ∧
    (s.a = t.a ∨ s.a = t.b) ∧ s.a = rfSecantFl rnd t)

theorem Fresh.change {func : ℝ → ℝ} {sign : ℝ} {s : RF ℝ} (hsg : sign = 1 ∨ sign = -1) (h : Fresh rnd func sign s) :
    func s.a * func s.b ≤ 0 :=
  mul_nonpos_of_signs (by rcases hsg with rfl | rfl <;> ring) h.left h.right

theorem rfBodyFl_fresh (hr : ∀ x, |rnd x - x| ≤ u * |x|) (hu : u < 1) {func : ℝ → ℝ} {sign : ℝ} (hsg : sign = 1 ∨ sign = -1)
    {s : RF ℝ} (hit : s.iter < 1000) (h : Fresh rnd func sign s) :
    Fresh rnd func sign (rfBodyFl rnd func sign s) ∨ Collapsed rnd func (rfBodyFl rnd func sign s) := by
  have half : ∀ p : Prop, ∀ _ : Decidable p, (0 : ℝ) < (if p then 1 / 2 else 1) := fun p _ => half_factor_pos p
  unfold rfBodyFl
  dsimp only
  by_cases ca : rfSecantFl rnd s = s.a
  · rw [if_pos ca]
    exact Or.inr ⟨rfl, Or.inr ⟨s, sign, hsg, h.change hsg, h.da, h.db, Or.inl rfl, ca.symm⟩⟩
  rw [if_neg ca]
  by_cases cb : rfSecantFl rnd s = s.b
  · rw [if_pos cb]
    exact Or.inr ⟨rfl, Or.inr ⟨s, sign, hsg, h.change hsg, h.da, h.db, Or.inr rfl, cb.symm⟩⟩
  rw [if_neg cb]
  by_cases hp : rnd (sign * func (rfSecantFl rnd s)) > 0
  · rw [if_pos hp]
    refine Or.inl ⟨rnd_nonpos hr hu.le (mul_nonpos_of_nonpos_of_nonneg h.neg (half _ _).le), hp.le, h.left,
      ((rnd_pos_iff hr hu).1 hp).le, Or.inr rfl, fun e => absurd e (Nat.succ_ne_zero _), fun _ => rfl, hit,
      .step h.da (by split_ifs <;> simp), .refl⟩
  rw [if_neg hp]
  by_cases hn : rnd (sign * func (rfSecantFl rnd s)) < 0
  · rw [if_pos hn]
    refine Or.inl ⟨hn.le, rnd_nonneg hr hu.le (mul_nonneg h.pos (half _ _).le), ((rnd_neg_iff hr hu).1 hn).le, h.right,
      Or.inl rfl, fun _ => rfl, fun e => absurd e (Nat.succ_ne_zero _), hit, .refl, .step h.db (by split_ifs <;> simp)⟩
  rw [if_neg hn]
  right
  refine ⟨rfl, Or.inl ?_⟩
  have h1 : ¬ 0 < sign * func (rfSecantFl rnd s) := fun e => hp ((rnd_pos_iff hr hu).2 e)
  have h2 : ¬ sign * func (rfSecantFl rnd s) < 0 := fun e => hn ((rnd_neg_iff hr hu).2 e)
  dsimp only
  rcases hsg with rfl | rfl <;> linarith

theorem rfLoopFl_fresh (hr : ∀ x, |rnd x - x| ≤ u * |x|) (hu : u < 1) {func : ℝ → ℝ} {sign xtol ytol : ℝ} (hx : 0 ≤ xtol)
    (hsg : sign = 1 ∨ sign = -1) : ∀ (n : Nat) {s t : RF ℝ}, Fresh rnd func sign s ∨ Collapsed rnd func s →
    rfLoopFl rnd func sign xtol ytol n s = some t → (Fresh rnd func sign t ∨ Collapsed rnd func t) ∧ ¬ rfCondFl rnd xtol ytol t := by
  have hcol : ∀ s : RF ℝ, Collapsed rnd func s → ¬ rfCondFl rnd xtol ytol s := fun s hs hc => by
    have h1 := hc.1
    rw [hs.1, sub_self, rnd_zero hr] at h1
    exact absurd (rnd_nonneg hr hu.le (by linarith : (0 : ℝ) ≤ 2 * xtol)) (not_le.2 h1)
  intro n
  induction n with
  | zero =>
    intro s t h he
    unfold rfLoopFl at he
    split_ifs at he with hc
    injection he with he; subst he; exact ⟨h, hc⟩
  | succ n ih =>
    intro s t h he
    unfold rfLoopFl at he
    split_ifs at he with hc
    · rcases h with h | h
      · exact ih (rfBodyFl_fresh hr hu hsg hc.2.2 h) he
      · exact absurd hc (hcol s h)
    · injection he with he; subst he; exact ⟨h, hc⟩

/-- The bracket the loop starts from, wherever it comes from. -/
theorem initBracketFl_change (hr : ∀ x, |rnd x - x| ≤ u * |x|) (hu0 : 0 ≤ u) (hu : u < 1) {func : ℝ → ℝ} {guess a b : ℝ}
    {br : Br ℝ} (h : initBracketFl rnd func guess a b = some br) :
    br.ya = func br.a ∧ br.yb = func br.b ∧ func br.a * func br.b ≤ 0 := by
  obtain ⟨h1, h2, h3⟩ := C134_initial_bracket rnd hr hu0 func guess a b
  by_cases c1 : rnd (func a * func guess) ≤ 0
  · have e := (h1 c1).symm.trans h
    injection e with e; subst e
    exact ⟨rfl, rfl, (rnd_nonpos_iff hr hu).1 c1⟩
  by_cases c2 : rnd (func guess * func b) ≤ 0
  · have e := (h2 c1 c2).symm.trans h
    injection e with e; subst e
    exact ⟨rfl, rfl, (rnd_nonpos_iff hr hu).1 c2⟩
  obtain ⟨x, hx, -⟩ := h3 c1 c2
  rcases hx with ⟨e, -⟩ | ⟨i, -, hs, -, e⟩
  · have := e.symm.trans h
    exact absurd this (by simp)
  · have e := e.symm.trans h
    injection e with e; subst e
    have := (rnd_nonpos_iff hr hu).1 hs
    unfold pairBr
    split_ifs
    · exact ⟨rfl, rfl, this⟩
    · exact ⟨rfl, rfl, by rw [mul_comm]; exact this⟩

end RootFind

/-- C134: what the root reported by a run of `regula_falsi` is worth when every operation is rounded (relative error `u < 1`,
no overflow or underflow), for any function and any arguments for which the computed residual does not vanish at the lower
end of the starting bracket: the root is the rounded midpoint of two points `p`, `q`, and, writing
`r(x)` for the computed residual,
* `r` changes sign between them, and if the run is reported as a success then their computed distance is at most `2 xtol` or the
  residual at one of the two is at most `ytol`, or
* `p = q` and `r(p) = 0`, or
* `p = q` is an end of a pair of points between which `r` changes sign, and the computed secant through that pair, with the
  values `±r` there after some number of halvings, is that end. -/
theorem C134_stop_rule {u : ℝ} {rnd : ℝ → ℝ} (hr : ∀ x, |rnd x - x| ≤ u * |x|) (hu0 : 0 ≤ u) (hu : u < 1) (fuel : Nat)
    (f : ℝ → ℝ) (yt guess a b xtol ytol : ℝ) (hx : 0 ≤ xtol)
    (h0 : ∀ br, initBracketFl rnd (fun x => rnd (f x - yt)) guess a b = some br → rnd (f br.a - yt) ≠ 0)
    {st : Status} {x : ℝ} (he : regulaFalsiFl rnd fuel f yt guess a b xtol ytol = some ⟨st, some x⟩) :
    ∃ p q, x = rnd (1 / 2 * rnd (p + q)) ∧
      ((rnd (f p - yt) * rnd (f q - yt) ≤ 0 ∧
          (st = .success → rnd (q - p) ≤ rnd (2 * xtol) ∨ (1 - u) * |rnd (f p - yt)| ≤ ytol ∨ (1 - u) * |rnd (f q - yt)| ≤ ytol)) ∨
        (p = q ∧ (rnd (f p - yt) = 0 ∨
          ∃ (t : RF ℝ) (σ : ℝ), (σ = 1 ∨ σ = -1) ∧ rnd (f t.a - yt) * rnd (f t.b - yt) ≤ 0 ∧
            Damped (fun y c => rnd (y * c)) (rnd (σ * rnd (f t.a - yt))) t.ya ∧
            Damped (fun y c => rnd (y * c)) (rnd (σ * rnd (f t.b - yt))) t.yb ∧
            (p = t.a ∨ p = t.b) ∧ p = rfSecantFl rnd t))) := by
  unfold regulaFalsiFl at he
  dsimp only at he
  set func : ℝ → ℝ := fun x => rnd (f x - yt) with hfunc
  rcases hib : initBracketFl rnd func guess a b with _ | br
  · rw [hib] at he
    exact absurd he (by simp)
  rw [hib] at he
  dsimp only at he
  obtain ⟨b1, b2, b3⟩ := initBracketFl_change hr hu0 hu hib
  have hne : func br.a ≠ 0 := h0 br hib
  have hsg : (rfStartFl rnd br).1 = 1 ∨ (rfStartFl rnd br).1 = -1 := by
    unfold rfStartFl; dsimp only; split_ifs <;> simp
  have hst : Fresh rnd func (rfStartFl rnd br).1 (rfStartFl rnd br).2 := by
    unfold rfStartFl
    dsimp only
    rw [b1, b2]
    by_cases hs : func br.a < 0
    · rw [if_pos hs]
      have hb : 0 ≤ func br.b := by
        by_contra hc
        nlinarith [mul_pos_of_neg_of_neg hs (not_le.1 hc)]
      exact ⟨rnd_nonpos hr hu.le (by linarith), rnd_nonneg hr hu.le (by linarith), by dsimp only; linarith, by dsimp only; linarith,
        Or.inl rfl, fun _ => by dsimp only; rw [mul_comm], fun _ => by dsimp only; rw [mul_comm], Nat.zero_le _,
        by dsimp only; rw [mul_comm]; exact .refl, by dsimp only; rw [mul_comm]; exact .refl⟩
    · rw [if_neg hs]
      have ha : 0 < func br.a := lt_of_le_of_ne (not_lt.1 hs) (Ne.symm hne)
      have hb : func br.b ≤ 0 := by
        by_contra hc
        nlinarith [mul_pos ha (not_le.1 hc)]
      exact ⟨rnd_nonpos hr hu.le (by linarith), rnd_nonneg hr hu.le (by linarith), by dsimp only; linarith, by dsimp only; linarith,
        Or.inl rfl, fun _ => by dsimp only; rw [mul_comm], fun _ => by dsimp only; rw [mul_comm], Nat.zero_le _,
        by dsimp only; rw [mul_comm]; exact .refl, by dsimp only; rw [mul_comm]; exact .refl⟩
  rcases hl : rfLoopFl rnd func (rfStartFl rnd br).1 xtol ytol fuel (rfStartFl rnd br).2 with _ | s
  · rw [hl] at he
    exact absurd he (by simp)
  rw [hl] at he
  simp only [Option.some.injEq, Res.mk.injEq] at he
  obtain ⟨he1, he2⟩ := he
  obtain ⟨hs, hc⟩ := rfLoopFl_fresh hr hu hx hsg fuel (Or.inl hst) hl
  refine ⟨s.a, s.b, he2.symm, ?_⟩
  rcases hs with hs | ⟨hab, hs⟩
  · left
    refine ⟨hs.change hsg, fun hsucc => ?_⟩
    have hit : s.iter ≠ 1000 := by
      intro h
      rw [if_pos h, hsucc] at he1
      exact absurd he1 (by simp)
    by_contra hcon
    push Not at hcon
    obtain ⟨c1, c2, c3⟩ := hcon
    have key : ∀ y, |rnd ((rfStartFl rnd br).1 * y)| ≥ (1 - u) * |y| := fun y => by
      have h1 := hr ((rfStartFl rnd br).1 * y)
      have h2 : |(rfStartFl rnd br).1 * y| = |y| := by
        rw [abs_mul]
        rcases hsg with h | h <;> simp [h]
      rw [h2] at h1
      have h3 := abs_sub_abs_le_abs_sub ((rfStartFl rnd br).1 * y) (rnd ((rfStartFl rnd br).1 * y))
      rw [h2, abs_sub_comm] at h3
      linarith
    have hlarge : |s.ya| > ytol ∨ |s.yb| > ytol := by
      rcases hs.one with h | h
      · left
        rw [hs.fa h]
        exact lt_of_lt_of_le c2 (key (func s.a))
      · right
        rw [hs.fb h]
        exact lt_of_lt_of_le c3 (key (func s.b))
    exact hc ⟨c1, hlarge, lt_of_le_of_ne hs.it hit⟩
  · right
    exact ⟨hab, hs⟩

/-- Non-vacuity: exact arithmetic is such a rounding; `2x = 3` from the guess `5/4` on `[1,2]` starts from a bracket whose lower
residual is `-1`, and the run reports a point. -/
example : ∃ st x, regulaFalsiFl id 1001 (fun x => 2 * x) 3 (5 / 4) 1 2 (1 / 8) (1 / 8) = some ⟨st, some x⟩ ∧
    ∀ br, initBracketFl id (fun x => id (2 * x - 3)) (5 / 4) 1 2 = some br → id (2 * br.a - 3) ≠ 0 := by
  obtain ⟨st, x, h, -⟩ := C134_root_near_interval_partial (rnd := id) (u := 0) (fun x => by simp) le_rfl (by norm_num)
    (fun x => 2 * x) 3 (5 / 4) 1 2 (1 / 8) (1 / 8) (by norm_num) (by norm_num) (by norm_num) (by norm_num) (by norm_num) (by norm_num)
    (by norm_num)
  refine ⟨st, x, h, fun br hb => ?_⟩
  have h2 := (C134_initial_bracket id (u := 0) (fun x => by simp) le_rfl (fun x => id (2 * x - 3)) (5 / 4) 1 2).2.1 (by norm_num) (by norm_num)
  have e := h2.symm.trans hb
  injection e with e
  subst e
  norm_num

namespace RootFind

theorem levelSearchFl_id (f : ℝ → ℝ) (a dx g yg : ℝ) : ∀ (n i : Nat),
    levelSearchFl id f a dx g yg i n = levelSearch f a dx g yg i n := by
  intro n
  induction n with
  | zero => intro i; rfl
  | succ n ih => intro i; simp only [levelSearchFl, levelSearch, checkBracketFl, checkBracket, id, ih, decide_eq_true_eq]

theorem levelsFl_id (f : ℝ → ℝ) (a dx g yg : ℝ) : ∀ (n l : Nat), levelsFl id f a dx g yg l n = levels f a dx g yg l n := by
  intro n
  induction n with
  | zero => intro i; rfl
  | succ n ih => intro i; rw [levelsFl, levels, levelSearchFl_id, ih]; cases levelSearch f a dx g yg 0 (2 ^ i) <;> rfl

theorem rfLoopFl_id (f : ℝ → ℝ) (sign xtol ytol : ℝ) : ∀ (n : Nat) (s : RF ℝ),
    rfLoopFl id f sign xtol ytol n s = rfLoop f sign xtol ytol n s := by
  intro n
  induction n with
  | zero =>
    intro s
    rw [rfLoopFl, rfLoop]
    by_cases h : rfCond xtol ytol s
    · rw [if_pos h, if_pos (show rfCondFl id xtol ytol s from h)]
    · rw [if_neg h, if_neg (show ¬ rfCondFl id xtol ytol s from h)]
  | succ n ih =>
    intro s
    rw [rfLoopFl, rfLoop]
    by_cases h : rfCond xtol ytol s
    · rw [if_pos h, if_pos (show rfCondFl id xtol ytol s from h), ih]
      rfl
    · rw [if_neg h, if_neg (show ¬ rfCondFl id xtol ytol s from h)]

end RootFind

/-- C134: without rounding it is the `regula_falsi` of C08. -/
theorem C134_exact (fuel : Nat) (f : ℝ → ℝ) (yt guess a b xtol ytol : ℝ) :
    regulaFalsiFl id fuel f yt guess a b xtol ytol = (regulaFalsi fuel f yt guess a b xtol ytol).map Prod.fst := by
  have hI : initBracketFl id (fun x => f x - yt) guess a b = initBracket (fun x => f x - yt) guess a b := by
    simp only [initBracketFl, initBracket, setBracketFl, setBracket, checkBracketFl, checkBracket, levelsFl_id, id, decide_eq_true_eq]
  unfold regulaFalsiFl regulaFalsi
  dsimp only [id]
  rw [hI]
  rcases initBracket (fun x => f x - yt) guess a b with _ | br
  · rfl
  · dsimp only
    have hs : rfStartFl id br = rfStart br := rfl
    rw [hs, rfLoopFl_id]
    rcases rfLoop (fun x => f x - yt) (rfStart br).1 xtol ytol fuel (rfStart br).2 with _ | s
    · rfl
    · simp only [Option.map_some]
      congr 3
      ring

end Verif
