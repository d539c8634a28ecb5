import Verif.Model.IeeeRootFind
import Mathlib.Order.Filter.AtTopBot.Basic
import Mathlib.Topology.Algebra.Order.LiminfLimsup

/-! # C146: the machine-number root finders are the exact ones when nothing is rounded and nothing overflows -/

namespace Verif

open Ieee RootFind Classical Filter

namespace Ieee

variable {f : ℝ → ℝ} {F : ℝ → Ext → Ext}

theorem ev_ofReal (x : ℝ) : ∀ᶠ Ω in atTop, ofReal id Ω x = .fin x := by
  filter_upwards [eventually_ge_atTop |x|] with Ω h
  unfold ofReal
  simp only [id]
  rw [if_neg (not_lt.2 h)]

theorem ev_add (x y : ℝ) : ∀ᶠ Ω in atTop, add id Ω (.fin x) (.fin y) = .fin (x + y) := ev_ofReal _

theorem ev_sub (x y : ℝ) : ∀ᶠ Ω in atTop, sub id Ω (.fin x) (.fin y) = .fin (x - y) := by
  filter_upwards [ev_ofReal (x - y)] with Ω h
  simp only [sub, neg, add, ← sub_eq_add_neg]; exact h

theorem ev_mul (x y : ℝ) : ∀ᶠ Ω in atTop, mul id Ω (.fin x) (.fin y) = .fin (x * y) := ev_ofReal _

theorem ev_div (x : ℝ) {y : ℝ} (hy : y ≠ 0) : ∀ᶠ Ω in atTop, div id Ω (.fin x) (.fin y) = .fin (x / y) := by
  filter_upwards [ev_ofReal (x / y)] with Ω h
  simp only [div]; rw [if_neg hy]; exact h

/-- A bracket of finite numbers. -/
def liftBr (b : Br ℝ) : Br Ext := ⟨.fin b.a, .fin b.b, .fin b.ya, .fin b.yb⟩

/-- A state of the loop with finite numbers. -/
def liftRF (s : RF ℝ) : RF Ext := ⟨.fin s.a, .fin s.b, .fin s.ya, .fin s.yb, s.b1, s.b2, s.iter⟩

theorem ev_levelSearch (hF : ∀ x, ∀ᶠ Ω in atTop, F Ω (.fin x) = .fin (f x)) (a dx g yg : ℝ) : ∀ (n i : Nat),
    ∀ᶠ Ω in atTop, levelSearchE id Ω (F Ω) (.fin a) (.fin dx) (.fin g) (.fin yg) i n = (levelSearch f a dx g yg i n).map liftBr := by
  intro n
  induction n with
  | zero => intro i; exact Eventually.of_forall fun Ω => rfl
  | succ n ih =>
    intro i
    filter_upwards [ih (i + 1), ev_mul ((i : ℝ) + 1 / 2) dx, ev_add a (((i : ℝ) + 1 / 2) * dx), hF (a + ((i : ℝ) + 1 / 2) * dx),
      ev_mul (f (a + ((i : ℝ) + 1 / 2) * dx)) yg] with Ω h1 h2 h3 h4 h5
    rw [levelSearchE, levelSearch]
    simp only [h2, h3, h4, checkBracketE, h5, le, lt, checkBracket, decide_eq_true_eq]
    split_ifs
    · rfl
    · rfl
    · exact h1

theorem ev_levels (hF : ∀ x, ∀ᶠ Ω in atTop, F Ω (.fin x) = .fin (f x)) (a dx g yg : ℝ) : ∀ (n l : Nat),
    ∀ᶠ Ω in atTop, levelsE id Ω (F Ω) (.fin a) (.fin dx) (.fin g) (.fin yg) l n = (levels f a dx g yg l n).map liftBr := by
  intro n
  induction n with
  | zero => intro i; exact Eventually.of_forall fun Ω => rfl
  | succ n ih =>
    intro l
    filter_upwards [ih (l + 1), ev_levelSearch hF a dx g yg (2 ^ l) 0] with Ω h1 h2
    rw [levelsE, levels, h2]
    rcases levelSearch f a dx g yg 0 (2 ^ l) with _ | r
    · exact h1
    · rfl

theorem ev_initBracket (hF : ∀ x, ∀ᶠ Ω in atTop, F Ω (.fin x) = .fin (f x)) (g a b : ℝ) :
    ∀ᶠ Ω in atTop, initBracketE id Ω (F Ω) (.fin g) (.fin a) (.fin b) = (initBracket f g a b).map liftBr := by
  filter_upwards [hF a, hF g, hF b, ev_mul (f a) (f g), ev_mul (f g) (f b), ev_sub b a, ev_levels hF a (b - a) g (f g) 6 0]
    with Ω h1 h2 h3 h4 h5 h6 h7
  unfold initBracketE initBracket setBracketE setBracket
  dsimp only
  simp only [h1, h2, h3, checkBracketE, h4, h5, h6, le, checkBracket, decide_eq_true_eq]
  split_ifs
  · rfl
  · rfl
  · exact h7

theorem rfCond_lift (xtol ytol : ℝ) (s : RF ℝ) : ∀ᶠ Ω in atTop,
    (rfCondE id Ω (.fin xtol) (.fin ytol) (liftRF s) ↔ rfCond xtol ytol s) := by
  filter_upwards [ev_mul 2 xtol, ev_sub s.b s.a] with Ω h1 h2
  simp only [rfCondE, rfCond, liftRF, h1, h2, lt, absE, gt_iff_lt]

theorem ev_rfBody (hF : ∀ x, ∀ᶠ Ω in atTop, F Ω (.fin x) = .fin (f x)) (sign : ℝ) {s : RF ℝ} (hs : s.yb - s.ya ≠ 0) :
    ∀ᶠ Ω in atTop, rfBodyE id Ω (F Ω) (.fin sign) (liftRF s) = liftRF (rfBody f sign s) := by
  filter_upwards [ev_mul s.a s.yb, ev_mul s.b s.ya, ev_sub (s.a * s.yb) (s.b * s.ya), ev_sub s.yb s.ya,
    ev_div (s.a * s.yb - s.b * s.ya) hs, hF ((s.a * s.yb - s.b * s.ya) / (s.yb - s.ya)),
    ev_mul sign (f ((s.a * s.yb - s.b * s.ya) / (s.yb - s.ya))),
    ev_mul s.ya (if s.b1 + 1 > 1 then 1 / 2 else 1), ev_mul s.yb (if s.b2 + 1 > 1 then 1 / 2 else 1)]
    with Ω h1 h2 h3 h4 h5 h6 h7 h8 h9
  have hc : rfSecantE id Ω (liftRF s) = .fin ((s.a * s.yb - s.b * s.ya) / (s.yb - s.ya)) := by
    simp only [rfSecantE, liftRF, h1, h2, h3, h4, h5]
  unfold rfBodyE rfBody
  dsimp only
  rw [hc]
  simp only [eqE, h6, h7, lt, gt_iff_lt]
  simp only [liftRF, ne_eq, reduceCtorEq, not_false_eq_true, true_and, Ext.fin.injEq]
  split_ifs <;> first | rfl | simp_all

/-- The invariant that keeps the secant's divisor from vanishing. -/
def Good (s : RF ℝ) : Prop := s.a = s.b ∨ (s.ya < 0 ∧ 0 ≤ s.yb) ∨ (s.ya = 0 ∧ s.yb ≠ 0)

theorem Good.ne {s : RF ℝ} (h : Good s) (hab : s.a ≠ s.b) : s.yb - s.ya ≠ 0 := by
  rcases h with h | h | h
  · exact absurd h hab
  · have := h.1; have := h.2; intro e; linarith
  · rw [h.1, sub_zero]; exact h.2

theorem Good.body {s : RF ℝ} (h : Good s) (hab : s.a ≠ s.b) (sign : ℝ) : Good (rfBody f sign s) := by
  have hne := h.ne hab
  unfold rfBody
  dsimp only
  by_cases c1 : (s.a * s.yb - s.b * s.ya) / (s.yb - s.ya) = s.a
  · rw [if_pos c1]; exact Or.inl rfl
  rw [if_neg c1]
  have hs : s.ya < 0 ∧ 0 ≤ s.yb := by
    rcases h with h | h | h
    · exact absurd h hab
    · exact h
    · refine absurd ?_ c1
      rw [h.1, mul_zero, sub_zero, sub_zero, mul_div_assoc, div_self h.2, mul_one]
  by_cases c2 : (s.a * s.yb - s.b * s.ya) / (s.yb - s.ya) = s.b
  · rw [if_pos c2]; exact Or.inl rfl
  rw [if_neg c2]
  by_cases c3 : sign * f ((s.a * s.yb - s.b * s.ya) / (s.yb - s.ya)) > 0
  · rw [if_pos c3]
    exact Or.inr (Or.inl ⟨by dsimp only; split_ifs <;> linarith [hs.1], c3.le⟩)
  rw [if_neg c3]
  by_cases c4 : sign * f ((s.a * s.yb - s.b * s.ya) / (s.yb - s.ya)) < 0
  · rw [if_pos c4]
    exact Or.inr (Or.inl ⟨c4, by dsimp only; split_ifs <;> linarith [hs.2]⟩)
  rw [if_neg c4]
  exact Or.inl rfl

theorem ev_rfLoop (hF : ∀ x, ∀ᶠ Ω in atTop, F Ω (.fin x) = .fin (f x)) (sign xtol ytol : ℝ) (hx : 0 ≤ xtol) : ∀ (n : Nat) (s : RF ℝ),
    Good s → ∀ᶠ Ω in atTop, rfLoopE id Ω (F Ω) (.fin sign) (.fin xtol) (.fin ytol) n (liftRF s)
      = (rfLoop f sign xtol ytol n s).map liftRF := by
  intro n
  induction n with
  | zero =>
    intro s _
    filter_upwards [rfCond_lift xtol ytol s] with Ω h
    rw [rfLoopE, rfLoop]
    by_cases hc : rfCond xtol ytol s
    · rw [if_pos hc, if_pos (h.2 hc)]; rfl
    · rw [if_neg hc, if_neg (fun e => hc (h.1 e))]; rfl
  | succ n ih =>
    intro s hs
    by_cases hc : rfCond xtol ytol s
    · have hab : s.a ≠ s.b := by
        intro e
        have := hc.1
        rw [e, sub_self] at this
        linarith
      filter_upwards [rfCond_lift xtol ytol s, ev_rfBody hF sign (hs.ne hab), ih _ (hs.body (f := f) hab sign)] with Ω h h1 h2
      rw [rfLoopE, rfLoop, if_pos hc, if_pos (h.2 hc), h1, h2]
    · filter_upwards [rfCond_lift xtol ytol s] with Ω h
      rw [rfLoopE, rfLoop, if_neg hc, if_neg (fun e => hc (h.1 e))]; rfl

theorem initBracket_values {func : ℝ → ℝ} {g a b : ℝ} {br : Br ℝ} (he : initBracket func g a b = some br) :
    br.ya = func br.a ∧ br.yb = func br.b ∧ br.ya * br.yb ≤ 0 := by
  have hS : ∀ n i, levelSearch func a (b - a) g (func g) i n = some br → br.ya = func br.a ∧ br.yb = func br.b ∧ br.ya * br.yb ≤ 0 := by
    intro n
    induction n with
    | zero => intro i h; simp [levelSearch] at h
    | succ n ih =>
      intro i h
      rw [levelSearch] at h
      by_cases c : checkBracket (func (a + ((i : ℝ) + 1 / 2) * (b - a))) (func g)
      · rw [if_pos c] at h
        have c' : func (a + ((i : ℝ) + 1 / 2) * (b - a)) * func g ≤ 0 := by simpa [checkBracket] using c
        split_ifs at h
        · injection h with h; subst h; exact ⟨rfl, rfl, c'⟩
        · injection h with h; subst h; exact ⟨rfl, rfl, by dsimp only; rw [mul_comm]; exact c'⟩
      · rw [if_neg c] at h; exact ih _ h
  have hL : ∀ n l, levels func a (b - a) g (func g) l n = some br → br.ya = func br.a ∧ br.yb = func br.b ∧ br.ya * br.yb ≤ 0 := by
    intro n
    induction n with
    | zero => intro l h; simp [levels] at h
    | succ n ih =>
      intro l h
      rw [levels] at h
      rcases hr : levelSearch func a (b - a) g (func g) 0 (2 ^ l) with _ | r
      · rw [hr] at h; exact ih _ h
      · rw [hr] at h; injection h with h; subst h; exact hS _ _ hr
  unfold initBracket setBracket at he
  dsimp only at he
  split_ifs at he with c1 c2
  · injection he with he; subst he; exact ⟨rfl, rfl, by simpa [checkBracket] using c1⟩
  · injection he with he; subst he; exact ⟨rfl, rfl, by simpa [checkBracket] using c2⟩
  · exact hL _ _ he

end Ieee

/-- C146: with exact arithmetic and a number range that is large enough for the run, `regula_falsi` on machine numbers is the
`regula_falsi` of C08, for every injective function: same status, same root. -/
theorem C146_regula_falsi_exact (f : ℝ → ℝ) (hf : Function.Injective f) (F : Ext → Ext) (hF : ∀ x, F (.fin x) = .fin (f x)) (fuel : Nat)
    (yt g a b xtol ytol : ℝ) (hx : 0 ≤ xtol) :
    ∀ᶠ Ω in atTop, regulaFalsiE id Ω fuel F (.fin yt) (.fin g) (.fin a) (.fin b) (.fin xtol) (.fin ytol)
      = (regulaFalsi fuel f yt g a b xtol ytol).map fun r => ⟨r.1.status, r.1.xroot.map .fin⟩ := by
  have hF' : ∀ x, ∀ᶠ Ω in atTop, (fun (Ω : ℝ) (z : Ext) => sub id Ω (F z) (.fin yt)) Ω (.fin x) = .fin ((fun x => f x - yt) x) := by
    intro x
    filter_upwards [ev_sub (f x) yt] with Ω h
    simp only [hF, h]
  set func : ℝ → ℝ := fun x => f x - yt with hfunc
  set FF : ℝ → Ext → Ext := fun Ω z => sub id Ω (F z) (.fin yt) with hFF
  have hI := ev_initBracket (f := func) (F := FF) hF' g a b
  rcases hib : initBracket func g a b with _ | br
  · filter_upwards [hI] with Ω h
    unfold regulaFalsiE regulaFalsi
    dsimp only
    rw [hib] at h
    rw [show (fun x => sub id Ω (F x) (.fin yt)) = FF Ω from rfl, h, ← hfunc, hib]
    rfl
  · obtain ⟨e1, e2, e3⟩ := initBracket_values hib
    have hgood : Good (rfStart br).2 := by
      unfold rfStart Good
      dsimp only
      by_cases hab : br.a = br.b
      · exact Or.inl hab
      have hne : br.ya ≠ br.yb := fun e => hab (hf (by rw [e1, e2, hfunc] at e; simpa using e))
      by_cases hn : br.ya < 0
      · right; left
        rw [if_pos hn]
        refine ⟨by linarith, ?_⟩
        by_contra hc
        nlinarith
      · rw [if_neg hn]
        rcases (not_lt.1 hn).eq_or_lt with h0 | h0
        · right; right
          refine ⟨by rw [← h0]; ring, ?_⟩
          intro e
          exact hne (by rw [← h0]; linarith)
        · right; left
          refine ⟨by linarith, ?_⟩
          by_contra hc
          nlinarith
    have hstart : ∀ᶠ Ω in atTop, rfStartE id Ω (liftBr br) = (.fin (rfStart br).1, liftRF (rfStart br).2) := by
      by_cases hn : br.ya < 0
      · filter_upwards [ev_mul br.ya 1, ev_mul br.yb 1] with Ω h1 h2
        have c : lt (liftBr br).ya (.fin 0) := hn
        unfold rfStartE rfStart
        dsimp only
        rw [if_pos c, if_pos hn]
        simp only [liftBr, liftRF, h1, h2]
      · filter_upwards [ev_mul br.ya (-1), ev_mul br.yb (-1)] with Ω h1 h2
        have c : ¬ lt (liftBr br).ya (.fin 0) := hn
        unfold rfStartE rfStart
        dsimp only
        rw [if_neg c, if_neg hn]
        simp only [liftBr, liftRF, h1, h2]
    have hL := ev_rfLoop (f := func) (F := FF) hF' (rfStart br).1 xtol ytol hx fuel _ hgood
    rcases hl : rfLoop func (rfStart br).1 xtol ytol fuel (rfStart br).2 with _ | s
    · filter_upwards [hI, hstart, hL] with Ω h h1 h2
      rw [hib] at h
      rw [hl] at h2
      unfold regulaFalsiE regulaFalsi
      dsimp only
      rw [show (fun x => sub id Ω (F x) (.fin yt)) = FF Ω from rfl, h, ← hfunc, hib]
      dsimp only [Option.map_some]
      rw [h1, h2, hl]
      rfl
    · filter_upwards [hI, hstart, hL, ev_add s.a s.b, ev_mul (1 / 2) (s.a + s.b)] with Ω h h1 h2 h3 h4
      rw [hib] at h
      rw [hl] at h2
      unfold regulaFalsiE regulaFalsi
      dsimp only
      rw [show (fun x => sub id Ω (F x) (.fin yt)) = FF Ω from rfl, h, ← hfunc, hib]
      dsimp only [Option.map_some]
      rw [h1, h2, hl]
      dsimp only [Option.map_some, liftRF]
      rw [h3, h4]
      congr 4
      ring

namespace Ieee

theorem stdMin_fin (a b : ℝ) : stdMin (.fin a) (.fin b) = .fin (min a b) := by
  unfold stdMin
  by_cases h : b < a
  · rw [if_pos (show lt (.fin b) (.fin a) from h), min_eq_right h.le]
  · rw [if_neg (show ¬ lt (.fin b) (.fin a) from h), min_eq_left (not_lt.1 h)]

theorem stdMax_fin' (a b : ℝ) : stdMax (.fin a) (.fin b) = .fin (max a b) := by
  unfold stdMax
  by_cases h : a < b
  · rw [if_pos (show lt (.fin a) (.fin b) from h), max_eq_right h.le]
  · rw [if_neg (show ¬ lt (.fin a) (.fin b) from h), max_eq_left (not_lt.1 h)]

theorem ev_nrLoop (f : ℝ → ℝ × ℝ) (h0 : ∀ x, (f x).2 ≠ 0) (F : Ext → Ext × Ext) (hF : ∀ x, F (.fin x) = (.fin (f x).1, .fin (f x).2))
    (yt a b ytol : ℝ) : ∀ (n : Nat) (x : ℝ), ∀ᶠ Ω in atTop, nrLoopE id Ω F (.fin yt) (.fin a) (.fin b) (.fin ytol) n (.fin x)
      = ((Ext.fin (nrLoop (· / ·) f yt a b ytol n x).1), (nrLoop (· / ·) f yt a b ytol n x).2) := by
  intro n
  induction n with
  | zero => intro x; exact Eventually.of_forall fun Ω => rfl
  | succ n ih =>
    intro x
    filter_upwards [ev_sub (f x).1 yt, ev_mul ytol yt, ev_div ((f x).1 - yt) (h0 x), ev_sub x (((f x).1 - yt) / (f x).2),
      ih (max (min (x - ((f x).1 - yt) / (f x).2) b) a)] with Ω h1 h2 h3 h4 h5
    rw [nrLoopE, nrLoop]
    dsimp only
    rw [hF]
    dsimp only
    rw [h1, h2, h3, h4, stdMin_fin, stdMax_fin', h5]
    by_cases c1 : |(f x).1 - yt| < |ytol * yt|
    · rw [if_pos c1, if_pos (show lt (absE (.fin ((f x).1 - yt))) (absE (.fin (ytol * yt))) from c1)]
    rw [if_neg c1, if_neg (show ¬ lt (absE (.fin ((f x).1 - yt))) (absE (.fin (ytol * yt))) from c1)]
    by_cases c2 : (x - ((f x).1 - yt) / (f x).2 ≤ a ∧ x ≤ a) ∨ (x - ((f x).1 - yt) / (f x).2 ≥ b ∧ x ≥ b)
    · rw [if_pos c2, if_pos (by simpa only [le, ge_iff_le] using c2)]
    · rw [if_neg c2, if_neg (by simpa only [le, ge_iff_le] using c2)]

end Ieee

/-- C146: the same for `newton_raphson` (C09) and functions with a derivative that does not vanish. -/
theorem C146_newton_exact (f : ℝ → ℝ × ℝ) (h0 : ∀ x, (f x).2 ≠ 0) (F : Ext → Ext × Ext) (hF : ∀ x, F (.fin x) = (.fin (f x).1, .fin (f x).2))
    (yt g a b ytol : ℝ) (fb : Bool) :
    ∀ᶠ Ω in atTop, newtonRaphsonE id Ω F (.fin yt) (.fin g) (.fin a) (.fin b) (.fin ytol) fb
      = ((newtonRaphson (· / ·) f yt g a b ytol fb).1, Ext.fin (newtonRaphson (· / ·) f yt g a b ytol fb).2) := by
  filter_upwards [ev_nrLoop f h0 F hF yt a b ytol 100 g] with Ω h
  unfold newtonRaphsonE newtonRaphson
  dsimp only
  rw [h]
  rcases (nrLoop (· / ·) f yt a b ytol 100 g) with ⟨x, _ | _ | _⟩ <;> rfl

namespace Ieee

variable {f : ℝ → ℝ} {F : Ext → Ext}

theorem ev_secantStep (hf : Function.Injective f) (hF : ∀ x, F (.fin x) = .fin (f x)) (yt xmin xmax xtol x : ℝ) (hx : 0 < xtol) :
    ∀ᶠ Ω in atTop, secantStepE id Ω F (.fin yt) (.fin xmin) (.fin xmax) (.fin xtol) (.fin x)
      = .fin (secantStep (· / ·) f yt xmin xmax xtol x) := by
  have hdx : 0 < |1 / 10 ^ 7 * x| + xtol := by positivity
  set dx := |1 / 10 ^ 7 * x| + xtol with hd
  have hdy : (f (x + dx) - f (x - dx)) / (2 * dx) ≠ 0 := by
    apply div_ne_zero _ (by positivity)
    intro e
    have := hf (sub_eq_zero.1 e)
    linarith
  filter_upwards [ev_mul (1 / 10 ^ 7) x, ev_add |1 / 10 ^ 7 * x| xtol, ev_sub (f x) yt, ev_add x dx, ev_sub x dx,
    ev_sub (f (x + dx)) (f (x - dx)), ev_mul 2 dx, ev_div (f (x + dx) - f (x - dx)) (show 2 * dx ≠ 0 by positivity),
    ev_div (f x - yt) hdy, ev_sub x ((f x - yt) / ((f (x + dx) - f (x - dx)) / (2 * dx)))] with Ω h1 h2 h3 h4 h5 h6 h7 h8 h9 h10
  unfold secantStepE secantStep
  dsimp only
  have e1 : add id Ω (absE (mul id Ω (lit id (1 / 10 ^ 7)) (.fin x))) (.fin xtol) = .fin dx := by
    simp only [lit, id]
    rw [h1]
    exact h2
  rw [e1, ← hd, h4, h5, hF, hF, hF, h3, h6, h7, h8, h9, h10]
  generalize x - (f x - yt) / ((f (x + dx) - f (x - dx)) / (2 * dx)) = x1
  have e2 : (if lt (.fin x1) (.fin xmin) then Ext.fin xmin else .fin x1) = .fin (if x1 < xmin then xmin else x1) := by
    by_cases c : x1 < xmin
    · rw [if_pos c, if_pos (show lt (.fin x1) (.fin xmin) from c)]
    · rw [if_neg c, if_neg (show ¬ lt (.fin x1) (.fin xmin) from c)]
  rw [e2]
  generalize (if x1 < xmin then xmin else x1) = x2
  by_cases c : x2 > xmax
  · rw [if_pos c, if_pos (show lt (.fin xmax) (.fin x2) from c)]
  · rw [if_neg c, if_neg (show ¬ lt (.fin xmax) (.fin x2) from c)]

theorem ev_secantLoop (hf : Function.Injective f) (hF : ∀ x, F (.fin x) = .fin (f x)) (yt xmin xmax xtol : ℝ) (hx : 0 < xtol) :
    ∀ (n : Nat) (p : ℝ × ℝ), ∀ᶠ Ω in atTop, secantLoopE id Ω F (.fin yt) (.fin xmin) (.fin xmax) (.fin xtol) n (.fin p.1, .fin p.2)
      = some (.fin (secantLoop (· / ·) f yt xmin xmax xtol n p).1, .fin (secantLoop (· / ·) f yt xmin xmax xtol n p).2) := by
  intro n
  induction n with
  | zero => intro p; exact Eventually.of_forall fun Ω => rfl
  | succ n ih =>
    intro p
    set x := secantStep (· / ·) f yt xmin xmax xtol p.1 with hxd
    filter_upwards [ev_secantStep hf hF yt xmin xmax xtol p.1 hx, ih (x, p.1), ev_sub x p.1, ev_add |x| xtol,
      ev_div |x - p.1| (show |x| + xtol ≠ 0 by positivity)] with Ω h1 h2 h3 h4 h5
    have e : div id Ω (absE (sub id Ω (.fin x) (.fin p.1))) (add id Ω (absE (.fin x)) (.fin xtol)) = .fin (|x - p.1| / (|x| + xtol)) := by
      rw [h3]
      change div id Ω (.fin |x - p.1|) (add id Ω (.fin |x|) (.fin xtol)) = _
      rw [h4, h5]
    rw [secantLoopE, secantLoop, h1, ← hxd]
    dsimp only
    rw [if_neg (show ¬ notFinite (.fin x) from fun h => h), e]
    by_cases c : |x - p.1| / (|x| + xtol) < xtol
    · rw [if_pos c, if_pos (show lt (.fin (|x - p.1| / (|x| + xtol))) (.fin xtol) from c)]
    · rw [if_neg c, if_neg (show ¬ lt (.fin (|x - p.1| / (|x| + xtol))) (.fin xtol) from c)]
      exact h2

theorem ev_fracErr (hF : ∀ x, F (.fin x) = .fin (f x)) (yt ytol x : ℝ) (hy : 0 < ytol) :
    ∀ᶠ Ω in atTop, div id Ω (absE (sub id Ω (F (.fin x)) (.fin yt))) (add id Ω (absE (F (.fin x))) (.fin ytol))
      = .fin (|f x - yt| / (|f x| + ytol)) := by
  filter_upwards [ev_sub (f x) yt, ev_add |f x| ytol, ev_div |f x - yt| (show |f x| + ytol ≠ 0 by positivity)] with Ω h1 h2 h3
  rw [hF, h1]
  change div id Ω (.fin |f x - yt|) (add id Ω (.fin |f x|) (.fin ytol)) = _
  rw [h2, h3]

theorem ev_secant (hf : Function.Injective f) (hF : ∀ x, F (.fin x) = .fin (f x)) (yt g xmin xmax xtol ytol : ℝ) (hx : 0 < xtol)
    (hy : 0 < ytol) (x0 : Ext) : ∀ᶠ Ω in atTop, secantE id Ω F (.fin yt) (.fin g) (.fin xmin) (.fin xmax) (.fin xtol) (.fin ytol) x0
      = ((secant (· / ·) f yt g xmin xmax xtol ytol).1, Ext.fin (secant (· / ·) f yt g xmin xmax xtol ytol).2) := by
  rcases hp : secantLoop (· / ·) f yt xmin xmax xtol 1000 (g, g) with ⟨x, l⟩
  filter_upwards [ev_secantLoop hf hF yt xmin xmax xtol hx 1000 (g, g), ev_sub x l, ev_fracErr hF yt ytol x hy] with Ω h1 h2 h3
  rw [hp] at h1
  unfold secantE secant
  rw [h1, hp]
  dsimp only
  rw [h2, h3]
  by_cases c : |x - l| > xtol ∨ |(|f x - yt| / (|f x| + ytol))| > ytol
  · rw [if_pos c, if_pos]
    exact c.imp id Or.inl
  · rw [if_neg c, if_neg]
    rintro (e | e | e)
    · exact c (Or.inl e)
    · exact c (Or.inr e)
    · exact e

theorem ev_region (hF : ∀ x, F (.fin x) = .fin (f x)) (yt xmin xmax x : ℝ) : ∀ (n : Nat) (grow : ℝ),
    ∀ᶠ Ω in atTop, regionE id Ω F (.fin yt) (.fin xmin) (.fin xmax) (.fin x) n (.fin grow)
      = (region f yt xmin xmax x n grow).map liftBr := by
  intro n
  induction n with
  | zero => intro g; exact Eventually.of_forall fun Ω => rfl
  | succ n ih =>
    intro g
    filter_upwards [ih (g * (11 / 10)), ev_mul g x, ev_sub x |g * x|, ev_add x |g * x|, ev_sub (f (x - |g * x|)) yt,
      ev_sub (f (x + |g * x|)) yt, ev_mul (f (x - |g * x|) - yt) (f (x + |g * x|) - yt), ev_mul g (11 / 10)]
      with Ω h1 h2 h3 h4 h5 h6 h7 h8
    have ea : absE (.fin (g * x)) = .fin |g * x| := rfl
    rw [regionE, region]
    dsimp only
    rw [h2, ea, h3, h4, hF, hF, h5, h6, h7, lit, id, h8]
    by_cases c : (f (x - |g * x|) - yt) * (f (x + |g * x|) - yt) < 0 ∨ x - |g * x| < xmin ∨ x + |g * x| > xmax
    · rw [if_pos c, if_pos (by simpa only [lt, gt_iff_lt] using c)]; rfl
    · rw [if_neg c, if_neg (by simpa only [lt, gt_iff_lt] using c)]; exact h1

theorem ev_repair (hF : ∀ x, F (.fin x) = .fin (f x)) (yt xmin xmax : ℝ) (br : Br ℝ) :
    ∀ᶠ Ω in atTop, repairE id Ω F (.fin yt) (.fin xmin) (.fin xmax) (liftBr br) = (repair f yt xmin xmax br).map liftBr := by
  set br1 : Br ℝ := if br.b > xmax then { br with b := xmax, yb := f xmax - yt } else br with h1
  set br2 : Br ℝ := if br1.a < xmin then { br1 with a := xmin, ya := f xmin - yt } else br1 with h2
  filter_upwards [ev_sub (f xmax) yt, ev_sub (f xmin) yt, ev_mul br2.ya br2.yb, ev_mul (f xmin - yt) br2.yb,
    ev_mul (f xmin - yt) (f xmax - yt)] with Ω e1 e2 e3 e4 e5
  have E1 : (if lt (.fin xmax) (liftBr br).b then { (liftBr br) with b := .fin xmax, yb := sub id Ω (F (.fin xmax)) (.fin yt) } else liftBr br)
      = liftBr br1 := by
    rw [hF, e1, h1]
    by_cases c : br.b > xmax
    · rw [if_pos c, if_pos (show lt (.fin xmax) (liftBr br).b from c)]; rfl
    · rw [if_neg c, if_neg (show ¬ lt (.fin xmax) (liftBr br).b from c)]
  have E2 : (if lt (liftBr br1).a (.fin xmin) then { (liftBr br1) with a := .fin xmin, ya := sub id Ω (F (.fin xmin)) (.fin yt) } else liftBr br1)
      = liftBr br2 := by
    rw [hF, e2, h2]
    by_cases c : br1.a < xmin
    · rw [if_pos c, if_pos (show lt (liftBr br1).a (.fin xmin) from c)]; rfl
    · rw [if_neg c, if_neg (show ¬ lt (liftBr br1).a (.fin xmin) from c)]
  unfold repairE repair
  dsimp only
  rw [E1, E2, ← h1, ← h2, hF, hF, e1, e2]
  have m1 : mul id Ω (liftBr br2).ya (liftBr br2).yb = .fin (br2.ya * br2.yb) := e3
  have m2 : mul id Ω (.fin (f xmin - yt)) (liftBr br2).yb = .fin ((f xmin - yt) * br2.yb) := e4
  rw [m1, m2, e5]
  by_cases c1 : br2.ya * br2.yb > 0
  · rw [if_pos c1, if_pos (show lt (.fin 0) (.fin (br2.ya * br2.yb)) from c1)]
    by_cases c2 : (f xmin - yt) * br2.yb > 0
    · rw [if_pos c2, if_pos (show lt (.fin 0) (.fin ((f xmin - yt) * br2.yb)) from c2)]
      by_cases c3 : (f xmin - yt) * (f xmax - yt) > 0
      · rw [if_pos c3, if_pos (show lt (.fin 0) (.fin ((f xmin - yt) * (f xmax - yt))) from c3)]; rfl
      · rw [if_neg c3, if_neg (show ¬ lt (.fin 0) (.fin ((f xmin - yt) * (f xmax - yt))) from c3)]; rfl
    · rw [if_neg c2, if_neg (show ¬ lt (.fin 0) (.fin ((f xmin - yt) * br2.yb)) from c2)]; rfl
  · rw [if_neg c1, if_neg (show ¬ lt (.fin 0) (.fin (br2.ya * br2.yb)) from c1)]; rfl

theorem ev_bisectStep (hF : ∀ x, F (.fin x) = .fin (f x)) (yt : ℝ) (br : Br ℝ) :
    ∀ᶠ Ω in atTop, bisectStepE id Ω F (.fin yt) (liftBr br) = liftBr (bisectStep f yt br) := by
  filter_upwards [ev_add br.a br.b, ev_mul (1 / 2) (br.a + br.b), ev_sub (f (1 / 2 * (br.a + br.b))) yt,
    ev_mul br.ya (f (1 / 2 * (br.a + br.b)) - yt)] with Ω h1 h2 h3 h4
  have e1 : add id Ω (liftBr br).a (liftBr br).b = .fin (br.a + br.b) := h1
  have e4 : mul id Ω (liftBr br).ya (.fin (f (1 / 2 * (br.a + br.b)) - yt)) = .fin (br.ya * (f (1 / 2 * (br.a + br.b)) - yt)) := h4
  unfold bisectStepE bisectStep
  dsimp only
  rw [e1, h2, hF, h3, e4]
  by_cases c : br.ya * (f (1 / 2 * (br.a + br.b)) - yt) ≤ 0
  · rw [if_pos c, if_pos (show le (.fin (br.ya * (f (1 / 2 * (br.a + br.b)) - yt))) (.fin 0) from c)]; rfl
  · rw [if_neg c, if_neg (show ¬ le (.fin (br.ya * (f (1 / 2 * (br.a + br.b)) - yt))) (.fin 0) from c)]; rfl

theorem ev_bisectLoop (hF : ∀ x, F (.fin x) = .fin (f x)) (yt xtol : ℝ) : ∀ (n : Nat) (br : Br ℝ),
    ∀ᶠ Ω in atTop, bisectLoopE id Ω F (.fin yt) (.fin xtol) n (liftBr br)
      = ((bisectLoop f yt xtol n br).1, liftBr (bisectLoop f yt xtol n br).2) := by
  intro n
  induction n with
  | zero => intro br; exact Eventually.of_forall fun Ω => rfl
  | succ n ih =>
    intro br
    filter_upwards [ev_bisectStep hF yt br, ih (bisectStep f yt br), ev_sub (bisectStep f yt br).b (bisectStep f yt br).a]
      with Ω h1 h2 h3
    rw [bisectLoopE, bisectLoop, h1]
    have e : sub id Ω (liftBr (bisectStep f yt br)).b (liftBr (bisectStep f yt br)).a = .fin ((bisectStep f yt br).b - (bisectStep f yt br).a) := h3
    rw [e]
    by_cases c : (bisectStep f yt br).b - (bisectStep f yt br).a < xtol
    · rw [if_pos c, if_pos (show lt (.fin ((bisectStep f yt br).b - (bisectStep f yt br).a)) (.fin xtol) from c)]
    · rw [if_neg c, if_neg (show ¬ lt (.fin ((bisectStep f yt br).b - (bisectStep f yt br).a)) (.fin xtol) from c)]
      exact h2

theorem ev_bisect (hF : ∀ x, F (.fin x) = .fin (f x)) (yt g xmin xmax xtol x0 : ℝ) :
    ∀ᶠ Ω in atTop, bisectE id Ω F (.fin yt) (.fin g) (.fin xmin) (.fin xmax) (.fin xtol) (.fin x0)
      = ((bisect f yt g xmin xmax xtol).1.status, Ext.fin ((bisect f yt g xmin xmax xtol).1.xroot.getD x0)) := by
  set x := if |g| < xtol then g + 2 * xtol else g with hx
  have hxE : ∀ᶠ Ω in atTop, (if lt (absE (.fin g)) (.fin xtol) then add id Ω (.fin g) (mul id Ω (.fin 2) (.fin xtol)) else .fin g)
      = Ext.fin x := by
    filter_upwards [ev_mul 2 xtol, ev_add g (2 * xtol)] with Ω h1 h2
    rw [h1, h2, hx]
    by_cases c : |g| < xtol
    · rw [if_pos c, if_pos (show lt (absE (.fin g)) (.fin xtol) from c)]
    · rw [if_neg c, if_neg (show ¬ lt (absE (.fin g)) (.fin xtol) from c)]
  have hR := ev_region hF yt xmin xmax x 1000 (1 / 100)
  rcases hr : region f yt xmin xmax x 1000 (1 / 100) with _ | br
  · filter_upwards [hxE, hR] with Ω h1 h2
    rw [hr] at h2
    unfold bisectE bisect
    dsimp only
    rw [h1, lit, id, h2, ← hx, hr]
    rfl
  · have hP := ev_repair hF yt xmin xmax br
    rcases hp : repair f yt xmin xmax br with _ | br'
    · filter_upwards [hxE, hR, hP] with Ω h1 h2 h3
      rw [hr] at h2
      rw [hp] at h3
      unfold bisectE bisect
      dsimp only
      rw [h1, lit, id, h2, ← hx, hr]
      dsimp only [Option.map_some]
      rw [h3, hp]
      rfl
    · set r := (bisectLoop f yt xtol 1000 br') with hrr
      filter_upwards [hxE, hR, hP, ev_bisectLoop hF yt xtol 1000 br', ev_add r.2.a r.2.b, ev_mul (1 / 2) (r.2.a + r.2.b)]
        with Ω h1 h2 h3 h4 h5 h6
      rw [hr] at h2
      rw [hp] at h3
      unfold bisectE bisect
      dsimp only
      rw [h1, lit, id, h2, ← hx, hr]
      dsimp only [Option.map_some]
      rw [h3, hp]
      dsimp only [Option.map_some]
      rw [h4, ← hrr]
      have e5 : add id Ω (liftBr r.2).a (liftBr r.2).b = .fin (r.2.a + r.2.b) := h5
      dsimp only
      rw [e5, h6]
      rfl

end Ieee

/-- C146: the same for `findRoot` (C10, C11): with exact arithmetic and no overflow, for every injective function and positive
tolerances, the machine-number `findRoot` is the exact one, whatever the output argument held before. -/
theorem C146_findRoot_exact (f : ℝ → ℝ) (hf : Function.Injective f) (F : Ext → Ext) (hF : ∀ x, F (.fin x) = .fin (f x))
    (yt g xmin xmax xtol ytol : ℝ) (hx : 0 < xtol) (hy : 0 < ytol) (x0 : Ext) :
    ∃ x, (findRoot (· / ·) f yt g xmin xmax xtol ytol).xroot = some x ∧
      ∀ᶠ Ω in atTop, findRootE id Ω F (.fin yt) (.fin g) (.fin xmin) (.fin xmax) (.fin xtol) (.fin ytol) x0
        = ((findRoot (· / ·) f yt g xmin xmax xtol ytol).status, .fin x) := by
  have hA := ev_fracErr hF yt ytol xmax hy
  have hB := ev_fracErr hF yt ytol xmin hy
  by_cases c1 : |f xmax - yt| / (|f xmax| + ytol) < ytol
  · refine ⟨xmax, by unfold findRoot; rw [if_pos c1], ?_⟩
    filter_upwards [hA] with Ω h1
    unfold findRootE findRoot
    rw [h1, if_pos c1, if_pos (show lt (.fin (|f xmax - yt| / (|f xmax| + ytol))) (.fin ytol) from c1)]
  by_cases c2 : |f xmin - yt| / (|f xmin| + ytol) < ytol
  · refine ⟨xmin, by unfold findRoot; rw [if_neg c1, if_pos c2], ?_⟩
    filter_upwards [hA, hB] with Ω h1 h2
    unfold findRootE findRoot
    rw [h1, h2, if_neg c1, if_pos c2, if_neg (show ¬ lt (.fin (|f xmax - yt| / (|f xmax| + ytol))) (.fin ytol) from c1),
      if_pos (show lt (.fin (|f xmin - yt| / (|f xmin| + ytol))) (.fin ytol) from c2)]
  set g1 := if g ≥ xmax then xmax - xtol else g with hg1
  set g2 := if g1 ≤ xmin then xmin + xtol else g1 with hg2
  have hG : ∀ᶠ Ω in atTop, (if le (.fin xmax) (.fin g) then sub id Ω (.fin xmax) (.fin xtol) else .fin g) = Ext.fin g1 := by
    filter_upwards [ev_sub xmax xtol] with Ω h
    rw [h, hg1]
    by_cases c : g ≥ xmax
    · rw [if_pos c, if_pos (show le (.fin xmax) (.fin g) from c)]
    · rw [if_neg c, if_neg (show ¬ le (.fin xmax) (.fin g) from c)]
  have hG2 : ∀ᶠ Ω in atTop, (if le (.fin g1) (.fin xmin) then add id Ω (.fin xmin) (.fin xtol) else .fin g1) = Ext.fin g2 := by
    filter_upwards [ev_add xmin xtol] with Ω h
    rw [h, hg2]
    by_cases c : g1 ≤ xmin
    · rw [if_pos c, if_pos (show le (.fin g1) (.fin xmin) from c)]
    · rw [if_neg c, if_neg (show ¬ le (.fin g1) (.fin xmin) from c)]
  have hS := ev_secant hf hF yt g2 xmin xmax xtol ytol hx hy x0
  set s := secant (· / ·) f yt g2 xmin xmax xtol ytol with hs
  have hBi := ev_bisect hF yt g2 xmin xmax xtol s.2
  by_cases c3 : s.1 = .success
  · refine ⟨s.2, by unfold findRoot; rw [if_neg c1, if_neg c2]; dsimp only; rw [← hg1, ← hg2, ← hs, if_pos c3], ?_⟩
    filter_upwards [hA, hB, hG, hG2, hS] with Ω h1 h2 h3 h4 h5
    unfold findRootE findRoot
    rw [h1, h2, if_neg c1, if_neg c2, if_neg (show ¬ lt (.fin (|f xmax - yt| / (|f xmax| + ytol))) (.fin ytol) from c1),
      if_neg (show ¬ lt (.fin (|f xmin - yt| / (|f xmin| + ytol))) (.fin ytol) from c2)]
    dsimp only
    rw [h3, h4, h5, ← hg1, ← hg2, ← hs, if_pos c3, if_pos c3]
  · set r := (bisect f yt g2 xmin xmax xtol).1 with hr
    refine ⟨r.xroot.getD s.2, ?_, ?_⟩
    · unfold findRoot
      rw [if_neg c1, if_neg c2]
      dsimp only
      rw [← hg1, ← hg2, ← hs, if_neg c3, ← hr]
      split_ifs <;> rfl
    · filter_upwards [hA, hB, hG, hG2, hS, hBi] with Ω h1 h2 h3 h4 h5 h6
      unfold findRootE findRoot
      rw [h1, h2, if_neg c1, if_neg c2, if_neg (show ¬ lt (.fin (|f xmax - yt| / (|f xmax| + ytol))) (.fin ytol) from c1),
        if_neg (show ¬ lt (.fin (|f xmin - yt| / (|f xmin| + ytol))) (.fin ytol) from c2)]
      dsimp only
      rw [h3, h4, h5, ← hg1, ← hg2, ← hs, if_neg c3, if_neg c3]
      dsimp only
      rw [h6, ← hr]
      dsimp only
      generalize r.xroot.getD s.2 = x
      rw [if_neg (show ¬ notFinite (.fin x) from fun h => h)]
      by_cases d1 : x < xmin
      · rw [if_pos d1, if_pos (show lt (.fin x) (.fin xmin) from d1)]
      rw [if_neg d1, if_neg (show ¬ lt (.fin x) (.fin xmin) from d1)]
      by_cases d2 : x > xmax
      · rw [if_pos d2, if_pos (show lt (.fin xmax) (.fin x) from d2)]
      rw [if_neg d2, if_neg (show ¬ lt (.fin xmax) (.fin x) from d2)]

/-- The hypotheses are met by the identity, extended to machine numbers. -/
example : ∃ F : Ext → Ext, Function.Injective (fun x : ℝ => x) ∧ ∀ x, F (.fin x) = .fin ((fun x : ℝ => x) x) :=
  ⟨id, fun _ _ h => h, fun _ => rfl⟩

end Verif
