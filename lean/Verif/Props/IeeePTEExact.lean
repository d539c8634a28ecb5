import Verif.Props.IeeeRootFindExact
import Verif.Props.IeeePTEDriver
import Verif.Model.PTEFull
import Verif.Lemmas.MixUtils

/-! # C147: the machine-number PTE iteration is the exact one when nothing is rounded and nothing overflows -/

namespace Verif

open Ieee PTE Classical Filter

namespace Ieee

/-- An array of finite numbers. -/
def fins (f : Nat → ℝ) (i : Nat) : Ext := .fin (f i)

theorem ev_ratio (a b : ℝ) : ∀ᶠ Ω in atTop, Ieee.ratio id Ω (.fin a) (.fin b) = .fin (Robust.ratio small a b) := by
  have hs := small_pos
  have hd : b + Robust.sgn b * small ≠ 0 := by
    unfold Robust.sgn
    rcases lt_or_ge b 0 with hb | hb
    · rw [if_neg (not_le.2 hb), if_pos hb]; intro h; linarith
    · rw [if_pos hb, if_neg (not_lt.2 hb)]; intro h; linarith
  filter_upwards [ev_mul (Robust.sgn b) small, ev_add b (Robust.sgn b * small), ev_div a hd] with Ω h1 h2 h3
  have e : Ieee.sgn (.fin b) = .fin (Robust.sgn b) := by
    rw [sgn_fin]
    unfold Robust.sgn
    rcases lt_or_ge b 0 with hb | hb
    · rw [decide_eq_true hb, if_pos rfl, if_neg (not_le.2 hb), if_pos hb]; norm_num
    · rw [decide_eq_false (not_lt.2 hb), if_neg (by simp), if_pos hb, if_neg (not_lt.2 hb)]; norm_num
  unfold Ieee.ratio
  rw [e, h1, h2, h3]
  rfl

theorem ev_sum (term : Nat → ℝ) {termE : ℝ → Nat → Ext} (ht : ∀ i, ∀ᶠ Ω in atTop, termE Ω i = .fin (term i)) (init : ℝ) : ∀ n : Nat,
    ∀ᶠ Ω in atTop, forN n (fun a m => add id Ω a (termE Ω m)) (.fin init) = .fin (forN n (fun a m => a + term m) init) := by
  intro n
  induction n with
  | zero => exact Eventually.of_forall fun Ω => rfl
  | succ n ih =>
    filter_upwards [ih, ht n, ev_add (forN n (fun a m => a + term m) init) (term n)] with Ω h1 h2 h3
    rw [forN_succ, forN_succ, h1, h2, h3]

theorem ev_sumNeumaier (data : Nat → ℝ) (off : Nat) {op : ℝ → ℝ} {opE : ℝ → Ext → Ext}
    (hop : ∀ x, ∀ᶠ Ω in atTop, opE Ω (.fin x) = .fin (op x)) (n : Nat) :
    ∀ᶠ Ω in atTop, sumNeumaierE id Ω (fins data) n off (-1) (opE Ω) = .fin (sumNeumaier data n off (-1) op) := by
  have key : ∀ n : Nat, ∀ᶠ Ω in atTop,
      forN n (fun (s : Ext × Ext) i =>
        if (-1 : Int) ≥ 0 ∧ (i : Int) = -1 then s
        else
          if le (absE (opE Ω (fins data (i + off)))) (absE s.1) then
            (add id Ω s.1 (opE Ω (fins data (i + off))), add id Ω s.2 (add id Ω (sub id Ω s.1 (add id Ω s.1 (opE Ω (fins data (i + off))))) (opE Ω (fins data (i + off)))))
          else (add id Ω s.1 (opE Ω (fins data (i + off))), add id Ω s.2 (add id Ω (sub id Ω (opE Ω (fins data (i + off))) (add id Ω s.1 (opE Ω (fins data (i + off))))) s.1)))
        (.fin 0, .fin 0) =
      (.fin (forN n (fun (s : ℝ × ℝ) i =>
        if (-1 : Int) ≥ 0 ∧ (i : Int) = -1 then s
        else
          if |s.1| ≥ |op (data (i + off))| then (s.1 + op (data (i + off)), s.2 + ((s.1 - (s.1 + op (data (i + off)))) + op (data (i + off))))
          else (s.1 + op (data (i + off)), s.2 + ((op (data (i + off)) - (s.1 + op (data (i + off)))) + s.1))) (0, 0)).1,
       .fin (forN n (fun (s : ℝ × ℝ) i =>
        if (-1 : Int) ≥ 0 ∧ (i : Int) = -1 then s
        else
          if |s.1| ≥ |op (data (i + off))| then (s.1 + op (data (i + off)), s.2 + ((s.1 - (s.1 + op (data (i + off)))) + op (data (i + off))))
          else (s.1 + op (data (i + off)), s.2 + ((op (data (i + off)) - (s.1 + op (data (i + off)))) + s.1))) (0, 0)).2) := by
    intro n
    induction n with
    | zero => exact Eventually.of_forall fun Ω => rfl
    | succ n ih =>
      generalize hR : forN n (fun (s : ℝ × ℝ) i =>
        if (-1 : Int) ≥ 0 ∧ (i : Int) = -1 then s
        else
          if |s.1| ≥ |op (data (i + off))| then (s.1 + op (data (i + off)), s.2 + ((s.1 - (s.1 + op (data (i + off)))) + op (data (i + off))))
          else (s.1 + op (data (i + off)), s.2 + ((op (data (i + off)) - (s.1 + op (data (i + off)))) + s.1))) (0, 0) = R at ih
      set x := op (data (n + off)) with hx
      filter_upwards [ih, hop (data (n + off)), ev_add R.1 x, ev_sub R.1 (R.1 + x), ev_sub x (R.1 + x),
        ev_add (R.1 - (R.1 + x)) x, ev_add (x - (R.1 + x)) R.1, ev_add R.2 (R.1 - (R.1 + x) + x), ev_add R.2 (x - (R.1 + x) + R.1)]
        with Ω h1 h2 h3 h4 h5 h6 h7 h8 h9
      rw [forN_succ, forN_succ, h1, hR]
      have hno : ¬ ((-1 : Int) ≥ 0 ∧ (n : Int) = -1) := by omega
      rw [if_neg hno, if_neg hno]
      have h2' : opE Ω (fins data (n + off)) = .fin x := h2
      rw [h2', h3, h4, h5, h6, h7, h8, h9]
      by_cases hc : |R.1| ≥ |x|
      · rw [if_pos (show le (absE (.fin x)) (absE (.fin R.1)) from hc), if_pos hc]
      · rw [if_neg (show ¬ le (absE (.fin x)) (absE (.fin R.1)) from hc), if_neg hc]
  filter_upwards [key n, ev_add (forN n (fun (s : ℝ × ℝ) i =>
        if (-1 : Int) ≥ 0 ∧ (i : Int) = -1 then s
        else
          if |s.1| ≥ |op (data (i + off))| then (s.1 + op (data (i + off)), s.2 + ((s.1 - (s.1 + op (data (i + off)))) + op (data (i + off))))
          else (s.1 + op (data (i + off)), s.2 + ((op (data (i + off)) - (s.1 + op (data (i + off)))) + s.1))) (0, 0)).1
     (forN n (fun (s : ℝ × ℝ) i =>
        if (-1 : Int) ≥ 0 ∧ (i : Int) = -1 then s
        else
          if |s.1| ≥ |op (data (i + off))| then (s.1 + op (data (i + off)), s.2 + ((s.1 - (s.1 + op (data (i + off)))) + op (data (i + off))))
          else (s.1 + op (data (i + off)), s.2 + ((op (data (i + off)) - (s.1 + op (data (i + off)))) + s.1))) (0, 0)).2] with Ω h1 h2
  unfold sumNeumaierE sumNeumaier
  dsimp only
  rw [h1]
  exact h2

theorem ev_sq (x : ℝ) : ∀ᶠ Ω in atTop, sqE id Ω (.fin x) = .fin (x * x) := ev_mul x x

theorem ev_total (data : Nat → ℝ) (n : Nat) : ∀ᶠ Ω in atTop, sumNeumaierE id Ω (fins data) n = .fin (sumNeumaier data n) :=
  ev_sumNeumaier data 0 (op := id) (opE := fun _ => id) (fun _ => Eventually.of_forall fun _ => rfl) n

theorem ev_update (f : Nat → ℝ) {fE : ℝ → Nat → Ext} (hf : ∀ i, ∀ᶠ Ω in atTop, fE Ω i = .fin (f i)) (idx : Nat → Nat) (r : Nat → ℝ)
    {rE : ℝ → Nat → Ext} (hr : ∀ᶠ Ω in atTop, rE Ω = fins r) : ∀ n : Nat,
    ∀ᶠ Ω in atTop, forN n (fun r m => Function.update r (idx m) (fE Ω m)) (rE Ω) =
      fins (forN n (fun r m => Function.update r (idx m) (f m)) r) := by
  intro n
  induction n with
  | zero => exact hr
  | succ n ih =>
    filter_upwards [ih, hf n] with Ω h1 h2
    rw [forN_succ, forN_succ, h1, h2]
    funext i
    unfold fins
    by_cases hi : i = idx n
    · subst hi; rw [Function.update_self, Function.update_self]
    · rw [Function.update_of_ne hi, Function.update_of_ne hi]

theorem fins_update (r : Nat → ℝ) (i : Nat) (x : ℝ) : Function.update (fins r) i (.fin x) = fins (Function.update r i x) := by
  funext j
  unfold fins
  by_cases hi : j = i
  · subst hi; rw [Function.update_self, Function.update_self]
  · rw [Function.update_of_ne hi, Function.update_of_ne hi]

theorem ev_skipFill (f : Nat → ℝ) {fE : ℝ → Nat → Ext} (hf : ∀ i, ∀ᶠ Ω in atTop, fE Ω i = .fin (f i)) (ms : Nat) (r : Nat → ℝ)
    {rE : ℝ → Nat → Ext} (hr : ∀ᶠ Ω in atTop, rE Ω = fins r) : ∀ n : Nat,
    ∀ᶠ Ω in atTop, forN n (fun (s : Nat × (Nat → Ext)) m => if m = ms then s else (s.1 + 1, Function.update s.2 s.1 (fE Ω m))) (1, rE Ω) =
      ((forN n (fun (s : Nat × (Nat → ℝ)) m => if m = ms then s else (s.1 + 1, Function.update s.2 s.1 (f m))) (1, r)).1,
        fins (forN n (fun (s : Nat × (Nat → ℝ)) m => if m = ms then s else (s.1 + 1, Function.update s.2 s.1 (f m))) (1, r)).2) := by
  intro n
  induction n with
  | zero =>
    filter_upwards [hr] with Ω h
    rw [forN_zero, forN_zero, h]
  | succ n ih =>
    filter_upwards [ih, hf n] with Ω h1 h2
    rw [forN_succ, forN_succ, h1]
    by_cases hn : n = ms
    · rw [if_pos hn, if_pos hn]
    · rw [if_neg hn, if_neg hn]
      dsimp only
      rw [h2, fins_update]

theorem sqrtE_id {x : ℝ} (hx : 0 ≤ x) : sqrtE id (.fin x) = .fin (Real.sqrt x) := by
  simp only [sqrtE]; rw [if_neg (not_lt.2 hx)]; rfl

theorem ev_small (e r s a : ℝ) : ∀ᶠ Ω in atTop, (smallE id Ω (.fin e) (.fin r) (.fin s) (.fin a) ↔ PTE.small e r s a) := by
  filter_upwards [ev_mul r |s|] with Ω h
  unfold smallE PTE.small
  rw [show absE (.fin s) = .fin |s| from rfl, h]
  rfl

theorem sumSq_nonneg (f : Nat → ℝ) : ∀ n : Nat, 0 ≤ forN n (fun a m => a + f m * f m) 0 := by
  intro n
  induction n with
  | zero => exact le_rfl
  | succ n ih => rw [forN_succ]; nlinarith [mul_self_nonneg (f n)]

end Ieee

/-- C147: with no rounding and no overflow the residuals and their norm are the exact ones. -/
theorem C147_residuals_exact (n ms : Nat) (vt utot P U : ℝ) (vfrac u press temp res : Nat → ℝ) : ∀ᶠ Ω in atTop,
    rhoTResidualE id Ω n ms (.fin utot) (fins u) (fins press) (fins res) = fins (rhoTResidual n ms utot u press res) ∧
    ptResidualE id Ω n (.fin vt) (.fin utot) (fins vfrac) (fins u) (fins res) = fins (ptResidual n vt utot vfrac u res) ∧
    fixedTResidualE id Ω n (.fin vt) (fins vfrac) (fins press) (fins res) = fins (fixedTResidual n vt vfrac press res) ∧
    fixedPResidualE id Ω n (.fin vt) (.fin P) (.fin U) (fins vfrac) (fins press) (fins res) =
      fins (fixedPResidual Ieee.small n vt P U vfrac press res) ∧
    rhoUResidualE id Ω n (.fin vt) (.fin utot) (fins vfrac) (fins u) (fins press) (fins temp) (fins res) =
      fins (rhoUResidual n vt utot vfrac u press temp res) ∧
    residualNormE id Ω (fins res) n = .fin (residualNorm n res) := by
  have hu : ∀ᶠ Ω in atTop, Function.update (fins res) 0 (sub id Ω (.fin utot) (sumNeumaierE id Ω (fins u) n)) =
      fins (Function.update res 0 (utot - sumNeumaier u n)) := by
    filter_upwards [ev_total u n, ev_sub utot (sumNeumaier u n)] with Ω h1 h2
    rw [h1, h2, fins_update]
  have hv : ∀ᶠ Ω in atTop, Function.update (fins res) 0 (sub id Ω (.fin vt) (sumNeumaierE id Ω (fins vfrac) n)) =
      fins (Function.update res 0 (vt - sumNeumaier vfrac n)) := by
    filter_upwards [ev_total vfrac n, ev_sub vt (sumNeumaier vfrac n)] with Ω h1 h2
    rw [h1, h2, fins_update]
  have hvu : ∀ᶠ Ω in atTop, Function.update (Function.update (fins res) 0 (sub id Ω (.fin vt) (sumNeumaierE id Ω (fins vfrac) n))) 1
      (sub id Ω (.fin utot) (sumNeumaierE id Ω (fins u) n)) =
      fins (Function.update (Function.update res 0 (vt - sumNeumaier vfrac n)) 1 (utot - sumNeumaier u n)) := by
    filter_upwards [hv, ev_total u n, ev_sub utot (sumNeumaier u n)] with Ω h1 h2 h3
    rw [h1, h2, h3, fins_update]
  have a1 := ev_skipFill (fun m => press ms - press m) (fE := fun Ω m => sub id Ω (fins press ms) (fins press m))
    (fun i => ev_sub _ _) ms _ hu n
  have a3 := ev_update (fun m => press m - press (m + 1)) (fE := fun Ω m => sub id Ω (fins press m) (fins press (m + 1)))
    (fun i => ev_sub _ _) (fun m => 1 + m) _ hv (n - 1)
  have a4 := ev_update (fun m => Robust.ratio Ieee.small P U - press m) (fE := fun Ω m => sub id Ω (Ieee.ratio id Ω (.fin P) (.fin U)) (fins press m))
    (fun i => by
      filter_upwards [ev_ratio P U, ev_sub (Robust.ratio Ieee.small P U) (press i)] with Ω h1 h2
      rw [h1]; exact h2) (fun m => m) res (rE := fun _ => fins res) (Eventually.of_forall fun Ω => rfl) n
  have a5 := ev_update (fun m => press (m + 1) - press m) (fE := fun Ω m => sub id Ω (fins press (m + 1)) (fins press m))
    (fun i => ev_sub _ _) (fun m => 2 + m) _ hvu (n - 1)
  have a6 := ev_update (fun k => temp (1 + k) - temp k) (fE := fun Ω k => sub id Ω (fins temp (1 + k)) (fins temp k))
    (fun i => ev_sub _ _) (fun k => n + 1 + k) _ a5 (2 * n - (n + 1))
  have a7 := ev_sumNeumaier res 0 (op := fun x => x * x) (opE := fun Ω => sqE id Ω) ev_sq n
  filter_upwards [a1, hvu, a3, a4, ev_total vfrac n, ev_sub vt (sumNeumaier vfrac n), a6, a7,
    ev_mul (1 / 2) (sumNeumaier res n 0 (-1) (fun x => x * x))] with Ω b1 b2 b3 b4 b5 b6 b7 b8 b9
  refine ⟨?_, b2, b3, ?_, b7, ?_⟩
  · unfold rhoTResidualE rhoTResidual skipFill
    rw [b1]
  · unfold fixedPResidualE fixedPResidual
    rw [b4, b5, b6, fins_update]
    rfl
  · unfold residualNormE residualNorm
    rw [b8, b9]

/-- C147: with no rounding and no overflow the convergence tests are the exact ones (the compensated sum of squares of RhoT is not
negative in exact arithmetic). -/
theorem C147_checks_exact (t : Tol) (n : Nat) (U rhoTotal : ℝ) (rhobar vfrac press temp res : Nat → ℝ) : ∀ᶠ Ω in atTop,
    (rhoTCheckE id Ω (tolE t) n (fins vfrac) (fins press) (fins res) ↔ rhoTCheck t n vfrac press res) ∧
    (ptCheckE (tolE t) (fins res) ↔ ptCheck t res) ∧
    (fixedTCheckE id Ω (tolE t) n (fins vfrac) (fins press) (fins res) ↔ fixedTCheck t n vfrac press res) ∧
    (fixedPCheckE id Ω (tolE t) n (.fin U) (fins res) ↔ fixedPCheck t n U res) ∧
    (rhoUCheckE id Ω (tolE t) n (.fin rhoTotal) (fins rhobar) (fins vfrac) (fins press) (fins temp) (fins res) ↔
      rhoUCheck Ieee.small t n rhoTotal rhobar vfrac press temp res) := by
  -- the sums
  have m1 := ev_sum (fun m => vfrac m * press m) (termE := fun Ω m => mul id Ω (fins vfrac m) (fins press m)) (fun i => ev_mul _ _) 0 n
  have m2 := ev_sum (fun m => vfrac (m + 1) * press (m + 1)) (termE := fun Ω m => mul id Ω (fins vfrac (m + 1)) (fins press (m + 1)))
    (fun i => ev_mul _ _) (vfrac 0 * press 0) (n - 1)
  have m3 := ev_sum (fun m => rhobar (m + 1) * temp (m + 1)) (termE := fun Ω m => mul id Ω (fins rhobar (m + 1)) (fins temp (m + 1)))
    (fun i => ev_mul _ _) (rhobar 0 * temp 0) (n - 1)
  have s1 := ev_sumNeumaier res 1 (op := fun x => x * x) (opE := fun Ω => sqE id Ω) ev_sq (n - 1)
  have s2 := ev_sum (fun m => res (m + 1) * res (m + 1)) (termE := fun Ω m => sqE id Ω (fins res (m + 1))) (fun i => ev_sq _) 0 (n - 1)
  have s3 := ev_sum (fun m => res m * res m) (termE := fun Ω m => sqE id Ω (fins res m)) (fun i => ev_sq _) 0 n
  have s4 := ev_sum (fun m => res (m + 1 + 1) * res (m + 1 + 1)) (termE := fun Ω m => sqE id Ω (fins res (m + 1 + 1))) (fun i => ev_sq _) 0 (n - 1)
  have s5 := ev_sum (fun m => res (m + 1 + n) * res (m + 1 + n)) (termE := fun Ω m => sqE id Ω (fins res (m + 1 + n))) (fun i => ev_sq _) 0 (n - 1)
  have n1 : 0 ≤ sumNeumaier res (n - 1) 1 (-1) (fun x => x * x) := by
    rw [sumNeumaier_eq]
    exact Finset.sum_nonneg fun i _ => mul_self_nonneg _
  have n2 := sumSq_nonneg (fun m => res (m + 1)) (n - 1)
  have n3 := sumSq_nonneg res n
  have n4 := sumSq_nonneg (fun m => res (m + 1 + 1)) (n - 1)
  have n5 := sumSq_nonneg (fun m => res (m + 1 + n)) (n - 1)
  generalize hM1 : forN n (fun a m => a + vfrac m * press m) 0 = M1 at m1
  generalize hM2 : forN (n - 1) (fun a m => a + vfrac (m + 1) * press (m + 1)) (vfrac 0 * press 0) = M2 at m2
  generalize hM3 : forN (n - 1) (fun a m => a + rhobar (m + 1) * temp (m + 1)) (rhobar 0 * temp 0) = M3 at m3
  generalize hS1 : sumNeumaier res (n - 1) 1 (-1) (fun x => x * x) = S1 at s1 n1
  generalize hS2 : forN (n - 1) (fun a m => a + res (m + 1) * res (m + 1)) 0 = S2 at s2 n2
  generalize hS3 : forN n (fun a m => a + res m * res m) 0 = S3 at s3 n3
  generalize hS4 : forN (n - 1) (fun a m => a + res (m + 1 + 1) * res (m + 1 + 1)) 0 = S4 at s4 n4
  generalize hS5 : forN (n - 1) (fun a m => a + res (m + 1 + n) * res (m + 1 + n)) 0 = S5 at s5 n5
  filter_upwards [m1, m2, m3, s1, s2, s3, s4, s5, ev_small (Real.sqrt S1) t.relP M1 t.absP, ev_small (Real.sqrt S2) t.relP M2 t.absP,
    ev_small (Real.sqrt S4) t.relP M2 t.absP, ev_mul (Real.sqrt S3) U, ev_ratio M3 rhoTotal, ev_mul t.relT (Robust.ratio Ieee.small M3 rhoTotal),
    ev_mul (vfrac 0) (press 0), ev_mul (rhobar 0) (temp 0)]
    with Ω b1 b2 b3 c1 c2 c3 c4 c5 d1 d2 d3 d4 d5 d6 d7 d8
  have d7' : mul id Ω (fins vfrac 0) (fins press 0) = .fin (vfrac 0 * press 0) := d7
  have d8' : mul id Ω (fins rhobar 0) (fins temp 0) = .fin (rhobar 0 * temp 0) := d8
  refine ⟨?_, Iff.rfl, ?_, ?_, ?_⟩
  · unfold rhoTCheckE rhoTCheck
    dsimp only
    rw [b1, c1, sqrtE_id n1, hM1, hS1]
    exact and_congr d1 Iff.rfl
  · unfold fixedTCheckE fixedTCheck accE
    dsimp only
    rw [d7', b2, c2, sqrtE_id n2, hM2, hS2]
    exact and_congr d2 Iff.rfl
  · unfold fixedPCheckE fixedPCheck
    dsimp only
    rw [c3, sqrtE_id n3, d4, hS3]
    rfl
  · unfold rhoUCheckE rhoUCheck accE
    dsimp only
    rw [d7', d8', b2, b3, c4, c5, sqrtE_id n4, sqrtE_id n5, d5, hM2, hM3, hS4, hS5]
    refine and_congr d3 ?_
    have : mul id Ω (tolE t).relT (.fin (Robust.ratio Ieee.small M3 rhoTotal)) = .fin (t.relT * Robust.ratio Ieee.small M3 rhoTotal) := d6
    rw [this]
    rfl

/-- The tests of `C147_rhoT/pt/fixedT/fixedP/rhoU_check_finite` do pass for two materials in equilibrium. -/
example : ∃ Ω : ℝ, ∀ res : Nat → ℝ, res = 0 →
    rhoTCheckE id Ω (tolE tolDefault) 2 (fins fun _ => 1 / 2) (fins fun _ => Robust.ratio Ieee.small 1 1)
      (rhoTResidualE id Ω 2 0 (.fin 1) (fins fun _ => 1 / 2) (fins fun _ => Robust.ratio Ieee.small 1 1) (fins res)) ∧
    ptCheckE (tolE tolDefault) (ptResidualE id Ω 2 (.fin 1) (.fin 1) (fins fun _ => 1 / 2) (fins fun _ => 1 / 2) (fins res)) ∧
    fixedTCheckE id Ω (tolE tolDefault) 2 (fins fun _ => 1 / 2) (fins fun _ => Robust.ratio Ieee.small 1 1)
      (fixedTResidualE id Ω 2 (.fin 1) (fins fun _ => 1 / 2) (fins fun _ => Robust.ratio Ieee.small 1 1) (fins res)) ∧
    fixedPCheckE id Ω (tolE tolDefault) 2 (.fin 1)
      (fixedPResidualE id Ω 2 (.fin 1) (.fin 1) (.fin 1) (fins fun _ => 1 / 2) (fins fun _ => Robust.ratio Ieee.small 1 1) (fins res)) ∧
    rhoUCheckE id Ω (tolE tolDefault) 2 (.fin 1) (fins fun _ => 1 / 2) (fins fun _ => 1 / 2)
      (fins fun _ => Robust.ratio Ieee.small 1 1) (fins fun _ => 300)
      (rhoUResidualE id Ω 2 (.fin 1) (.fin 1) (fins fun _ => 1 / 2) (fins fun _ => 1 / 2) (fins fun _ => Robust.ratio Ieee.small 1 1)
        (fins fun _ => 300) (fins res)) := by
  set p := Robust.ratio Ieee.small 1 1 with hp
  have hr := C147_residuals_exact 2 0 1 1 1 1 (fun _ => 1 / 2) (fun _ => 1 / 2) (fun _ => p) (fun _ => 300) 0
  have s1 : sumNeumaier (fun _ => (1 / 2 : ℝ)) 2 = 1 := by
    rw [sumNeumaier_eq]; simp [Finset.filter_true_of_mem]
  have e1 : rhoTResidual 2 0 1 (fun _ => 1 / 2) (fun _ => p) 0 = 0 := by
    funext i; unfold rhoTResidual skipFill; rw [s1]; simp [forN]
  have e2 : ptResidual 2 1 1 (fun _ => 1 / 2) (fun _ => (1 / 2 : ℝ)) 0 = 0 := by
    funext i; unfold ptResidual; rw [s1]; simp
  have e3 : fixedTResidual 2 1 (fun _ => 1 / 2) (fun _ => p) 0 = 0 := by
    funext i; unfold fixedTResidual; rw [s1]; simp [forN]
  have e4 : fixedPResidual Ieee.small 2 1 1 1 (fun _ => 1 / 2) (fun _ => p) 0 = 0 := by
    funext i; unfold fixedPResidual fill; rw [s1, ← hp]; simp [forN]
  have e5 : rhoUResidual 2 1 1 (fun _ => 1 / 2) (fun _ => 1 / 2) (fun _ => p) (fun _ => (300 : ℝ)) 0 = 0 := by
    funext i; unfold rhoUResidual; rw [s1]; simp [forN]
  have hc := C147_checks_exact tolDefault 2 1 1 (fun _ => 1 / 2) (fun _ => 1 / 2) (fun _ => p) (fun _ => 300) 0
  obtain ⟨Ω, ⟨r1, r2, r3, r4, r5, -⟩, c1, c2, c3, c4, c5⟩ := (hr.and hc).exists
  refine ⟨Ω, fun res h0 => ?_⟩
  subst h0
  rw [r1, r2, r3, r4, r5, e1, e2, e3, e4, e5, c1, c2, c3, c4, c5]
  have t1 : 0 < tolDefault.relE := by norm_num [tolDefault]
  have t2 : 0 < tolDefault.relV := by norm_num [tolDefault]
  have t3 : 0 < tolDefault.absP := by norm_num [tolDefault]
  have t4 : 0 < tolDefault.absT := by norm_num [tolDefault]
  have z : sumNeumaier (0 : Nat → ℝ) (2 - 1) 1 (-1) (fun x => x * x) = 0 := by rw [sumNeumaier_eq]; simp
  refine ⟨⟨Or.inr ?_, ?_⟩, ⟨?_, ?_⟩, ⟨Or.inr ?_, ?_⟩, ⟨Or.inr ?_, ?_⟩, Or.inr ?_, Or.inr ?_⟩
  · rw [z, Real.sqrt_zero]; exact t3
  all_goals simpa [forN]

/-! ## The driver -/

namespace Ieee

variable {S : Type*}

/-- The driver's variables, as machine numbers. -/
def liftD (d : DState S ℝ) : DState S Ext where
  s := d.s
  err := .fin d.err
  converged := d.converged
  close := d.close
  small := d.small
  slow := d.slow
  maxNiter := d.maxNiter
  maxLine := d.maxLine
  niter := d.niter

/-- The machine solver does the same as the exact one once `Ω` is large enough for the numbers at hand. -/
structure Simulates (Y : Sys S ℝ) (YE : ℝ → Sys S Ext) : Prop where
  nmat : ∀ Ω, (YE Ω).nmat = Y.nmat
  init : ∀ s, ∀ᶠ Ω in atTop, (YE Ω).init s = ((Y.init s).1, .fin (Y.init s).2)
  check : ∀ s, ∀ᶠ Ω in atTop, (YE Ω).check s = Y.check s
  jacobian : ∀ s, ∀ᶠ Ω in atTop, (YE Ω).jacobian s = Y.jacobian s
  solve : ∀ s, ∀ᶠ Ω in atTop, (YE Ω).solve s = Y.solve s
  scaleDx : ∀ s, ∀ᶠ Ω in atTop, (YE Ω).scaleDx s = ((Y.scaleDx s).1, .fin (Y.scaleDx s).2)
  testUpdate : ∀ s t c, ∀ᶠ Ω in atTop, (YE Ω).testUpdate s (.fin t) c = ((Y.testUpdate s t c).1, .fin (Y.testUpdate s t c).2)
  fixup : ∀ s, ∀ᶠ Ω in atTop, (YE Ω).fixup s = Y.fixup s
  finalize : ∀ s, ∀ᶠ Ω in atTop, (YE Ω).finalize s = Y.finalize s

variable {Y : Sys S ℝ} {YE : ℝ → Sys S Ext} (H : Simulates Y YE)

include H

theorem ev_lineLoop (α fac o g : ℝ) : ∀ (f it : Nat) (s : S) (err scale : ℝ) (ml : Nat), ∀ᶠ Ω in atTop,
    lineLoopE id Ω (YE Ω) (.fin α) (.fin fac) (.fin o) (.fin g) f it s (.fin err) (.fin scale) ml =
      ((lineLoop Y α fac o g f it s err scale ml).1, .fin (lineLoop Y α fac o g f it s err scale ml).2.1,
        (lineLoop Y α fac o g f it s err scale ml).2.2) := by
  intro f
  induction f with
  | zero => intros; exact Eventually.of_forall fun Ω => rfl
  | succ f ih =>
    intro it s err scale ml
    filter_upwards [H.testUpdate s scale false, ev_mul α scale, ev_mul (α * scale) g, ev_add o (α * scale * g), ev_mul scale fac,
      ih (it + 1) (Y.testUpdate s scale false).1 (Y.testUpdate s scale false).2 (scale * fac) (max it ml)] with Ω h1 h2 h3 h4 h5 h6
    rw [lineLoopE, lineLoop, h1]
    dsimp only
    rw [h2, h3, h4, h5]
    by_cases hc : (Y.testUpdate s scale false).2 < o + α * scale * g
    · rw [if_pos (show lt (.fin _) (.fin _) from hc), if_pos hc]
    · rw [if_neg (show ¬ lt (.fin _) (.fin _) from hc), if_neg hc, h6]

omit H in
theorem ev_parabola (e m o : ℝ) : ∀ᶠ Ω in atTop, parabolaE id Ω (.fin e) (.fin m) (.fin o) = .fin (parabola Ieee.small e m o) := by
  filter_upwards [ev_sub m e, ev_mul 2 m, ev_sub e (2 * m), ev_add (e - 2 * m) o, ev_ratio (m - e) (e - 2 * m + o),
    ev_mul (1 / 2) (Robust.ratio Ieee.small (m - e) (e - 2 * m + o)),
    ev_add (3 / 4) (1 / 2 * Robust.ratio Ieee.small (m - e) (e - 2 * m + o))] with Ω h1 h2 h3 h4 h5 h6 h7
  unfold parabolaE parabola
  rw [h1, h2, h3, h4, h5, h6, h7]

theorem ev_lineSearch (p : DriverParams ℝ) (s : S) (o g : ℝ) (ml : Nat) : ∀ᶠ Ω in atTop,
    lineSearchE id Ω (YE Ω) (paramsE id p) s (.fin o) (.fin g) ml =
      ((lineSearch Ieee.small Y p s o g ml).1, .fin (lineSearch Ieee.small Y p s o g ml).2.1, (lineSearch Ieee.small Y p s o g ml).2.2) := by
  obtain ⟨s1, e1, hr⟩ : ∃ a b, Y.testUpdate s 1 true = (a, b) := ⟨_, _, rfl⟩
  obtain ⟨s2, e2, hq⟩ : ∃ a b, Y.testUpdate s1 (1 / 2) false = (a, b) := ⟨_, _, rfl⟩
  filter_upwards [H.testUpdate s 1 true, H.testUpdate s1 (1 / 2) false, ev_mul p.lineAlpha g, ev_add o (p.lineAlpha * g),
    ev_parabola e1 e2 o, ev_lineLoop H p.lineAlpha p.lineFac o g p.lineMax 0 s2 e1 (parabola Ieee.small e1 e2 o) ml,
    ev_lineLoop H p.lineAlpha p.lineFac o g p.lineMax 0 s2 e1 (1 / 2) ml] with Ω h1 h2 h3 h4 h5 h6 h7
  rw [hr] at h1
  rw [hq] at h2
  have pα : (paramsE id p).lineAlpha = .fin p.lineAlpha := rfl
  have pf : (paramsE id p).lineFac = .fin p.lineFac := rfl
  have pm : (paramsE id p).lineMax = p.lineMax := rfl
  unfold lineSearchE lineSearch
  dsimp only
  rw [h1, hr]
  dsimp only
  rw [h2, hq, pα, pf, pm, h3, h4]
  dsimp only
  by_cases c1 : e1 > o + p.lineAlpha * g
  · rw [if_pos (show lt (.fin _) (.fin _) from c1), if_pos c1]
    by_cases c2 : e2 < e1 ∧ e2 < o
    · rw [if_pos (show lt (.fin _) (.fin _) ∧ lt (.fin _) (.fin _) from c2), if_pos c2, h5, h6]
    · rw [if_neg (show ¬ (lt (.fin _) (.fin _) ∧ lt (.fin _) (.fin _)) from c2), if_neg c2, h7]
  · rw [if_neg (show ¬ lt (.fin _) (.fin _) from c1), if_neg c1]

theorem ev_driverTail (p : DriverParams ℝ) (maxIter k : Nat) (scale : ℝ) (d : DState S ℝ) : ∀ᶠ Ω in atTop,
    driverTailE id Ω (YE Ω) (paramsE id p) maxIter k (.fin scale) (liftD d) =
      ((driverTail Ieee.small Y p maxIter k scale d).1, liftD (driverTail Ieee.small Y p maxIter k scale d).2) := by
  filter_upwards [ev_mul (-2) scale, ev_mul (-2 * scale) d.err, ev_lineSearch H p d.s d.err (-2 * scale * d.err) d.maxLine,
    ev_mul p.slowThresh d.err, H.fixup (lineSearch Ieee.small Y p d.s d.err (-2 * scale * d.err) d.maxLine).1] with Ω h1 h2 h3 h4 h5
  have ps : (paramsE id p).slowThresh = .fin p.slowThresh := rfl
  have l1 : (liftD d).err = .fin d.err := rfl
  have l2 : (liftD d).s = d.s := rfl
  have l3 : (liftD d).maxLine = d.maxLine := rfl
  unfold driverTailE driverTail
  dsimp only
  rw [l1, l2, l3, h1, h2, h3, ps, h4]
  dsimp only
  rw [h5]
  by_cases c : ((lineSearch Ieee.small Y p d.s d.err (-2 * scale * d.err) d.maxLine).2.1 > p.slowThresh * d.err ∨ k = maxIter - 1) ∧ d.close = true
  · rw [if_pos (show (lt (.fin _) (.fin _) ∨ k = maxIter - 1) ∧ (liftD d).close = true from c), if_pos c]; rfl
  · rw [if_neg (show ¬ ((lt (.fin _) (.fin _) ∨ k = maxIter - 1) ∧ (liftD d).close = true) from c), if_neg c]; rfl

theorem ev_driverMid (p : DriverParams ℝ) (maxIter k : Nat) (d : DState S ℝ) : ∀ᶠ Ω in atTop,
    driverMidE id Ω (YE Ω) (paramsE id p) maxIter k (liftD d) =
      ((driverMid Ieee.small Y p maxIter k d).1, liftD (driverMid Ieee.small Y p maxIter k d).2) := by
  obtain ⟨s1, ok, hsv⟩ : ∃ a b, Y.solve (Y.jacobian d.s) = (a, b) := ⟨_, _, rfl⟩
  obtain ⟨s2, sc, hsc⟩ : ∃ a b, Y.scaleDx s1 = (a, b) := ⟨_, _, rfl⟩
  filter_upwards [H.jacobian d.s, H.solve (Y.jacobian d.s), H.scaleDx s1,
    ev_driverTail H p maxIter k (min 1 sc) { d with s := s2, small := if |min 1 sc| < p.smallThresh then d.small + 1 else d.small }]
    with Ω h1 h2 h3 h4
  rw [hsv] at h2
  rw [hsc] at h3
  have l2 : (liftD d).s = d.s := rfl
  have l3 : (liftD d).small = d.small := rfl
  have p1 : (paramsE id p).smallThresh = .fin p.smallThresh := rfl
  have p2 : (paramsE id p).smallTries = p.smallTries := rfl
  have hm : stdMin (.fin 1) (.fin sc) = .fin (min 1 sc) := by
    unfold stdMin
    by_cases c : sc < 1
    · rw [if_pos (show lt (.fin sc) (.fin 1) from c), min_eq_right c.le]
    · rw [if_neg (show ¬ lt (.fin sc) (.fin 1) from c), min_eq_left (not_lt.1 c)]
  have hsm : (if lt (absE (.fin (min 1 sc))) (.fin p.smallThresh) then d.small + 1 else d.small) =
      if |min 1 sc| < p.smallThresh then d.small + 1 else d.small := by
    by_cases c : |min 1 sc| < p.smallThresh
    · rw [if_pos (show lt (absE (.fin _)) (.fin _) from c), if_pos c]
    · rw [if_neg (show ¬ lt (absE (.fin _)) (.fin _) from c), if_neg c]
  unfold driverMidE driverMid
  dsimp only
  rw [l2, h1, h2, hsv]
  dsimp only
  rw [h3, hsc]
  dsimp only
  rw [hm, p1, p2, l3, hsm]
  generalize (if |min 1 sc| < p.smallThresh then d.small + 1 else d.small) = k' at h4 ⊢
  split_ifs <;> first | rfl | exact h4

theorem ev_driverBody (p : DriverParams ℝ) (maxIter k : Nat) (d : DState S ℝ) : ∀ᶠ Ω in atTop,
    driverBodyE id Ω (YE Ω) (paramsE id p) maxIter k (liftD d) =
      ((driverBody Ieee.small Y p maxIter k d).1, liftD (driverBody Ieee.small Y p maxIter k d).2) := by
  filter_upwards [H.check d.s, ev_driverMid H p maxIter k
    { d with niter := k, maxNiter := max d.maxNiter k, converged := (Y.check d.s).1, close := (Y.check d.s).2 }] with Ω h1 h2
  have l2 : (liftD d).s = d.s := rfl
  unfold driverBodyE driverBody
  dsimp only
  rw [l2, h1]
  split_ifs
  · rfl
  · exact h2

theorem ev_driverLoop (p : DriverParams ℝ) (maxIter : Nat) : ∀ (f k : Nat) (d : DState S ℝ), ∀ᶠ Ω in atTop,
    driverLoopE id Ω (YE Ω) (paramsE id p) maxIter f k (liftD d) = liftD (driverLoop Ieee.small Y p maxIter f k d) := by
  intro f
  induction f with
  | zero => intro k d; exact Eventually.of_forall fun Ω => rfl
  | succ f ih =>
    intro k d
    filter_upwards [ev_driverBody H p maxIter k d, ih (k + 1) (driverBody Ieee.small Y p maxIter k d).2] with Ω h1 h2
    rw [driverLoopE, driverLoop, h1]
    dsimp only
    split_ifs
    · rfl
    · exact h2

end Ieee

/-- C147: with no rounding and no overflow the driver on machine numbers is the exact one, for every solver, parameter set and start:
for all large enough `Ω` the status and the final state are the same. -/
theorem C147_driver_exact {S : Type*} {Y : Sys S ℝ} {YE : ℝ → Sys S Ext} (H : Simulates Y YE) (p : DriverParams ℝ) (s0 : S) :
    ∀ᶠ Ω in atTop, pteSolverE id Ω (YE Ω) (paramsE id p) s0 = liftD (pteSolver Ieee.small Y p s0) := by
  filter_upwards [H.init s0, ev_driverLoop H p (Y.nmat * p.maxIterPerMat) (Y.nmat * p.maxIterPerMat) 0
      { s := (Y.init s0).1, err := (Y.init s0).2, converged := false, close := false, small := 0, slow := false, maxNiter := 0,
        maxLine := 0, niter := 0 },
    H.fixup (driverLoop Ieee.small Y p (Y.nmat * p.maxIterPerMat) (Y.nmat * p.maxIterPerMat) 0
      { s := (Y.init s0).1, err := (Y.init s0).2, converged := false, close := false, small := 0, slow := false, maxNiter := 0,
        maxLine := 0, niter := 0 }).s,
    H.finalize (Y.fixup (driverLoop Ieee.small Y p (Y.nmat * p.maxIterPerMat) (Y.nmat * p.maxIterPerMat) 0
      { s := (Y.init s0).1, err := (Y.init s0).2, converged := false, close := false, small := 0, slow := false, maxNiter := 0,
        maxLine := 0, niter := 0 }).s)] with Ω h1 h2 h3 h4
  have pm : (paramsE id p).maxIterPerMat = p.maxIterPerMat := rfl
  unfold pteSolverE pteSolver
  dsimp only
  rw [H.nmat, pm, h1]
  have e : DState.mk (Y.init s0).1 (Ext.fin (Y.init s0).2) false false 0 false 0 0 0 = liftD
      (DState.mk (Y.init s0).1 (Y.init s0).2 false false 0 false 0 0 0) := rfl
  dsimp only
  rw [e, h2]
  have l2 : ∀ d : DState S ℝ, (liftD d).s = d.s := fun d => rfl
  rw [l2, h3, h4]
  rfl

/-- A solver for the single equation `x = 0`, by halving: the state is `x`, the error `x²`. -/
noncomputable def halving : Sys ℝ ℝ where
  nmat := 1
  init s := (s, s * s)
  check s := (decide (|s| < 1 / 1000), decide (|s| < 1 / 10))
  jacobian s := s
  solve s := (s, true)
  scaleDx s := (s, 1)
  testUpdate s _ _ := (s / 2, s / 2 * (s / 2))
  fixup s := s
  finalize s := s

/-- Its machine version. -/
noncomputable def halvingE (Ω : ℝ) : Sys ℝ Ext where
  nmat := 1
  init s := (s, mul id Ω (.fin s) (.fin s))
  check s := (decide (|s| < 1 / 1000), decide (|s| < 1 / 10))
  jacobian s := s
  solve s := (s, true)
  scaleDx s := (s, .fin 1)
  testUpdate s _ _ := (s / 2, mul id Ω (.fin (s / 2)) (.fin (s / 2)))
  fixup s := s
  finalize s := s

example : ∀ᶠ Ω in atTop, pteSolverE id Ω (halvingE Ω) (paramsE id defaultParams) 1 = liftD (pteSolver Ieee.small halving defaultParams 1) := by
  have H : Simulates halving halvingE := by
    refine ⟨fun _ => rfl, ?_, fun s => ?_, ?_, ?_, ?_, ?_, ?_, ?_⟩
    · intro s; filter_upwards [ev_mul s s] with Ω h; show (s, mul id Ω (.fin s) (.fin s)) = _; rw [h]; rfl
    · exact Eventually.of_forall fun _ => rfl
    · exact fun s => Eventually.of_forall fun _ => rfl
    · exact fun s => Eventually.of_forall fun _ => rfl
    · exact fun s => Eventually.of_forall fun _ => rfl
    · intro s t c; filter_upwards [ev_mul (s / 2) (s / 2)] with Ω h
      show (s / 2, mul id Ω (.fin (s / 2)) (.fin (s / 2))) = _
      rw [h]; rfl
    · exact fun s => Eventually.of_forall fun _ => rfl
    · exact fun s => Eventually.of_forall fun _ => rfl
  exact C147_driver_exact H defaultParams 1

end Verif
