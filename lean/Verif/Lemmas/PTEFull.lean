import Verif.Model.PTEFull
import Verif.Spec.PTEFull
import Verif.Lemmas.PTEHoare
import Verif.Props.PTEInit
import Verif.Props.PTESolvers
import Verif.Props.PTEJacobian
import Verif.Props.PTEDriver

/-! # Lemmas for the complete PTE solvers -/

set_option linter.unusedSectionVars false

namespace Verif.PTE

open Robust

variable {K : Type*} [Field K] [LinearOrder K] [IsStrictOrderedRing K]

theorem guarded_self {σ c : K} (hσ : 0 < σ) (hc : 0 < c) (y : K) : Guarded σ c y y :=
  ⟨1, by rw [div_le_one (by positivity)]; linarith, le_rfl, by ring⟩

theorem guarded_ratio {σ c : K} (hσ : 0 < σ) (hc : 0 < c) (y : K) : Guarded σ c (ratio σ y c * c) y := by
  refine ⟨c / (c + σ), le_rfl, by rw [div_le_one (by positivity)]; linarith, ?_⟩
  rw [ratio_pos_den _ hc.le]; field_simp

theorem guarded_div {σ c : K} (hσ : 0 < σ) (hc : 0 < c) (y : K) : Guarded σ c (y / (c + σ) * c) y := by
  have := guarded_ratio hσ hc y
  rwa [ratio_pos_den _ hc.le] at this

/-- What `GetTguess` keeps: a positive temperature, positive volume fractions with a sum that is at most the total, and the
materials' masses. -/
structure GuessOk (σ : K) (n : Nat) (vt : K) (rb : Nat → K) (q : K × (Nat → K) × (Nat → K)) : Prop where
  T : 0 < q.1
  vfrac : ∀ m, m < n → 0 < q.2.1 m
  sum : ∑ m ∈ Finset.range n, q.2.1 m ≤ vt
  mass : ∀ m, m < n → Guarded σ (q.2.1 m) (q.2.2 m * q.2.1 m) (rb m)

theorem setVfracFromT_fail {σ : K} {n : Nat} {vt : K} {rhobar rhoPmin v : Nat → K} (hv : ∀ m, m < n → 0 < v m)
    (h : (setVfracFromT σ n vt rhobar rhoPmin v).1 = true) : (setVfracFromT σ n vt rhobar rhoPmin v).2 = v := by
  revert h
  unfold setVfracFromT
  dsimp only
  split_ifs
  · intro _
    funext i
    dsimp only
    rw [mapN_apply]
    split_ifs with h1 h2
    · exact absurd h2 (not_le.2 (hv i h1))
    · rfl
    · rfl
  · intro h; exact absurd h (by simp)

theorem setVfracFromT_ok {σ : K} (hσ : 0 < σ) {n : Nat} (hn : 0 < n) {vt : K} (hvt : 0 < vt)
    {rhobar rhoPmin v : Nat → K} (hr : ∀ m, m < n → 0 < rhobar m) (hp : ∀ m, m < n → 0 ≤ rhoPmin m)
    (hv : ∀ m, m < n → 0 < v m) (hs : ∑ m ∈ Finset.range n, v m ≤ vt) :
    let w := (setVfracFromT σ n vt rhobar rhoPmin v).2
    (∀ m, m < n → 0 < w m) ∧ ∑ m ∈ Finset.range n, w m ≤ vt := by
  intro w
  by_cases h : (setVfracFromT σ n vt rhobar rhoPmin v).1 = true
  · have : w = v := setVfracFromT_fail hv h
    rw [this]; exact ⟨hv, hs⟩
  · obtain ⟨h1, s, h2, h3⟩ := C20_success_sum hσ hn hvt hr hp (by simpa using h)
    refine ⟨h1, ?_⟩
    rw [h3]
    have : s / (s + σ) ≤ 1 := by rw [div_le_one (by positivity)]; linarith
    calc vt * (s / (s + σ)) ≤ vt * 1 := mul_le_mul_of_nonneg_left this hvt.le
      _ = vt := mul_one _

theorem tguessPass_ok {σ : K} (hσ : 0 < σ) {E : MatEOS K} {tmin : Nat → K} {n : Nat} (hn : 0 < n) {vt tlimit : K}
    (hvt : 0 < vt) (htl : 0 < tlimit) {rhobar : Nat → K} (hr : ∀ m, m < n → 0 < rhobar m) (hp : ∀ m T, m < n → 0 ≤ E.rhoPmin m T)
    (newton : Option K) {q : K × (Nat → K) × (Nat → K)} (h : GuessOk σ n vt rhobar q) :
    GuessOk σ n vt rhobar (tguessPass σ E tmin n vt tlimit rhobar newton q).2 := by
  unfold tguessPass
  dsimp only
  have hT1 : 0 < clipNewton tlimit newton q.1 := by
    unfold clipNewton
    cases newton with
    | none => exact h.T
    | some t => exact lt_min htl (h.T.trans_le (le_max_left _ _))
  have hT2 := hT1.trans_le (forN_max_ge tmin n (clipNewton tlimit newton q.1)).1
  set T2 := forN n (fun T m => max (tmin m) T) (clipNewton tlimit newton q.1) with hT2d
  have hw := setVfracFromT_ok hσ hn hvt hr (rhoPmin := fun m => E.rhoPmin m T2) (fun m hm => hp m T2 hm) h.vfrac h.sum
  dsimp only at hw
  split_ifs with h1 h2
  · refine ⟨by positivity, hw.1, hw.2, ?_⟩
    rw [show (setVfracFromT σ n vt rhobar (fun m => E.rhoPmin m T2) q.2.1).2 = q.2.1 from setVfracFromT_fail h.vfrac h1]
    exact h.mass
  all_goals
    refine ⟨by first | exact hT2 | positivity, hw.1, hw.2, fun m hm => ?_⟩
    dsimp only
    rw [fill_apply, if_pos hm]
    exact guarded_ratio hσ (hw.1 m hm) _

theorem getTguess_ok {σ : K} (hσ : 0 < σ) {E : MatEOS K} {tmin : Nat → K} {n : Nat} (hn : 0 < n) {vt tlimit : K}
    (hvt : 0 < vt) (htl : 0 < tlimit) {rhobar : Nat → K} (hr : ∀ m, m < n → 0 < rhobar m) (hp : ∀ m T, m < n → 0 ≤ E.rhoPmin m T)
    (newton : Nat → (K × (Nat → K) × (Nat → K)) → Option K) {q : K × (Nat → K) × (Nat → K)} (h : GuessOk σ n vt rhobar q) :
    GuessOk σ n vt rhobar (getTguess σ E tmin n vt tlimit rhobar newton q).2 := by
  unfold getTguess
  dsimp only
  have h0 := tguessPass_ok hσ (tmin := tmin) hn hvt htl hr hp (newton 0 q) h
  have h1 := tguessPass_ok hσ (tmin := tmin) hn hvt htl hr hp (newton 1 (tguessPass σ E tmin n vt tlimit rhobar (newton 0 q) q).2) h0
  split_ifs
  · exact h0
  · exact h1
  · exact tguessPass_ok hσ hn hvt htl hr hp _ h1

theorem startT_pos {n : Nat} {tdefault : K} (h : 0 < tdefault) (Tnorm : K) (temp : Nat → K) :
    0 < startT n tdefault Tnorm temp := by
  unfold startT
  split_ifs with h1
  · exact h1
  · refine forN_inv (P := fun _ t => 0 < t) h ?_
    intro m t _ ht
    exact ht.trans_le (le_max_left _ _)

/-- What the caller must supply: positive densities and volume fractions that do not overfill the cell. -/
structure InputOk (n : Nat) (vt : K) (s : PS K) : Prop where
  rho : ∀ m, m < n → 0 < s.a.rho m
  vfrac : ∀ m, m < n → 0 < s.a.vfrac m
  sum : ∑ m ∈ Finset.range n, s.a.vfrac m ≤ vt

theorem rhobar_eq {n : Nat} (s : PS K) {m : Nat} (hm : m < n) :
    (initRhoBar n s).rhobar m = s.a.rho m * s.a.vfrac m := by
  unfold initRhoBar; dsimp only; rw [fill_apply, if_pos hm]

theorem rhobar_pos {n : Nat} {vt : K} {s : PS K} (h : InputOk n vt s) {m : Nat} (hm : m < n) :
    0 < (initRhoBar n s).rhobar m := by
  rw [rhobar_eq s hm]; exact mul_pos (h.rho m hm) (h.vfrac m hm)

/-- What `GetTguess` leaves behind when called on a state whose `rhobar` is the product of its density and volume fraction
arrays. -/
theorem tguess_ok {σ : K} (hσ : 0 < σ) {E : MatEOS K} (I : InitEOS K) {p : SolverParams K} {n : Nat} (hn : 0 < n) {vt : K}
    (hvt : 0 < vt) (htl : 0 < p.tlimit) (htd : 0 < p.tdefault) (hp : ∀ m T, m < n → 0 ≤ E.rhoPmin m T) {s : PS K}
    (h : InputOk n vt s) (hrb : ∀ m, m < n → s.rhobar m = s.a.rho m * s.a.vfrac m) :
    let g := tguess σ E I p n vt s
    GuessOk σ n vt s.rhobar (g.1, g.2.a.vfrac, g.2.a.rho) := by
  intro g
  have hrp : ∀ m, m < n → 0 < s.rhobar m := fun m hm => by rw [hrb m hm]; exact mul_pos (h.rho m hm) (h.vfrac m hm)
  exact getTguess_ok hσ hn hvt htl hrp hp _ ⟨startT_pos htd _ _, h.vfrac, h.sum, fun m hm => by
    dsimp only
    rw [hrb m hm]; exact guarded_self hσ (h.vfrac m hm) _⟩

theorem argmaxPos_lt {n : Nat} (hn : 0 < n) (f : Nat → K) : argmaxPos n f < n := by
  unfold argmaxPos
  exact forN_inv (n := n) (s := ((0 : Nat), (0 : K)))
    (body := fun (t : Nat × K) m => if f m > t.2 then (m, f m) else t) (P := fun _ (t : Nat × K) => t.1 < n) hn
    (fun m t hm ht => by split_ifs; exacts [hm, ht])

/-- A RhoT trial step after `ScaleDx`, also when the fractions sum to less than one beforehand: positive fractions and
temperature. -/
theorem rhoT_trial_pos {σ saf : K} (hσ : 0 < σ) (hsaf0 : 0 ≤ saf) (hsaf1 : saf < 1) (E : MatEOS K)
    {n ms : Nat} (hms : ms < n) (Tnorm : K) {Tequil : K} (hT : 0 < Tequil) (rhobar : Nat → K) {dx dx' v vtemp : Nat → K}
    (w : Nat → K) (hv : ∀ m, m < n → 0 < v m) (hsum : ∑ m ∈ Finset.range n, v m ≤ 1) {t : K} (ht0 : 0 ≤ t) (ht1 : t ≤ 1)
    (hvt : ∀ m, m < n → vtemp m = v m)
    (hdx : ∀ i, i < n → dx' i = dx i * rhoTScaleDx σ saf E n ms Tnorm Tequil rhobar v dx) :
    0 < Tequil + t * dx' 0 ∧ (∀ m, m < n → 0 < rhoTVfrac n ms t dx' vtemp w m) ∧
    ∑ m ∈ Finset.range n, rhoTVfrac n ms t dx' vtemp w m = 1 := by
  set sc := rhoTScaleDx σ saf E n ms Tnorm Tequil rhobar v dx with hscd
  set dskip := -sumNeumaier dx (n - 1) 1 with hds
  obtain ⟨a0, a1, a2⟩ := rhoTScale1_spec hσ hsaf0 (ms := ms) (dx := dx) dskip (fun m hm => (hv m hm).le)
  set s1 := (rhoTScale1 σ saf n ms v dx dskip).1 with hs1
  set Tnew := Tequil + s1 * dx 0 with hTnew
  set amax := rhoTAmax σ E rhobar (Tnorm * Tequil) (Tnorm * Tnew) with hamax
  obtain ⟨b0, b1, -⟩ := rhoTScale2_spec hσ (n := n) (ms := ms) (vfrac := v) (dx := dx) (amax := amax) dskip a0
  set s2 := (rhoTScale2 σ n ms v dx amax dskip s1).1 with hs2
  obtain ⟨d0, d1, d2⟩ := tempScale_spec hσ (dT := dx 0) hT.le b0
  have hsc : sc = tempScale σ Tequil (dx 0) s2 := rfl
  rw [← hsc] at d0 d1 d2
  have hskip : dskip = -∑ m ∈ (Finset.range n).filter (· ≠ ms), dx (pos ms m) := by
    have h1 := sum_pos hms dx
    have h2 : ∑ c ∈ Finset.range n, dx c = dx 0 + ∑ i ∈ Finset.range (n - 1), dx (i + 1) := by
      obtain ⟨k, rfl⟩ : ∃ k, n = k + 1 := ⟨n - 1, by omega⟩
      rw [Finset.sum_range_succ']; simp [add_comm]
    have h3 : sumNeumaier dx (n - 1) 1 = ∑ i ∈ Finset.range (n - 1), dx (i + 1) := by
      rw [sumNeumaier_eq, Finset.filter_true_of_mem (fun i _ => by omega)]
      simp
    rw [hds, h3]
    have : ∑ i ∈ Finset.range (n - 1), dx (i + 1) = ∑ m ∈ (Finset.range n).filter (· ≠ ms), dx (pos ms m) := by
      linarith
    rw [this]
  have hvr := rhoTVfrac_spec hms t dx' vtemp w
  have hge : ∀ m, m < n → v m + t * (sc * (if m = ms then dskip else dx (pos ms m))) ≤ rhoTVfrac n ms t dx' vtemp w m := by
    intro m hm
    by_cases hmm : m = ms
    · subst hmm
      rw [hvr.2, if_pos rfl, Finset.sum_add_distrib]
      have h4 := sum_update hms v v (fun _ _ _ => rfl)
      have h5 : ∑ x ∈ (Finset.range n).filter (· ≠ m), t * dx' (pos m x) = t * (sc * (-dskip)) := by
        rw [hskip, neg_neg, Finset.mul_sum, Finset.mul_sum]
        refine Finset.sum_congr rfl fun x hx => ?_
        simp only [Finset.mem_filter, Finset.mem_range] at hx
        rw [hdx _ (pos_range hms hx.1 hx.2).2]; ring
      have h6 : ∑ x ∈ (Finset.range n).filter (· ≠ m), vtemp x = ∑ x ∈ (Finset.range n).filter (· ≠ m), v x :=
        Finset.sum_congr rfl fun x hx => hvt x (by simpa using (Finset.mem_filter.1 hx).1)
      rw [h5, h6]
      linarith
    · rw [hvr.1 m hm hmm, if_neg hmm, hvt m hm, hdx _ (pos_range hms hm hmm).2]
      exact le_of_eq (by ring)
  refine ⟨?_, fun m hm => ?_, ?_⟩
  · have := (convex_step (a := 0) (by norm_num : (95 / 100 : K) < 1) hT ht0 ht1 d2).1
    rw [hdx 0 (by omega)]
    calc 0 < Tequil + t * (sc * dx 0) := this
      _ = Tequil + t * (dx 0 * sc) := by ring
  · exact ((convex_step (a := 0) hsaf1 (hv m hm) ht0 ht1
      (lower_mono (mul_nonneg hsaf0 (hv m hm).le) d0 (d1.trans b1) (a2 m hm))).1).trans_le (hge m hm)
  · rw [sum_update hms (fun m => vtemp m + t * dx' (pos ms m)) _ hvr.1, hvr.2]
    ring

end Verif.PTE
