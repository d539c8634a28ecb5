import Verif.Props.Eos.EospacFill
import Verif.Spec.ThermoLaws
import Mathlib.Analysis.Calculus.FDeriv.Prod
import Mathlib.Analysis.Calculus.Deriv.Prod
import Mathlib.Analysis.Calculus.Deriv.Inv
import Mathlib.Analysis.Calculus.Deriv.Pow

set_option linter.unusedSectionVars false

/-! # EOSPAC: the derivative queries -/

namespace Verif.Eospac

open Verif.Mods Verif.Robust Verif.Spec.Eospac Verif.Spec

/-- The table is differentiable at the point and its derivative outputs are the partial derivatives. -/
def Tab.True (t : Tab ℝ) (x y : ℝ) : Prop :=
  HasFDerivAt (fun p : ℝ × ℝ => t.f p.1 p.2)
    (t.fx x y • ContinuousLinearMap.fst ℝ ℝ ℝ + t.fy x y • ContinuousLinearMap.snd ℝ ℝ ℝ) (x, y)

theorem Tab.True.comp {t : Tab ℝ} {a b : ℝ → ℝ} {a' b' s : ℝ} (h : t.True (a s) (b s))
    (ha : HasDerivAt a a' s) (hb : HasDerivAt b b' s) :
    HasDerivAt (fun s => t.f (a s) (b s)) (t.fx (a s) (b s) * a' + t.fy (a s) (b s) * b') s := by
  have h1 := HasFDerivAt.comp_hasDerivAt (f := fun s => (a s, b s)) s h (ha.prodMk hb)
  simpa [Function.comp_def] using h1

/-- The tables of pressure and energy are differentiable at the state, the temperature table inverts the energy table
and the table of pressure by energy is the pressure at that temperature, near the state; the temperature table
is differentiable in each argument. -/
structure GoodAt (T : Tabs ℝ) (r t : ℝ) : Prop where
  p : (T .PofRT).True r t
  e : (T .EofRT).True r t
  inv : (T .TofRE).f r ((T .EofRT).f r t) = t
  invR : ∀ᶠ x in nhds r, (T .EofRT).f x ((T .TofRE).f x ((T .EofRT).f r t)) = (T .EofRT).f r t
  invE : ∀ᶠ y in nhds ((T .EofRT).f r t), (T .EofRT).f r ((T .TofRE).f r y) = y
  peR : ∀ᶠ x in nhds r, (T .PofRE).f x ((T .EofRT).f r t)
    = (T .PofRT).f x ((T .TofRE).f x ((T .EofRT).f r t))
  peE : ∀ᶠ y in nhds ((T .EofRT).f r t), (T .PofRE).f r y = (T .PofRT).f r ((T .TofRE).f r y)
  diffR : ∃ d, HasDerivAt (fun x => (T .TofRE).f x ((T .EofRT).f r t)) d r
  diffE : ∃ d, HasDerivAt (fun y => (T .TofRE).f r y) d ((T .EofRT).f r t)

theorem sie_div (T : Tabs ℝ) (r t : ℝ) : sie T r t / 10 ^ 10 = (T .EofRT).f r t := by
  unfold sie; field_simp

/-- C111: where the heat capacity is positive and the tables are consistent with each other, the answers are
thermodynamically consistent: temperature and energy invert each other, by-temperature and by-energy answers agree,
the heat capacity and the Grüneisen parameter are the derivatives they are named after, and the bulk modulus is
the isentropic derivative of the pressure, clipped at 0. -/
theorem C111_answers (T : Tabs ℝ) (r t : ℝ) (hr : 0 < r) (h : GoodAt T r t) (hcv : 0 < (T .EofRT).fy r t) :
    let f : Answers ℝ := answer 0 T
    RoundTripT f r t ∧ Twins f r t ∧ HeatCapacity f r t ∧ Gruneisen f r (f .eRT r t) ∧
    ∃ Pr Pe, HasDerivAt (fun x => f .pRE x (f .eRT r t)) Pr r ∧
      HasDerivAt (fun y => f .pRE r y) Pe (f .eRT r t) ∧
      f .bRE r (f .eRT r t) = max (r * (Pr + f .pRE r (f .eRT r t) / r ^ 2 * Pe)) 0 := by
  intro f
  have h10 : (0 : ℝ) < 10 ^ 10 := ten
  have htemp : temp T r (sie T r t) = t := by
    unfold temp; rw [sie_div]; exact h.inv
  have hpe : pressE T r (sie T r t) = press T r t := by
    unfold pressE press; rw [sie_div, h.peE.self_of_nhds, h.inv]
  -- the derivatives of the temperature table
  obtain ⟨tr, htr⟩ := h.diffR
  obtain ⟨te, hte⟩ := h.diffE
  have hT0 : (T .TofRE).f r ((T .EofRT).f r t) = t := h.inv
  have eTrue : (T .EofRT).True r ((T .TofRE).f r ((T .EofRT).f r t)) := by rw [hT0]; exact h.e
  have pTrue : (T .PofRT).True r ((T .TofRE).f r ((T .EofRT).f r t)) := by rw [hT0]; exact h.p
  have e1 := Tab.True.comp (a := fun x => x) (b := fun x => (T .TofRE).f x ((T .EofRT).f r t)) eTrue
    (hasDerivAt_id r) htr
  have e2 := Tab.True.comp (a := fun _ => r) (b := fun y => (T .TofRE).f r y) eTrue
    (hasDerivAt_const _ r) hte
  have p1 := Tab.True.comp (a := fun x => x) (b := fun x => (T .TofRE).f x ((T .EofRT).f r t)) pTrue
    (hasDerivAt_id r) htr
  have p2 := Tab.True.comp (a := fun _ => r) (b := fun y => (T .TofRE).f r y) pTrue
    (hasDerivAt_const _ r) hte
  rw [hT0] at e1 e2 p1 p2
  have q1 := (e1.congr_of_eventuallyEq (h.invR.mono fun _ hx => hx.symm)).unique (hasDerivAt_const r _)
  have q2 := (e2.congr_of_eventuallyEq (h.invE.mono fun _ hx => hx.symm)).unique (hasDerivAt_id _)
  have htr' : tr = -(T .EofRT).fx r t / (T .EofRT).fy r t := by
    rw [eq_div_iff hcv.ne']; linarith
  have hte' : te = 1 / (T .EofRT).fy r t := by
    rw [eq_div_iff hcv.ne']; linarith
  -- the pressure by energy, cgs
  have d1 : HasDerivAt (fun x => pressE T x (sie T r t))
      (10 ^ 10 * ((T .PofRT).fx r t * 1 + (T .PofRT).fy r t * tr)) r := by
    refine ((p1.congr_of_eventuallyEq h.peR).const_mul (10 ^ 10)).congr_of_eventuallyEq ?_
    refine Filter.Eventually.of_forall fun x => ?_
    simp only [pressE, sie_div]
  have d2 : HasDerivAt (fun y => pressE T r y)
      (10 ^ 10 * (((T .PofRT).fx r t * 0 + (T .PofRT).fy r t * te) * (1 / 10 ^ 10))) (sie T r t) := by
    have hin : HasDerivAt (fun y : ℝ => y / 10 ^ 10) (1 / 10 ^ 10) (sie T r t) := by
      simpa using (hasDerivAt_id (sie T r t)).div_const (10 ^ 10)
    have p2' := p2.congr_of_eventuallyEq h.peE
    rw [← sie_div] at p2'
    exact (p2'.comp (sie T r t) hin).const_mul (10 ^ 10)
  refine ⟨htemp, ⟨hpe.symm, ?_, ?_, ?_, ?_⟩, ?_, ?_, _, _, d1, d2, ?_⟩
  · simp only [Twin, f, answer, htemp]
  · simp only [Twin, f, answer, htemp]
  · simp only [Twin, f, answer, htemp]
  · simp only [Twin, f, answer, htemp]
  · have e3 := Tab.True.comp (a := fun _ => r) (b := fun y => y) h.e (hasDerivAt_const t r) (hasDerivAt_id t)
    have : cv T r t = 10 ^ 10 * ((T .EofRT).fx r t * 0 + (T .EofRT).fy r t * 1) := by
      unfold cv; rw [max_eq_left (by positivity)]; ring
    simp only [HeatCapacity, f, answer]
    rw [this]
    exact e3.const_mul (10 ^ 10)
  · simp only [Spec.Gruneisen, f, answer, htemp]
    refine d2.congr_deriv ?_
    rw [hte']
    have hg : gru 0 T r t = (T .PofRT).fy r t / (T .EofRT).fy r t / r := by
      simp [gru, ratio, sgn, hr.le, not_lt.mpr hr.le]
    rw [hg]
    field_simp
    ring
  · simp only [f, answer, htemp, hpe]
    unfold bulk
    rw [if_neg (not_le.mpr hr), if_pos hcv, htr', hte']
    congr 1
    field_simp
    ring

/-- C111: a gas with `P = ρT`, `e = T` meets the hypotheses. -/
theorem C111_gas_example : ∃ T : Tabs ℝ, ∀ r t : ℝ, GoodAt T r t ∧ 0 < (T .EofRT).fy r t ∧ (T .PofRT).fx r t = t := by
  refine ⟨fun i => match i with
    | .PofRT => ⟨fun r t => r * t, fun _ t => t, fun r _ => r⟩
    | .PofRE => ⟨fun r t => r * t, fun _ t => t, fun r _ => r⟩
    | _ => ⟨fun _ t => t, fun _ _ => 0, fun _ _ => 1⟩, fun r t => ⟨?_, one_pos, rfl⟩⟩
  refine ⟨?_, ?_, rfl, Filter.Eventually.of_forall fun _ => rfl, Filter.Eventually.of_forall fun _ => rfl,
    Filter.Eventually.of_forall fun _ => rfl, Filter.Eventually.of_forall fun _ => rfl,
    ⟨0, hasDerivAt_const _ _⟩, ⟨1, hasDerivAt_id _⟩⟩
  · have := (hasFDerivAt_fst (𝕜 := ℝ) (p := ((r, t) : ℝ × ℝ))).mul (hasFDerivAt_snd (𝕜 := ℝ) (p := ((r, t) : ℝ × ℝ)))
    rw [add_comm] at this
    exact this
  · have := hasFDerivAt_snd (𝕜 := ℝ) (p := ((r, t) : ℝ × ℝ))
    refine HasFDerivAt.congr_fderiv (f := fun p : ℝ × ℝ => p.2) this ?_
    simp

/-- C112: the pressure-temperature derivatives are the derivatives of the density and energy as functions of pressure and
temperature (cgs), for every differentiable local solution `ρ(P,T)` of `P(ρ,T) = P`; the library is left as
found. -/
theorem C112_ptd (T : Tabs ℝ) (r t : ℝ) (hp : (T .PofRT).True r t) (he : (T .EofRT).True r t)
    (hP : (T .PofRT).fx r t ≠ 0) (R : ℝ → ℝ → ℝ) (h0 : R (press T r t) t = r)
    (hR1 : ∀ᶠ P in nhds (press T r t), press T (R P t) t = P)
    (hR2 : ∀ᶠ x in nhds t, press T (R (press T r t) x) x = press T r t)
    (hd1 : ∃ d, HasDerivAt (fun P => R P t) d (press T r t))
    (hd2 : ∃ d, HasDerivAt (fun x => R (press T r t) x) d t) :
    let d := (ptd 0 (safeInterp T) r t fresh).1
    (ptd 0 (safeInterp T) r t fresh).2 = fresh ∧
    HasDerivAt (fun P => R P t) d.drdP_T (press T r t) ∧
    HasDerivAt (fun P => sie T (R P t) t) d.dedP_T (press T r t) ∧
    HasDerivAt (fun x => R (press T r t) x) d.drdT_P t ∧
    HasDerivAt (fun x => sie T (R (press T r t) x) x) d.dedT_P t := by
  intro d
  have h10 : (10 : ℝ) ^ 10 ≠ 0 := ten.ne'
  have hrun : ptd 0 (safeInterp T) r t fresh =
      ({ dedP_T := ratio 0 (10 ^ 10 * (T .EofRT).fx r t) (10 ^ 10 * (T .PofRT).fx r t)
         dedT_P := 10 ^ 10 * (T .EofRT).fy r t
           - ratio 0 (10 ^ 10 * (T .EofRT).fx r t * (10 ^ 10 * (T .PofRT).fy r t)) (10 ^ 10 * (T .PofRT).fx r t)
         drdP_T := ratio 0 1 (10 ^ 10 * (T .PofRT).fx r t)
         drdT_P := -ratio 0 (10 ^ 10 * (T .PofRT).fy r t) (10 ^ 10 * (T .PofRT).fx r t) }, fresh) := by
    simp only [ptd, bind, StateT.bind, pure, StateT.pure, safeInterp_plain, sieU, presU]
  have hd : d = _ := congrArg Prod.fst hrun
  have hratio : ∀ a b : ℝ, ratio 0 a b = a / b := fun a b => by simp [ratio]
  obtain ⟨d1, hd1⟩ := hd1
  obtain ⟨d2, hd2⟩ := hd2
  have hp' : (T .PofRT).True (R (press T r t) t) t := by rw [h0]; exact hp
  have he' : (T .EofRT).True (R (press T r t) t) t := by rw [h0]; exact he
  have a1 := Tab.True.comp (a := fun P => R P t) (b := fun _ => t) hp' hd1 (hasDerivAt_const _ t)
  have a2 := Tab.True.comp (a := fun x => R (press T r t) x) (b := fun x => x) hp' hd2 (hasDerivAt_id t)
  have b1 := Tab.True.comp (a := fun P => R P t) (b := fun _ => t) he' hd1 (hasDerivAt_const _ t)
  have b2 := Tab.True.comp (a := fun x => R (press T r t) x) (b := fun x => x) he' hd2 (hasDerivAt_id t)
  rw [h0] at a1 a2 b1 b2
  have q1 := ((a1.const_mul (10 ^ 10)).congr_of_eventuallyEq (hR1.mono fun _ hx => hx.symm)).unique
    (hasDerivAt_id _)
  have q2 := ((a2.const_mul (10 ^ 10)).congr_of_eventuallyEq (hR2.mono fun _ hx => hx.symm)).unique
    (hasDerivAt_const _ _)
  have e1 : d1 = 1 / (10 ^ 10 * (T .PofRT).fx r t) := by
    rw [eq_div_iff (mul_ne_zero h10 hP)]; linarith
  have e2 : d2 = -((10 ^ 10 * (T .PofRT).fy r t) / (10 ^ 10 * (T .PofRT).fx r t)) := by
    rw [eq_comm, neg_eq_iff_eq_neg, div_eq_iff (mul_ne_zero h10 hP)]; linarith
  have h10P := mul_ne_zero h10 hP
  refine ⟨by rw [hrun], ?_, ?_, ?_, ?_⟩
  · rw [hd]; simp only [hratio]; rw [← e1]; exact hd1
  · rw [hd]; simp only [hratio]
    refine (b1.const_mul (10 ^ 10)).congr_deriv ?_
    rw [e1]; field_simp; ring
  · rw [hd]; simp only [hratio]; rw [← e2]; exact hd2
  · rw [hd]; simp only [hratio]
    refine (b2.const_mul (10 ^ 10)).congr_deriv ?_
    rw [e2]; field_simp; ring

/-- C112: a gas meets the hypotheses. -/
example : let T : Tabs ℝ := fun i => match i with
      | .PofRT => ⟨fun r t => r * t, fun _ t => t, fun r _ => r⟩
      | _ => ⟨fun _ t => t, fun _ _ => 0, fun _ _ => 1⟩
    let R : ℝ → ℝ → ℝ := fun P t => P / 10 ^ 10 / t
    R (press T 2 3) 3 = 2 ∧ (T .PofRT).fx 2 3 ≠ 0 ∧ (∀ P, press T (R P 3) 3 = P) ∧
    (∃ d, HasDerivAt (fun P => R P 3) d (press T 2 3)) := by
  refine ⟨by norm_num [press], by norm_num, fun P => by simp only [press]; field_simp, ⟨1 / 10 ^ 10 / 3, ?_⟩⟩
  exact ((hasDerivAt_id _).div_const _).div_const _

variable {K : Type} [Field K] [LinearOrder K] [IsStrictOrderedRing K]

theorem ref_run (σ : K) (T : Tabs K) (rho : K) : (reference σ (safeInterp T) rho fresh) =
    ({ rho := rho
       temp := 293
       sie := sie T rho 293
       press := press T rho 293
       cv := cv T rho 293
       bmod := 10 ^ 10 * max (rho * (T .PofRT).fx rho 293 +
          ratio σ ((T .PofRT).fy rho 293) ((T .EofRT).fy rho 293)
            * (ratio σ ((T .PofRT).f rho 293) rho - rho * (T .EofRT).fx rho 293)) 0
       dpde := ratio σ ((T .PofRT).fy rho 293) ((T .EofRT).fy rho 293)
       dvdt := ratio σ (ratio σ ((T .PofRT).fy rho 293) ((T .EofRT).fy rho 293) * cv T rho 293)
          (rho * rho * (10 ^ 10 * (T .PofRT).fx rho 293)) }, fresh) := by
  have hg : ∀ x : K, (10 : K) ^ 10 * (1 / 10 ^ 10 * x) = x := fun x => by field_simp
  simp only [reference, bind, StateT.bind, pure, StateT.pure, safeInterp_plain, sieU, presU, cvU, bmodU, toSieU, hg,
    mul_clip, sie, press, cv]

/-- C113: the state reported by `ValuesAtReferenceState` is at the material's normal density and 293 K, and (with
exact divisions, for a positive density and positive `∂e/∂T`) pressure, energy, heat capacity, bulk modulus and
`dp/de` are those of the queries there, and `dv/dT` is `(∂P/∂T)/(ρ² ∂P/∂ρ)`. -/
theorem C113_reference_partial (T : Tabs K) (rho : K) (hr : 0 < rho) (hcv : 0 < (T .EofRT).fy rho 293) :
    let s := (reference 0 (safeInterp T) rho fresh).1
    s.rho = rho ∧ s.temp = 293 ∧
    s.press = answer 0 T .pRT s.rho s.temp ∧ s.sie = answer 0 T .eRT s.rho s.temp ∧
    s.cv = answer 0 T .cvRT s.rho s.temp ∧ s.bmod = answer 0 T .bRT s.rho s.temp ∧
    s.dpde = s.rho * answer 0 T .gRT s.rho s.temp ∧
    s.dvdt = (T .PofRT).fy rho 293 / (rho ^ 2 * (T .PofRT).fx rho 293) := by
  intro s
  have hs : s = _ := congrArg Prod.fst (ref_run 0 T rho)
  have hratio : ∀ a b : K, ratio 0 a b = a / b := fun a b => by simp [ratio]
  rw [hs]
  refine ⟨rfl, rfl, rfl, rfl, rfl, ?_, ?_, ?_⟩
  · simp only [answer]
    rw [← bulk_eq]
    simp only [bulkOf, hratio, hr, hcv, and_self, if_true, mul_one]
  · simp only [answer, gru, hratio]
    generalize (T .EofRT).fy rho 293 = c at *
    field_simp
  · simp only [hratio, cv]
    have h10 : (0 : K) < 10 ^ 10 := ten
    have h10' : (10 : K) ^ 10 ≠ 0 := h10.ne'
    rw [max_eq_left (mul_pos h10 hcv).le]
    generalize (10 ^ 10 : K) = u at *
    generalize (T .EofRT).fy rho 293 = c at *
    generalize (T .PofRT).fx rho 293 = b at *
    rcases eq_or_ne b 0 with rfl | hb
    · simp
    · field_simp

/-- C113 is violated where `∂e/∂T ≤ 0` (a table without thermal part): the reference bulk modulus is not the answer
of the bulk modulus query at the reference state. Here `P = T ρ²`, `e = -ρT`, density 1. -/
theorem C113_reference_bulk_violated :
    let T : Tabs ℚ := fun i => match i with
      | .PofRT => ⟨fun r t => t * r ^ 2, fun r t => 2 * t * r, fun r _ => r ^ 2⟩
      | _ => ⟨fun r t => - r * t, fun _ t => -t, fun r _ => -r⟩
    let s := (reference 0 (safeInterp T) 1 fresh).1
    s.bmod = 0 ∧ answer 0 T .bRT s.rho s.temp = 586 * 10 ^ 10 := by
  intro T s
  have hs : s = _ := congrArg Prod.fst (ref_run 0 T 1)
  rw [hs]
  constructor
  · norm_num [ratio, T]
  · norm_num [answer, bulk, T]

end Verif.Eospac
