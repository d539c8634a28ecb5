import Verif.Model.PAlpha
import Verif.Props.RootFindBracket
import Verif.Props.Ramp
import Mathlib.Analysis.SpecialFunctions.Log.Basic
import Mathlib.Analysis.SpecialFunctions.Log.Deriv
import Mathlib.Analysis.Complex.ExponentialBounds
import Mathlib.Analysis.Calculus.Deriv.MeanValue

set_option linter.unusedSectionVars false

/-! # C162: P-alpha ramp parameters, with their root searches -/

namespace Verif.PAlpha

open Verif.RootFind Verif.Mods Verif.Robust

section general
variable {K : Type*} [Field K] [LinearOrder K] [IsStrictOrderedRing K]

/-- Specification: `x` in `[lo, hi]` answers "where is `f` equal to `p`?" to the tolerance `tol`: either
the residual is within the relative tolerance, or `f - p` changes sign across an interval around `x`
narrower than `tol`. -/
def Answers (f : K → K) (p lo hi tol x : K) : Prop :=
  lo ≤ x ∧ x ≤ hi ∧ (|f x - p| ≤ tol * (|f x| + tol) ∨
    ∃ l r : K, lo ≤ l ∧ l ≤ r ∧ r ≤ hi ∧ x = (l + r) / 2 ∧ r - l < tol ∧ (f l - p) * (f r - p) ≤ 0)

/-- The tolerance of both searches. -/
def tol : K := 1 / 10 ^ 12

theorem tol_pos : (0 : K) < tol := by unfold tol; positivity

/-- Specification: the searches have something to find.  `lo` is the porous density, `ub` the upper bound
the function uses; the porous material starts at or below the elastic limit and the crush pressure, and
both are reached by the time the density is `ub`. -/
structure Reached (s : Solid K) (alpha0 Pe Pc ub : K) : Prop where
  porous : 1 < alpha0
  lo_tol : tol ≤ s.rho0 / alpha0
  ub_above : s.rho0 / alpha0 + tol ≤ ub
  ub_finite : ub < tol * 2 ^ 1000
  start_e : s.isotherm s.rho0 ≤ Pe
  end_e : Pe ≤ s.isotherm (alpha0 * ub)
  start_c : s.isotherm (s.rho0 / alpha0) ≤ Pc
  end_c : Pc ≤ s.isotherm ub

/-- C162: when the elastic and the crush pressure are both reached inside the searched densities, both
searches succeed, whatever the uninitialised locals held and whatever the hardware does on a division by
zero: `rmid` answers "where does the solid at `alpha0` times this density have the elastic pressure",
`r1` answers "where does the solid have the crush pressure", both within the search bounds. -/
theorem C162_points_found (dv : K → K → K) (expf : K → K) (maxArg : K) (s : Solid K)
    (alpha0 Pe Pc u1 u2 : K) (h : Reached s alpha0 Pe Pc (upperBound 0 expf maxArg s Pc)) :
    let o := pAlpha dv 0 expf maxArg s alpha0 Pe Pc u1 u2
    let ub := upperBound 0 expf maxArg s Pc
    o.st1 = .success ∧ o.st2 = .success ∧
      Answers (fun x => s.isotherm (alpha0 * x)) Pe (s.rho0 / alpha0) ub tol o.rmid ∧
      Answers s.isotherm Pc (s.rho0 / alpha0) ub tol o.r1 ∧
      o.params = pAlphaParams 0 s.rho0 alpha0 Pe Pc o.rmid o.r1 := by
  intro o ub
  have ha : (alpha0 : K) ≠ 0 := by have := h.porous; positivity
  have hr : alpha0 * (s.rho0 / alpha0) = s.rho0 := by field_simp
  have hr0 : ratio 0 s.rho0 alpha0 = s.rho0 / alpha0 := ratio_zero_small _ _
  have hlo : 0 ≤ s.rho0 / alpha0 := le_trans tol_pos.le h.lo_tol
  have hw : ub - s.rho0 / alpha0 < (tol : K) * 2 ^ 1000 := by
    have := h.ub_finite
    exact lt_of_le_of_lt (by linarith) this
  obtain ⟨x1, e1, b1, b1', n1⟩ := C11_findRoot_bracketed dv (fun x => s.isotherm (alpha0 * x)) Pe s.rho0
    (s.rho0 / alpha0) ub tol tol tol_pos tol_pos h.lo_tol h.ub_above hw (by
      simp only [hr]
      exact mul_nonpos_of_nonpos_of_nonneg (sub_nonpos.2 h.start_e) (sub_nonneg.2 h.end_e))
  obtain ⟨x2, e2, b2, b2', n2⟩ := C11_findRoot_bracketed dv s.isotherm Pc x1
    (s.rho0 / alpha0) ub tol tol tol_pos tol_pos h.lo_tol h.ub_above hw
      (mul_nonpos_of_nonpos_of_nonneg (sub_nonpos.2 h.start_c) (sub_nonneg.2 h.end_c))
  have e1' : findRoot dv (fun x => s.isotherm (alpha0 * x)) Pe s.rho0 (ratio 0 s.rho0 alpha0)
      (upperBound 0 expf maxArg s Pc) (1 / 10 ^ 12) (1 / 10 ^ 12) = ⟨.success, some x1⟩ := by
    rw [hr0]; exact e1
  have e2' : findRoot dv (fun x => s.isotherm x) Pc x1 (ratio 0 s.rho0 alpha0)
      (upperBound 0 expf maxArg s Pc) (1 / 10 ^ 12) (1 / 10 ^ 12) = ⟨.success, some x2⟩ := by
    rw [hr0]; exact e2
  have ho : o = ⟨.success, .success, x1, x2, pAlphaParams 0 s.rho0 alpha0 Pe Pc x1 x2⟩ := by
    simp only [o, pAlpha, e1', Option.getD_some, e2']
  rw [ho]
  exact ⟨rfl, rfl, ⟨b1, b1', n1⟩, ⟨b2, b2', n2⟩, rfl⟩

/-- An answer about a function that rises at least as fast as a line of slope `m` is close to the true
point. -/
theorem answer_close {f : K → K} {p lo hi x m xt : K} (hm : 0 < m)
    (hf : ∀ y z, lo ≤ y → y ≤ z → z ≤ hi → m * (z - y) ≤ f z - f y)
    (hx : lo ≤ xt) (hx' : xt ≤ hi) (hxt : f xt = p) (h : Answers f p lo hi tol x) :
    |x - xt| ≤ tol + 2 * tol * (|p| + tol) / m := by
  have ht : (0 : K) < tol := tol_pos
  have ht1 : (tol : K) ≤ 1 / 2 := by unfold tol; norm_num
  have hnn : 0 ≤ 2 * tol * (|p| + tol) / m := by positivity
  obtain ⟨a1, a2, h | ⟨l, r, l1, l2, l3, l4, l5, l6⟩⟩ := h
  · have h1 : |f x - p| ≤ 2 * tol * (|p| + tol) := by
      have h2 : |f x| ≤ |f x - p| + |p| := by
        have := abs_add_le (f x - p) p
        simpa using this
      have h3 : 0 ≤ |f x - p| := abs_nonneg _
      nlinarith
    have h4 : m * |x - xt| ≤ |f x - p| := by
      rcases le_total x xt with hc | hc
      · have := hf x xt a1 hc hx'
        rw [abs_of_nonpos (by linarith)]
        have := neg_abs_le (f x - p)
        linarith
      · have := hf xt x hx hc a2
        rw [abs_of_nonneg (by linarith)]
        have := le_abs_self (f x - p)
        linarith
    have : |x - xt| ≤ 2 * tol * (|p| + tol) / m := by
      rw [le_div_iff₀ hm]; linarith
    linarith
  · have hfl : l ≤ xt := by
      by_contra hc
      push Not at hc
      have h1 := hf xt l hx hc.le (l2.trans l3)
      have h2 := hf xt r hx (hc.le.trans l2) l3
      have p1 : 0 < m * (l - xt) := mul_pos hm (by linarith)
      have p2 : 0 < m * (r - xt) := mul_pos hm (by linarith)
      have : 0 < (f l - p) * (f r - p) := mul_pos (by linarith) (by linarith)
      linarith
    have hfr : xt ≤ r := by
      by_contra hc
      push Not at hc
      have h1 := hf l xt l1 (l2.trans hc.le) hx'
      have h2 := hf r xt (l1.trans l2) hc.le hx'
      have p1 : 0 < m * (xt - l) := mul_pos hm (by linarith)
      have p2 : 0 < m * (xt - r) := mul_pos hm (by linarith)
      have : 0 < (p - f l) * (p - f r) := mul_pos (by linarith) (by linarith)
      nlinarith
    have : |x - xt| ≤ tol := by
      rw [abs_le, l4]
      constructor <;> linarith
    linarith

/-- Specification: on the densities the searches look at, the isotherm rises at least as fast as a
line of slope `m`, and the elastic and crush pressures are those of the densities `de` and `dc`. -/
structure Rising (s : Solid K) (alpha0 Pe Pc ub m de dc : K) : Prop where
  slope_pos : 0 < m
  slope : ∀ y z, s.rho0 / alpha0 ≤ y → y ≤ z → z ≤ alpha0 * ub →
    m * (z - y) ≤ s.isotherm z - s.isotherm y
  de_at : s.isotherm de = Pe
  de_lo : s.rho0 ≤ de
  de_hi : de ≤ alpha0 * ub
  dc_at : s.isotherm dc = Pc
  dc_lo : s.rho0 / alpha0 ≤ dc
  dc_hi : dc ≤ ub

/-- C162: how close the two points are. `rmid` is the density whose solid part is at the elastic density
`de`, that is `de / alpha0`, and `r1` is the crush density `dc`, up to the search tolerance plus the
tolerance on the pressure divided by the slope. -/
theorem C162_points_accurate (dv : K → K → K) (expf : K → K) (maxArg : K) (s : Solid K)
    (alpha0 Pe Pc u1 u2 m de dc : K) (h : Reached s alpha0 Pe Pc (upperBound 0 expf maxArg s Pc))
    (hs : Rising s alpha0 Pe Pc (upperBound 0 expf maxArg s Pc) m de dc) :
    let o := pAlpha dv 0 expf maxArg s alpha0 Pe Pc u1 u2
    |o.rmid - de / alpha0| ≤ tol + 2 * tol * (|Pe| + tol) / m ∧
      |o.r1 - dc| ≤ tol + 2 * tol * (|Pc| + tol) / m := by
  intro o
  obtain ⟨_, _, h1, h2, _⟩ := C162_points_found dv expf maxArg s alpha0 Pe Pc u1 u2 h
  have ha1 : 1 < alpha0 := h.porous
  have ha : 0 < alpha0 := by linarith
  have hlo : 0 < s.rho0 / alpha0 := lt_of_lt_of_le tol_pos h.lo_tol
  have hub : upperBound 0 expf maxArg s Pc ≤ alpha0 * upperBound 0 expf maxArg s Pc := by
    have : 0 < upperBound 0 expf maxArg s Pc := by
      have := h.ub_above; have := (tol_pos : (0:K) < tol); linarith
    nlinarith
  constructor
  · refine answer_close (f := fun x => s.isotherm (alpha0 * x)) hs.slope_pos ?_ ?_ ?_ ?_ h1
    · intro y z h1 h2 h3
      have e1 : s.rho0 / alpha0 ≤ alpha0 * y := by nlinarith
      have := hs.slope (alpha0 * y) (alpha0 * z) e1 (by gcongr) (by gcongr)
      have hm := hs.slope_pos
      have : m * (z - y) ≤ m * (alpha0 * z - alpha0 * y) := by
        have : z - y ≤ alpha0 * (z - y) := by nlinarith
        rw [← mul_sub]
        gcongr
      linarith
    · have := hs.de_lo
      gcongr
    · rw [div_le_iff₀ ha]; have := hs.de_hi; linarith
    · have : alpha0 * (de / alpha0) = de := by field_simp
      simp only [this, hs.de_at]
  · exact answer_close hs.slope_pos
      (fun y z a b c => hs.slope y z a b (c.trans hub)) hs.dc_lo hs.dc_hi hs.dc_at h2

/-- C162: the finished ramp.  If the elastic density is clear of the reference density, and the crush
density clear of the elastic point, by more than the error of the searches, the parameters the function
returns build a ramp that is zero at the porous density, and passes exactly through `(rmid, Pe)` and
`(r1, Pc)`, where `rmid` is `de / alpha0` and `r1` is `dc` to the accuracy of the searches. (The two slopes
must differ, or the ramp is rejected when it is built.) -/
theorem C162_ramp (dv : K → K → K) (expf : K → K) (maxArg : K) (s : Solid K)
    (alpha0 Pe Pc u1 u2 m de dc : K) (h : Reached s alpha0 Pe Pc (upperBound 0 expf maxArg s Pc))
    (hs : Rising s alpha0 Pe Pc (upperBound 0 expf maxArg s Pc) m de dc)
    (hPe : 0 < Pe) (hPc : Pe < Pc)
    (he : s.rho0 / alpha0 + (tol + 2 * tol * (Pe + tol) / m) < de / alpha0)
    (hc : de / alpha0 + (tol + 2 * tol * (Pe + tol) / m) + (tol + 2 * tol * (Pc + tol) / m) < dc) :
    let o := pAlpha dv 0 expf maxArg s alpha0 Pe Pc u1 u2
    let p := Ramp.mk' o.params.1 o.params.2.1 o.params.2.2.1 o.params.2.2.2
    |o.rmid - de / alpha0| ≤ tol + 2 * tol * (Pe + tol) / m ∧
    |o.r1 - dc| ≤ tol + 2 * tol * (Pc + tol) / m ∧
    (o.params.2.1 ≠ o.params.2.2.1 →
      p.Ok ∧ p.r0 * alpha0 = s.rho0 ∧ p.rmid = o.rmid ∧ p.pressure 0 p.r0 = 0 ∧
        p.pressure 0 o.rmid = Pe ∧ p.pressure 0 o.r1 = Pc) := by
  intro o p
  obtain ⟨a1, a2⟩ := C162_points_accurate dv expf maxArg s alpha0 Pe Pc u1 u2 m de dc h hs
  obtain ⟨_, _, _, _, e⟩ := C162_points_found dv expf maxArg s alpha0 Pe Pc u1 u2 h
  rw [abs_of_pos hPe] at a1
  rw [abs_of_pos (hPe.trans hPc)] at a2
  refine ⟨a1, a2, fun hab => ?_⟩
  have ha : 0 < alpha0 := by have := h.porous; linarith
  have hr : 0 < s.rho0 := by
    have := lt_of_lt_of_le tol_pos h.lo_tol
    have := mul_pos this ha
    rwa [div_mul_cancel₀ _ ha.ne'] at this
  have b1 := (abs_le.1 a1).1
  have b2 := (abs_le.1 a1).2
  have b3 := (abs_le.1 a2).1
  have := C30_palpha_points hr h.porous (rmid := o.rmid) (r1 := o.r1) (by linarith) (by linarith)
    hPe hPc (by rw [← e]; exact hab)
  rw [← e] at this
  exact this

end general

section real

/-- The largest exponent the function allows: `log(0.99 * Ω)`, `Ω` the largest `Real`.
The bound of both searches with the true exponential. -/
noncomputable def ub (Ω : ℝ) (s : Solid ℝ) (Pc : ℝ) : ℝ :=
  upperBound 0 Real.exp (Real.log (Ω * (99 / 100))) s Pc

theorem ub_eq (Ω : ℝ) (s : Solid ℝ) (Pc : ℝ)
    (h : (2 * Pc - s.p0) / s.bmod0 ≤ Real.log (Ω * (99 / 100))) :
    ub Ω s Pc = s.rho0 * Real.exp ((2 * Pc - s.p0) / s.bmod0) := by
  unfold ub upperBound
  rw [ratio_zero_small, min_eq_right h]

/-- C162: a solid that does not soften always has both points in reach.  If the isotherm rises, the
isothermal stiffness `rho dP/drho` never falls below the reference bulk modulus under compression, and
`P0 ≤ Pe ≤ Pc`, the upper bound the function computes is high enough, so (with `C162_points_found`) both
searches succeed. -/
theorem C162_no_softening (Ω : ℝ) (s : Solid ℝ) (alpha0 Pe Pc : ℝ) (D : ℝ → ℝ)
    (ha : 1 < alpha0) (hlo : tol ≤ s.rho0 / alpha0) (hgap : s.rho0 / alpha0 + tol ≤ s.rho0)
    (hB : 0 < s.bmod0) (hP : s.isotherm s.rho0 = s.p0) (hPe : s.p0 ≤ Pe) (hPc : Pe ≤ Pc) (h0 : 0 ≤ Pc)
    (hexp : (2 * Pc - s.p0) / s.bmod0 ≤ Real.log (Ω * (99 / 100)))
    (hfin : ub Ω s Pc < tol * 2 ^ 1000)
    (hd : ∀ r, s.rho0 ≤ r → HasDerivAt s.isotherm (D r) r)
    (hstiff : ∀ r, s.rho0 ≤ r → s.bmod0 ≤ r * D r)
    (hten : s.isotherm (s.rho0 / alpha0) ≤ s.p0) :
    Reached s alpha0 Pe Pc (ub Ω s Pc) := by
  have hr : 0 < s.rho0 := by
    have := lt_of_lt_of_le tol_pos hlo
    have h1 : 0 < alpha0 := by linarith
    have := mul_pos this h1
    rwa [div_mul_cancel₀ _ h1.ne'] at this
  have hlog : ∀ r, s.rho0 ≤ r →
      s.p0 + s.bmod0 * (Real.log r - Real.log s.rho0) ≤ s.isotherm r := by
    have hm : MonotoneOn (fun r => s.isotherm r - s.bmod0 * Real.log r) (Set.Ici s.rho0) := by
      refine monotoneOn_of_deriv_nonneg (convex_Ici _) ?_ ?_ ?_
      · intro r hr'
        have : r ≠ 0 := by have := Set.mem_Ici.1 hr'; linarith
        exact ((hd r hr').continuousAt.sub
          (continuousAt_const.mul (Real.continuousAt_log this))).continuousWithinAt
      · intro r hr'
        rw [interior_Ici] at hr'
        have h2 : s.rho0 < r := hr'
        have : r ≠ 0 := by linarith
        exact ((hd r h2.le).sub ((Real.hasDerivAt_log this).const_mul _)).differentiableAt.differentiableWithinAt
      · intro r hr'
        rw [interior_Ici] at hr'
        have h2 : s.rho0 < r := hr'
        have h3 : 0 < r := by linarith
        have e : deriv (fun r => s.isotherm r - s.bmod0 * Real.log r) r = D r - s.bmod0 * r⁻¹ :=
          ((hd r h2.le).sub ((Real.hasDerivAt_log h3.ne').const_mul _)).deriv
        rw [e]
        have := hstiff r h2.le
        have : s.bmod0 * r⁻¹ ≤ D r := by
          rw [← div_eq_mul_inv, div_le_iff₀ h3]; linarith
        linarith
    intro r h
    have := hm (Set.mem_Ici.2 le_rfl) (Set.mem_Ici.2 h) h
    simp only [hP] at this
    linarith
  have hx : 0 ≤ (2 * Pc - s.p0) / s.bmod0 := by
    apply div_nonneg _ hB.le
    linarith
  have hub : s.rho0 ≤ ub Ω s Pc := by
    rw [ub_eq _ _ _ hexp]
    have := Real.one_le_exp hx
    nlinarith
  have hend : 2 * Pc ≤ s.isotherm (ub Ω s Pc) := by
    have := hlog _ hub
    rw [ub_eq _ _ _ hexp, Real.log_mul hr.ne' (Real.exp_pos _).ne', Real.log_exp] at this
    rw [ub_eq _ _ _ hexp]
    have e : s.bmod0 * ((2 * Pc - s.p0) / s.bmod0) = 2 * Pc - s.p0 := by field_simp
    have e2 : s.bmod0 * (Real.log s.rho0 + (2 * Pc - s.p0) / s.bmod0 - Real.log s.rho0)
        = 2 * Pc - s.p0 := by
      rw [add_sub_cancel_left]; exact e
    linarith
  have hend' : 2 * Pc ≤ s.isotherm (alpha0 * ub Ω s Pc) := by
    have h1 : ub Ω s Pc ≤ alpha0 * ub Ω s Pc := by nlinarith
    have hm : MonotoneOn s.isotherm (Set.Ici s.rho0) := by
      refine monotoneOn_of_deriv_nonneg (convex_Ici _) ?_ ?_ ?_
      · intro r hr'; exact (hd r hr').continuousAt.continuousWithinAt
      · intro r hr'
        rw [interior_Ici] at hr'
        exact (hd r (le_of_lt hr')).differentiableAt.differentiableWithinAt
      · intro r hr'
        rw [interior_Ici] at hr'
        have h2 : s.rho0 < r := hr'
        rw [(hd r h2.le).deriv]
        have h3 := hstiff r h2.le
        by_contra hc
        push Not at hc
        have : r * D r < 0 := mul_neg_of_pos_of_neg (by linarith) hc
        linarith
    exact hend.trans (hm (Set.mem_Ici.2 hub) (Set.mem_Ici.2 (hub.trans h1)) h1)
  exact ⟨ha, hlo, hgap.trans hub, hfin, by rw [hP]; exact hPe, by linarith, by linarith, by linarith⟩

/-- The reference state and isotherm of an ideal gas with `(gamma-1) Cv T0 = k` and `gamma = g`.
(`eos_ideal.hpp:43-45, 178-190`) -/
noncomputable def idealSolid (k g p0 : ℝ) : Solid ℝ := ⟨p0 / k, p0, g * p0, fun r => k * r⟩

/-- C162: for an ideal gas with `gamma ≤ 2` both points are in reach for every `P0 ≤ Pe ≤ Pc` (as long as
the bound stays finite), although its isothermal stiffness at the reference state is below the reference
bulk modulus. -/
theorem C162_ideal_gas (Ω k g p0 alpha0 Pe Pc : ℝ) (hk : 0 < k) (hg : 0 < g) (hg2 : g ≤ 2) (hp : 0 < p0)
    (ha : 1 < alpha0) (hlo : tol ≤ p0 / k / alpha0) (hgap : p0 / k / alpha0 + tol ≤ p0 / k)
    (hPe : p0 ≤ Pe) (hPc : Pe ≤ Pc)
    (hexp : (2 * Pc - p0) / (g * p0) ≤ Real.log (Ω * (99 / 100)))
    (hfin : ub Ω (idealSolid k g p0) Pc < tol * 2 ^ 1000) :
    Reached (idealSolid k g p0) alpha0 Pe Pc (ub Ω (idealSolid k g p0) Pc) := by
  have hue := ub_eq Ω (idealSolid k g p0) Pc hexp
  have h1 : Pc / p0 ≤ Real.exp ((2 * Pc - p0) / (g * p0)) := by
    have h2 : (2 * Pc - p0) / (2 * p0) ≤ (2 * Pc - p0) / (g * p0) := by
      apply div_le_div_of_nonneg_left
      · linarith
      · positivity
      · gcongr
    have h3 := Real.add_one_le_exp ((2 * Pc - p0) / (g * p0))
    have h4 : (2 * Pc - p0) / (2 * p0) = Pc / p0 - 1 / 2 := by field_simp
    linarith
  have hP : 1 ≤ Pc / p0 := by rw [le_div_iff₀ hp]; linarith
  have hend : Pc ≤ k * ub Ω (idealSolid k g p0) Pc := by
    rw [hue]
    change Pc ≤ k * (p0 / k * Real.exp ((2 * Pc - p0) / (g * p0)))
    rw [show k * (p0 / k * Real.exp ((2 * Pc - p0) / (g * p0)))
      = p0 * Real.exp ((2 * Pc - p0) / (g * p0)) by field_simp]
    have := mul_le_mul_of_nonneg_left h1 hp.le
    rwa [mul_div_cancel₀ _ hp.ne'] at this
  have hub : p0 / k ≤ ub Ω (idealSolid k g p0) Pc := by
    rw [div_le_iff₀ hk]; linarith
  have hr0 : 0 < p0 / k := by positivity
  refine ⟨ha, hlo, hgap.trans hub, hfin, ?_, ?_, ?_, hend⟩
  · change k * (p0 / k) ≤ Pe
    rw [mul_div_cancel₀ _ hk.ne']; exact hPe
  · change Pe ≤ k * (alpha0 * _)
    have : k * ub Ω (idealSolid k g p0) Pc ≤ k * (alpha0 * ub Ω (idealSolid k g p0) Pc) := by
      gcongr
      nlinarith
    linarith
  · change k * (p0 / k / alpha0) ≤ Pc
    have ht : (0 : ℝ) < tol := tol_pos
    have : p0 / k / alpha0 ≤ p0 / k := by linarith
    have := mul_le_mul_of_nonneg_left this hk.le
    rw [mul_div_cancel₀ _ hk.ne'] at this
    linarith

/-- C162 violated: the cap on the exponent is meant to keep the upper bound representable, but the
exponential is then multiplied by `rho0`: for a soft solid (or a large crush pressure) of reference density
above 100/99 the bound exceeds the largest number. -/
theorem C162_bound_overflows_violated (Ω : ℝ) (hΩ : 0 < Ω) (s : Solid ℝ) (Pc : ℝ) (hr : 100 / 99 < s.rho0)
    (hexp : Real.log (Ω * (99 / 100)) ≤ (2 * Pc - s.p0) / s.bmod0) : Ω < ub Ω s Pc := by
  unfold ub upperBound
  rw [ratio_zero_small, min_eq_left hexp, Real.exp_log (by positivity)]
  have : 100 / 99 * (Ω * (99 / 100)) < s.rho0 * (Ω * (99 / 100)) := by gcongr
  have e : 100 / 99 * (Ω * (99 / 100)) = Ω := by ring
  linarith

end real

section failing
variable {K : Type*} [Field K] [LinearOrder K] [IsStrictOrderedRing K]

/-- If on the whole searched interval the function stays on one side of the target, by more than the
tolerance, the search fails. -/
theorem findRoot_unreached (dv : K → K → K) (f : K → K) (yt g xmin xmax xtol ytol : K)
    (hx : 0 < xtol) (hy : 0 < ytol) (h1 : xtol ≤ xmin) (h2 : xmin + xtol ≤ xmax)
    (hs : (∀ x, xmin ≤ x → x ≤ xmax → f x + ytol * (|f x| + ytol) < yt) ∨
      (∀ x, xmin ≤ x → x ≤ xmax → yt < f x - ytol * (|f x| + ytol))) :
    (findRoot dv f yt g xmin xmax xtol ytol).status = .fail := by
  by_contra h
  have hsuc : (findRoot dv f yt g xmin xmax xtol ytol).status = .success := by
    cases h' : (findRoot dv f yt g xmin xmax xtol ytol).status with
    | success => rfl
    | fail => exact absurd h' h
  have hp : ∀ x, 0 ≤ ytol * (|f x| + ytol) := fun x => by positivity
  obtain ⟨x, _, a1, a2, h1 | ⟨l, r, l1, l2, l3, _, _, l4⟩⟩ :=
    C11_findRoot_inside dv f yt g xmin xmax xtol ytol hx hy h1 h2 hsuc
  · rcases hs with hs | hs
    · have := hs x a1 a2
      have := neg_abs_le (f x - yt)
      linarith
    · have := hs x a1 a2
      have := le_abs_self (f x - yt)
      linarith
  · rcases hs with hs | hs
    · have p1 := hs l l1 (l2.trans l3)
      have p2 := hs r (l1.trans l2) l3
      have := mul_pos_of_neg_of_neg (a := f l - yt) (b := f r - yt)
        (by linarith [hp l]) (by linarith [hp r])
      linarith
    · have p1 := hs l l1 (l2.trans l3)
      have p2 := hs r (l1.trans l2) l3
      have := mul_pos (a := f l - yt) (b := f r - yt) (by linarith [hp l]) (by linarith [hp r])
      linarith

/-- C162 violated: a failed search is not reported.  If the solid does not reach the crush pressure at any
density between the porous density and the upper bound, the second search always fails, whatever the
hardware does on a division by zero; the function returns parameters all the same and its caller cannot
tell. -/
theorem C162_unreached_crush_violated (dv : K → K → K) (σ : K) (expf : K → K) (maxArg : K) (s : Solid K)
    (alpha0 Pe Pc u1 u2 : K) (h1 : tol ≤ ratio σ s.rho0 alpha0)
    (h2 : ratio σ s.rho0 alpha0 + tol ≤ upperBound σ expf maxArg s Pc)
    (hs : ∀ x, ratio σ s.rho0 alpha0 ≤ x → x ≤ upperBound σ expf maxArg s Pc →
      s.isotherm x + tol * (|s.isotherm x| + tol) < Pc) :
    (pAlpha dv σ expf maxArg s alpha0 Pe Pc u1 u2).st2 = .fail :=
  findRoot_unreached dv s.isotherm Pc _ _ _ _ _ tol_pos tol_pos h1 h2 (Or.inl hs)

/-- C162 violated: an elastic limit below the reference pressure. The search starts at the porous density,
whose solid part is at the reference density, so for a solid whose pressure only rises on compression the
answer is below the searched interval: the first search always fails, unreported. -/
theorem C162_elastic_below_reference_violated (dv : K → K → K) (σ : K) (expf : K → K) (maxArg : K)
    (s : Solid K) (alpha0 Pe Pc u1 u2 : K) (h1 : tol ≤ ratio σ s.rho0 alpha0)
    (h2 : ratio σ s.rho0 alpha0 + tol ≤ upperBound σ expf maxArg s Pc)
    (hs : ∀ x, ratio σ s.rho0 alpha0 ≤ x → x ≤ upperBound σ expf maxArg s Pc →
      Pe < s.isotherm (alpha0 * x) - tol * (|s.isotherm (alpha0 * x)| + tol)) :
    (pAlpha dv σ expf maxArg s alpha0 Pe Pc u1 u2).st1 = .fail :=
  findRoot_unreached dv (fun x => s.isotherm (alpha0 * x)) Pe _ _ _ _ _ tol_pos tol_pos h1 h2 (Or.inr hs)

end failing

section examples

/-- A linear solid: reference density 2, zero reference pressure, unit slope. -/
def lin : Solid ℚ := ⟨2, 0, 2, fun r => r - 2⟩

/-- C162 non-vacuity: the hypotheses of `C162_points_found`, `C162_points_accurate` and `C162_ramp` hold
for `lin` with porosity 2, elastic pressure 1 and crush pressure 4. -/
example : Reached lin 2 1 4 (upperBound 0 (fun _ => 50) 700 lin 4) ∧
    Rising lin 2 1 4 (upperBound 0 (fun _ => 50) 700 lin 4) 1 3 6 ∧
    lin.rho0 / 2 + (tol + 2 * tol * (1 + tol) / 1) < (3 : ℚ) / 2 ∧
    (3 : ℚ) / 2 + (tol + 2 * tol * (1 + tol) / 1) + (tol + 2 * tol * (4 + tol) / 1) < 6 := by
  have hu : upperBound 0 (fun _ => 50) 700 lin 4 = 100 := by norm_num [upperBound, lin]
  have h2 : (2 : ℚ) ^ 1000 = 2 ^ 250 * 2 ^ 250 * 2 ^ 250 * 2 ^ 250 := by
    rw [← pow_add, ← pow_add, ← pow_add]
  rw [hu]
  refine ⟨⟨?_, ?_, ?_, ?_, ?_, ?_, ?_, ?_⟩, ⟨?_, ?_, ?_, ?_, ?_, ?_, ?_, ?_⟩, ?_, ?_⟩
  case refine_4 => rw [h2]; norm_num [tol]
  case refine_10 => intro y z _ _ _; simp only [lin]; linarith
  all_goals norm_num [lin, tol]

/-- C162 non-vacuity: `C162_no_softening` applies to a linear solid of unit density. -/
example : Reached (⟨1, 0, 1, fun r => r - 1⟩ : Solid ℝ) 2 (1 / 2) 1
    (ub (Real.exp 3 * (100 / 99)) ⟨1, 0, 1, fun r => r - 1⟩ 1) := by
  have hl : Real.log (Real.exp 3 * (100 / 99) * (99 / 100)) = 3 := by
    rw [show Real.exp 3 * (100 / 99) * (99 / 100) = Real.exp 3 by ring, Real.log_exp]
  have hexp : (2 * 1 - 0 : ℝ) / 1 ≤ Real.log (Real.exp 3 * (100 / 99) * (99 / 100)) := by
    rw [hl]; norm_num
  refine C162_no_softening _ _ _ _ _ (fun _ => 1) ?_ ?_ ?_ ?_ ?_ ?_ ?_ ?_ hexp ?_ ?_ ?_ ?_
  case refine_9 =>
    rw [ub_eq _ _ _ hexp]
    have h1 : Real.exp 1 < 3 := lt_trans Real.exp_one_lt_d9 (by norm_num)
    have h2 : Real.exp 2 = Real.exp 1 * Real.exp 1 := by rw [← Real.exp_add]; norm_num
    have h3 : Real.exp 2 < 9 := by
      rw [h2]; have := Real.exp_pos 1; nlinarith
    have h4 : (2 : ℝ) ^ 50 ≤ 2 ^ 1000 := pow_le_pow_right₀ (by norm_num) (by norm_num)
    have h5 : (9 : ℝ) < tol * 2 ^ 50 := by norm_num [tol]
    have h6 : (tol : ℝ) * 2 ^ 50 ≤ tol * 2 ^ 1000 := mul_le_mul_of_nonneg_left h4 tol_pos.le
    have h7 : (1 : ℝ) * Real.exp ((2 * 1 - 0) / 1) = Real.exp 2 := by norm_num
    simp only
    rw [h7]
    exact (h3.trans h5).trans_le h6
  case refine_10 => intro r _; exact (hasDerivAt_id r).sub_const 1
  case refine_11 => intro r h; simpa using h
  all_goals norm_num [tol]

/-- C162 non-vacuity: an ideal gas with `gamma = 1.5`, reference pressure 1, crush pressure 2. -/
example : Reached (idealSolid 1 (3 / 2) 1) 2 1 2 (ub (Real.exp 3 * (100 / 99)) (idealSolid 1 (3 / 2) 1) 2) := by
  have hl : Real.log (Real.exp 3 * (100 / 99) * (99 / 100)) = 3 := by
    rw [show Real.exp 3 * (100 / 99) * (99 / 100) = Real.exp 3 by ring, Real.log_exp]
  have hexp : (2 * 2 - 1 : ℝ) / (3 / 2 * 1) ≤ Real.log (Real.exp 3 * (100 / 99) * (99 / 100)) := by
    rw [hl]; norm_num
  refine C162_ideal_gas _ _ _ _ _ _ _ ?_ ?_ ?_ ?_ ?_ ?_ ?_ ?_ ?_ hexp ?_
  case refine_10 =>
    rw [ub_eq _ _ _ hexp]
    have h1 : Real.exp 1 < 3 := lt_trans Real.exp_one_lt_d9 (by norm_num)
    have h2 : Real.exp 2 = Real.exp 1 * Real.exp 1 := by rw [← Real.exp_add]; norm_num
    have h3 : Real.exp 2 < 9 := by
      rw [h2]; have := Real.exp_pos 1; nlinarith
    have h4 : (2 : ℝ) ^ 50 ≤ 2 ^ 1000 := pow_le_pow_right₀ (by norm_num) (by norm_num)
    have h5 : (9 : ℝ) < tol * 2 ^ 50 := by norm_num [tol]
    have h6 : (tol : ℝ) * 2 ^ 50 ≤ tol * 2 ^ 1000 := mul_le_mul_of_nonneg_left h4 tol_pos.le
    have h7 : (idealSolid 1 (3 / 2) 1).rho0 * Real.exp ((2 * 2 - (idealSolid 1 (3 / 2) 1).p0)
        / (idealSolid 1 (3 / 2) 1).bmod0) = Real.exp 2 := by norm_num [idealSolid]
    rw [h7]
    exact (h3.trans h5).trans_le h6
  all_goals norm_num [tol]

/-- C162 non-vacuity: a soft solid and a large crush pressure, with 1000 as largest number. -/
example : Real.log (1000 * (99 / 100)) ≤ (2 * 1000 - (⟨2, 0, 1, id⟩ : Solid ℝ).p0) /
    (⟨2, 0, 1, id⟩ : Solid ℝ).bmod0 := by
  have := Real.log_le_sub_one_of_pos (x := 1000 * (99 / 100)) (by norm_num)
  norm_num at this ⊢
  linarith

/-- C162 non-vacuity: `lin` with an elastic limit below its reference pressure. -/
example : ∀ x : ℚ, 1 ≤ x → x ≤ 100 →
    -1 < lin.isotherm (2 * x) - tol * (|lin.isotherm (2 * x)| + tol) := by
  intro x h1 _
  simp only [lin]
  rw [abs_of_nonneg (by linarith)]
  unfold tol
  norm_num
  linarith

/-- The solid of the silent failure: rises with unit slope from density 2, and levels off at pressure 3. -/
noncomputable def levelling : Solid ℝ := ⟨2, 0, 2, fun r => min r 5 - 2⟩

/-- C162 violated, concretely: a solid that levels off at pressure 3, asked for an elastic limit of 1/2 and a
crush pressure of 4.  The first search succeeds, the second fails, and the function returns the parameters
of a ramp that the constructor accepts and that reaches the crush pressure at the upper bound of the search,
where the solid's pressure is 3. -/
theorem C162_silent_ramp_violated (dv : ℝ → ℝ → ℝ) (hdv : ∀ a b, b ≠ 0 → dv a b = a / b)
    (hinf : dv (-1) 0 ≤ -(2 * Real.exp 4)) (u1 u2 : ℝ) :
    let o := pAlpha dv 0 Real.exp 700 levelling 2 (1 / 2) 4 u1 u2
    let p := Ramp.mk' o.params.1 o.params.2.1 o.params.2.2.1 o.params.2.2.2
    o.st1 = .success ∧ o.st2 = .fail ∧ p.Ok ∧ p.pressure 0 o.r1 = 4 ∧ levelling.isotherm o.r1 = 3 ∧
      ∀ r, levelling.isotherm r ≤ 3 := by
  intro o p
  have hU : upperBound 0 Real.exp 700 levelling 4 = 2 * Real.exp 4 := by
    unfold upperBound levelling
    rw [ratio_zero_small]
    norm_num
  have hU10 : 10 ≤ 2 * Real.exp 4 := by
    have := Real.add_one_le_exp (4 : ℝ); linarith
  generalize 2 * Real.exp 4 = U at hU hU10 hinf
  have hr0 : ratio 0 levelling.rho0 2 = 1 := by
    rw [ratio_zero_small]; norm_num [levelling]
  -- the first search
  have e1 : findRoot dv (fun x => levelling.isotherm (2 * x)) (1 / 2) levelling.rho0 1 U (1 / 10 ^ 12)
      (1 / 10 ^ 12) = ⟨.success, some (5 / 4)⟩ := by
    have m1 : min (2 * U) (5 : ℝ) = 5 := min_eq_right (by linarith)
    have hsec : secantLoop dv (fun x => levelling.isotherm (2 * x)) (1 / 2) 1 U (1 / 10 ^ 12) 1000 (2, 2)
        = (5 / 4, 5 / 4) := by
      have s1 : secantStep dv (fun x => levelling.isotherm (2 * x)) (1 / 2) 1 U (1 / 10 ^ 12) 2 = 5 / 4 := by
        unfold secantStep levelling
        simp only
        rw [hdv _ _ (by norm_num)]
        norm_num
        intro hh; linarith
      have s2 : secantStep dv (fun x => levelling.isotherm (2 * x)) (1 / 2) 1 U (1 / 10 ^ 12) (5 / 4)
          = 5 / 4 := by
        unfold secantStep levelling
        simp only
        rw [hdv _ _ (by norm_num)]
        norm_num
        intro hh; linarith
      rw [show (1000 : Nat) = 998 + 1 + 1 from rfl, secantLoop]
      simp only [s1]
      rw [if_neg (by norm_num [abs_of_nonneg, abs_of_neg]), secantLoop]
      simp only [s2]
      rw [if_pos (by norm_num)]
    have hsecant : secant dv (fun x => levelling.isotherm (2 * x)) (1 / 2) 2 1 U (1 / 10 ^ 12) (1 / 10 ^ 12)
        = (.success, 5 / 4) := by
      unfold secant
      rw [hsec]
      norm_num [levelling]
    unfold findRoot
    simp only
    rw [if_neg (by simp only [levelling, m1]; norm_num [abs_of_nonneg]),
      if_neg (by norm_num [levelling, abs_of_nonneg])]
    have g1 : ¬ (levelling.rho0 ≥ U) := by simp only [levelling]; push Not; linarith
    rw [if_neg g1]
    have g2 : ¬ (levelling.rho0 ≤ 1) := by norm_num [levelling]
    rw [if_neg g2]
    rw [show levelling.rho0 = 2 from rfl, hsecant]
    simp
  -- the second search
  have e2 : findRoot dv (fun x => levelling.isotherm x) 4 (5 / 4) 1 U (1 / 10 ^ 12)
      (1 / 10 ^ 12) = ⟨.fail, some U⟩ := by
    have mU : min U (5 : ℝ) = 5 := min_eq_right (by linarith)
    have hsec : secantLoop dv (fun x => levelling.isotherm x) 4 1 U (1 / 10 ^ 12) 1000 (5 / 4, 5 / 4)
        = (U, U) := by
      have s1 : secantStep dv (fun x => levelling.isotherm x) 4 1 U (1 / 10 ^ 12) (5 / 4) = 6 := by
        unfold secantStep levelling
        simp only
        rw [hdv _ _ (by norm_num)]
        norm_num
        intro hh; linarith
      have s2 : secantStep dv (fun x => levelling.isotherm x) 4 1 U (1 / 10 ^ 12) 6 = U := by
        unfold secantStep levelling
        simp only
        norm_num
        intro hh; split_ifs at hh ⊢ <;> linarith
      have s3 : secantStep dv (fun x => levelling.isotherm x) 4 1 U (1 / 10 ^ 12) U = U := by
        unfold secantStep levelling
        simp only
        have hab : |1 / 10 ^ 7 * U| = 1 / 10 ^ 7 * U := abs_of_nonneg (by linarith)
        rw [hab]
        have q1 : min (U + (1 / 10 ^ 7 * U + 1 / 10 ^ 12)) (5 : ℝ) = 5 := min_eq_right (by linarith)
        have q2 : min (U - (1 / 10 ^ 7 * U + 1 / 10 ^ 12)) (5 : ℝ) = 5 := min_eq_right (by linarith)
        rw [q1, q2, mU]
        norm_num
        intro hh; split_ifs at hh ⊢ <;> linarith
      rw [show (1000 : Nat) = 997 + 1 + 1 + 1 from rfl, secantLoop]
      simp only [s1]
      rw [if_neg (by norm_num [abs_of_nonneg]), secantLoop]
      simp only [s2]
      have hne : ¬ (|U - 6| / (|U| + 1 / 10 ^ 12) < 1 / 10 ^ 12) := by
        rw [abs_of_nonneg (by linarith), abs_of_nonneg (by linarith), not_lt,
          le_div_iff₀ (by linarith)]
        linarith
      rw [if_neg hne, secantLoop]
      simp only [s3]
      rw [if_pos (by simp)]
    have hsecant : secant dv (fun x => levelling.isotherm x) 4 (5 / 4) 1 U (1 / 10 ^ 12) (1 / 10 ^ 12)
        = (.fail, U) := by
      unfold secant
      rw [hsec]
      simp only [levelling, mU]
      norm_num [abs_of_nonneg]
    have hbis : (bisect (fun x => levelling.isotherm x) 4 (5 / 4) 1 U (1 / 10 ^ 12)).1 = ⟨.fail, none⟩ := by
      have hneg : ∀ x, levelling.isotherm x - 4 < 0 := by
        intro x
        have : min x (5:ℝ) ≤ 5 := min_le_right _ _
        simp only [levelling]; linarith
      have hpos : ∀ x y, 0 < (levelling.isotherm x - 4) * (levelling.isotherm y - 4) :=
        fun x y => mul_pos_of_neg_of_neg (hneg x) (hneg y)
      unfold bisect
      simp only
      cases hreg : region (fun x => levelling.isotherm x) 4 1 U
          (if |(5 / 4 : ℝ)| < 1 / 10 ^ 12 then 5 / 4 + 2 * (1 / 10 ^ 12) else 5 / 4) 1000 (1 / 100) with
      | none => rfl
      | some br =>
        have hv := region_vals 1000 _ hreg
        have hrep : repair (fun x => levelling.isotherm x) 4 1 U br = none := by
          obtain ⟨a, b, ya, yb⟩ := br
          obtain ⟨h1, h2⟩ := hv
          simp only at h1 h2
          subst h1 h2
          unfold repair
          by_cases c1 : b > U <;> by_cases c2 : a < 1 <;> simp [c1, c2, hpos]
        simp only [hrep]
    unfold findRoot
    simp only
    rw [if_neg (by simp only [levelling, mU]; norm_num [abs_of_nonneg]),
      if_neg (by norm_num [levelling, abs_of_nonneg])]
    have g1 : ¬ ((5 / 4 : ℝ) ≥ U) := by push Not; linarith
    rw [if_neg g1, if_neg (by norm_num : ¬ ((5 / 4 : ℝ) ≤ 1)), hsecant, hbis]
    simp only [Option.getD_none]
    rw [if_neg (by simp), if_neg (by linarith), if_neg (lt_irrefl _)]
  have ho : o = ⟨.success, .fail, 5 / 4, U, pAlphaParams 0 levelling.rho0 2 (1 / 2) 4 (5 / 4) U⟩ := by
    simp only [o, pAlpha, hU, hr0, e1, Option.getD_some, e2]
  have hp := C30_palpha_points (K := ℝ) (rho0 := 2) (alpha0 := 2) (Pe := 1 / 2) (Pc := 4) (rmid := 5 / 4)
    (r1 := U) (by norm_num) (by norm_num) (by norm_num) (by linarith) (by norm_num) (by norm_num) (by
      simp only [pAlphaParams, ratio_zero_small]
      have : (2 / 2 * (4 - 1 / 2) : ℝ) / (U - 5 / 4) < 1 := by
        rw [div_lt_iff₀ (by linarith)]; linarith
      intro he
      rw [← he] at this
      norm_num at this)
  simp only at hp
  have hp' : p = Ramp.mk' (pAlphaParams 0 2 2 (1 / 2) 4 (5 / 4) U).1
      (pAlphaParams 0 2 2 (1 / 2) 4 (5 / 4) U).2.1 (pAlphaParams 0 2 2 (1 / 2) 4 (5 / 4) U).2.2.1
      (pAlphaParams 0 2 2 (1 / 2) 4 (5 / 4) U).2.2.2 := by
    simp only [p, ho]; rfl
  rw [hp', ho]
  refine ⟨rfl, rfl, hp.1, hp.2.2.2.2.2, ?_, ?_⟩
  · have : min U (5 : ℝ) = 5 := min_eq_right (by linarith)
    simp only [levelling, this]; norm_num
  · intro r
    have : min r (5:ℝ) ≤ 5 := min_le_right _ _
    simp only [levelling]; linarith

/-- C162 non-vacuity: a division that answers a large number, of the sign of the numerator, on a zero
divisor meets the hypotheses of `C162_silent_ramp_violated`. -/
example : let dv : ℝ → ℝ → ℝ := fun a b => if b = 0 then a * (2 * Real.exp 4) else a / b
    (∀ a b, b ≠ 0 → dv a b = a / b) ∧ dv (-1) 0 ≤ -(2 * Real.exp 4) := by
  intro dv
  exact ⟨fun a b h => if_neg h, by simp [dv]⟩

end examples

end Verif.PAlpha
