import Verif.Spec.ChangeOfUnits
import Verif.Tactics

/-! # Thermodynamic consistency survives a change of units -/

namespace Verif.Spec

open Verif.Mods

section algebra
variable {K : Type*} [Field K] {c : Coord K} {f g : Answers K}

theorem Image.roundTripT (hc : c.Ok) (h : Image c f g) {r T : K}
    (hf : RoundTripT f (c.rho * r) (c.temp * T)) : RoundTripT g r T := by
  unfold RoundTripT at *
  obtain ⟨_, ht, hs, _⟩ := hc
  rw [h .tRE, h .eRT]
  have : c.arg .tRE (c.out .eRT (f .eRT (c.rho * r) (c.arg .eRT T)))
      = f .eRT (c.rho * r) (c.temp * T) := by
    simp only [Coord.arg, Coord.out, Q.byEnergy]
    simp; field_simp
  rw [this, hf]
  simp only [Coord.out]; field_simp

theorem Image.roundTripE (hc : c.Ok) (h : Image c f g) {r e : K}
    (hf : RoundTripE f (c.rho * r) (c.sie * (e - c.shift))) : RoundTripE g r e := by
  unfold RoundTripE at *
  obtain ⟨_, ht, hs, _⟩ := hc
  rw [h .eRT, h .tRE]
  have : c.arg .eRT (c.out .tRE (f .tRE (c.rho * r) (c.arg .tRE e)))
      = f .tRE (c.rho * r) (c.sie * (e - c.shift)) := by
    simp only [Coord.arg, Coord.out, Q.byEnergy]
    simp; field_simp
  rw [this, hf]
  simp only [Coord.out]; field_simp; ring

theorem Image.twins (hc : c.Ok) (h : Image c f g) {r T : K}
    (hf : Twins f (c.rho * r) (c.temp * T)) : Twins g r T := by
  unfold Twins Twin at *
  obtain ⟨_, ht, hs, _⟩ := hc
  have key : ∀ k : Q, k.byEnergy = true →
      c.arg k (c.out .eRT (f .eRT (c.rho * r) (c.arg .eRT T)))
      = f .eRT (c.rho * r) (c.temp * T) := by
    intro k hk
    simp only [Coord.arg, Coord.out, hk, if_true, show Q.byEnergy .eRT = false from rfl]
    simp; field_simp
  obtain ⟨h1, h2, h3, h4, h5⟩ := hf
  refine ⟨?_, ?_, ?_, ?_, ?_⟩
  · rw [h .pRT, h .pRE, h .eRT, key .pRE rfl, ← h1]; simp [Coord.out, Coord.arg, Q.byEnergy]
  · rw [h .sRT, h .sRE, h .eRT, key .sRE rfl, ← h2]; simp [Coord.out, Coord.arg, Q.byEnergy]
  · rw [h .cvRT, h .cvRE, h .eRT, key .cvRE rfl, ← h3]; simp [Coord.out, Coord.arg, Q.byEnergy]
  · rw [h .bRT, h .bRE, h .eRT, key .bRE rfl, ← h4]; simp [Coord.out, Coord.arg, Q.byEnergy]
  · rw [h .gRT, h .gRE, h .eRT, key .gRE rfl, ← h5]; simp [Coord.out, Coord.arg, Q.byEnergy]

end algebra

variable {c : Coord ℝ} {f g : Answers ℝ}

private theorem inner (a b x : ℝ) : HasDerivAt (fun t : ℝ => a * (t - b)) a x := by
  simpa using ((hasDerivAt_id x).sub_const b).const_mul a

private theorem inner0 (a x : ℝ) : HasDerivAt (fun t : ℝ => a * t) a x := by
  simpa using (hasDerivAt_id x).const_mul a

theorem Image.heatCapacity (hc : c.Ok) (h : Image c f g) {r T : ℝ}
    (hf : HeatCapacity f (c.rho * r) (c.temp * T)) : HeatCapacity g r T := by
  unfold HeatCapacity at *
  have e : (fun t => g .eRT r t) = fun t => f .eRT (c.rho * r) (c.temp * t) / c.sie + c.shift := by
    funext t; rw [h .eRT]; simp [Coord.out, Coord.arg, Q.byEnergy]
  rw [e, h .cvRT]
  have := ((hf.comp T (inner0 c.temp T)).div_const c.sie).add_const c.shift
  refine this.congr_deriv ?_
  simp [Coord.out, Coord.arg, Q.byEnergy]

theorem Image.gruneisen (hc : c.Ok) (h : Image c f g) {r e : ℝ}
    (hf : Gruneisen f (c.rho * r) (c.sie * (e - c.shift))) : Gruneisen g r e := by
  unfold Gruneisen at *
  have E : (fun t => g .pRE r t) = fun t => f .pRE (c.rho * r) (c.sie * (t - c.shift)) / c.press := by
    funext t; rw [h .pRE]; simp [Coord.out, Coord.arg, Q.byEnergy]
  rw [E, h .gRE]
  have := (hf.comp e (inner c.sie c.shift e)).div_const c.press
  refine this.congr_deriv ?_
  obtain ⟨h1, h2, h3, h4⟩ := hc
  simp only [Coord.out, Coord.arg, Q.byEnergy, if_true, h4]
  field_simp

theorem Image.isentropicBulk (hc : c.Ok) (h : Image c f g) {r e : ℝ} (hr : r ≠ 0)
    (hf : IsentropicBulk f (c.rho * r) (c.sie * (e - c.shift))) : IsentropicBulk g r e := by
  obtain ⟨Pr, Pe, d1, d2, hb⟩ := hf
  obtain ⟨h1, h2, h3, h4⟩ := hc
  refine ⟨Pr * c.rho / c.press, Pe * c.sie / c.press, ?_, ?_, ?_⟩
  · have E : (fun t => g .pRE t e) = fun t => f .pRE (c.rho * t) (c.sie * (e - c.shift)) / c.press := by
      funext t; rw [h .pRE]; simp [Coord.out, Coord.arg, Q.byEnergy]
    rw [E]
    exact (HasDerivAt.comp r (h₂ := fun x => f .pRE x (c.sie * (e - c.shift))) d1
      (inner0 c.rho r)).div_const _
  · have E : (fun t => g .pRE r t) = fun t => f .pRE (c.rho * r) (c.sie * (t - c.shift)) / c.press := by
      funext t; rw [h .pRE]; simp [Coord.out, Coord.arg, Q.byEnergy]
    rw [E]
    exact (d2.comp e (inner c.sie c.shift e)).div_const _
  · rw [h .bRE, h .pRE]
    simp only [Coord.out, Coord.arg, Q.byEnergy, if_true]
    rw [hb, h4]
    field_simp

theorem Image.entropyT (hc : c.Ok) (h : Image c f g) {r T : ℝ} (hT : T ≠ 0)
    (hf : EntropyT f (c.rho * r) (c.temp * T)) : EntropyT g r T := by
  unfold EntropyT at *
  obtain ⟨h1, h2, h3, h4⟩ := hc
  have e : (fun t => g .sRT r t) = fun t => f .sRT (c.rho * r) (c.temp * t) * c.temp / c.sie := by
    funext t; rw [h .sRT]; simp [Coord.out, Coord.arg, Q.byEnergy]
  rw [e, h .cvRT]
  have := ((hf.comp T (inner0 c.temp T)).mul_const c.temp).div_const c.sie
  refine this.congr_deriv ?_
  simp only [Coord.out, Coord.arg, Q.byEnergy, Bool.false_eq_true, if_false]
  field_simp

theorem Image.entropyRho (hc : c.Ok) (h : Image c f g) {r T : ℝ} (hr : r ≠ 0)
    (hf : EntropyRho f (c.rho * r) (c.temp * T)) : EntropyRho g r T := by
  obtain ⟨PT, d1, d2⟩ := hf
  obtain ⟨h1, h2, h3, h4⟩ := hc
  refine ⟨PT * c.temp / c.press, ?_, ?_⟩
  · have E : (fun t => g .pRT r t) = fun t => f .pRT (c.rho * r) (c.temp * t) / c.press := by
      funext t; rw [h .pRT]; simp [Coord.out, Coord.arg, Q.byEnergy]
    rw [E]
    exact (d1.comp T (inner0 c.temp T)).div_const _
  · have E : (fun t => g .sRT t T) = fun t => f .sRT (c.rho * t) (c.temp * T) * c.temp / c.sie := by
      funext t; rw [h .sRT]; simp [Coord.out, Coord.arg, Q.byEnergy]
    rw [E]
    have := ((HasDerivAt.comp r (h₂ := fun x => f .sRT x (c.temp * T)) d2
      (inner0 c.rho r)).mul_const c.temp).div_const c.sie
    refine this.congr_deriv ?_
    rw [h4]; field_simp

theorem Image.energyRho (hc : c.Ok) (h : Image c f g) {r T : ℝ} (hr : r ≠ 0)
    (hf : EnergyRho f (c.rho * r) (c.temp * T)) : EnergyRho g r T := by
  obtain ⟨PT, d1, d2⟩ := hf
  obtain ⟨h1, h2, h3, h4⟩ := hc
  refine ⟨PT * c.temp / c.press, ?_, ?_⟩
  · have E : (fun t => g .pRT r t) = fun t => f .pRT (c.rho * r) (c.temp * t) / c.press := by
      funext t; rw [h .pRT]; simp [Coord.out, Coord.arg, Q.byEnergy]
    rw [E]
    exact (d1.comp T (inner0 c.temp T)).div_const _
  · have E : (fun t => g .eRT t T) = fun t => f .eRT (c.rho * t) (c.temp * T) / c.sie + c.shift := by
      funext t; rw [h .eRT]; simp [Coord.out, Coord.arg, Q.byEnergy]
    rw [E]
    have := ((HasDerivAt.comp r (h₂ := fun x => f .eRT x (c.temp * T)) d2
      (inner0 c.rho r)).div_const c.sie).add_const c.shift
    refine this.congr_deriv ?_
    rw [h .pRT]
    simp only [Coord.out, Coord.arg, Q.byEnergy, Bool.false_eq_true, if_false]
    rw [h4]; field_simp

end Verif.Spec
