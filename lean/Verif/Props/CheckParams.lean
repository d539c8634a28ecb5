import Verif.Spec.CheckParams
import Verif.Props.IeeeIdeal
import Verif.Props.Eos.Ideal
import Verif.Props.Eos.Stiff
import Verif.Props.Eos.Carnahan

/-! # C153: construction stops on unusable parameters -/

namespace Verif

namespace Ctor

open Ieee Rounding

variable {rnd : ℝ → ℝ}

theorem lt_zero_iff (v : Ext) : lt (.fin 0) v ↔ AboveZero v := by
  rcases v with _ | s | x
  · simp [lt, AboveZero]
  · simp [lt, AboveZero]
  · simp [lt, AboveZero]

theorem le_zero_iff (v : Ext) : le (.fin 0) v ↔ FromZero v := by
  rcases v with _ | s | x
  · simp [le, FromZero]
  · simp [le, FromZero]
  · simp [le, FromZero]

theorem not_lt_zero_iff (v : Ext) : ¬ lt v (.fin 0) ↔ FromZeroOrNaN v := by
  rcases v with _ | s | x
  · simp [lt, FromZeroOrNaN]
  · cases s <;> simp [lt, FromZeroOrNaN, FromZero]
  · simp [lt, FromZeroOrNaN, FromZero]

theorem not_lt_one_iff (v : Ext) : ¬ lt v (.fin 1) ↔ v = .nan ∨ v = .inf false ∨ ∃ x : ℝ, 1 ≤ x ∧ v = .fin x := by
  rcases v with _ | s | x
  · simp [lt]
  · cases s <;> simp [lt]
  · simp [lt]

theorem atom_iff (a : Atom) : a.check ↔ AboveZero a.abar ∧ AboveZero a.zbar := by
  simp only [Atom.check, lt_zero_iff]

/-- C153 (part): for each analytic equation of state, the parameters its constructor accepts in a release build, in terms of
which of them are zero or above (`FromZero`), above zero (`AboveZero`; both rule out NaN) or not known to be negative
(`FromZeroOrNaN`). The atomic mass and number must be above zero in all cases (`Gruneisen` apart: see C153_gruneisen_violated). -/
theorem C153_accepts_iff (a b c d e f g h i j k : Ext) (az : Atom) :
    let ok := fun o => constructed rnd maxDouble small false o
    let at0 := AboveZero az.abar ∧ AboveZero az.zbar
    (ok (.ideal a b c d az) ↔ FromZero a ∧ FromZero b ∧ FromZero c ∧ FromZero d ∧ at0) ∧
    (ok (.stiff a b c d e f g az) ↔ FromZero a ∧ FromZero b ∧ at0) ∧
    (ok (.noble a b c d e f g az) ↔ FromZero a ∧ AboveZero b ∧ FromZero c ∧ at0) ∧
    (ok (.carnahan a b c d e f g az) ↔ AboveZero a ∧ AboveZero b ∧ FromZero c ∧ at0) ∧
    (ok (.jwl a b c d e f g az) ↔ AboveZero e ∧ AboveZero f ∧ AboveZero g ∧ at0) ∧
    (ok (.reactants a b c d e f g h i j k az) ↔ at0) ∧
    (ok (.products a b c d e f g az) ↔ at0) ∧
    (ok (.sap a b c d e f g h i j k az) ↔ FromZero a ∧ at0) ∧
    (ok (.usup a b c d e f g h az) ↔ FromZeroOrNaN a ∧ FromZeroOrNaN b ∧ FromZeroOrNaN c ∧ FromZeroOrNaN d ∧ FromZeroOrNaN e ∧
      FromZeroOrNaN f ∧ at0) ∧
    (ok (.power a b c d e f g h az) ↔ FromZeroOrNaN a ∧ FromZeroOrNaN b ∧ FromZeroOrNaN d ∧ FromZeroOrNaN h ∧ at0) ∧
    (ok (.vinet a b c d e f g h az) ↔ FromZeroOrNaN a ∧ FromZeroOrNaN b ∧ FromZeroOrNaN c ∧
      (d = .nan ∨ d = .inf false ∨ ∃ x : ℝ, 1 ≤ x ∧ d = .fin x) ∧ FromZeroOrNaN e ∧ FromZeroOrNaN f ∧ at0) ∧
    (ok (.electrons az) ↔ at0) := by
  intro ok at0
  simp only [ok, at0, constructed, check, atom_iff, lt_zero_iff, le_zero_iff, not_lt_zero_iff, not_lt_one_iff]
  refine ⟨?_, ?_, ?_, ?_, ?_, ?_, ?_, ?_, ?_, ?_, ?_, ?_⟩
  · tauto
  · tauto
  · tauto
  · tauto
  · simp
  · simp
  · simp
  · tauto
  · tauto
  · tauto
  · tauto
  · tauto

/-- C153 (part): what a debug build tests in addition: the exponents of `JWL`, and the parameters of the two Davis equations of
state. Everything else is tested in both builds. -/
theorem C153_debug_tests (a b c d e f g h i j k : Ext) (az : Atom) :
    let ok := fun o => constructed rnd maxDouble small true o
    let rel := fun o => constructed rnd maxDouble small false o
    (ok (.jwl a b c d e f g az) ↔ AboveZero c ∧ AboveZero d ∧ rel (.jwl a b c d e f g az)) ∧
    (ok (.reactants a b c d e f g h i j k az) ↔ lt (.fin small) a ∧ FromZero d ∧ lt (.fin small) f ∧ FromZero j ∧
      rel (.reactants a b c d e f g h i j k az)) ∧
    (ok (.products a b c d e f g az) ↔ lt (.fin small) d ∧ lt (.fin small) g ∧ rel (.products a b c d e f g az)) ∧
    (ok (.ideal a b c d az) ↔ rel (.ideal a b c d az)) ∧
    (ok (.stiff a b c d e f g az) ↔ rel (.stiff a b c d e f g az)) ∧
    (ok (.noble a b c d e f g az) ↔ rel (.noble a b c d e f g az)) ∧
    (ok (.carnahan a b c d e f g az) ↔ rel (.carnahan a b c d e f g az)) ∧
    (ok (.sap a b c d e f g h i j k az) ↔ rel (.sap a b c d e f g h i j k az)) ∧
    (ok (.usup a b c d e f g h az) ↔ rel (.usup a b c d e f g h az)) ∧
    (ok (.power a b c d e f g h az) ↔ rel (.power a b c d e f g h az)) ∧
    (ok (.vinet a b c d e f g h az) ↔ rel (.vinet a b c d e f g h az)) ∧
    (ok (.electrons az) ↔ rel (.electrons az)) := by
  intro ok rel
  simp only [ok, rel, constructed, check, lt_zero_iff, le_zero_iff]
  refine ⟨?_, ?_, ?_, ?_, ?_, ?_, ?_, ?_, ?_, ?_, ?_, ?_⟩ <;> simp <;> tauto

theorem FinitePos.above {v : Ext} (h : FinitePos v) : lt (.fin 0) v := by
  obtain ⟨x, hx, _, rfl⟩ := h
  exact hx

theorem FinitePos.from {v : Ext} (h : FinitePos v) : le (.fin 0) v := by
  obtain ⟨x, hx, _, rfl⟩ := h
  exact hx.le

theorem FinitePos.notLt {v : Ext} (h : FinitePos v) : ¬ lt v (.fin 0) := by
  obtain ⟨x, hx, _, rfl⟩ := h
  exact not_lt.2 hx.le

theorem FiniteNonneg.from {v : Ext} (h : FiniteNonneg v) : le (.fin 0) v := by
  obtain ⟨x, hx, _, rfl⟩ := h
  exact hx

theorem FiniteNonneg.notLt {v : Ext} (h : FiniteNonneg v) : ¬ lt v (.fin 0) := by
  obtain ⟨x, hx, _, rfl⟩ := h
  exact not_lt.2 hx

theorem Finite.ne_nan {v : Ext} (h : Finite v) : v ≠ .nan := by
  obtain ⟨x, _, rfl⟩ := h
  exact fun h => nomatch h

theorem FinitePos.ne_nan {v : Ext} (h : FinitePos v) : v ≠ .nan := by
  obtain ⟨x, _, _, rfl⟩ := h
  exact fun h => nomatch h

theorem Atom.Ready.check {a : Atom} (h : a.Ready) : a.check := ⟨h.1.above, h.2.above⟩

/-- The smallest positive number. -/
theorem tiny_float : IsFloat 53 (-1074) ((2 : ℝ) ^ (-1074 : ℤ)) := ⟨1, -1074, by norm_num, le_refl _, by norm_num⟩

theorem maxDouble_lt : maxDouble ≤ (2 : ℝ) ^ (1024 : ℤ) := by
  unfold maxDouble
  have h : (2 : ℝ) ^ (1024 : ℤ) = 2 ^ 53 * 2 ^ 971 := by
    rw [show (1024 : ℤ) = ((53 + 971 : ℕ) : ℤ) by norm_num, zpow_natCast, pow_add]
  rw [h]
  have : (0 : ℝ) < 2 ^ 971 := by positivity
  exact mul_le_mul_of_nonneg_right (by linarith) this.le

/-- The inverse of a finite number other than zero is not rounded to zero. -/
theorem inv_ne_zero' (h : Dbl rnd) {x : ℝ} (hx : x ≠ 0) (hm : |x| ≤ maxDouble) : rnd (1 / x) ≠ 0 := by
  have hp : 0 < |x| := abs_pos.2 hx
  have hb : (2 : ℝ) ^ (-1074 : ℤ) ≤ 1 / |x| := by
    rw [le_div_iff₀ hp]
    have h2 : (2 : ℝ) ^ (-1074 : ℤ) * (2 : ℝ) ^ (1024 : ℤ) ≤ 1 := by
      rw [← zpow_add₀ (by norm_num)]
      exact zpow_le_one_of_nonpos₀ (by norm_num) (by norm_num)
    have h3 : (0 : ℝ) < (2 : ℝ) ^ (-1074 : ℤ) := by positivity
    exact (mul_le_mul_of_nonneg_left (hm.trans maxDouble_lt) h3.le).trans h2
  have h3 : (0 : ℝ) < (2 : ℝ) ^ (-1074 : ℤ) := by positivity
  rcases lt_or_gt_of_ne hx with hneg | hpos
  · have hle : 1 / x ≤ -(2 : ℝ) ^ (-1074 : ℤ) := by
      rw [abs_of_neg hneg, div_neg] at hb
      linarith
    have hf : IsFloat 53 (-1074) (-(2 : ℝ) ^ (-1074 : ℤ)) := ⟨-1, -1074, by norm_num, le_refl _, by norm_num⟩
    have := rnd_le h hf hle
    intro h0
    rw [h0] at this
    linarith
  · rw [abs_of_pos hpos] at hb
    have := rnd_ge h tiny_float hb
    intro h0
    rw [h0] at this
    linarith

theorem scale_ok (h : Dbl rnd) {x : ℝ} (hx : x ≠ 0) (hm : |x| ≤ maxDouble) :
    lt (.fin 0) (absE (.fin x)) ∧ lt (.fin 0) (absE (invScale rnd maxDouble (.fin x))) ∧
      invScale rnd maxDouble (.fin x) ≠ .nan := by
  refine ⟨abs_pos.2 hx, ?_, ?_⟩
  · simp only [invScale, div, if_neg hx, ofReal]
    split
    · rfl
    · exact abs_pos.2 (inv_ne_zero' h hx hm)
  · simp only [invScale, div, if_neg hx]
    exact ofReal_ne_nan _ _

theorem ne_of {a b : Ext} (ha : FinitePos a) (hb : FiniteNonneg b) (h : a ≠ b) : Ctor.ne a b := by
  obtain ⟨x, _, _, rfl⟩ := ha
  obtain ⟨y, _, _, rfl⟩ := hb
  intro hxy
  exact h (by rw [hxy])

theorem ready_check (h : Dbl rnd) (debug : Bool) : ∀ o : Obj, Ready rnd o → check rnd maxDouble small debug o
  | .ideal .., ⟨h1, h2, h3, h4, h5⟩ => ⟨h2.from, h1.from, h3.from, h4.from, h5.check⟩
  | .stiff .., ⟨h1, h2, _, _, _, _, _, h5⟩ => ⟨h2.from, h1.from, h5.check⟩
  | .noble .., ⟨h1, h2, h3, _, _, _, _, h5⟩ => ⟨h2.above, h1.from, h3.from, h5.check⟩
  | .carnahan .., ⟨h1, h2, h3, _, _, _, _, h5⟩ => ⟨h2.above, h1.above, h3.from, h5.check⟩
  | .gruneisen .., ⟨h1, _, _, _, _, _, h2, h3, _, h4, _, h6, h5⟩ => ⟨h3.from, h2.from, h1.from, h4.from, h6, h5.check⟩
  | .jwl .., ⟨_, _, _, _, h1, h2, h3, h5⟩ => ⟨h1.above, h2.above, h3.above, h5.check⟩
  | .reactants .., ⟨_, h1, _, _, h2, _, _, h3, _, _, _, h4, _, h5⟩ => ⟨fun _ => ⟨h1, h2.from, h3, h4.from⟩, h5.check⟩
  | .products .., ⟨_, _, _, _, h1, _, _, _, h2, h5⟩ => ⟨fun _ => ⟨h1, h2⟩, h5.check⟩
  | .sap .., ⟨h1, _, _, _, _, _, _, _, _, _, _, h5⟩ => ⟨h1.from, h5.check⟩
  | .usup .., ⟨h1, h2, h3, h4, h6, h7, _, _, h5⟩ => ⟨h1.notLt, h2.notLt, h3.notLt, h4.notLt, h6.notLt, h7.notLt, h5.check⟩
  | .power .., ⟨h1, h2, _, h3, _, _, _, h4, h5⟩ => ⟨h1.notLt, h2.notLt, h3.notLt, h4.notLt, h5.check⟩
  | .vinet _ _ _ BP0 _ _ _ _ _, ⟨h1, h2, h3, h4, h6, h7, h8, _, _, h5⟩ =>
      ⟨h1.notLt, h2.notLt, h3.notLt, by
        obtain ⟨x, _, _, rfl⟩ := h4
        exact not_lt.2 (le_of_lt (show (1 : ℝ) < x from h6)), h7.notLt, h8.notLt, h5.check⟩
  | .electrons .., h5 => h5.check
  | .shifted t _, ⟨h1, h2⟩ => ⟨h1.ne_nan, ready_check h debug t h2⟩
  | .scaled t s, ⟨⟨x, hx, hm, e⟩, h2⟩ => by
      subst e
      obtain ⟨q1, q2, q3⟩ := scale_ok h hx hm
      exact ⟨q1, q2, (fun e => by cases e), q3, ready_check h debug t h2⟩
  | .ramp t _ _ _ _, ⟨h1, h2, h3, _, h4, h6, h7, h5⟩ =>
      ⟨h1.above, h2.above, h3.from, ne_of h2 h3 h4, h6.ne_nan, h7.ne_nan, ready_check h debug t h5⟩
  | .relativistic t _, ⟨h1, h2, h3⟩ => ⟨h1.above, h2.above, h1.ne_nan, h2.ne_nan, ready_check h debug t h3⟩
  | .units t _ _ _, ⟨h1, h2, h3, h4⟩ => ⟨h1.above, h2.above, h3.above, ready_check h debug t h4⟩
  | .zsplit t _, h1 => ready_check h debug t h1
  | .floored _, _ => trivial

/-- C153 (part): usable parameters are never rejected: an object whose parameters are all usable, however many modifiers are
stacked, is constructed, in debug and in release builds. -/
theorem C153_never_rejects_usable (h : ToNearest 53 (-1074) rnd) (debug : Bool) (o : Obj) (ho : Ready rnd o) :
    constructed rnd maxDouble small debug o := by
  induction o with
  | gruneisen => trivial
  | jwl =>
      obtain ⟨_, _, h3, h4, _⟩ := id ho
      exact ⟨fun _ => ⟨h3.above, h4.above⟩, ready_check h debug _ ho⟩
  | shifted t s ih => exact ⟨ih ho.2, ready_check h debug _ ho⟩
  | scaled t s ih => exact ⟨ih ho.2, ready_check h debug _ ho⟩
  | ramp t r a b c ih => exact ⟨ih ho.2.2.2.2.2.2.2, ready_check h debug _ ho⟩
  | relativistic t c ih => exact ⟨ih ho.2.2, ready_check h debug _ ho⟩
  | units t r e T ih => exact ⟨ih ho.2.2.2, ready_check h debug _ ho⟩
  | zsplit t e ih => exact ih ho
  | floored t ih => exact ih ho
  | _ => exact ready_check h debug _ ho

/-- The example used below: a scaled, shifted ideal gas inside a unit system. -/
example : Ready rnd (.units (.scaled (.shifted (.ideal (.fin 1) (.fin 1) (.fin 1) (.fin 1) .hydrogen) (.fin 0)) (.fin 1)) (.fin 1)
    (.fin 1) (.fin 1)) := by
  have hm : (1 : ℝ) ≤ maxDouble := le_trans (by norm_num) maxDouble_large
  have h1 : FinitePos (.fin 1) := ⟨1, one_pos, hm, rfl⟩
  refine ⟨h1, h1, h1, ⟨1, one_ne_zero, by rw [abs_one]; exact hm, rfl⟩, ⟨0, by rw [abs_zero]; exact maxDouble_pos.le, rfl⟩, h1, h1, h1,
    h1, h1, h1⟩

theorem FinitePos.pos {x : ℝ} (h : FinitePos (.fin x)) : 0 < x := by
  obtain ⟨y, hy, _, e⟩ := h
  cases e
  exact hy

theorem FiniteNonneg.nonneg {x : ℝ} (h : FiniteNonneg (.fin x)) : 0 ≤ x := by
  obtain ⟨y, hy, _, e⟩ := h
  cases e
  exact hy

/-- C153 (part): what "usable" is good for: with usable parameters the four gases satisfy the conditions under which their
thermodynamic properties are proved (C36 to C39). -/
theorem C153_ready_is_enough (az : Atom) (p : Gases.Ideal) (s : Gases.Stiff) (b : Gases.Noble) (c : Gases.Carnahan) :
    (Ready rnd (.ideal (.fin p.gm1) (.fin p.Cv) (.fin p.sT0) (.fin p.sRho0) az) → p.Ok) ∧
    (Ready rnd (.stiff (.fin s.gm1) (.fin s.Cv) (.fin s.Pinf) (.fin s.q) (.fin s.qp) (.fin s.T0) (.fin s.P0) az) → s.Ok) ∧
    (Ready rnd (.noble (.fin b.gm1) (.fin b.Cv) (.fin b.b) (.fin b.q) (.fin b.qp) (.fin b.T0) (.fin b.P0) az) → b.Ok) ∧
    (Ready rnd (.carnahan (.fin c.gm1) (.fin c.Cv) (.fin c.b) (.fin c.q) (.fin c.qp) (.fin c.T0) (.fin c.P0) az) → c.Ok) :=
  ⟨fun ⟨h1, h2, h3, h4, _⟩ => ⟨h1.pos, h2.pos, h3.pos, h4.pos⟩,
    fun ⟨h1, h2, h3, _, _, h6, h7, _⟩ => ⟨h1.pos, h2.pos, h3.nonneg, h6.pos, h7.pos⟩,
    fun ⟨h1, h2, h3, _, _, h6, h7, _⟩ => ⟨h1.pos, h2.pos, h3.nonneg, h6.pos, h7.pos⟩,
    fun ⟨h1, h2, h3, _, _, h6, h7, _⟩ => ⟨h1.pos, h2.pos, h3.nonneg, h6.pos, h7.pos⟩⟩

/-- C153 (part): for `CarnahanStarling` with finite parameters and a positive reference state, construction succeeds exactly when
the parameters are those its thermodynamic properties need; for `IdealGas` and `NobleAbel` it succeeds with a zero in addition (and
for `StiffGas`, whatever the stiffness pressure). -/
theorem C153_accepted_gas_partial (debug : Bool) (p : Gases.Ideal) (s : Gases.Stiff) (b : Gases.Noble)
    (c : Gases.Carnahan) (hs : 0 < s.T0 ∧ 0 < s.P0) (hb : 0 < b.T0 ∧ 0 < b.P0) (hc : 0 < c.T0 ∧ 0 < c.P0) :
    let ok := fun o => constructed rnd maxDouble small debug o
    (ok (.carnahan (.fin c.gm1) (.fin c.Cv) (.fin c.b) (.fin c.q) (.fin c.qp) (.fin c.T0) (.fin c.P0) .hydrogen) ↔ c.Ok) ∧
    (b.gm1 ≠ 0 →
      (ok (.noble (.fin b.gm1) (.fin b.Cv) (.fin b.b) (.fin b.q) (.fin b.qp) (.fin b.T0) (.fin b.P0) .hydrogen) ↔ b.Ok)) ∧
    (s.gm1 ≠ 0 → s.Cv ≠ 0 → 0 ≤ s.Pinf →
      (ok (.stiff (.fin s.gm1) (.fin s.Cv) (.fin s.Pinf) (.fin s.q) (.fin s.qp) (.fin s.T0) (.fin s.P0) .hydrogen) ↔ s.Ok)) ∧
    (p.gm1 ≠ 0 → p.Cv ≠ 0 → p.sT0 ≠ 0 → p.sRho0 ≠ 0 →
      (ok (.ideal (.fin p.gm1) (.fin p.Cv) (.fin p.sT0) (.fin p.sRho0) .hydrogen) ↔ p.Ok)) := by
  intro ok
  have hz : Atom.hydrogen.check := ⟨show (0 : ℝ) < 1 from one_pos, show (0 : ℝ) < 1 from one_pos⟩
  refine ⟨⟨fun ⟨h1, h2, h3, _⟩ => ⟨h2, h1, h3, hc.1, hc.2⟩, fun k => ⟨k.Cv, k.gm1, k.b, hz⟩⟩, fun q => ?_, fun q1 q2 q3 => ?_,
    fun q1 q2 q3 q4 => ?_⟩
  · exact ⟨fun ⟨h1, h2, h3, _⟩ => ⟨lt_of_le_of_ne h2 (Ne.symm q), h1, h3, hb.1, hb.2⟩,
      fun k => ⟨k.Cv, k.gm1.le, k.b, hz⟩⟩
  · exact ⟨fun ⟨h1, h2, _⟩ => ⟨lt_of_le_of_ne h2 (Ne.symm q1), lt_of_le_of_ne h1 (Ne.symm q2), q3, hs.1, hs.2⟩,
      fun k => ⟨k.Cv.le, k.gm1.le, hz⟩⟩
  · exact ⟨fun ⟨h1, h2, h3, h4, _⟩ => ⟨lt_of_le_of_ne h2 (Ne.symm q1), lt_of_le_of_ne h1 (Ne.symm q2),
      lt_of_le_of_ne h3 (Ne.symm q3), lt_of_le_of_ne h4 (Ne.symm q4)⟩,
      fun k => ⟨k.Cv.le, k.gm1.le, k.sT0.le, k.sRho0.le, hz⟩⟩

/-- C153 (part): the short constructor of `IdealGas` (which computes the reference density of the entropy) accepts exactly the finite
parameters that are zero or above. -/
theorem C153_short_ideal (h : ToNearest 53 (-1074) rnd) (debug : Bool) {P0 T0 gm1 Cv : ℝ} (hP : 0 < P0) (hT : 0 < T0) :
    constructed rnd maxDouble small debug (idealShort rnd maxDouble (.fin P0) (.fin T0) (.fin gm1) (.fin Cv) .hydrogen) ↔
      0 ≤ gm1 ∧ 0 ≤ Cv := by
  have hz : Atom.hydrogen.check := ⟨show (0 : ℝ) < 1 from one_pos, show (0 : ℝ) < 1 from one_pos⟩
  constructor
  · rintro ⟨h1, h2, _⟩
    exact ⟨h2, h1⟩
  · rintro ⟨h1, h2⟩
    refine ⟨h2, h1, hT.le, ?_, hz⟩
    have m1 : NonNeg (mul rnd maxDouble (.fin gm1) (.fin Cv)) := ofReal_nonNeg h (mul_nonneg h1 h2)
    have m2 : NonNeg (mul rnd maxDouble (mul rnd maxDouble (.fin gm1) (.fin Cv)) (.fin T0)) := by
      refine (mul_nonNeg h m1 (b := .fin T0) (show (0 : ℝ) ≤ T0 from hT.le)).resolve_left ?_
      generalize mul rnd maxDouble (.fin gm1) (.fin Cv) = v at m1
      rcases v with _ | t | x
      · exact m1.elim
      · simp only [mul, if_neg hT.ne']
        exact fun e => nomatch e
      · exact ofReal_ne_nan _ _
    show le (.fin 0) (div rnd maxDouble (.fin P0) (mul rnd maxDouble (mul rnd maxDouble (.fin gm1) (.fin Cv)) (.fin T0)))
    generalize mul rnd maxDouble (mul rnd maxDouble (.fin gm1) (.fin Cv)) (.fin T0) = v at m2
    rcases v with _ | t | x
    · exact m2.elim
    · exact le_refl (0 : ℝ)
    · simp only [div]
      split
      · rw [if_neg hP.ne']
        simp [le, hP.le]
      · exact ofReal_nonNeg h (div_nonneg hP.le m2)

theorem inside_check {debug : Bool} {u o : Obj} (hi : Inside u o) (hh : hasCheck o = true) :
    hasCheck u = true ∧ (check rnd maxDouble small debug o → check rnd maxDouble small debug u) := by
  induction hi with
  | shifted t s => exact ⟨hh, fun h => h.2⟩
  | scaled t s => exact ⟨hh, fun h => h.2.2.2.2⟩
  | ramp t r a b c => exact ⟨hh, fun h => h.2.2.2.2.2.2⟩
  | relativistic t c => exact ⟨hh, fun h => h.2.2.2.2⟩
  | units t r e T => exact ⟨hh, fun h => h.2.2.2⟩
  | zsplit t e => exact ⟨hh, id⟩
  | floored t => cases hh
  | trans _ _ ih1 ih2 =>
      obtain ⟨a, b⟩ := ih2 hh
      obtain ⟨c, d⟩ := ih1 a
      exact ⟨c, fun h => d (b h)⟩

/-- C153 (part): a modifier checks everything beneath it: an object whose outermost part is a shift, scale, ramp, relativistic or
unit-system modifier is only constructed if `CheckParams` of every object inside it succeeds, at any depth (for stacks on which
`CheckParams` can be called at all, `hasCheck`). -/
theorem C153_modifier_checks_inside {debug : Bool} {u o : Obj} (hm : CheckingModifier o) (hi : Inside u o) (hh : hasCheck o = true)
    (ho : constructed rnd maxDouble small debug o) : check rnd maxDouble small debug u := by
  refine (inside_check hi hh).2 ?_
  cases o <;> first | exact ho.2 | exact hm.elim

/-- C153 (part): what each modifier's constructor asks for on top of the object it wraps (which must have been constructed and pass
its own check): a shift other than NaN; a scale that is a finite number other than zero (an infinite scale is rejected because its
inverse is zero); a ramp with positive density and slope, second slope zero or above and different, and a middle other than NaN; a
speed of light above zero whose square is above zero; three units above zero. -/
theorem C153_modifier_iff (h : ToNearest 53 (-1074) rnd) (debug : Bool) (t : Obj) (v a b c : Ext)
    (hv : ∀ x : ℝ, v = .fin x → |x| ≤ maxDouble) :
    let ok := fun o => constructed rnd maxDouble small debug o
    let good := constructed rnd maxDouble small debug t ∧ check rnd maxDouble small debug t
    (ok (.shifted t v) ↔ v ≠ .nan ∧ good) ∧
    (ok (.scaled t v) ↔ (∃ x : ℝ, x ≠ 0 ∧ v = .fin x) ∧ good) ∧
    (ok (.ramp t v a b c) ↔ AboveZero v ∧ AboveZero a ∧ FromZero b ∧ a ≠ b ∧ rmid rnd maxDouble v a b c ≠ .nan ∧
      pmid rnd maxDouble v a b c ≠ .nan ∧ good) ∧
    (ok (.relativistic t v) ↔ AboveZero v ∧ AboveZero (mul rnd maxDouble v v) ∧ good) ∧
    (ok (.units t v a b) ↔ AboveZero v ∧ AboveZero a ∧ AboveZero b ∧ good) ∧
    (∀ e, ok (.zsplit t e) ↔ constructed rnd maxDouble small debug t) ∧
    (ok (.floored t) ↔ constructed rnd maxDouble small debug t) := by
  intro ok good
  have hn : ∀ w, AboveZero w → w ≠ .nan := by
    rintro w (rfl | ⟨x, _, rfl⟩) e <;> cases e
  have hne : ∀ x y, AboveZero x → FromZero y → (Ctor.ne x y ↔ x ≠ y) := by
    rintro x y (rfl | ⟨p, _, rfl⟩) (rfl | ⟨q, _, rfl⟩) <;> simp [Ctor.ne]
  simp only [ok, good, constructed, check, lt_zero_iff, le_zero_iff]
  refine ⟨by tauto, ⟨?_, ?_⟩, ?_, ?_, by tauto, by simp, by simp⟩
  · rintro ⟨h0, h1, h2, h3, _, h4⟩
    refine ⟨?_, h0, h4⟩
    rcases v with _ | s | x
    · exact absurd rfl h3
    · rcases h2 with h2 | ⟨y, hy, h2⟩
      · simp [invScale, div, absE] at h2
      · simp only [invScale, div, absE, abs_zero] at h2
        cases h2
        exact absurd hy (lt_irrefl _)
    · refine ⟨x, ?_, rfl⟩
      rcases h1 with h1 | ⟨y, hy, h1⟩
      · cases h1
      · simp only [absE] at h1
        cases h1
        exact abs_pos.1 hy
  · rintro ⟨⟨x, hx, rfl⟩, h0, h4⟩
    obtain ⟨q1, q2, q3⟩ := scale_ok h hx (hv x rfl)
    exact ⟨h0, (lt_zero_iff _).1 q1, (lt_zero_iff _).1 q2, (fun e => by cases e), q3, h4⟩
  · constructor
    · rintro ⟨h0, h1, h2, h3, h4, h5, h6, h7⟩
      exact ⟨h1, h2, h3, (hne _ _ h2 h3).1 h4, h5, h6, h0, h7⟩
    · rintro ⟨h1, h2, h3, h4, h5, h6, h0, h7⟩
      exact ⟨h0, h1, h2, h3, (hne _ _ h2 h3).2 h4, h5, h6, h7⟩
  · constructor
    · rintro ⟨h0, h1, h2, _, _, h7⟩
      exact ⟨h1, h2, h0, h7⟩
    · rintro ⟨h1, h2, h0, h7⟩
      exact ⟨h0, h1, h2, hn _ h1, hn _ h2, h7⟩

/-- C153 (violated part): zeros are accepted where the EOS divides by them: an ideal or stiffened gas of zero specific heat is
constructed, though it is not usable, and the ideal gas then returns an infinite temperature for every positive energy. -/
theorem C153_zero_accepted_violated (debug : Bool) (Pinf q qp T0 P0 : Ext) :
    let o := Obj.ideal (.fin 1) (.fin 0) (.fin 1) (.fin 1) .hydrogen
    let s := Obj.stiff (.fin 1) (.fin 0) Pinf q qp T0 P0 .hydrogen
    (constructed rnd maxDouble small debug o ∧ ¬ Ready rnd o) ∧ (constructed rnd maxDouble small debug s ∧ ¬ Ready rnd s) ∧
      ∀ rho sie : ℝ, 0 < sie → Ieee.Ideal.temperature rnd maxDouble ⟨.fin 1, .fin 0⟩ (.fin rho) (.fin sie) = .inf false := by
  intro o s
  have hz : Atom.hydrogen.check := ⟨show (0 : ℝ) < 1 from one_pos, show (0 : ℝ) < 1 from one_pos⟩
  refine ⟨⟨⟨le_refl (0 : ℝ), zero_le_one (α := ℝ), zero_le_one (α := ℝ), zero_le_one (α := ℝ), hz⟩, fun h => ?_⟩,
    ⟨⟨le_refl (0 : ℝ), zero_le_one (α := ℝ), hz⟩, fun h => ?_⟩, fun rho sie hs => ?_⟩
  · exact absurd h.2.1.pos (lt_irrefl _)
  · exact absurd h.2.1.pos (lt_irrefl _)
  · simp [Ieee.Ideal.temperature, div, hs.ne', Ieee.max0, lt, not_lt.2 hs.le]

/-- C153 (violated part): parameters that are not numbers are accepted: all of those `StiffGas` does not test, and all tested
parameters of `MGUsup`, `PowerMG` and `Vinet` (whose tests have the form "stop if negative", which NaN is not). -/
theorem C153_nan_accepted_violated (debug : Bool) (E0 S0 P G : Ext) :
    let ok := fun o => constructed rnd maxDouble small debug o
    ok (.stiff (.fin 1) (.fin 1) .nan .nan .nan .nan .nan .hydrogen) ∧
    ok (.usup .nan .nan .nan .nan .nan .nan E0 S0 .hydrogen) ∧
    ok (.power .nan .nan G .nan E0 S0 P .nan .hydrogen) ∧
    ok (.vinet .nan .nan .nan .nan .nan .nan E0 S0 .hydrogen) := by
  have hz : Atom.hydrogen.check := ⟨show (0 : ℝ) < 1 from one_pos, show (0 : ℝ) < 1 from one_pos⟩
  exact ⟨⟨zero_le_one (α := ℝ), zero_le_one (α := ℝ), hz⟩, ⟨id, id, id, id, id, id, hz⟩, ⟨id, id, id, id, hz⟩,
    ⟨id, id, id, id, id, id, hz⟩⟩

/-- C153 (violated part): `Gruneisen` is constructed with any parameters whatever, also inside `ZSplit`; its own `CheckParams` would
refuse a NaN or negative density, and does as soon as another modifier is applied. -/
theorem C153_gruneisen_violated (debug : Bool) :
    (∀ C0 s1 s2 s3 G0 b rho0 T0 P0 Cv rhoMax az e,
      constructed rnd maxDouble small debug (.gruneisen C0 s1 s2 s3 G0 b rho0 T0 P0 Cv rhoMax az) ∧
      constructed rnd maxDouble small debug (.zsplit (.gruneisen C0 s1 s2 s3 G0 b rho0 T0 P0 Cv rhoMax az) e)) ∧
    (∀ C0 s1 s2 s3 G0 b rho0 T0 P0 Cv rhoMax az s, ¬ FromZero rho0 ∨ ¬ FromZero T0 ∨ ¬ FromZero C0 ∨ ¬ FromZero Cv →
      ¬ constructed rnd maxDouble small debug (.shifted (.gruneisen C0 s1 s2 s3 G0 b rho0 T0 P0 Cv rhoMax az) s)) := by
  refine ⟨fun _ _ _ _ _ _ _ _ _ _ _ _ _ => ⟨trivial, trivial⟩, ?_⟩
  rintro C0 s1 s2 s3 G0 b rho0 T0 P0 Cv rhoMax az s hb ⟨_, _, h1, h2, h3, h4, _⟩
  rw [le_zero_iff] at h1 h2 h3 h4
  tauto

example : ¬ FromZero .nan ∧ ¬ FromZero (.fin (-1)) := by
  refine ⟨?_, ?_⟩
  · rintro (h | ⟨x, _, h⟩) <;> cases h
  · rintro (h | ⟨x, hx, h⟩)
    · cases h
    · cases h
      norm_num at hx

/-- C153 (violated part): in a release build a negative density or exponent is accepted where a debug build stops. -/
theorem C153_release_violated (a b c d e f g : Ext) :
    let rel := fun o => constructed rnd maxDouble small false o
    let dbg := fun o => constructed rnd maxDouble small true o
    (rel (.reactants (.fin (-1)) a b c d e f g .nan .nan .nan .hydrogen) ∧
      ¬ dbg (.reactants (.fin (-1)) a b c d e f g .nan .nan .nan .hydrogen)) ∧
    (rel (.products a b c (.fin (-1)) d e f .hydrogen) ∧ ¬ dbg (.products a b c (.fin (-1)) d e f .hydrogen)) ∧
    (rel (.jwl a b (.fin (-1)) c (.fin 1) (.fin 1) (.fin 1) .hydrogen) ∧
      ¬ dbg (.jwl a b (.fin (-1)) c (.fin 1) (.fin 1) (.fin 1) .hydrogen)) := by
  intro rel dbg
  have hz : Atom.hydrogen.check := ⟨show (0 : ℝ) < 1 from one_pos, show (0 : ℝ) < 1 from one_pos⟩
  have h0 : ¬ lt (.fin small) (.fin (-1)) := by
    have := small_pos
    exact not_lt.2 (by linarith)
  have h1 : ¬ lt (.fin 0) (.fin (-1)) := not_lt.2 (by norm_num)
  have p1 : lt (.fin 0) (.fin 1) := one_pos (α := ℝ)
  refine ⟨⟨⟨(fun h => by cases h), hz⟩, fun h => h0 (h.1 rfl).1⟩, ⟨⟨(fun h => by cases h), hz⟩, fun h => h0 (h.1 rfl).1⟩,
    ⟨⟨(fun h => by cases h), p1, p1, p1, hz⟩, fun h => h1 (h.1 rfl).1⟩⟩

/-- C153 (violated part): a scale may be accepted although its inverse is infinite, and a speed of light although its square is. -/
theorem C153_infinite_inverse_violated (h : ToNearest 53 (-1074) rnd) (debug : Bool) :
    (∃ x : ℝ, 0 < x ∧ constructed rnd maxDouble small debug (.scaled (.electrons .hydrogen) (.fin x)) ∧
      invScale rnd maxDouble (.fin x) = .inf false) ∧
    (∃ x : ℝ, 0 < x ∧ x ≤ maxDouble ∧ constructed rnd maxDouble small debug (.relativistic (.electrons .hydrogen) (.fin x)) ∧
      mul rnd maxDouble (.fin x) (.fin x) = .inf false) := by
  have hz : Atom.hydrogen.check := ⟨show (0 : ℝ) < 1 from one_pos, show (0 : ℝ) < 1 from one_pos⟩
  have hf : IsFloat 53 (-1074) ((2 : ℝ) ^ (1024 : ℤ)) := ⟨1, 1024, by norm_num, by norm_num, by norm_num⟩
  have hlt : maxDouble < (2 : ℝ) ^ (1024 : ℤ) := by
    unfold maxDouble
    rw [show (1024 : ℤ) = ((53 + 971 : ℕ) : ℤ) by norm_num, zpow_natCast, pow_add]
    have : (0 : ℝ) < 2 ^ 971 := by positivity
    exact mul_lt_mul_of_pos_right (by linarith) this
  have big : ∀ {x : ℝ}, (2 : ℝ) ^ (1024 : ℤ) ≤ x → ofReal rnd maxDouble x = .inf false := by
    intro x hx
    have h1 := rnd_ge h hf hx
    have hp : (0 : ℝ) < (2 : ℝ) ^ (1024 : ℤ) := by positivity
    have hxp : 0 < x := lt_of_lt_of_le hp hx
    rw [ofReal, if_pos (show maxDouble < |rnd x| from by
      rw [abs_of_pos (lt_of_lt_of_le hp h1)]
      exact lt_of_lt_of_le hlt h1)]
    simp [hxp.le]
  refine ⟨⟨(2 : ℝ) ^ (-1074 : ℤ), by positivity, ?_, ?_⟩, ⟨(2 : ℝ) ^ (600 : ℤ), by positivity, ?_, ?_, ?_⟩⟩
  · have hx : ((2 : ℝ) ^ (-1074 : ℤ)) ≠ 0 := by positivity
    have hm : |(2 : ℝ) ^ (-1074 : ℤ)| ≤ maxDouble := by
      rw [abs_of_pos (by positivity)]
      exact (zpow_le_one_of_nonpos₀ (by norm_num) (by norm_num)).trans ((by norm_num : (1 : ℝ) ≤ 2 ^ 100).trans maxDouble_large)
    obtain ⟨q1, q2, q3⟩ := scale_ok h hx hm
    exact ⟨hz, q1, q2, (fun e => by cases e), q3, hz⟩
  · have hx : ((2 : ℝ) ^ (-1074 : ℤ)) ≠ 0 := by positivity
    simp only [invScale, div, if_neg hx]
    refine big ?_
    rw [one_div, ← zpow_neg]
    exact zpow_le_zpow_right₀ (by norm_num) (by norm_num)
  · unfold maxDouble
    have h1 : (2 : ℝ) ^ (600 : ℤ) ≤ 2 ^ 971 := by
      rw [← zpow_natCast]
      exact zpow_le_zpow_right₀ (by norm_num) (by norm_num)
    have h2 : (0 : ℝ) < 2 ^ 971 := by positivity
    exact h1.trans (le_mul_of_one_le_left h2.le (by norm_num))
  · have e : mul rnd maxDouble (.fin ((2 : ℝ) ^ (600 : ℤ))) (.fin ((2 : ℝ) ^ (600 : ℤ))) = .inf false := by
      refine big ?_
      rw [← zpow_add₀ (by norm_num)]
      exact zpow_le_zpow_right₀ (by norm_num) (by norm_num)
    refine ⟨hz, ?_⟩
    simp only [check]
    rw [e]
    exact ⟨show (0 : ℝ) < (2 : ℝ) ^ (600 : ℤ) by positivity, rfl, (fun e => by cases e), (fun e => by cases e), hz⟩
  · refine big ?_
    rw [← zpow_add₀ (by norm_num)]
    exact zpow_le_zpow_right₀ (by norm_num) (by norm_num)

/-- C153 (violated part): `FlooredEnergy` has no `CheckParams`, and neither does any object that contains one, however deep. -/
theorem C153_floored_violated {t o : Obj} (hi : Inside (.floored t) o) : hasCheck o = false := by
  by_contra hc
  have := (inside_check (rnd := id) (debug := true) hi (by simpa using hc)).1
  cases this

end Ctor

end Verif
