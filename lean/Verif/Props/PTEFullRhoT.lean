import Verif.Lemmas.PTEFull

/-! # C130, C131 for `PTESolverRhoT`, from the caller's arrays to the returned ones -/

set_option linter.unusedSectionVars false

namespace Verif.PTE

open Robust

/-- The constants of one solve. -/
structure RTConst where
  rb : Nat → ℝ
  rt : ℝ
  U : ℝ
  ut : ℝ
  Tn : ℝ
  pin : Nat → ℝ

/-- Material `m` is in the state its EOS gives at the common temperature, in the solver's units. -/
structure RTMat (σ : ℝ) (E : MatEOS ℝ) (c : RTConst) (s : PS ℝ) (m : Nat) : Prop where
  vpos : 0 < s.a.vfrac m
  temp : s.a.temp m = s.Tequil
  mass : Guarded σ (s.a.vfrac m) (s.a.rho m * s.a.vfrac m) (c.rb m)
  energy : Guarded σ (c.rb m) (s.a.sie m) (E.eOf m (s.a.rho m) (c.Tn * s.Tequil))
  u : s.a.u m = c.rb m * E.eOf m (s.a.rho m) (c.Tn * s.Tequil) / (c.U + σ)

/-- The material's pressure is that of its EOS. -/
def RTPress (σ : ℝ) (E : MatEOS ℝ) (c : RTConst) (s : PS ℝ) (m : Nat) : Prop :=
  s.a.press m = E.pOf m (s.a.rho m) (c.Tn * s.Tequil) (s.a.sie m) / (c.U + σ)

/-- The constants have not changed. -/
structure RTFix (n : Nat) (c : RTConst) (s : PS ℝ) : Prop where
  rhobar : s.rhobar = c.rb
  rhoTotal : s.rhoTotal = c.rt
  uscale : s.uscale = c.U
  utot : s.utot = c.ut
  Tnorm : s.Tnorm = c.Tn
  ms : s.ms < n

/-- The invariant at the start of pass `k`. -/
structure RTInv (σ : ℝ) (E : MatEOS ℝ) (I : InitEOS ℝ) (n : Nat) (c : RTConst) (k : Nat) (s : PS ℝ) : Prop where
  fix : RTFix n c s
  res : ∃ r0, s.residual = rhoTResidual n s.ms c.ut s.a.u s.a.press r0
  T : 0 < s.Tequil
  sum : ∑ m ∈ Finset.range n, s.a.vfrac m ≤ 1
  mat : ∀ m, m < n → RTMat σ E c s m
  press : ∀ m, m < n → RTPress σ E c s m ∨
    (I.prefersP m = true ∧ I.bad (c.pin m) = false ∧ s.a.press m = c.pin m / (c.U + σ))
  stepped : 1 ≤ k → ∑ m ∈ Finset.range n, s.a.vfrac m = 1 ∧ ∀ m, m < n → RTPress σ E c s m

/-- After `ScaleDx`. -/
structure RTScaled (σ saf : ℝ) (E : MatEOS ℝ) (n : Nat) (c : RTConst) (s : PS ℝ) : Prop where
  fix : RTFix n c s
  T : 0 < s.Tequil
  vpos : ∀ m, m < n → 0 < s.a.vfrac m
  sum : ∑ m ∈ Finset.range n, s.a.vfrac m ≤ 1
  dx : ∃ dx : Nat → ℝ, ∀ i, i < n → s.dx i = dx i * rhoTScaleDx σ saf E n s.ms c.Tn s.Tequil c.rb s.a.vfrac dx

/-- After a trial step. -/
structure RTTried (σ saf : ℝ) (E : MatEOS ℝ) (n : Nat) (c : RTConst) (s : PS ℝ) : Prop where
  fix : RTFix n c s
  res : ∃ r0, s.residual = rhoTResidual n s.ms c.ut s.a.u s.a.press r0
  T : 0 < s.Tequil
  sum : ∑ m ∈ Finset.range n, s.a.vfrac m = 1
  mat : ∀ m, m < n → RTMat σ E c s m ∧ RTPress σ E c s m
  cache : ∃ (v dx : Nat → ℝ), 0 < s.Ttemp ∧ (∀ m, m < n → 0 < v m ∧ s.vtemp m = v m) ∧
    ∑ m ∈ Finset.range n, v m ≤ 1 ∧
    ∀ i, i < n → s.dx i = dx i * rhoTScaleDx σ saf E n s.ms c.Tn s.Ttemp c.rb v dx

variable {σ saf : ℝ} {E : MatEOS ℝ} {n : Nat} {c : RTConst}

/-- A trial step from a state whose cache is sound. -/
theorem rtTest_aux (hσ : 0 < σ) (hsaf0 : 0 ≤ saf) (hsaf1 : saf < 1) (hU : 0 < c.U) (hrb : ∀ m, m < n → 0 < c.rb m)
    {s : PS ℝ} (hf : RTFix n c s)
    (hc : ∃ (v dx : Nat → ℝ), 0 < s.Ttemp ∧ (∀ m, m < n → 0 < v m ∧ s.vtemp m = v m) ∧
      ∑ m ∈ Finset.range n, v m ≤ 1 ∧
      ∀ i, i < n → s.dx i = dx i * rhoTScaleDx σ saf E n s.ms c.Tn s.Ttemp c.rb v dx)
    {t : ℝ} (ht0 : 0 < t) (ht1 : t ≤ 1) : RTTried σ saf E n c (rhoTTest σ E n s t false).1 := by
  obtain ⟨v, dx, hT, hv, hs, hd⟩ := hc
  obtain ⟨p1, p2, p3⟩ := rhoT_trial_pos hσ hsaf0 hsaf1 E hf.ms c.Tn hT c.rb s.a.vfrac (fun m hm => (hv m hm).1) hs
    ht0.le ht1 (fun m hm => (hv m hm).2) hd
  have e : (rhoTTest σ E n s t false).1 = rhoTResid n { s with
      Tequil := s.Ttemp + t * s.dx 0
      a := stateFromVT σ E n s.uscale (s.Tnorm * (s.Ttemp + t * s.dx 0)) (s.Ttemp + t * s.dx 0) s.rhobar
        (rhoTVfrac n s.ms t s.dx s.vtemp s.a.vfrac) s.a } := rfl
  rw [e]
  refine ⟨⟨hf.rhobar, hf.rhoTotal, hf.uscale, hf.utot, hf.Tnorm, hf.ms⟩, ⟨s.residual, ?_⟩, p1, p3, fun m hm => ?_,
    v, dx, hT, hv, hs, hd⟩
  · unfold rhoTResid; dsimp only; rw [hf.utot]
  · have hvm := p2 m hm
    have hrm := hrb m hm
    have hUs : 0 < c.U + σ := by linarith
    have hrs : 0 < c.rb m + σ := by linarith
    unfold rhoTResid
    dsimp only [RTPress]
    rw [hf.rhobar, hf.uscale, hf.Tnorm]
    refine ⟨⟨hvm, ?_, ?_, ?_, ?_⟩, ?_⟩ <;> simp only [stateFromVT, fill_apply, if_pos hm]
    · exact guarded_ratio hσ hvm _
    · refine ⟨c.rb m / (c.rb m + σ), le_rfl, by rw [div_le_one hrs]; linarith, ?_⟩
      rw [ratio_pos_den _ hrm.le]; field_simp
    · rw [ratio_pos_den _ hU.le]
    · rw [ratio_pos_den _ hU.le]

/-- `CheckPTE`, `Jacobian`, `Solve`, `ScaleDx`, `TestUpdate` and `Fixup` keep the invariant. -/
theorem rhoT_keeps (hσ : 0 < σ) (I : InitEOS ℝ) {p : SolverParams ℝ} (hsaf0 : 0 ≤ p.saf) (hsaf1 : p.saf < 1)
    (t : MixTols) (qr : (Nat → ℝ) → (Nat → ℝ) → Nat → ℝ) (hn : 0 < n) (vt sieTot : ℝ)
    (hU : 0 < c.U) (hrb : ∀ m, m < n → 0 < c.rb m) :
    Keeps (rhoTSys σ E I p t qr n vt sieTot) (RTInv σ E I n c) (RTScaled σ p.saf E n c) (RTTried σ p.saf E n c) := by
  constructor
  · intro k s h
    exact ⟨⟨h.fix.rhobar, h.fix.rhoTotal, h.fix.uscale, h.fix.utot, h.fix.Tnorm, h.fix.ms⟩, h.res, h.T, h.sum,
      fun m hm => ⟨(h.mat m hm).vpos, (h.mat m hm).temp, (h.mat m hm).mass, (h.mat m hm).energy, (h.mat m hm).u⟩,
      h.press, h.stepped⟩
  · intro k s h
    change RTInv σ E I n c k (solveMember σ qr n s).1
    unfold solveMember
    split
    · exact h
    · exact ⟨⟨h.fix.rhobar, h.fix.rhoTotal, h.fix.uscale, h.fix.utot, h.fix.Tnorm, h.fix.ms⟩, h.res, h.T, h.sum,
        fun m hm => ⟨(h.mat m hm).vpos, (h.mat m hm).temp, (h.mat m hm).mass, (h.mat m hm).energy, (h.mat m hm).u⟩,
        h.press, h.stepped⟩
  · intro k s h
    exact ⟨⟨h.fix.rhobar, h.fix.rhoTotal, h.fix.uscale, h.fix.utot, h.fix.Tnorm, h.fix.ms⟩, h.res, h.T, h.sum,
      fun m hm => ⟨(h.mat m hm).vpos, (h.mat m hm).temp, (h.mat m hm).mass, (h.mat m hm).energy, (h.mat m hm).u⟩,
      h.press, h.stepped⟩
  · intro k s h
    refine ⟨⟨h.fix.rhobar, h.fix.rhoTotal, h.fix.uscale, h.fix.utot, h.fix.Tnorm, h.fix.ms⟩, h.T,
      fun m hm => (h.mat m hm).vpos, h.sum, s.dx, fun i hi => ?_⟩
    have e : ((rhoTSys σ E I p t qr n vt sieTot).scaleDx s).1.dx i
        = s.dx i * rhoTScaleDx σ p.saf E n s.ms s.Tnorm s.Tequil s.rhobar s.a.vfrac s.dx := by
      simp only [rhoTSys, applyScale, mapN_apply, if_pos hi]
    rw [e, h.fix.Tnorm, h.fix.rhobar]
    rfl
  · intro s h
    obtain ⟨dx, hd⟩ := h.dx
    have e : (rhoTTest σ E n s 1 true).1
        = (rhoTTest σ E n { s with Ttemp := s.Tequil, vtemp := fill n s.a.vfrac s.vtemp } 1 false).1 := rfl
    change RTTried σ p.saf E n c (rhoTTest σ E n s 1 true).1
    rw [e]
    exact rtTest_aux (s := { s with Ttemp := s.Tequil, vtemp := fill n s.a.vfrac s.vtemp }) hσ hsaf0 hsaf1 hU hrb
      ⟨h.fix.rhobar, h.fix.rhoTotal, h.fix.uscale, h.fix.utot, h.fix.Tnorm, h.fix.ms⟩
      ⟨s.a.vfrac, dx, h.T, fun m hm => ⟨h.vpos m hm, by dsimp only; rw [fill_apply, if_pos hm]⟩, h.sum, hd⟩ one_pos le_rfl
  · intro s t h ht0 ht1
    exact rtTest_aux hσ hsaf0 hsaf1 hU hrb h.fix h.cache ht0 ht1
  · intro k s h
    change RTInv σ E I n c (k + 1) (rhoTFixup p n s)
    unfold rhoTFixup
    split_ifs
    · refine ⟨⟨h.fix.rhobar, h.fix.rhoTotal, h.fix.uscale, h.fix.utot, h.fix.Tnorm, argmaxPos_lt hn _⟩,
        ⟨s.residual, ?_⟩, h.T, h.sum.le, fun m hm => ?_, fun m hm => Or.inl (h.mat m hm).2,
        fun _ => ⟨h.sum, fun m hm => (h.mat m hm).2⟩⟩
      · unfold rhoTResid; dsimp only; rw [h.fix.utot]
      · have := (h.mat m hm).1
        exact ⟨this.vpos, this.temp, this.mass, this.energy, this.u⟩
    · exact ⟨h.fix, h.res, h.T, h.sum.le, fun m hm => (h.mat m hm).1, fun m hm => Or.inl (h.mat m hm).2,
        fun _ => ⟨h.sum, fun m hm => (h.mat m hm).2⟩⟩

/-- The state `InitBase` leaves, in terms of what it was given. -/
theorem initBase_ok (hσ : 0 < σ) (I : InitEOS ℝ) {p : SolverParams ℝ} (htl : 0 < p.tlimit) (htd : 0 < p.tdefault)
    (hn : 0 < n) {vt : ℝ} (hvt : 0 < vt) (sieTot : ℝ) (hp : ∀ m T, m < n → 0 ≤ E.rhoPmin m T) {s0 : PS ℝ}
    (h : InputOk n vt s0) :
    let s := initBase σ E I p n vt sieTot s0
    let ut := (∑ m ∈ Finset.range n, s0.a.rho m * s0.a.vfrac m) * sieTot
    (∀ m, m < n → s.rhobar m = s0.a.rho m * s0.a.vfrac m) ∧ s.rhoTotal = ∑ m ∈ Finset.range n, s0.a.rho m * s0.a.vfrac m ∧
    s.uscale = max |ut| (1 / 10 ^ 14) ∧ s.utot = ut / (s.uscale + σ) ∧ 0 < s.Tnorm ∧
    ∑ m ∈ Finset.range n, s.a.vfrac m ≤ vt ∧
    ∀ m, m < n → 0 < s.a.vfrac m ∧ s.a.temp m = 1 ∧
      Guarded σ (s.a.vfrac m) (s.a.rho m * s.a.vfrac m) (s0.a.rho m * s0.a.vfrac m) ∧
      s.a.sie m = E.eOf m (s.a.rho m) s.Tnorm ∧
      s.a.u m = s0.a.rho m * s0.a.vfrac m * s.a.sie m / (s.uscale + σ) ∧
      (s.a.press m = E.pOf m (s.a.rho m) s.Tnorm (s.a.sie m) / (s.uscale + σ) ∨
        (I.prefersP m = true ∧ I.bad (s0.a.press m) = false ∧ s.a.press m = s0.a.press m / (s.uscale + σ))) := by
  intro s ut
  have hrbs : ∀ m, m < n → (initRhoBar n s0).rhobar m = s0.a.rho m * s0.a.vfrac m := fun m hm => rhobar_eq s0 hm
  have hrt : (initRhoBar n s0).rhoTotal = ∑ m ∈ Finset.range n, s0.a.rho m * s0.a.vfrac m := by
    change sumNeumaier (initRhoBar n s0).rhobar n = _
    rw [sumNeumaier_all]
    exact Finset.sum_congr rfl fun m hm => hrbs m (by simpa using hm)
  set s1 : PS ℝ := { initRhoBar n s0 with
    uscale := max |(initRhoBar n s0).rhoTotal * sieTot| (1 / 10 ^ 14)
    utot := ratio σ ((initRhoBar n s0).rhoTotal * sieTot) (max |(initRhoBar n s0).rhoTotal * sieTot| (1 / 10 ^ 14)) } with hs1
  have hg := tguess_ok hσ I (p := p) hn hvt htl htd hp (s := s1) ⟨h.rho, h.vfrac, h.sum⟩ hrbs
  dsimp only at hg
  have hUpos : (0 : ℝ) < max |(initRhoBar n s0).rhoTotal * sieTot| (1 / 10 ^ 14) :=
    lt_of_lt_of_le (by norm_num) (le_max_right _ _)
  have hus : s.uscale = max |(initRhoBar n s0).rhoTotal * sieTot| (1 / 10 ^ 14) := rfl
  have hutd : s.utot = ratio σ ((initRhoBar n s0).rhoTotal * sieTot) s.uscale := rfl
  have hrb : s.rhobar = (initRhoBar n s0).rhobar := rfl
  have hUs : 0 < s.uscale := hUpos
  refine ⟨hrbs, hrt, by rw [hus, hrt], ?_, hg.T, hg.sum, fun m hm => ⟨hg.vfrac m hm, ?_, ?_, ?_, ?_, ?_⟩⟩
  · rw [hutd, ratio_pos_den _ hUs.le, hrt]
  · change fill n _ _ m = _
    rw [fill_apply, if_pos hm]
  · have := hg.mass m hm
    rw [show s1.rhobar m = _ from hrbs m hm] at this
    exact this
  · change fill n _ _ m = _
    rw [fill_apply, if_pos hm]
    rfl
  · have e1 : s.a.sie m = E.eOf m (s.a.rho m) s.Tnorm := by
      change fill n _ _ m = _
      rw [fill_apply, if_pos hm]
      rfl
    have e2 : s.a.u m = E.eOf m (s.a.rho m) s.Tnorm * ratio σ (s.rhobar m) s.uscale := by
      change fill n _ _ m = _
      rw [fill_apply, if_pos hm]
      rfl
    rw [e2, ← e1, hrb, hrbs m hm, ratio_pos_den _ hUs.le]
    ring
  · have e1 : s.a.sie m = E.eOf m (s.a.rho m) s.Tnorm := by
      change fill n _ _ m = _
      rw [fill_apply, if_pos hm]
      rfl
    have e2 : s.a.press m = startPress σ E I s.uscale s.Tnorm { s.a with press := s0.a.press } m := by
      change fill n _ _ m = _
      rw [fill_apply, if_pos hm]
      rfl
    rw [e2]
    unfold startPress
    dsimp only
    split_ifs with h3
    · exact Or.inr ⟨h3.1, h3.2, ratio_pos_den _ hUs.le⟩
    · exact Or.inl (by rw [ratio_pos_den _ hUs.le, e1])

/-- The constants of a solve, from the caller's arrays. -/
noncomputable def rtConst (n : Nat) (sieTot Tn : ℝ) (rb : Nat → ℝ) (σ : ℝ) (s0 : PS ℝ) : RTConst where
  rb := rb
  rt := ∑ m ∈ Finset.range n, s0.a.rho m * s0.a.vfrac m
  U := max |(∑ m ∈ Finset.range n, s0.a.rho m * s0.a.vfrac m) * sieTot| (1 / 10 ^ 14)
  ut := (∑ m ∈ Finset.range n, s0.a.rho m * s0.a.vfrac m) * sieTot /
    (max |(∑ m ∈ Finset.range n, s0.a.rho m * s0.a.vfrac m) * sieTot| (1 / 10 ^ 14) + σ)
  Tn := Tn
  pin := s0.a.press

/-- `Init` establishes the invariant. -/
theorem rhoT_init (hσ : 0 < σ) (I : InitEOS ℝ) {p : SolverParams ℝ} (htl : 0 < p.tlimit) (htd : 0 < p.tdefault)
    (hex : p.exclude < n) (hn : 0 < n) (sieTot : ℝ) (hp : ∀ m T, m < n → 0 ≤ E.rhoPmin m T) {s0 : PS ℝ}
    (h : InputOk n 1 s0) :
    let i := initBase σ E I p n 1 sieTot s0
    0 < i.Tnorm ∧ (∀ m, m < n → i.rhobar m = s0.a.rho m * s0.a.vfrac m) ∧
    RTInv σ E I n (rtConst n sieTot i.Tnorm i.rhobar σ s0) 0 (rhoTInit σ E I p n 1 sieTot s0).1 := by
  intro i
  obtain ⟨h1, h2, h3, h4, h5, h6, h7⟩ := initBase_ok (E := E) hσ I htl htd hn one_pos sieTot hp h
  refine ⟨h5, h1, ?_⟩
  have hms : (if 0 ≤ p.exclude then p.exclude.toNat else argmaxPos n (fun m => ratio σ (i.rhobar m) i.rhoTotal)) < n := by
    split_ifs
    · omega
    · exact argmaxPos_lt hn _
  have ha : (rhoTInit σ E I p n 1 sieTot s0).1.a = i.a := rfl
  have hte : (rhoTInit σ E I p n 1 sieTot s0).1.Tequil = 1 := (h7 0 hn).2.1
  have hut : i.utot = (rtConst n sieTot i.Tnorm i.rhobar σ s0).ut := by rw [h4, h3]; rfl
  have hU : i.uscale = (rtConst n sieTot i.Tnorm i.rhobar σ s0).U := h3
  have hTe : (rtConst n sieTot i.Tnorm i.rhobar σ s0).Tn * (rhoTInit σ E I p n 1 sieTot s0).1.Tequil = i.Tnorm := by
    rw [hte]; exact mul_one _
  refine ⟨⟨rfl, h2, hU, hut, rfl, hms⟩, ⟨i.residual, ?_⟩, by rw [hte]; exact one_pos, h6, fun m hm => ?_, fun m hm => ?_,
    fun hx => absurd hx (by omega)⟩
  · rw [← hut]; rfl
  · obtain ⟨q1, q2, q3, q4, q5, q6⟩ := h7 m hm
    refine ⟨q1, by rw [hte, ha]; exact q2, ?_, ?_, ?_⟩
    · rw [ha, show (rtConst n sieTot i.Tnorm i.rhobar σ s0).rb m = _ from h1 m hm]; exact q3
    · rw [hTe, ha, q4]
      exact guarded_self hσ (by
        rw [show (rtConst n sieTot i.Tnorm i.rhobar σ s0).rb m = _ from h1 m hm]
        exact mul_pos (h.rho m hm) (h.vfrac m hm)) _
    · rw [hTe, ha, q5, q4, hU, show (rtConst n sieTot i.Tnorm i.rhobar σ s0).rb m = _ from h1 m hm]
  · obtain ⟨q1, q2, q3, q4, q5, q6⟩ := h7 m hm
    unfold RTPress
    rw [hTe, ha, ← hU]
    exact q6

/-- The driver run on a RhoT object: the state it stops in satisfies the invariant. -/
theorem rhoT_run (hσ : 0 < σ) (I : InitEOS ℝ) {p : SolverParams ℝ} (hsaf0 : 0 ≤ p.saf) (hsaf1 : p.saf < 1)
    (htl : 0 < p.tlimit) (htd : 0 < p.tdefault) (hex : p.exclude < n) (t : MixTols)
    (qr : (Nat → ℝ) → (Nat → ℝ) → Nat → ℝ) {dp : DriverParams ℝ} (hf0 : 0 < dp.lineFac) (hf1 : dp.lineFac ≤ 1)
    (hn : 0 < n) (sieTot : ℝ) (hp : ∀ m T, m < n → 0 ≤ E.rhoPmin m T) {s0 : PS ℝ} (h : InputOk n 1 s0) :
    let Y := rhoTSys σ E I p t qr n 1 sieTot
    let r := pteSolver σ Y dp s0
    ∃ c s k, c.pin = s0.a.press ∧ (∀ m, m < n → c.rb m = s0.a.rho m * s0.a.vfrac m) ∧ 0 < c.Tn ∧
      c.U = max |(∑ m ∈ Finset.range n, s0.a.rho m * s0.a.vfrac m) * sieTot| (1 / 10 ^ 14) ∧
      c.ut = (∑ m ∈ Finset.range n, s0.a.rho m * s0.a.vfrac m) * sieTot / (c.U + σ) ∧
      r.niter ≤ k ∧ RTInv σ E I n c k s ∧ r.s = finalizeBase n (rhoTFixup p n s) ∧
      (r.converged = true → r.slow = false → rhoTCheck t.tol n s.a.vfrac s.a.press s.residual) := by
  intro Y r
  obtain ⟨h1, h2, h3⟩ := rhoT_init (E := E) hσ I htl htd hex hn sieTot hp h
  have hk := rhoT_keeps (E := E) (c := rtConst n sieTot (initBase σ E I p n 1 sieTot s0).Tnorm
      (initBase σ E I p n 1 sieTot s0).rhobar σ s0) hσ I hsaf0 hsaf1 t qr hn 1 sieTot
    (lt_of_lt_of_le (by norm_num) (le_max_right _ _)) (fun m hm => by
      rw [show (rtConst n sieTot (initBase σ E I p n 1 sieTot s0).Tnorm (initBase σ E I p n 1 sieTot s0).rhobar σ s0).rb m
        = _ from h2 m hm]
      exact mul_pos (h.rho m hm) (h.vfrac m hm))
  obtain ⟨k, s, q1, q2, q3, q4⟩ := pteSolver_keeps hσ hk hf0 hf1 s0 h3
  refine ⟨_, s, k, rfl, h2, h1, rfl, rfl, q1, q2, q3, fun hc hsl => ?_⟩
  have := q4 hc hsl
  simpa [rhoTSys] using this

/-- `Fixup` does not touch the caller's arrays. -/
theorem rhoTFixup_a (p : SolverParams ℝ) (n : Nat) (s : PS ℝ) :
    (rhoTFixup p n s).a = s.a ∧ (rhoTFixup p n s).Tnorm = s.Tnorm ∧ (rhoTFixup p n s).uscale = s.uscale := by
  unfold rhoTFixup
  split_ifs
  · exact ⟨rfl, rfl, rfl⟩
  · exact ⟨rfl, rfl, rfl⟩

/-- C130, RhoT: whatever the equations of state, the linear solver, the tolerances and the outcome (converged or not), the
arrays returned hold a common positive temperature, every material's mass, positive volume fractions that do not overfill the
cell (and fill it once a step has been taken), the energy each material's own EOS has there, and its pressure — unless no step
was taken and the material's EOS prefers pressure as an input, in which case it may be the pressure handed in. -/
theorem C130_rhoT_state (hσ : 0 < σ) (E : MatEOS ℝ) (I : InitEOS ℝ) {p : SolverParams ℝ} (hsaf0 : 0 ≤ p.saf)
    (hsaf1 : p.saf < 1) (htl : 0 < p.tlimit) (htd : 0 < p.tdefault) (hex : p.exclude < n) (t : MixTols)
    (qr : (Nat → ℝ) → (Nat → ℝ) → Nat → ℝ) {dp : DriverParams ℝ} (hf0 : 0 < dp.lineFac) (hf1 : dp.lineFac ≤ 1)
    (hn : 0 < n) (sieTot : ℝ) (hp : ∀ m T, m < n → 0 ≤ E.rhoPmin m T) {s0 : PS ℝ} (h : InputOk n 1 s0) :
    let r := pteSolver σ (rhoTSys σ E I p t qr n 1 sieTot) dp s0
    let U := max |(∑ m ∈ Finset.range n, s0.a.rho m * s0.a.vfrac m) * sieTot| (1 / 10 ^ 14)
    ∃ T > 0, ∑ m ∈ Finset.range n, r.s.a.vfrac m ≤ 1 ∧ (1 ≤ r.niter → ∑ m ∈ Finset.range n, r.s.a.vfrac m = 1) ∧
      ∀ m, m < n → r.s.a.temp m = T ∧ Mixed σ E (s0.a.rho m * s0.a.vfrac m) T r.s.a m ∧
        (Guarded σ U (r.s.a.press m) (E.pOf m (r.s.a.rho m) T (r.s.a.sie m)) ∨
          (r.niter = 0 ∧ I.prefersP m = true ∧ I.bad (s0.a.press m) = false ∧
            Guarded σ U (r.s.a.press m) (s0.a.press m))) := by
  intro r U
  obtain ⟨c, s, k, c1, c2, c3, c4, c5, hk, hI, hr, -⟩ := rhoT_run (E := E) hσ I hsaf0 hsaf1 htl htd hex t qr hf0 hf1 hn
    sieTot hp h
  obtain ⟨e1, e2, e3⟩ := rhoTFixup_a p n s
  have hU : 0 < c.U := by rw [c4]; exact lt_of_lt_of_le (by norm_num) (le_max_right _ _)
  change r.s = _ at hr
  change r.niter ≤ k at hk
  have hv : r.s.a.vfrac = s.a.vfrac := by rw [hr]; change (rhoTFixup p n s).a.vfrac = _; rw [e1]
  have hrho : r.s.a.rho = s.a.rho := by rw [hr]; change (rhoTFixup p n s).a.rho = _; rw [e1]
  have hsie : r.s.a.sie = s.a.sie := by rw [hr]; change (rhoTFixup p n s).a.sie = _; rw [e1]
  have htemp : ∀ m, m < n → r.s.a.temp m = s.a.temp m * c.Tn := fun m hm => by
    rw [hr]; unfold finalizeBase; dsimp only; rw [mapN_apply, if_pos hm, e1, e2, hI.fix.Tnorm]
  have hpr : ∀ m, m < n → r.s.a.press m = s.a.press m * c.U := fun m hm => by
    rw [hr]; unfold finalizeBase; dsimp only; rw [mapN_apply, if_pos hm, e1, e3, hI.fix.uscale]
  refine ⟨c.Tn * s.Tequil, mul_pos c3 hI.T, by rw [hv]; exact hI.sum, fun hx => by
    rw [hv]; exact (hI.stepped (hx.trans hk)).1, fun m hm => ?_⟩
  have hm' := hI.mat m hm
  refine ⟨by rw [htemp m hm, hm'.temp]; ring, ⟨by rw [hv]; exact hm'.vpos, ?_, ?_⟩, ?_⟩
  · rw [hv, hrho, ← c2 m hm]; exact hm'.mass
  · rw [hrho, hsie, ← c2 m hm]; exact hm'.energy
  · rw [hpr m hm, hrho, hsie, show U = c.U from c4.symm]
    by_cases hk0 : 1 ≤ k
    · left; rw [(hI.stepped hk0).2 m hm]; exact guarded_div hσ hU _
    · rcases hI.press m hm with h1 | ⟨h1, h2, h3⟩
      · left; rw [h1]; exact guarded_div hσ hU _
      · right
        refine ⟨by omega, h1, by rw [← c1]; exact h2, ?_⟩
        rw [h3, c1]; exact guarded_div hσ hU _

/-- C131, RhoT: if the solver reports convergence (and not through the slow-convergence exit), then at the returned densities
and temperature the materials' EOS energies sum to the total within the tolerance and — provided a step was taken or no
material's EOS prefers pressure — any two materials' EOS pressures agree within twice the tolerance. -/
theorem C131_rhoT_equilibrium (hσ : 0 < σ) (E : MatEOS ℝ) (I : InitEOS ℝ) {p : SolverParams ℝ} (hsaf0 : 0 ≤ p.saf)
    (hsaf1 : p.saf < 1) (htl : 0 < p.tlimit) (htd : 0 < p.tdefault) (hex : p.exclude < n) (t : MixTols)
    (qr : (Nat → ℝ) → (Nat → ℝ) → Nat → ℝ) {dp : DriverParams ℝ} (hf0 : 0 < dp.lineFac) (hf1 : dp.lineFac ≤ 1)
    (hn : 0 < n) (sieTot : ℝ) (hp : ∀ m T, m < n → 0 ≤ E.rhoPmin m T) {s0 : PS ℝ} (h : InputOk n 1 s0)
    (hc : (pteSolver σ (rhoTSys σ E I p t qr n 1 sieTot) dp s0).converged = true)
    (hsl : (pteSolver σ (rhoTSys σ E I p t qr n 1 sieTot) dp s0).slow = false) :
    let r := pteSolver σ (rhoTSys σ E I p t qr n 1 sieTot) dp s0
    let utotal := (∑ m ∈ Finset.range n, s0.a.rho m * s0.a.vfrac m) * sieTot
    let U := max |utotal| (1 / 10 ^ 14)
    let P := fun m => E.pOf m (r.s.a.rho m) (r.s.a.temp m) (r.s.a.sie m)
    |∑ m ∈ Finset.range n, s0.a.rho m * s0.a.vfrac m * E.eOf m (r.s.a.rho m) (r.s.a.temp m) - utotal|
        < t.tol.relE * (U + σ) ∧
    (1 ≤ r.niter ∨ (∀ m, m < n → I.prefersP m = false) → ∀ m m', m < n → m' < n → m ≠ m' →
      |P m - P m'| < 2 * max (t.tol.relP * |∑ m ∈ Finset.range n, r.s.a.vfrac m * P m|) (t.tol.absP * (U + σ))) := by
  intro r utotal U P
  obtain ⟨c, s, k, c1, c2, c3, c4, c5, hk, hI, hr, hch⟩ := rhoT_run (E := E) hσ I hsaf0 hsaf1 htl htd hex t qr hf0 hf1 hn
    sieTot hp h
  have hch := hch hc hsl
  obtain ⟨e1, e2, e3⟩ := rhoTFixup_a p n s
  have hU : 0 < c.U := by rw [c4]; exact lt_of_lt_of_le (by norm_num) (le_max_right _ _)
  have hUs : 0 < c.U + σ := by linarith
  change r.s = _ at hr
  change r.niter ≤ k at hk
  have hv : r.s.a.vfrac = s.a.vfrac := by rw [hr]; change (rhoTFixup p n s).a.vfrac = _; rw [e1]
  have hrho : r.s.a.rho = s.a.rho := by rw [hr]; change (rhoTFixup p n s).a.rho = _; rw [e1]
  have hsie : r.s.a.sie = s.a.sie := by rw [hr]; change (rhoTFixup p n s).a.sie = _; rw [e1]
  have htemp : ∀ m, m < n → r.s.a.temp m = c.Tn * s.Tequil := fun m hm => by
    rw [hr]; unfold finalizeBase; dsimp only
    rw [mapN_apply, if_pos hm, e1, e2, hI.fix.Tnorm, (hI.mat m hm).temp, mul_comm]
  obtain ⟨r0, hres⟩ := hI.res
  rw [hres] at hch
  obtain ⟨g1, g2⟩ := C18_rhoT_meaning t.tol hI.fix.ms c.ut s.a.vfrac s.a.u s.a.press r0 hch
  have eU : U = c.U := c4.symm
  refine ⟨?_, fun hcase m m' hm hm' hne => ?_⟩
  · have e4 : ∑ m ∈ Finset.range n, s0.a.rho m * s0.a.vfrac m * E.eOf m (r.s.a.rho m) (r.s.a.temp m) - utotal
        = (∑ m ∈ Finset.range n, s.a.u m - c.ut) * (c.U + σ) := by
      rw [sub_mul, c5, div_mul_cancel₀ _ hUs.ne', Finset.sum_mul]
      congr 1
      refine Finset.sum_congr rfl fun m hm => ?_
      have hm := Finset.mem_range.mp hm
      rw [(hI.mat m hm).u, htemp m hm, hrho, c2 m hm, div_mul_cancel₀ _ hUs.ne']
    rw [e4, abs_mul, abs_of_pos hUs, eU]
    exact mul_lt_mul_of_pos_right g1 hUs
  · have hP : ∀ m, m < n → P m = s.a.press m * (c.U + σ) := by
      intro m hm
      have : RTPress σ E c s m := by
        rcases hcase with h1 | h1
        · exact (hI.stepped (h1.trans hk)).2 m hm
        · rcases hI.press m hm with h2 | ⟨h2, _⟩
          · exact h2
          · rw [h1 m hm] at h2; exact absurd h2 (by simp)
      rw [this, div_mul_cancel₀ _ hUs.ne']
      change E.pOf m _ _ _ = _
      rw [hrho, hsie, htemp m hm]
    have eS : ∑ m ∈ Finset.range n, r.s.a.vfrac m * P m = (∑ m ∈ Finset.range n, s.a.vfrac m * s.a.press m) * (c.U + σ) := by
      rw [Finset.sum_mul]
      refine Finset.sum_congr rfl fun m hm => ?_
      rw [hP m (Finset.mem_range.mp hm), hv]; ring
    set M := max (t.tol.relP * |∑ m ∈ Finset.range n, s.a.vfrac m * s.a.press m|) t.tol.absP with hM
    have eM : max (t.tol.relP * |∑ m ∈ Finset.range n, r.s.a.vfrac m * P m|) (t.tol.absP * (U + σ)) = M * (c.U + σ) := by
      rw [eS, abs_mul, abs_of_pos hUs, eU, ← mul_assoc, hM, max_mul_of_nonneg _ _ hUs.le]
    have key : |s.a.press m - s.a.press m'| < 2 * M := by
      rcases eq_or_ne m s.ms with h1 | h1
      · have := g2 m' hm' (by rintro rfl; exact hne h1)
        rw [h1, abs_sub_comm]
        have := abs_nonneg (s.a.press m' - s.a.press s.ms)
        linarith
      · have a1 := g2 m hm h1
        rcases eq_or_ne m' s.ms with h2 | h2
        · rw [h2]
          have := abs_nonneg (s.a.press m - s.a.press s.ms)
          linarith
        · have a2 := g2 m' hm' h2
          have := abs_sub_le (s.a.press m) (s.a.press s.ms) (s.a.press m')
          rw [abs_sub_comm (s.a.press s.ms)] at this
          linarith
    rw [eM, hP m hm, hP m' hm', ← sub_mul, abs_mul, abs_of_pos hUs, ← mul_assoc]
    exact mul_lt_mul_of_pos_right key hUs

end Verif.PTE
