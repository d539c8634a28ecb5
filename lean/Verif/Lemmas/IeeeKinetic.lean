import Verif.Model.IeeeKinetic
import Verif.Spec.IeeeKinetic
import Verif.Lemmas.IeeeArith
import Verif.Lemmas.KineticXfer

/-! # Lemmas for the kinetic update on machine numbers -/

namespace Verif.Kinetic

open Ieee Rounding Finset Classical

variable {rnd : ℝ → ℝ}

/-- The value of a finite number. -/
noncomputable def val : Ext → ℝ
  | .fin x => x
  | _ => 0

/-- A finite `double` that is not negative. -/
def IsMass (v : Ext) : Prop := Mass v (val v)

theorem Mass.isMass {v : Ext} {x : ℝ} (h : Mass v x) : IsMass v ∧ val v = x := by
  obtain ⟨rfl, h1, h2⟩ := h
  exact ⟨⟨rfl, h1, h2⟩, rfl⟩

theorem IsMass.nonneg {v : Ext} (h : IsMass v) : 0 ≤ val v := h.2.1

theorem IsMass.eq {v : Ext} (h : IsMass v) : v = .fin (val v) := h.1

/-- The unit round-off. -/
noncomputable def u : ℝ := 1 / 2 ^ 53

theorem u_pos : 0 < u := by unfold u; positivity

theorem u_lt : u < 1 := by unfold u; norm_num

/-- The sum or difference of two doubles has a small relative error, however small it is. -/
theorem rnd_bounds (h : Dbl rnd) {z : ℝ} (hz : Mult (-1074) z) (h0 : 0 ≤ z) : (1 - u) * z ≤ rnd z ∧ rnd z ≤ (1 + u) * z := by
  have := h.rel_error (by norm_num) hz
  rw [abs_of_nonneg h0] at this
  have e : unitRoundoff 53 = u := rfl
  rw [e, abs_le] at this
  constructor <;> linarith [this.1, this.2]

theorem ofReal_fin {Ω r : ℝ} (h : |rnd r| ≤ Ω) : ofReal rnd Ω r = .fin (rnd r) := by
  unfold ofReal
  rw [if_neg (not_lt.mpr h)]

theorem add_mass (h : Dbl rnd) {v v' : Ext} (hv : IsMass v) (hv' : IsMass v') (ho : (1 + u) * (val v + val v') ≤ maxDouble) :
    IsMass (add rnd maxDouble v v') ∧ (1 - u) * (val v + val v') ≤ val (add rnd maxDouble v v') ∧
    val (add rnd maxDouble v v') ≤ (1 + u) * (val v + val v') := by
  have hm : Mult (-1074) (val v + val v') := hv.2.2.mult.add hv'.2.2.mult
  have h0 : 0 ≤ val v + val v' := add_nonneg hv.nonneg hv'.nonneg
  obtain ⟨b1, b2⟩ := rnd_bounds h hm h0
  have hn : 0 ≤ rnd (val v + val v') := rnd_nonneg h h0
  have e : add rnd maxDouble v v' = .fin (rnd (val v + val v')) := by
    conv_lhs => rw [hv.eq, hv'.eq]
    exact ofReal_fin (by rw [abs_of_nonneg hn]; linarith)
  rw [e]
  exact ⟨⟨rfl, hn, h.isFloat _⟩, b1, b2⟩

/-- What is available to a phase: the exact sum up to one rounding per summand. -/
theorem avail_mass (h : Dbl rnd) {n : Nat} {m : Nat → Ext} {ord : Nat → Nat} {d : Int → Ext} {j : Nat} (hm : IsMass (m (ord j)))
    (hd : ∀ k, k < j → IsMass (d (slot n k j)))
    (ho : (1 + u) ^ j * (val (m (ord j)) + ∑ k ∈ range j, val (d (slot n k j))) ≤ maxDouble) :
    IsMass (availM rnd maxDouble n m ord d j) ∧
    (1 - u) ^ j * (val (m (ord j)) + ∑ k ∈ range j, val (d (slot n k j))) ≤ val (availM rnd maxDouble n m ord d j) ∧
    val (availM rnd maxDouble n m ord d j) ≤ (1 + u) ^ j * (val (m (ord j)) + ∑ k ∈ range j, val (d (slot n k j))) := by
  have hu := u_pos
  have hu1 := u_lt
  unfold availM
  suffices H : ∀ c, c ≤ j →
      let a := (List.range c).foldl (fun a k => add rnd maxDouble a (d (slot n k j))) (m (ord j))
      IsMass a ∧ (1 - u) ^ c * (val (m (ord j)) + ∑ k ∈ range c, val (d (slot n k j))) ≤ val a ∧
      val a ≤ (1 + u) ^ c * (val (m (ord j)) + ∑ k ∈ range c, val (d (slot n k j))) from H j le_rfl
  intro c
  induction c with
  | zero => intro _; simp; exact hm
  | succ c ih =>
    intro hc
    obtain ⟨i1, i2, i3⟩ := ih (by omega)
    simp only [List.range_succ, List.foldl_append, List.foldl_cons, List.foldl_nil]
    set a := (List.range c).foldl (fun a k => add rnd maxDouble a (d (slot n k j))) (m (ord j)) with ha
    set S := val (m (ord j)) + ∑ k ∈ range c, val (d (slot n k j)) with hS
    have hx := hd c (by omega)
    set x := val (d (slot n c j)) with hxd
    have hx0 : 0 ≤ x := hx.nonneg
    have hS0 : 0 ≤ S := add_nonneg hm.nonneg (sum_nonneg fun k hk => (hd k (by have := mem_range.mp hk; omega)).nonneg)
    have hsum : val (m (ord j)) + ∑ k ∈ range (c + 1), val (d (slot n k j)) = S + x := by rw [sum_range_succ]; ring
    have hle : S + x ≤ val (m (ord j)) + ∑ k ∈ range j, val (d (slot n k j)) := by
      rw [← hsum]
      refine add_le_add le_rfl (sum_le_sum_of_subset_of_nonneg ?_ ?_)
      · intro k hk; have := mem_range.mp hk; exact mem_range.mpr (by omega)
      · intro k hk _; exact (hd k (mem_range.mp hk)).nonneg
    have p1 : (1 : ℝ) ≤ (1 + u) ^ c := one_le_pow₀ (by linarith)
    have p2 : (1 - u) ^ c ≤ (1 : ℝ) := pow_le_one₀ (by linarith) (by linarith)
    have p3 : (0 : ℝ) < (1 - u) ^ c := pow_pos (by linarith) _
    have p4 : (1 + u) ^ (c + 1) ≤ (1 + u) ^ j := pow_le_pow_right₀ (by linarith) hc
    have hup : val a + x ≤ (1 + u) ^ c * (S + x) := by nlinarith [mul_nonneg hx0 (sub_nonneg.mpr p1)]
    have hlo : (1 - u) ^ c * (S + x) ≤ val a + x := by nlinarith [mul_nonneg hx0 (sub_nonneg.mpr p2)]
    have hup' : (1 + u) * (val a + x) ≤ (1 + u) ^ (c + 1) * (S + x) := by
      rw [pow_succ]; nlinarith
    have hov : (1 + u) * (val a + x) ≤ maxDouble := by
      refine hup'.trans (le_trans ?_ ho)
      exact mul_le_mul p4 hle (by linarith) (by positivity)
    obtain ⟨q1, q2, q3⟩ := add_mass h i1 hx hov
    rw [hsum]
    refine ⟨q1, le_trans ?_ q2, q3.trans hup'⟩
    rw [pow_succ]
    nlinarith

/-- Running the inner loop `L` times. -/
noncomputable def runRowM (rnd : ℝ → ℝ) (log exp : Ext → Ext) (logdt : Ext) (logR : Int → Ext) (m : Ext) (L : Nat) (r : RowM) : RowM :=
  (fun r => xferM rnd maxDouble log exp logdt logR m r)^[L] r

/-- What is stored at the end of a row. -/
noncomputable def clipM (rnd : ℝ → ℝ) (v : Ext) : Ext := if lt v (.fin (tinyM rnd)) then .fin 0 else v

theorem isMass_zero : IsMass (.fin 0) := ⟨rfl, le_rfl, isFloat_zero⟩

theorem tinyM_pos (h : Dbl rnd) : 0 < tinyM rnd := by
  have h1 : (2 : ℝ) ^ (-1074 : ℤ) ≤ tiny := by
    have e1 : (2 : ℝ) ^ (-1074 : ℤ) ≤ 2 ^ (-34 : ℤ) := zpow_le_zpow_right₀ (by norm_num) (by norm_num)
    refine e1.trans ?_
    unfold tiny
    norm_num
  have h2 : IsFloat 53 (-1074) ((2 : ℝ) ^ (-1074 : ℤ)) := ⟨1, -1074, by norm_num, by norm_num, by norm_num⟩
  have h3 := rnd_ge h h2 h1
  exact lt_of_lt_of_le (by positivity) h3

/-- A row whose phase is used up gives nothing more. -/
theorem runRow_dead (log exp : Ext → Ext) (logdt : Ext) (logR : Int → Ext) (m : Ext) (L : Nat) (r : RowM)
    (hr : lt r.nm (.fin (tinyM rnd))) :
    (runRowM rnd log exp logdt logR m L r).nm = r.nm ∧
    (runRowM rnd log exp logdt logR m L r).jk = r.jk + L ∧
    (∀ i, i < r.jk ∨ r.jk + L ≤ i → (runRowM rnd log exp logdt logR m L r).dmfs i = r.dmfs i) ∧
    (∀ i : Nat, i < L → (runRowM rnd log exp logdt logR m L r).dmfs (r.jk + i) = .fin 0) := by
  induction L generalizing r with
  | zero => refine ⟨rfl, by simp [runRowM], by simp [runRowM], by simp⟩
  | succ L ih =>
    have hs : runRowM rnd log exp logdt logR m (L + 1) r =
        runRowM rnd log exp logdt logR m L (xferM rnd maxDouble log exp logdt logR m r) := by simp [runRowM]
    rw [hs]
    set x := xferM rnd maxDouble log exp logdt logR m r with hx
    have ex : x = { r with jk := r.jk + 1, dmfs := Function.update r.dmfs r.jk (.fin 0) } := by
      rw [hx]; unfold xferM; rw [if_pos hr]
    have h1 : x.nm = r.nm := by rw [ex]
    have h2 : x.jk = r.jk + 1 := by rw [ex]
    have h3 : x.dmfs = Function.update r.dmfs r.jk (.fin 0) := by rw [ex]
    obtain ⟨a1, a2, a3, a4⟩ := ih x (by rw [h1]; exact hr)
    refine ⟨a1.trans h1, by rw [a2, h2]; push_cast; ring, ?_, ?_⟩
    · intro i hi
      push_cast at hi
      rw [a3 i (by rw [h2]; omega), h3, Function.update_of_ne (by omega)]
    · intro i hi
      cases i with
      | zero => rw [a3 _ (by rw [h2]; simp), h3]; simp
      | succ i =>
        have := a4 i (by omega)
        rw [h2] at this
        rw [← this]
        congr 1
        push_cast; ring

/-- A transfer the library's `exp` can give. -/
def Dx (v : Ext) : Prop := v = .inf false ∨ (IsMass v ∧ val v ≤ maxDouble)

/-- A row whose phase is not used up: what is stored and what is given is what was available, up to one rounding per pass. -/
theorem runRow_live (h : Dbl rnd) (log exp : Ext → Ext) (logdt : Ext) (logR : Int → Ext) (m : Ext) (L : Nat) (r : RowM)
    (ha : IsMass r.nm) (ht : tinyM rnd ≤ val r.nm) (hΩ : val r.nm ≤ maxDouble)
    (hdx : ∀ i : Nat, i < L → Dx (exp (add rnd maxDouble (add rnd maxDouble logdt (logR (r.jk + i))) (log m)))) :
    (runRowM rnd log exp logdt logR m L r).jk = r.jk + L ∧
    (∀ i, i < r.jk ∨ r.jk + L ≤ i → (runRowM rnd log exp logdt logR m L r).dmfs i = r.dmfs i) ∧
    (∀ i : Nat, i < L → IsMass ((runRowM rnd log exp logdt logR m L r).dmfs (r.jk + i))) ∧
    IsMass (clipM rnd (runRowM rnd log exp logdt logR m L r).nm) ∧
    (1 - u) ^ L * val r.nm ≤ val (clipM rnd (runRowM rnd log exp logdt logR m L r).nm) +
      ∑ i ∈ range L, val ((runRowM rnd log exp logdt logR m L r).dmfs (r.jk + i)) ∧
    val (clipM rnd (runRowM rnd log exp logdt logR m L r).nm) +
      ∑ i ∈ range L, val ((runRowM rnd log exp logdt logR m L r).dmfs (r.jk + i)) ≤ (1 + u) ^ L * val r.nm := by
  have hu := u_pos
  have hu1 := u_lt
  have htp := tinyM_pos h
  induction L generalizing r with
  | zero =>
    have hnl : ¬ lt r.nm (.fin (tinyM rnd)) := by rw [ha.eq]; exact not_lt.mpr ht
    have e : clipM rnd r.nm = r.nm := by unfold clipM; rw [if_neg hnl]
    refine ⟨by simp [runRowM], by simp [runRowM], by simp, ?_, ?_, ?_⟩
    · change IsMass (clipM rnd r.nm); rw [e]; exact ha
    · change _ ≤ val (clipM rnd r.nm) + _; rw [e]; simp
    · change val (clipM rnd r.nm) + _ ≤ _; rw [e]; simp
  | succ L ih =>
    have hs : runRowM rnd log exp logdt logR m (L + 1) r =
        runRowM rnd log exp logdt logR m L (xferM rnd maxDouble log exp logdt logR m r) := by simp [runRowM]
    rw [hs]
    have hnl : ¬ lt r.nm (.fin (tinyM rnd)) := by rw [ha.eq]; exact not_lt.mpr ht
    set dx := exp (add rnd maxDouble (add rnd maxDouble logdt (logR r.jk)) (log m)) with hdxd
    have hdx0 : Dx dx := by have := hdx 0 (by omega); simpa using this
    set t := sub rnd maxDouble r.nm dx with htd
    set x := xferM rnd maxDouble log exp logdt logR m r with hx
    have ex : x = ⟨t, r.jk + 1, Function.update r.dmfs r.jk (if lt t (.fin (tinyM rnd)) then r.nm else dx)⟩ := by
      rw [hx]; unfold xferM; rw [if_neg hnl]
    have h1 : x.nm = t := by rw [ex]
    have h2 : x.jk = r.jk + 1 := by rw [ex]
    have h3 : x.dmfs = Function.update r.dmfs r.jk (if lt t (.fin (tinyM rnd)) then r.nm else dx) := by rw [ex]
    have hidx : ∀ i : Nat, r.jk + ((i + 1 : Nat) : Int) = x.jk + i := by intro i; rw [h2]; push_cast; ring
    have g1 : (1 - u) ^ (L + 1) ≤ 1 := pow_le_one₀ (by linarith) (by linarith)
    have g2 : 1 ≤ (1 + u) ^ (L + 1) := one_le_pow₀ (by linarith)
    by_cases hd : lt t (.fin (tinyM rnd))
    · obtain ⟨a1, a2, a3, a4⟩ := runRow_dead log exp logdt logR m L x (by rw [h1]; exact hd)
      set R := runRowM rnd log exp logdt logR m L x with hR
      have ec : clipM rnd R.nm = .fin 0 := by unfold clipM; rw [a1, h1, if_pos hd]
      have e0 : R.dmfs r.jk = r.nm := by
        rw [a3 _ (by rw [h2]; omega), h3, Function.update_self, if_pos hd]
      have hval : val (clipM rnd R.nm) + ∑ i ∈ range (L + 1), val (R.dmfs (r.jk + i)) = val r.nm := by
        rw [ec, sum_range_succ']
        simp only [Nat.cast_zero, add_zero]
        rw [e0, sum_eq_zero]
        · simp [val]
        · intro i hi
          rw [hidx, a4 i (mem_range.mp hi)]; rfl
      refine ⟨by rw [a2, h2]; push_cast; ring, ?_, ?_, ?_, ?_, ?_⟩
      · intro i hi
        push_cast at hi
        rw [a3 i (by rw [h2]; omega), h3, Function.update_of_ne (by omega)]
      · intro i hi
        cases i with
        | zero => simp only [Nat.cast_zero, add_zero]; rw [e0]; exact ha
        | succ i => rw [hidx, a4 i (by omega)]; exact isMass_zero
      · rw [ec]; exact isMass_zero
      · rw [hval]; nlinarith [ha.nonneg]
      · rw [hval]; nlinarith [ha.nonneg]
    · -- the transfer is finite and leaves a mass
      rcases hdx0 with hinf | ⟨hmx, hmx'⟩
      · exfalso
        apply hd
        rw [htd, hinf, ha.eq]
        simp [sub, neg, add, lt]
      set ξ := val dx with hξ
      have hξ0 : 0 ≤ ξ := hmx.nonneg
      have hmult : Mult (-1074) (val r.nm - ξ) := ha.2.2.mult.sub hmx.2.2.mult
      have habs : |val r.nm - ξ| ≤ maxDouble := by
        rw [abs_le]; constructor <;> linarith [ha.nonneg, maxDouble_pos]
      have hr := abs_rnd_le h maxDouble_float habs
      have et : t = .fin (rnd (val r.nm - ξ)) := by
        rw [htd, ha.eq, hmx.eq]
        change ofReal rnd maxDouble (val r.nm + -ξ) = _
        rw [← sub_eq_add_neg]
        exact ofReal_fin hr
      have htl : tinyM rnd ≤ rnd (val r.nm - ξ) := by
        rw [et] at hd
        exact not_lt.mp hd
      have hpos : 0 ≤ val r.nm - ξ := by
        by_contra hc
        push Not at hc
        have := rnd_le h isFloat_zero hc.le
        linarith
      obtain ⟨b1, b2⟩ := rnd_bounds h hmult hpos
      have hxm : IsMass x.nm := by rw [h1, et]; exact ⟨rfl, by change 0 ≤ rnd _; linarith, h.isFloat _⟩
      have hxv : val x.nm = rnd (val r.nm - ξ) := by rw [h1, et]; rfl
      obtain ⟨a2, a3, a4, a5, a6, a7⟩ := ih x hxm (by rw [hxv]; exact htl)
        (by rw [hxv]; exact (le_abs_self _).trans hr)
        (by intro i hi; have := hdx (i + 1) (by omega); rwa [hidx] at this)
      set R := runRowM rnd log exp logdt logR m L x with hR
      have e0 : R.dmfs r.jk = dx := by
        rw [a3 _ (by rw [h2]; omega), h3, Function.update_self, if_neg hd]
      have hsum : ∑ i ∈ range (L + 1), val (R.dmfs (r.jk + i)) = (∑ i ∈ range L, val (R.dmfs (x.jk + i))) + ξ := by
        rw [sum_range_succ']
        simp only [Nat.cast_zero, add_zero]
        rw [e0]
        congr 1
        exact sum_congr rfl fun i _ => by rw [hidx]
      refine ⟨by rw [a2, h2]; push_cast; ring, ?_, ?_, a5, ?_, ?_⟩
      · intro i hi
        push_cast at hi
        rw [a3 i (by rw [h2]; omega), h3, Function.update_of_ne (by omega)]
      · intro i hi
        cases i with
        | zero => simp only [Nat.cast_zero, add_zero]; rw [e0]; exact hmx
        | succ i => rw [hidx]; exact a4 i (by omega)
      · rw [hsum]
        have p3 : (0 : ℝ) < (1 - u) ^ L := pow_pos (by linarith) _
        have q : (1 - u) ^ L * ((1 - u) * (val r.nm - ξ)) ≤ (1 - u) ^ L * val x.nm := by
          rw [hxv]; exact mul_le_mul_of_nonneg_left b1 p3.le
        have q2 : (1 - u) ^ (L + 1) * ξ ≤ ξ := by nlinarith
        have e : (1 - u) ^ (L + 1) * val r.nm = (1 - u) ^ L * ((1 - u) * (val r.nm - ξ)) + (1 - u) ^ (L + 1) * ξ := by
          rw [pow_succ]; ring
        linarith
      · rw [hsum]
        have p3 : (0 : ℝ) < (1 + u) ^ L := pow_pos (by linarith) _
        have q : (1 + u) ^ L * val x.nm ≤ (1 + u) ^ L * ((1 + u) * (val r.nm - ξ)) := by
          rw [hxv]; exact mul_le_mul_of_nonneg_left b2 p3.le
        have q2 : ξ ≤ (1 + u) ^ (L + 1) * ξ := by nlinarith
        have e : (1 + u) ^ (L + 1) * val r.nm = (1 + u) ^ L * ((1 + u) * (val r.nm - ξ)) + (1 + u) ^ (L + 1) * ξ := by
          rw [pow_succ]; ring
        linarith

/-- All mass on the books after `c` rows: what is stored, and what the later phases have or are owed. -/
noncomputable def ledger (n : Nat) (m : Nat → Ext) (ord : Nat → Nat) (c : Nat) (s : StM) : ℝ :=
  ∑ i ∈ range c, val (s.newmfs (ord i)) + ∑ i ∈ Ico c n, (val (m (ord i)) + ∑ k ∈ range c, val (s.dmfs (slot n k i)))

/-- What the rows `0 … c-1` have established. -/
structure RowsDoneM (rnd : ℝ → ℝ) (n : Nat) (m : Nat → Ext) (ord : Nat → Nat) (c : Nat) (s : StM) : Prop where
  jk : s.jk = base n c
  mass : ∀ j k, j < c → j < k → k < n → IsMass (s.dmfs (slot n j k))
  new : ∀ j, j < c → IsMass (s.newmfs (ord j))
  lo : (1 - u) ^ (c * (n - 1)) * ∑ i ∈ range n, val (m (ord i)) - c * tinyM rnd ≤ ledger n m ord c s
  hi : ledger n m ord c s ≤ (1 + u) ^ (c * (n - 1)) * ∑ i ∈ range n, val (m (ord i))

/-- One row or the last phase: the books after it, given that what comes out of the phase is what was available up to roundings. -/
theorem ledger_step {c n : ℕ} {L S T out : ℝ} (hS : 0 ≤ S) (hSL : S ≤ L) (hT : 0 ≤ T) {τ : ℝ} (hτ : 0 ≤ τ)
    (lo : (1 - u) ^ (c * (n - 1)) * T - c * τ ≤ L) (hi : L ≤ (1 + u) ^ (c * (n - 1)) * T)
    {θ : ℝ} (hlo : (1 - u) ^ (n - 1) * S - θ ≤ out) (hhi : out ≤ (1 + u) ^ (n - 1) * S) :
    (1 - u) ^ ((c + 1) * (n - 1)) * T - (c * τ + θ) ≤ L - S + out ∧ L - S + out ≤ (1 + u) ^ ((c + 1) * (n - 1)) * T := by
  have hu := u_pos
  have hu1 := u_lt
  have p1 : (1 - u) ^ (n - 1) ≤ (1 : ℝ) := pow_le_one₀ (by linarith) (by linarith)
  have p0 : (0 : ℝ) < (1 - u) ^ (n - 1) := pow_pos (by linarith) _
  have p2 : (1 : ℝ) ≤ (1 + u) ^ (n - 1) := one_le_pow₀ (by linarith)
  have e1 : (1 - u) ^ ((c + 1) * (n - 1)) * T = (1 - u) ^ (n - 1) * ((1 - u) ^ (c * (n - 1)) * T) := by
    rw [add_mul, one_mul, pow_add]; ring
  have e2 : (1 + u) ^ ((c + 1) * (n - 1)) * T = (1 + u) ^ (n - 1) * ((1 + u) ^ (c * (n - 1)) * T) := by
    rw [add_mul, one_mul, pow_add]; ring
  have hc : (0 : ℝ) ≤ c * τ := by positivity
  constructor
  · rw [e1]
    nlinarith [mul_nonneg (sub_nonneg.mpr p1) (sub_nonneg.mpr hSL), mul_nonneg (sub_nonneg.mpr p1) hc,
      mul_le_mul_of_nonneg_left lo p0.le]
  · rw [e2]
    have : (1 + u) ^ (n - 1) * L ≤ (1 + u) ^ (n - 1) * ((1 + u) ^ (c * (n - 1)) * T) := mul_le_mul_of_nonneg_left hi (by linarith)
    nlinarith [mul_nonneg (sub_nonneg.mpr p2) (sub_nonneg.mpr hSL)]

/-- The next phase's share of the books. -/
theorem ledger_split {n : Nat} {m : Nat → Ext} {ord : Nat → Nat} {c : Nat} {s : StM} (hc : c < n) :
    ledger n m ord c s = ∑ i ∈ range c, val (s.newmfs (ord i)) + (val (m (ord c)) + ∑ k ∈ range c, val (s.dmfs (slot n k c))) +
      ∑ i ∈ Ico (c + 1) n, (val (m (ord i)) + ∑ k ∈ range c, val (s.dmfs (slot n k i))) := by
  unfold ledger
  rw [sum_eq_sum_Ico_succ_bot hc]
  ring

theorem share_le {n : Nat} {m : Nat → Ext} {ord : Nat → Nat} {c : Nat} {s : StM} (hc : c < n) (hm : ∀ i, i < n → IsMass (m (ord i)))
    (h : RowsDoneM rnd n m ord c s) :
    0 ≤ val (m (ord c)) + ∑ k ∈ range c, val (s.dmfs (slot n k c)) ∧
    val (m (ord c)) + ∑ k ∈ range c, val (s.dmfs (slot n k c)) ≤ ledger n m ord c s := by
  have hd : ∀ i, c ≤ i → i < n → 0 ≤ ∑ k ∈ range c, val (s.dmfs (slot n k i)) := fun i hi hin =>
    sum_nonneg fun k hk => (h.mass k i (mem_range.mp hk) (by have := mem_range.mp hk; omega) hin).nonneg
  have h1 : 0 ≤ ∑ i ∈ range c, val (s.newmfs (ord i)) := sum_nonneg fun i hi => (h.new i (mem_range.mp hi)).nonneg
  have h2 : 0 ≤ ∑ i ∈ Ico (c + 1) n, (val (m (ord i)) + ∑ k ∈ range c, val (s.dmfs (slot n k i))) := by
    refine sum_nonneg fun i hi => ?_
    have := mem_Ico.mp hi
    exact add_nonneg (hm i this.2).nonneg (hd i (by omega) this.2)
  refine ⟨add_nonneg (hm c hc).nonneg (hd c le_rfl hc), ?_⟩
  rw [ledger_split hc]
  linarith

/-- The available mass of the next phase. -/
theorem avail_next (h : Dbl rnd) {n : Nat} {m : Nat → Ext} {ord : Nat → Nat} {c : Nat} {s : StM} (hc : c < n)
    (hm : ∀ i, i < n → IsMass (m (ord i)))
    (hT : (1 + u) ^ (n * (n - 1)) * ∑ i ∈ range n, val (m (ord i)) ≤ maxDouble) (hr : RowsDoneM rnd n m ord c s) :
    let S := val (m (ord c)) + ∑ k ∈ range c, val (s.dmfs (slot n k c))
    let a := availM rnd maxDouble n m ord s.dmfs c
    IsMass a ∧ (1 - u) ^ c * S ≤ val a ∧ val a ≤ (1 + u) ^ c * S ∧ (1 + u) ^ (n - 1) * S ≤ maxDouble := by
  intro S a
  have hu := u_pos
  obtain ⟨s0, s1⟩ := share_le hc hm hr
  have hT0 : 0 ≤ ∑ i ∈ range n, val (m (ord i)) := sum_nonneg fun i hi => (hm i (mem_range.mp hi)).nonneg
  have hov : (1 + u) ^ (n - 1) * S ≤ maxDouble := by
    have h1 : (1 + u) ^ (n - 1) * S ≤ (1 + u) ^ (n - 1) * ((1 + u) ^ (c * (n - 1)) * ∑ i ∈ range n, val (m (ord i))) :=
      mul_le_mul_of_nonneg_left (s1.trans hr.hi) (by positivity)
    refine h1.trans (le_trans ?_ hT)
    rw [← mul_assoc, ← pow_add]
    refine mul_le_mul_of_nonneg_right (pow_le_pow_right₀ (by linarith) ?_) hT0
    calc n - 1 + c * (n - 1) = (c + 1) * (n - 1) := by ring
      _ ≤ n * (n - 1) := Nat.mul_le_mul_right _ hc
  have hov' : (1 + u) ^ c * S ≤ maxDouble :=
    le_trans (mul_le_mul_of_nonneg_right (pow_le_pow_right₀ (by linarith) (by omega)) s0) hov
  obtain ⟨a1, a2, a3⟩ := avail_mass h (d := s.dmfs) (n := n) (j := c) (hm c hc) (fun k hk => hr.mass k c hk hk hc) hov'
  exact ⟨a1, a2, a3, hov⟩

theorem rowsDoneM_step (h : Dbl rnd) {log exp : Ext → Ext} {logdt : Ext} {n : Nat} {m : Nat → Ext} {ord : Nat → Nat}
    {logR : Int → Ext} {c : Nat} {s : StM} (ho : IsInj n ord) (hc : c + 1 < n) (hm : ∀ i, i < n → IsMass (m (ord i)))
    (hT : (1 + u) ^ (n * (n - 1)) * ∑ i ∈ range n, val (m (ord i)) ≤ maxDouble)
    (hdx : ∀ k, c < k → k < n → Dx (exp (add rnd maxDouble (add rnd maxDouble logdt (logR (slot n c k))) (log (m (ord c))))))
    (hr : RowsDoneM rnd n m ord c s) :
    RowsDoneM rnd n m ord (c + 1) (phaseStepM rnd maxDouble log exp logdt n m ord logR s c) := by
  have hu := u_pos
  have hu1 := u_lt
  have htp := tinyM_pos h
  have hfold : ∀ r, (down n c).foldl (fun r _ => xferM rnd maxDouble log exp logdt logR (m (ord c)) r) r
      = runRowM rnd log exp logdt logR (m (ord c)) (n - 1 - c) r := by
    intro r; rw [foldl_const, length_down]; rfl
  set a := availM rnd maxDouble n m ord s.dmfs c with ha
  set r0 : RowM := ⟨a, s.jk, s.dmfs⟩ with hr0
  set r := runRowM rnd log exp logdt logR (m (ord c)) (n - 1 - c) r0 with hrd
  have hstep : phaseStepM rnd maxDouble log exp logdt n m ord logR s c
      = ⟨r.jk, r.dmfs, Function.update s.newmfs (ord c) (clipM rnd r.nm)⟩ := by
    unfold phaseStepM; simp only [hfold]; rfl
  rw [hstep]
  set S := val (m (ord c)) + ∑ k ∈ range c, val (s.dmfs (slot n k c)) with hS
  obtain ⟨m1, m2, m3, m4⟩ := avail_next h (by omega : c < n) hm hT hr
  obtain ⟨s0, s1⟩ := share_le (by omega : c < n) hm hr
  change (1 - u) ^ c * S ≤ val a at m2
  change val a ≤ (1 + u) ^ c * S at m3
  change (1 + u) ^ (n - 1) * S ≤ maxDouble at m4
  change IsMass a at m1
  change S ≤ _ at s1
  change 0 ≤ S at s0
  have hjk0 : r0.jk = base n c := hr.jk
  have hT0 : 0 ≤ ∑ i ∈ range n, val (m (ord i)) := sum_nonneg fun i hi => (hm i (mem_range.mp hi)).nonneg
  have haΩ : val a ≤ maxDouble :=
    m3.trans (le_trans (mul_le_mul_of_nonneg_right (pow_le_pow_right₀ (by linarith) (by omega)) s0) m4)
  have hnew : ∀ k, c < k → k < n → ∃ i : Nat, i < n - 1 - c ∧ slot n c k = r0.jk + i := by
    intro k hk hkn
    refine ⟨n - 1 - k, by omega, ?_⟩
    rw [slot_eq, hjk0]; omega
  -- what one row does
  have row : r.jk = r0.jk + ((n - 1 - c : Nat) : Int) ∧ (∀ i, i < r0.jk ∨ r0.jk + ((n - 1 - c : Nat) : Int) ≤ i → r.dmfs i = r0.dmfs i) ∧
      (∀ i : Nat, i < n - 1 - c → IsMass (r.dmfs (r0.jk + i))) ∧ IsMass (clipM rnd r.nm) ∧
      (1 - u) ^ (n - 1) * S - tinyM rnd ≤ val (clipM rnd r.nm) + ∑ i ∈ range (n - 1 - c), val (r.dmfs (r0.jk + i)) ∧
      val (clipM rnd r.nm) + ∑ i ∈ range (n - 1 - c), val (r.dmfs (r0.jk + i)) ≤ (1 + u) ^ (n - 1) * S := by
    by_cases hd : lt a (.fin (tinyM rnd))
    · obtain ⟨d1, d2, d3, d4⟩ := runRow_dead log exp logdt logR (m (ord c)) (n - 1 - c) r0 hd
      rw [← hrd] at d1 d2 d3 d4
      have ec : clipM rnd r.nm = .fin 0 := by
        unfold clipM; rw [d1]
        exact if_pos hd
      have hsum : ∑ i ∈ range (n - 1 - c), val (r.dmfs (r0.jk + i)) = 0 :=
        sum_eq_zero fun i hi => by rw [d4 i (mem_range.mp hi)]; rfl
      refine ⟨d2, d3, fun i hi => by rw [d4 i hi]; exact isMass_zero, by rw [ec]; exact isMass_zero, ?_, ?_⟩
      · rw [ec, hsum]
        have hat : val a < tinyM rnd := by rw [m1.eq] at hd; exact hd
        have : (1 - u) ^ (n - 1) * S ≤ (1 - u) ^ c * S :=
          mul_le_mul_of_nonneg_right (pow_le_pow_of_le_one (by linarith) (by linarith) (by omega)) s0
        change _ ≤ (0 : ℝ) + 0
        linarith
      · rw [ec, hsum]
        change (0 : ℝ) + 0 ≤ _
        have : (0 : ℝ) < (1 + u) ^ (n - 1) := pow_pos (by linarith) _
        nlinarith
    · have hta : tinyM rnd ≤ val a := by rw [m1.eq] at hd; exact not_lt.mp hd
      obtain ⟨d1, d2, d3, d4, d5, d6⟩ := runRow_live h log exp logdt logR (m (ord c)) (n - 1 - c) r0 m1 hta haΩ (by
        intro i hi
        have := hdx (n - 1 - i) (by omega) (by omega)
        have e : slot n c (n - 1 - i) = r0.jk + i := by rw [slot_eq, hjk0]; omega
        rwa [e] at this)
      rw [← hrd] at d1 d2 d3 d4 d5 d6
      have x1 : (1 - u) ^ (n - 1) * S ≤ (1 - u) ^ (n - 1 - c) * val a := by
        have e : n - 1 = (n - 1 - c) + c := by omega
        rw [e, pow_add, mul_assoc]
        have e' : (n - 1 - c) + c - c = n - 1 - c := by omega
        rw [e']
        exact mul_le_mul_of_nonneg_left m2 (pow_nonneg (by linarith) _)
      have x2 : (1 + u) ^ (n - 1 - c) * val a ≤ (1 + u) ^ (n - 1) * S := by
        have e : n - 1 = (n - 1 - c) + c := by omega
        rw [e, pow_add, mul_assoc]
        have e' : (n - 1 - c) + c - c = n - 1 - c := by omega
        rw [e']
        exact mul_le_mul_of_nonneg_left m3 (pow_nonneg (by linarith) _)
      exact ⟨d1, d2, d3, d4, by change (1 - u) ^ (n - 1 - c) * val a ≤ _ at d5; linarith,
        by change _ ≤ (1 + u) ^ (n - 1 - c) * val a at d6; linarith⟩
  obtain ⟨r1, r2, r3, r4, r5, r6⟩ := row
  have hold : ∀ j k, j < c → j < k → k < n → r.dmfs (slot n j k) = s.dmfs (slot n j k) := by
    intro j k hj hjk hk
    refine r2 _ (Or.inl ?_)
    rw [hjk0]
    have h1 := slot_range hjk hk
    have h2 := base_mono (n := n) (show j + 1 ≤ c by omega) (by omega)
    omega
  have hne : ∀ j < c, ord j ≠ ord c := by
    intro j hj he
    have := ho.2 j (by omega) c (by omega) he
    omega
  rw [hjk0, sum_row n c (by omega) (fun i => val (r.dmfs i))] at r5 r6
  -- the books
  have hled : ledger n m ord (c + 1) ⟨r.jk, r.dmfs, Function.update s.newmfs (ord c) (clipM rnd r.nm)⟩ =
      ledger n m ord c s - S + (val (clipM rnd r.nm) + ∑ k ∈ Ico (c + 1) n, val (r.dmfs (slot n c k))) := by
    rw [ledger_split (by omega : c < n)]
    unfold ledger
    simp only
    rw [sum_range_succ, Function.update_self]
    have e1 : ∑ i ∈ range c, val (Function.update s.newmfs (ord c) (clipM rnd r.nm) (ord i)) =
        ∑ i ∈ range c, val (s.newmfs (ord i)) :=
      sum_congr rfl fun i hi => by rw [Function.update_of_ne (hne i (mem_range.mp hi))]
    have e2 : ∑ i ∈ Ico (c + 1) n, (val (m (ord i)) + ∑ k ∈ range (c + 1), val (r.dmfs (slot n k i))) =
        ∑ i ∈ Ico (c + 1) n, (val (m (ord i)) + ∑ k ∈ range c, val (s.dmfs (slot n k i))) +
        ∑ k ∈ Ico (c + 1) n, val (r.dmfs (slot n c k)) := by
      rw [← sum_add_distrib]
      refine sum_congr rfl fun i hi => ?_
      have hi' := mem_Ico.mp hi
      rw [sum_range_succ, sum_congr rfl (fun k hk => by
        rw [hold k i (mem_range.mp hk) (by have := mem_range.mp hk; omega) hi'.2] :
          ∀ k ∈ range c, val (r.dmfs (slot n k i)) = val (s.dmfs (slot n k i)))]
      ring
    rw [e1, e2]
    ring
  obtain ⟨l1, l2⟩ := ledger_step s0 s1 hT0 htp.le hr.lo hr.hi r5 r6
  refine ⟨?_, ?_, ?_, ?_, ?_⟩
  · simp only; rw [r1, hjk0, base_succ]; omega
  · intro j k hj hjk hk
    simp only
    rcases Nat.lt_succ_iff_lt_or_eq.mp hj with hj | rfl
    · rw [hold j k hj hjk hk]; exact hr.mass j k hj hjk hk
    · obtain ⟨i, hi, he⟩ := hnew k hjk hk
      rw [he]; exact r3 i hi
  · intro j hj
    simp only
    rcases Nat.lt_succ_iff_lt_or_eq.mp hj with hj | rfl
    · rw [Function.update_of_ne (hne j hj)]; exact hr.new j hj
    · rw [Function.update_self]; exact r4
  · rw [hled]
    push_cast
    linarith
  · rw [hled]; exact l2

theorem rowsDoneM_all (h : Dbl rnd) {log exp : Ext → Ext} {logdt : Ext} {n : Nat} {m : Nat → Ext} {ord : Nat → Nat}
    {logR : Int → Ext} {d0 : Int → Ext} {f0 : Nat → Ext} (ho : IsInj n ord) (hm : ∀ i, i < n → IsMass (m (ord i)))
    (hT : (1 + u) ^ (n * (n - 1)) * ∑ i ∈ range n, val (m (ord i)) ≤ maxDouble)
    (hdx : ∀ j k, j < k → k < n → Dx (exp (add rnd maxDouble (add rnd maxDouble logdt (logR (slot n j k))) (log (m (ord j)))))) :
    RowsDoneM rnd n m ord (n - 1)
      ((List.range (n - 1)).foldl (phaseStepM rnd maxDouble log exp logdt n m ord logR) ⟨0, d0, f0⟩) := by
  suffices H : ∀ c, c ≤ n - 1 → RowsDoneM rnd n m ord c
      ((List.range c).foldl (phaseStepM rnd maxDouble log exp logdt n m ord logR) ⟨0, d0, f0⟩) from H _ le_rfl
  intro c
  induction c with
  | zero =>
    intro _
    refine ⟨by simp [base_zero], by simp, by simp, ?_, ?_⟩ <;> simp [ledger, ← range_eq_Ico]
  | succ c ih =>
    intro hc
    rw [List.range_succ, List.foldl_append]
    exact rowsDoneM_step h ho (by omega) hm hT (fun k hk hkn => hdx c k hk hkn) (ih (by omega))

end Verif.Kinetic
