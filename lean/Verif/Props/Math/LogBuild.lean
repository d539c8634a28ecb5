import Verif.Model.Math.LogBuild
import Verif.Props.Math.FastLogRound

/-! # C57: the recorded type of the logarithm decides the logarithm -/

namespace Verif.FastLog

/-- A machine with correctly rounded doubles and literals. -/
structure Machine.Ok (M : Machine) : Prop where
  rnd : Rounds M.rnd
  s : |M.s - scaleDown| ≤ 1 / 2 ^ 53 * scaleDown
  ft : |M.ft - 4 / 3| ≤ 1 / 2 ^ 53 * (4 / 3)

/-- Exact arithmetic with the literals as written is such a machine. -/
noncomputable def exactMachine : Machine := ⟨id, id, scaleDown, 4 / 3, Real.logb 2, Real.logb 2⟩

theorem exactMachine_ok : exactMachine.Ok where
  rnd x := by simp [exactMachine]
  s := by simp [exactMachine, scaleDown]; norm_num
  ft := by simp only [exactMachine, sub_self, abs_zero]; norm_num

/-- Scaling an integer by the literal. -/
theorem scaled_near {M : Machine} (h : M.Ok) (z : ℝ) :
    |M.rnd (M.rnd z * M.s) - z / 2 ^ 52| ≤ 2 / 10 ^ 15 * |z / 2 ^ 52| := by
  have hsc : scaleDown = 2.22044604925031e-16 := rfl
  obtain ⟨s1, s2⟩ := abs_le.1 h.s
  have a := h.rnd z
  generalize M.rnd z = p at *
  have b := h.rnd (p * M.s)
  generalize M.rnd (p * M.s) = r at *
  rw [hsc] at s1 s2
  have e : |M.s - 1 / 2 ^ 52| ≤ 16 / 10 ^ 16 * (1 / 2 ^ 52) := by rw [abs_le]; constructor <;> norm_num at * <;> linarith
  have hs : |M.s| ≤ 1001 / 1000 * (1 / 2 ^ 52) := by
    rw [abs_le]; constructor <;> norm_num at * <;> linarith
  have hp : |p| ≤ (1 + 1 / 2 ^ 53) * |z| := by
    have := abs_sub_abs_le_abs_sub p z
    linarith
  have e1 : |p * M.s - z / 2 ^ 52| ≤ 1 / 2 ^ 53 * |z| * (1 / 2 ^ 52) + (1 + 1 / 2 ^ 53) * |z| * (16 / 10 ^ 16 * (1 / 2 ^ 52)) := by
    have : p * M.s - z / 2 ^ 52 = (p - z) * (1 / 2 ^ 52) + p * (M.s - 1 / 2 ^ 52) := by ring
    rw [this]
    refine (abs_add_le _ _).trans ?_
    rw [abs_mul, abs_mul]
    refine add_le_add ?_ ?_
    · rw [abs_of_pos (show (0:ℝ) < 1 / 2 ^ 52 by norm_num)]
      exact mul_le_mul_of_nonneg_right a (by norm_num)
    · exact mul_le_mul hp e (abs_nonneg _) (by positivity)
  have e2 : |p * M.s| ≤ (1 + 1 / 2 ^ 53) * |z| * (1001 / 1000 * (1 / 2 ^ 52)) := by
    rw [abs_mul]; exact mul_le_mul hp hs (abs_nonneg _) (by positivity)
  have h3 : |r - z / 2 ^ 52| ≤ |r - p * M.s| + |p * M.s - z / 2 ^ 52| := abs_sub_le _ _ _
  have hz : |z / 2 ^ 52| = |z| * (1 / 2 ^ 52) := by
    rw [abs_div, abs_of_pos (show (0:ℝ) < 2 ^ 52 by norm_num)]; ring
  rw [hz]
  refine h3.trans ?_
  have : 1 / 2 ^ 53 * |p * M.s| ≤ 1 / 2 ^ 53 * ((1 + 1 / 2 ^ 53) * |z| * (1001 / 1000 * (1 / 2 ^ 52))) :=
    mul_le_mul_of_nonneg_left e2 (by norm_num)
  norm_num at *
  have hz0 := abs_nonneg z
  linarith

/-- A finite normal positive double. -/
def Finite (n : ℤ) : Prop := 2 ^ 52 ≤ n ∧ n < 2047 * 2 ^ 52

theorem lgO1_bound {n : ℤ} (h : Finite n) : |lgO1 (value n)| ≤ 1024 := by
  have h1 := lgO1_value n
  obtain ⟨a, b⟩ := h
  have a' : ((2 ^ 52 : ℤ) : ℝ) ≤ n := by exact_mod_cast a
  have b' : (n : ℝ) < ((2047 * 2 ^ 52 : ℤ) : ℝ) := by exact_mod_cast b
  simp only [oneAsInt] at h1
  push_cast at h1 a' b'
  rw [abs_le]; constructor <;> norm_num at * <;> linarith

theorem mantissa_range {x : ℝ} (hx : 0 < x) : 1 / 2 ≤ (frexp x).1 ∧ (frexp x).1 < 1 := by
  have h1 := Int.zpow_log_le_self (b := 2) (by norm_num) hx
  have h2 := Int.lt_zpow_succ_log_self (b := 2) (by norm_num) x
  push_cast at h1 h2
  simp only [frexp]
  have hp : (0:ℝ) < 2 ^ (Int.log 2 x + 1) := by positivity
  refine ⟨?_, ?_⟩
  · rw [le_div_iff₀ hp, zpow_add₀ (by norm_num), zpow_one]; linarith
  · rw [div_lt_one hp]; exact h2

/-- The order-one logarithms of a build. -/
theorem o1_near {M : Machine} (h : M.Ok) {n : ℤ} (hn : Finite n) (p : Bool) :
    |(if p then lgO1Portable M n else lgO1Aliased M.rnd M.s n) - lgO1 (value n)| ≤ 22 / 10 ^ 13 := by
  have hb := lgO1_bound hn
  cases p
  · have hz : ((n - oneAsInt : ℤ) : ℝ) / 2 ^ 52 = lgO1 (value n) := by
      have := lgO1_value n
      push_cast; rw [this]; field_simp; ring
    have := scaled_near h ((n - oneAsInt : ℤ) : ℝ)
    rw [hz] at this
    simp only [Bool.false_eq_true, if_false, lgO1Aliased]
    refine this.trans ?_
    refine (mul_le_mul_of_nonneg_left hb (by norm_num)).trans (by norm_num)
  · simp only [if_true, lgO1Portable]
    have := h.rnd (lgO1 (value n))
    refine le_trans this ?_
    refine (mul_le_mul_of_nonneg_left hb (by norm_num)).trans (by norm_num)

theorem lgO2_close (x : ℝ) (hx : 0 < x) : |lgO2 x - lgO1 x| ≤ 1 := by
  obtain ⟨m1, m2⟩ := mantissa_range hx
  simp only [lgO2, lgO1]
  generalize (frexp x).1 = m at *
  rw [abs_le]; constructor <;> nlinarith

/-- The order-two logarithms of a build. -/
theorem o2_near {M : Machine} (h : M.Ok) {n : ℤ} (hn : Finite n) (p : Bool) :
    |(if p then lgO2Portable M n else lgO2Aliased M.rnd M.s n) - lgO2 (value n)| ≤ 22 / 10 ^ 13 := by
  have hb1 := lgO1_bound hn
  have hc := lgO2_close _ (value_pos n)
  have hb : |lgO2 (value n)| ≤ 1025 := by
    have := abs_sub_abs_le_abs_sub (lgO2 (value n)) (lgO1 (value n)); linarith
  cases p
  · have acc := C57_aliased_quadratic_accuracy n
    have := scaled_near h (lgO2Int n : ℝ)
    simp only [Bool.false_eq_true, if_false, lgO2Aliased]
    have hz : |(lgO2Int n : ℝ) / 2 ^ 52| ≤ 1026 := by
      have h1 := abs_sub_abs_le_abs_sub ((lgO2Int n : ℝ) / 2 ^ 52) (lgO2 (value n))
      have : (1:ℝ) / 2 ^ 52 ≤ 1 := by norm_num
      linarith
    have h3 := abs_sub_le (M.rnd (M.rnd (lgO2Int n : ℝ) * M.s)) ((lgO2Int n : ℝ) / 2 ^ 52) (lgO2 (value n))
    have h4 := mul_le_mul_of_nonneg_left hz (show (0:ℝ) ≤ 2 / 10 ^ 15 by norm_num)
    norm_num at *
    linarith
  · simp only [if_true, lgO2Portable]
    obtain ⟨m1, m2⟩ := mantissa_range (value_pos n)
    simp only [lgO2] at hb ⊢
    generalize (frexp (value n)).1 = m at *
    generalize ((frexp (value n)).2 : ℝ) = e at *
    obtain ⟨f1, f2⟩ := abs_le.1 h.ft
    have a1 := h.rnd (m - 2)
    rw [abs_of_neg (by linarith : m - 2 < 0)] at a1
    generalize M.rnd (m - 2) = q1 at *
    obtain ⟨a1a, a1b⟩ := abs_le.1 a1
    have a2 := h.rnd (m - 1)
    rw [abs_of_neg (by linarith : m - 1 < 0)] at a2
    generalize M.rnd (m - 1) = q2 at *
    obtain ⟨a2a, a2b⟩ := abs_le.1 a2
    -- first product
    have e1 : |M.ft * q1 - 4 / 3 * (m - 2)| ≤ 1 / 10 ^ 15 := by
      have : M.ft * q1 - 4 / 3 * (m - 2) = (M.ft - 4 / 3) * q1 + 4 / 3 * (q1 - (m - 2)) := by ring
      rw [this]
      refine (abs_add_le _ _).trans ?_
      rw [abs_mul, abs_mul, abs_of_pos (show (0:ℝ) < 4 / 3 by norm_num)]
      have q : |q1| ≤ 2 := by rw [abs_le]; constructor <;> norm_num at * <;> linarith
      have := mul_le_mul h.ft q (abs_nonneg _) (by norm_num)
      have a1' : |q1 - (m - 2)| ≤ 1 / 2 ^ 53 * (3 / 2) := by
        refine a1.trans (mul_le_mul_of_nonneg_left (by linarith) (by norm_num))
      norm_num at *
      linarith
    have b1 := h.rnd (M.ft * q1)
    have c1 : |M.ft * q1| ≤ 3 := by
      obtain ⟨u, v⟩ := abs_le.1 e1
      rw [abs_le]; constructor <;> norm_num at * <;> linarith
    generalize M.ft * q1 = w at *
    generalize M.rnd w = w1 at *
    have e2 : |w1 - 4 / 3 * (m - 2)| ≤ 15 / 10 ^ 16 := by
      have := abs_sub_le w1 w (4 / 3 * (m - 2))
      have := mul_le_mul_of_nonneg_left c1 (show (0:ℝ) ≤ 1 / 2 ^ 53 by norm_num)
      norm_num at *
      linarith
    have c2 : |w1| ≤ 3 := by
      obtain ⟨u, v⟩ := abs_le.1 e2
      rw [abs_le]; constructor <;> norm_num at * <;> linarith
    -- second product
    have e3 : |w1 * q2 - 4 / 3 * (m - 2) * (m - 1)| ≤ 12 / 10 ^ 16 := by
      have : w1 * q2 - 4 / 3 * (m - 2) * (m - 1) = w1 * (q2 - (m - 1)) + (w1 - 4 / 3 * (m - 2)) * (m - 1) := by ring
      rw [this]
      refine (abs_add_le _ _).trans ?_
      rw [abs_mul, abs_mul]
      have q : |m - 1| ≤ 1 / 2 := by rw [abs_le]; constructor <;> linarith
      have a2' : |q2 - (m - 1)| ≤ 1 / 2 ^ 53 * (1 / 2) :=
        a2.trans (mul_le_mul_of_nonneg_left (by linarith) (by norm_num))
      have t1 := mul_le_mul c2 a2' (abs_nonneg _) (by norm_num)
      have t2 := mul_le_mul e2 q (abs_nonneg _) (by norm_num)
      norm_num at *
      linarith
    have b2 := h.rnd (w1 * q2)
    have c3 : |w1 * q2| ≤ 2 := by
      obtain ⟨u, v⟩ := abs_le.1 e3
      rw [abs_le]; constructor <;> norm_num at * <;> nlinarith
    generalize w1 * q2 = z at *
    generalize M.rnd z = z1 at *
    have e4 : |z1 - 4 / 3 * (m - 2) * (m - 1)| ≤ 15 / 10 ^ 16 := by
      have := abs_sub_le z1 z (4 / 3 * (m - 2) * (m - 1))
      have := mul_le_mul_of_nonneg_left c3 (show (0:ℝ) ≤ 1 / 2 ^ 53 by norm_num)
      norm_num at *
      linarith
    have b3 := h.rnd (e - z1)
    have e5 : |e - z1 - (e - 4 / 3 * (m - 2) * (m - 1))| ≤ 15 / 10 ^ 16 := by
      rw [show e - z1 - (e - 4 / 3 * (m - 2) * (m - 1)) = -(z1 - 4 / 3 * (m - 2) * (m - 1)) by ring, abs_neg]; exact e4
    have c4 : |e - z1| ≤ 1026 := by
      have := abs_sub_abs_le_abs_sub (e - z1) (e - 4 / 3 * (m - 2) * (m - 1))
      norm_num at *
      linarith
    have := abs_sub_le (M.rnd (e - z1)) (e - z1) (e - 4 / 3 * (m - 2) * (m - 1))
    have := mul_le_mul_of_nonneg_left c4 (show (0:ℝ) ≤ 1 / 2 ^ 53 by norm_num)
    norm_num at *
    linarith

/-- C57: the type of the logarithm recorded in a table file decides the logarithm. Two builds with the same type have, on
one machine, logarithms that differ by less than `5e-12` at every finite double, whatever their other options: the same
function where the true logarithm is used, the same up to rounding where the portable and the aliased version are two
ways to compute it. -/
theorem C57_log_type_decides {M : Machine} (h : M.Ok) (A B : Build) (hab : A.logType = B.logType) {n : ℤ} (hn : Finite n) :
    |A.lg M n - B.lg M n| < 5 / 10 ^ 12 ∧ (A.logType ≤ 0 → A.lg M n = B.lg M n) := by
  have o1 := fun p => o1_near h hn p
  have o2 := fun p => o2_near h hn p
  obtain ⟨at', af, ap, ao⟩ := A
  obtain ⟨bt, bf, bp, bo⟩ := B
  have tri : ∀ {x y z : ℝ}, |x - z| ≤ 22 / 10 ^ 13 → |y - z| ≤ 22 / 10 ^ 13 → |x - y| < 5 / 10 ^ 12 := by
    intro x y z hx hy
    have := abs_sub_le x z y
    rw [abs_sub_comm z y] at this
    norm_num at *
    linarith
  cases at' <;> cases bt <;> cases af <;> cases bf <;> cases ao <;> cases bo <;>
    first
    | (exfalso; revert hab; simp [Build.logType]; done)
    | (refine ⟨?_, ?_⟩
       · simp only [Build.lg, Build.fastlg, Bool.not_true, Bool.not_false, Bool.false_eq_true, if_true, if_false, sub_self, abs_zero]
         first
         | exact tri (o1 ap) (o1 bp)
         | exact tri (o2 ap) (o2 bp)
         | norm_num
       · intro h0
         first
         | (exfalso; revert h0; simp [Build.logType]; done)
         | simp [Build.lg])

/-- The options meet these types. -/
example : (⟨false, true, true, false⟩ : Build).logType = 2 ∧ (⟨false, false, false, true⟩ : Build).logType = 1 ∧
    (⟨true, true, true, true⟩ : Build).logType = -1 ∧ (⟨true, false, true, true⟩ : Build).logType = 0 := by decide

theorem value_three_halves : value (oneAsInt + 2 ^ 51) = 3 / 2 := by
  have h1 : (oneAsInt + 2 ^ 51) % P = 2 ^ 51 := by decide
  have h2 : (oneAsInt + 2 ^ 51) / P = 1023 := by decide
  unfold value
  rw [h1, h2]; norm_num [P]

theorem frexp_three_halves : frexp (3 / 2) = (3 / 4, 1) := by
  have : Int.log 2 (3 / 2 : ℝ) = 0 := by
    rw [Int.log_of_one_le_right _ (by norm_num), show ⌊(3 / 2 : ℝ)⌋₊ = 1 from by
      rw [Nat.floor_eq_iff (by norm_num)]; norm_num]
    norm_num
  simp only [frexp, this]; norm_num

theorem logb_three_halves : 31 / 53 < Real.logb 2 (3 / 2) ∧ Real.logb 2 (3 / 2) < 24 / 41 := by
  have h1 : Real.logb 2 ((3 / 2) ^ 53) = 53 * Real.logb 2 (3 / 2) := by rw [Real.logb_pow]; norm_num
  have h2 : Real.logb 2 ((3 / 2) ^ 41) = 41 * Real.logb 2 (3 / 2) := by rw [Real.logb_pow]; norm_num
  have h3 : (31:ℝ) < Real.logb 2 ((3 / 2) ^ 53) := by
    rw [Real.lt_logb_iff_rpow_lt (by norm_num) (by norm_num), show (31:ℝ) = ((31 : ℕ) : ℝ) by norm_num, Real.rpow_natCast]
    norm_num
  have h4 : Real.logb 2 ((3 / 2) ^ 41) < (24:ℝ) := by
    rw [Real.logb_lt_iff_lt_rpow (by norm_num) (by norm_num), show (24:ℝ) = ((24 : ℕ) : ℝ) by norm_num, Real.rpow_natCast]
    norm_num
  constructor <;> linarith

/-- C57: logarithms of different types are different: at 1.5 those of the two orders and the true one differ pairwise by more than
`1e-3`. (The two true ones, single and double precision, are told apart by their types too, although they nearly agree.) -/
theorem C57_log_types_differ {M : Machine} (h : M.Ok) (h1 : |M.log2 (3 / 2) - Real.logb 2 (3 / 2)| ≤ 1 / 10 ^ 6)
    (h2 : |M.log2f (M.rnd32 (3 / 2)) - Real.logb 2 (3 / 2)| ≤ 1 / 10 ^ 6) (A B : Build) (hab : A.logType ≠ B.logType)
    (ht : ¬ (A.logType ≤ 0 ∧ B.logType ≤ 0)) :
    1 / 10 ^ 3 < |A.lg M (oneAsInt + 2 ^ 51) - B.lg M (oneAsInt + 2 ^ 51)| := by
  have hn : Finite (oneAsInt + 2 ^ 51) := by constructor <;> norm_num [oneAsInt]
  have o1 := fun p => o1_near h hn p
  have o2 := fun p => o2_near h hn p
  obtain ⟨l1, l2⟩ := logb_three_halves
  rw [value_three_halves] at o1 o2
  have e1 : lgO1 (3 / 2) = 1 / 2 := by simp only [lgO1, frexp_three_halves]; norm_num
  have e2 : lgO2 (3 / 2) = 7 / 12 := by simp only [lgO2, frexp_three_halves]; norm_num
  rw [e1] at o1
  rw [e2] at o2
  generalize Real.logb 2 (3 / 2) = t at *
  have w : ∀ {x a : ℝ}, |x - a| ≤ 22 / 10 ^ 13 → |x - a| ≤ 1 / 10 ^ 6 := fun hx => hx.trans (by norm_num)
  have near : ∀ C : Build, C.logType ≤ 0 ∧ |C.lg M (oneAsInt + 2 ^ 51) - t| ≤ 1 / 10 ^ 6 ∨
      C.logType = 1 ∧ |C.lg M (oneAsInt + 2 ^ 51) - 1 / 2| ≤ 1 / 10 ^ 6 ∨
      C.logType = 2 ∧ |C.lg M (oneAsInt + 2 ^ 51) - 7 / 12| ≤ 1 / 10 ^ 6 := by
    rintro ⟨ct, cf, cp, co⟩
    cases ct
    · cases co
      · refine Or.inr (Or.inr ⟨by simp [Build.logType], ?_⟩)
        simpa only [Build.lg, Build.fastlg, Bool.not_false, Bool.false_eq_true, if_true, if_false] using w (o2 cp)
      · refine Or.inr (Or.inl ⟨by simp [Build.logType], ?_⟩)
        simpa only [Build.lg, Build.fastlg, Bool.not_false, if_true] using w (o1 cp)
    · refine Or.inl ⟨by cases cf <;> simp [Build.logType], ?_⟩
      cases cf
      · simpa only [Build.lg, Bool.not_true, Bool.not_false, Bool.false_eq_true, if_true, if_false, value_three_halves] using h1
      · simpa only [Build.lg, Bool.not_true, Bool.false_eq_true, if_false, value_three_halves] using h2
  have fin : ∀ {x y : ℝ}, (1 / 10 ^ 3 < x - y ∨ 1 / 10 ^ 3 < y - x) → 1 / 10 ^ 3 < |x - y| := by
    rintro x y (hx | hx)
    · exact hx.trans_le (le_abs_self _)
    · rw [abs_sub_comm]; exact hx.trans_le (le_abs_self _)
  apply fin
  rcases near A with ⟨a1, a2⟩ | ⟨a1, a2⟩ | ⟨a1, a2⟩ <;> rcases near B with ⟨b1, b2⟩ | ⟨b1, b2⟩ | ⟨b1, b2⟩ <;>
    rw [abs_le] at a2 b2 <;> obtain ⟨a2, a3⟩ := a2 <;> obtain ⟨b2, b3⟩ := b2
  · exact absurd ⟨a1, b1⟩ ht
  · left; norm_num at *; linarith
  · left; norm_num at *; linarith
  · right; norm_num at *; linarith
  · exact absurd (a1.trans b1.symm) hab
  · right; norm_num at *; linarith
  · right; norm_num at *; linarith
  · left; norm_num at *; linarith
  · exact absurd (a1.trans b1.symm) hab

/-- The exact machine meets the hypotheses. -/
example (A B : Build) (hA : A.logType = 1) (hB : B.logType = 2) :
    1 / 10 ^ 3 < |A.lg exactMachine (oneAsInt + 2 ^ 51) - B.lg exactMachine (oneAsInt + 2 ^ 51)| :=
  C57_log_types_differ exactMachine_ok (by simp [exactMachine]) (by simp [exactMachine]) A B (by rw [hA, hB]; decide)
    (by rw [hA]; rintro ⟨h, -⟩; exact absurd h (by decide))

end Verif.FastLog
