import Verif.Lemmas.PTESolvers

namespace Verif.PTE

open Robust

set_option linter.unusedSectionVars false

variable {K : Type*} [Field K] [LinearOrder K] [IsStrictOrderedRing K]

/-- Row-major addresses are injective. -/
theorem addr_inj {N r c r' c' : Nat} (hc : c < N) (hc' : c' < N) :
    r * N + c = r' * N + c' ↔ r = r' ∧ c = c' := by
  refine ⟨fun h => ?_, by rintro ⟨rfl, rfl⟩; rfl⟩
  have h1 : (r * N + c) % N = c := by rw [mul_comm, Nat.mul_add_mod, Nat.mod_eq_of_lt hc]
  have h2 : (r' * N + c') % N = c' := by rw [mul_comm, Nat.mul_add_mod, Nat.mod_eq_of_lt hc']
  have hcc : c = c' := by rw [← h1, ← h2, h]
  subst hcc
  exact ⟨Nat.eq_of_mul_eq_mul_right (by omega) (by omega : r * N = r' * N), rfl⟩

theorem addr_lt {N R r c : Nat} (hr : r < R) (hc : c < N) : r * N + c < R * N := by
  calc r * N + c < r * N + N := by omega
    _ = (r + 1) * N := by ring
    _ ≤ R * N := Nat.mul_le_mul_right _ hr

/-- Entries of the RhoT matrix. -/
theorem rhoTJacobian_entries {n ms : Nat} (hms : ms < n) (d : Derivs K) (jac : Nat → K) :
    rhoTJacobian n ms d jac 0 = d.dedTsum ∧
    (∀ m, m < n → m ≠ ms → rhoTJacobian n ms d jac (pos ms m) = d.dedv m - d.dedv ms) ∧
    (∀ m, m < n → m ≠ ms → rhoTJacobian n ms d jac (pos ms m * n) = d.dpdT m - d.dpdT ms) ∧
    (∀ m mm, m < n → m ≠ ms → mm < n → mm ≠ ms → rhoTJacobian n ms d jac (pos ms m * n + pos ms mm)
      = if mm = m then d.dpdv m + d.dpdv ms else d.dpdv ms) := by
  set j0 := fill (n * n) (fun _ => (0 : K)) jac with hj0
  set j1 := skipFill n ms (fun m => d.dedv m - d.dedv ms) (Function.update j0 0 d.dedTsum) with hj1
  have hsk := skipFill_spec n ms (fun m => d.dedv m - d.dedv ms) (Function.update j0 0 d.dedTsum)
  rw [← hj1] at hsk
  have h := forN_inv (n := n) (s := ((1 : Nat), j1))
    (body := fun (s : Nat × (Nat → K)) m =>
      if m = ms then s
      else
        let a := Function.update s.2 (s.1 * n + 0) (d.dpdT m - d.dpdT ms)
        let r := forN n (fun (t : Nat × (Nat → K)) mm =>
          if mm = ms then t
          else (t.1 + 1, Function.update t.2 (s.1 * n + t.1)
            (if mm = m then d.dpdv m + d.dpdv ms else d.dpdv ms))) (1, a)
        (s.1 + 1, r.2))
    (P := fun k s => s.1 = nextIdx ms k ∧ (∀ i, i < n → s.2 i = j1 i) ∧
      (∀ m, m < k → m ≠ ms → s.2 (pos ms m * n) = d.dpdT m - d.dpdT ms) ∧
      (∀ m mm, m < k → m ≠ ms → mm < n → mm ≠ ms → s.2 (pos ms m * n + pos ms mm)
        = if mm = m then d.dpdv m + d.dpdv ms else d.dpdv ms)) ?_ ?_
  · obtain ⟨_, h2, h3, h4⟩ := h
    refine ⟨?_, ?_, h3, h4⟩
    · have : rhoTJacobian n ms d jac 0 = j1 0 := h2 0 (by omega)
      rw [this, hsk.2 0 (fun m hm hne => by have := pos_range hms hm hne; omega), Function.update_self]
    · intro m hm hne
      have : rhoTJacobian n ms d jac (pos ms m) = j1 (pos ms m) := h2 _ (pos_range hms hm hne).2
      rw [this, hsk.1 m hm hne]
  · exact ⟨by simp [nextIdx], fun _ _ => rfl, fun m h => absurd h (Nat.not_lt_zero _),
      fun m _ h => absurd h (Nat.not_lt_zero _)⟩
  · rintro k ⟨row, a⟩ hk ⟨h1, h2, h3, h4⟩
    dsimp only at h1 h2 h3 h4 ⊢
    by_cases hkm : k = ms
    · subst hkm
      rw [if_pos rfl]
      exact ⟨by rw [nextIdx_succ_skip, h1], h2, fun m hm hne => h3 m (by omega) hne,
        fun m mm hm hne => h4 m mm (by omega) hne⟩
    · rw [if_neg hkm]
      have hrow : row = pos ms k := by rw [h1, nextIdx_eq_pos hkm]
      have hrp := pos_range hms hk hkm
      rw [← hrow] at hrp
      obtain ⟨-, q2, q3⟩ := skipLoop_spec n ms (row * n)
        (fun mm => if mm = k then d.dpdv k + d.dpdv ms else d.dpdv ms)
        (Function.update a (row * n + 0) (d.dpdT k - d.dpdT ms))
      set A := (forN n (fun (t : Nat × (Nat → K)) mm =>
          if mm = ms then t
          else (t.1 + 1, Function.update t.2 (row * n + t.1)
            (if mm = k then d.dpdv k + d.dpdv ms else d.dpdv ms)))
          (1, Function.update a (row * n + 0) (d.dpdT k - d.dpdT ms))).2 with hA
      have keep : ∀ r c, r ≠ row → c < n → A (r * n + c) = a (r * n + c) := by
        intro r c hr hc
        rw [q3 (r * n + c), Function.update_of_ne]
        · exact fun he => hr ((addr_inj hc (by omega)).1 he).1
        · intro m hm hne he
          exact hr ((addr_inj hc (pos_range hms hm hne).2).1 he).1
      refine ⟨by rw [nextIdx_succ hkm, h1], fun i hi => ?_, fun m hm hne => ?_, fun m mm hm hne hmm hmne => ?_⟩
      · have := keep 0 i (by omega) hi
        simp only [zero_mul, zero_add] at this
        rw [this, h2 i hi]
      · rcases Nat.lt_succ_iff_lt_or_eq.mp hm with h | rfl
        · have := keep (pos ms m) 0 (fun he => by
            have := pos_inj hne hkm (by omega : pos ms m = pos ms k); omega) (by omega)
          simp only [add_zero] at this
          rw [this, h3 m h hne]
        · have := q3 (row * n + 0) (fun m' hm' hne' he => by
            have := pos_range hms hm' hne'; omega)
          rw [Function.update_self] at this
          rw [← hrow]
          simpa using this
      · rcases Nat.lt_succ_iff_lt_or_eq.mp hm with h | rfl
        · rw [keep (pos ms m) (pos ms mm) (fun he => by
            have := pos_inj hne hkm (by omega : pos ms m = pos ms k); omega) (pos_range hms hmm hmne).2]
          exact h4 m mm h hne hmm hmne
        · rw [← hrow]
          exact q2 mm hmm hmne

/-- Entries of the FixedT matrix. -/
theorem fixedTJacobian_entries {n : Nat} (dpdv : Nat → K) (jac : Nat → K) {r c : Nat}
    (hr : r < n) (hc : c < n) :
    fixedTJacobian n dpdv jac (r * n + c) =
      if r = 0 then 1 else if c + 1 = r then -dpdv c else if c = r then dpdv c else 0 := by
  have h := forN_inv (n := n - 1) (s := fill n (fun _ => (1 : K)) (fill (n * n) (fun _ => 0) jac))
    (body := fun j m => Function.update (Function.update j ((m + 1) * n + m) (-dpdv m))
      ((m + 1) * n + (m + 1)) (dpdv (m + 1)))
    (P := fun k s => ∀ r c, r < n → c < n → s (r * n + c) =
      if r = 0 then 1 else if r ≤ k then (if c + 1 = r then -dpdv c else if c = r then dpdv c else 0) else 0)
    ?_ ?_
  · have := h r c hr hc
    unfold fixedTJacobian
    rw [this]
    by_cases h0 : r = 0
    · simp [h0]
    · simp [h0, show r ≤ n - 1 by omega]
  · intro r c hr hc
    rw [fill_apply, fill_apply, if_pos (addr_lt hr hc)]
    by_cases h0 : r = 0
    · subst h0; simp [hc]
    · have : ¬ (r * n + c < n) := by
        have : 1 * n ≤ r * n := Nat.mul_le_mul_right _ (by omega)
        omega
      simp [h0, this]
  · intro k s hk ih r c hr hc
    simp only [Function.update_apply]
    rw [ih r c hr hc]
    have e1 : r * n + c = (k + 1) * n + (k + 1) ↔ r = k + 1 ∧ c = k + 1 := addr_inj hc (by omega)
    have e2 : r * n + c = (k + 1) * n + k ↔ r = k + 1 ∧ c = k := addr_inj hc (by omega)
    simp only [e1, e2]
    split_ifs <;> first | rfl | omega | (simp_all; done)

/-- Entries of the FixedP matrix. -/
theorem fixedPJacobian_entries {n : Nat} (dpdv dpdT : Nat → K) (jac : Nat → K) {r c : Nat}
    (hr : r < n + 1) (hc : c < n + 1) :
    fixedPJacobian n dpdv dpdT jac (r * (n + 1) + c) =
      if r = n then (if c = n then 0 else 1)
      else if c = n then dpdT r else if c = r then dpdv r else 0 := by
  have h1 := forN_inv (n := n) (s := fill ((n + 1) * (n + 1)) (fun _ => (0 : K)) jac)
    (body := fun j m => Function.update (Function.update j (m * (n + 1) + m) (dpdv m))
      (m * (n + 1) + n) (dpdT m))
    (P := fun k s => ∀ r c, r < n + 1 → c < n + 1 → s (r * (n + 1) + c) =
      if r < k then (if c = n then dpdT r else if c = r then dpdv r else 0) else 0) ?_ ?_
  · set j1 := forN n (fun j m => Function.update (Function.update j (m * (n + 1) + m) (dpdv m))
      (m * (n + 1) + n) (dpdT m)) (fill ((n + 1) * (n + 1)) (fun _ => (0 : K)) jac) with hj1
    have h2 := forN_inv (n := n) (s := j1)
      (body := fun j m => Function.update j (n * (n + 1) + m) 1)
      (P := fun k s => ∀ r c, r < n + 1 → c < n + 1 → s (r * (n + 1) + c) =
        if r = n ∧ c < k then 1 else j1 (r * (n + 1) + c)) ?_ ?_
    · have := h2 r c hr hc
      unfold fixedPJacobian
      rw [this, h1 r c hr hc]
      split_ifs <;> first | rfl | omega
    · intro r c _ _; simp
    · intro k s hk ih r c hr hc
      rw [Function.update_apply, ih r c hr hc]
      have e : r * (n + 1) + c = n * (n + 1) + k ↔ r = n ∧ c = k := addr_inj hc (by omega)
      simp only [e]
      split_ifs <;> first | rfl | omega
  · intro r c hr hc
    rw [fill_apply, if_pos (addr_lt hr hc)]; simp
  · intro k s hk ih r c hr hc
    simp only [Function.update_apply]
    rw [ih r c hr hc]
    have e1 : r * (n + 1) + c = k * (n + 1) + n ↔ r = k ∧ c = n := addr_inj hc (by omega)
    have e2 : r * (n + 1) + c = k * (n + 1) + k ↔ r = k ∧ c = k := addr_inj hc (by omega)
    simp only [e1, e2]
    split_ifs <;> first | rfl | omega | (simp_all; done)

/-- One material's column of the RhoU matrix: `+a` in its own difference row, `-a` in the previous one,
in the pressure rows `2..n`; `+b`, `-b` in the temperature rows `n+1..2n-1`. -/
def colU (n : Nat) (a b : K) (m r : Nat) : K :=
  if r = 2 + m ∧ m + 1 < n then a
  else if r = 1 + m ∧ 0 < m then -a
  else if r = n + 1 + m ∧ m + 1 < n then b
  else if r = n + m ∧ 0 < m then -b
  else 0

theorem colU_first {n : Nat} (hn : 2 ≤ n) (a b : K) (r : Nat) :
    colU n a b 0 r = if r = n + 1 then b else if r = 2 then a else 0 := by
  unfold colU; split_ifs <;> first | rfl | omega

theorem colU_last {n : Nat} (hn : 2 ≤ n) (a b : K) (r : Nat) :
    colU n a b (n - 1) r = if r = 2 * n - 1 then -b else if r = n then -a else 0 := by
  unfold colU; split_ifs <;> first | rfl | omega

theorem colU_mid {n m : Nat} (hm : 0 < m) (hm1 : m + 1 < n) (a b : K) (r : Nat) :
    colU n a b m r = if r = n + m + 1 then b else if r = n + m then -b
      else if r = 2 + m then a else if r = 1 + m then -a else 0 := by
  unfold colU; split_ifs <;> first | rfl | omega

/-- Entries of the RhoU matrix. -/
theorem rhoUJacobian_entries {n : Nat} (hn : 2 ≤ n) (d : DerivsU K) (jac : Nat → K) :
    ∀ r m, r < 2 * n → m < n →
      rhoUJacobian n d jac (r * (2 * n) + m) =
        (if r = 0 then 1 else if r = 1 then 0 else colU n (d.dpdv m) (d.dtdv m) m r) ∧
      rhoUJacobian n d jac (r * (2 * n) + (n + m)) =
        (if r = 0 then 0 else if r = 1 then 1 else colU n (d.dpde m) (d.dtde m) m r) := by
  set N := 2 * n with hN
  -- the two rows of ones
  have h1 := forN_inv (n := n) (s := fill (N * N) (fun _ => (0 : K)) jac)
    (body := fun j m => Function.update (Function.update j m 1) (N + n + m) 1)
    (P := fun k s => ∀ r c, r < N → c < N → s (r * N + c) =
      if (r = 0 ∧ c < k) ∨ (r = 1 ∧ n ≤ c ∧ c < n + k) then 1 else 0) ?_ ?_
  rotate_left
  · intro r c hr hc
    rw [fill_apply, if_pos (addr_lt hr hc)]
    rw [if_neg]; omega
  · intro k s hk ih r c hr hc
    simp only [Function.update_apply]
    rw [ih r c hr hc]
    have e1 : r * N + c = N + n + k ↔ r = 1 ∧ c = n + k := by
      have := addr_inj (r := r) (r' := 1) hc (show n + k < N by omega)
      rw [one_mul] at this
      rw [← this]; omega
    have e2 : r * N + c = k ↔ r = 0 ∧ c = k := by
      have := addr_inj (r := r) (r' := 0) hc (show k < N by omega)
      rw [zero_mul, zero_add] at this
      exact this
    simp only [e1, e2]
    split_ifs <;> first | rfl | omega
  set j1 := forN n (fun j m => Function.update (Function.update j m 1) (N + n + m) 1)
    (fill (N * N) (fun _ => (0 : K)) jac) with hj1
  -- first and last material
  set j9 := Function.update (Function.update (Function.update (Function.update (Function.update
    (Function.update (Function.update (Function.update j1 (2 * 2 * n) (d.dpdv 0))
    (n * 2 * n + n - 1) (-d.dpdv (n - 1))) ((n + 1) * 2 * n) (d.dtdv 0))
    ((2 * n - 1) * 2 * n + n - 1) (-d.dtdv (n - 1))) (2 * 2 * n + n) (d.dpde 0))
    (n * 2 * n + 2 * n - 1) (-d.dpde (n - 1))) ((n + 1) * 2 * n + n) (d.dtde 0))
    ((2 * n - 1) * 2 * n + 2 * n - 1) (-d.dtde (n - 1)) with hj9
  have a0 : ∀ r c, c < N → (r * N + c = (2 * n - 1) * 2 * n + 2 * n - 1 ↔ r = 2 * n - 1 ∧ c = 2 * n - 1) := by
    intro r c hc
    rw [← addr_inj hc (show 2 * n - 1 < N by omega), mul_assoc, ← hN]; omega
  have a1 : ∀ r c, c < N → (r * N + c = (n + 1) * 2 * n + n ↔ r = n + 1 ∧ c = n) := by
    intro r c hc
    rw [← addr_inj hc (show n < N by omega), mul_assoc (n + 1), ← hN]
  have a2 : ∀ r c, c < N → (r * N + c = n * 2 * n + 2 * n - 1 ↔ r = n ∧ c = 2 * n - 1) := by
    intro r c hc
    rw [← addr_inj hc (show 2 * n - 1 < N by omega), mul_assoc n, ← hN]; omega
  have a3 : ∀ r c, c < N → (r * N + c = 2 * 2 * n + n ↔ r = 2 ∧ c = n) := by
    intro r c hc
    rw [← addr_inj hc (show n < N by omega), mul_assoc 2, ← hN]
  have a4 : ∀ r c, c < N → (r * N + c = (2 * n - 1) * 2 * n + n - 1 ↔ r = 2 * n - 1 ∧ c = n - 1) := by
    intro r c hc
    rw [← addr_inj hc (show n - 1 < N by omega), mul_assoc, ← hN]; omega
  have a5 : ∀ r c, c < N → (r * N + c = (n + 1) * 2 * n ↔ r = n + 1 ∧ c = 0) := by
    intro r c hc
    rw [← addr_inj hc (show 0 < N by omega), mul_assoc (n + 1), ← hN, add_zero]
  have a6 : ∀ r c, c < N → (r * N + c = n * 2 * n + n - 1 ↔ r = n ∧ c = n - 1) := by
    intro r c hc
    rw [← addr_inj hc (show n - 1 < N by omega), mul_assoc n, ← hN]; omega
  have a7 : ∀ r c, c < N → (r * N + c = 2 * 2 * n ↔ r = 2 ∧ c = 0) := by
    intro r c hc
    rw [← addr_inj hc (show 0 < N by omega), mul_assoc 2, ← hN, add_zero]
  have h9 : ∀ r m, r < N → m < n →
      j9 (r * N + m) = (if r = 0 then 1 else if r = 1 then 0
        else if m = 0 ∨ m = n - 1 then colU n (d.dpdv m) (d.dtdv m) m r else 0) ∧
      j9 (r * N + (n + m)) = (if r = 0 then 0 else if r = 1 then 1
        else if m = 0 ∨ m = n - 1 then colU n (d.dpde m) (d.dtde m) m r else 0) := by
    intro r m hr hm
    have b1 := h1 r m hr (by omega)
    have b2 := h1 r (n + m) hr (by omega)
    have hc1 : m < N := by omega
    have hc2 : n + m < N := by omega
    simp only [hj9, Function.update_apply, a0 r _ hc1, a1 r _ hc1, a2 r _ hc1, a3 r _ hc1, a4 r _ hc1,
      a5 r _ hc1, a6 r _ hc1, a7 r _ hc1, a0 r _ hc2, a1 r _ hc2, a2 r _ hc2, a3 r _ hc2, a4 r _ hc2,
      a5 r _ hc2, a6 r _ hc2, a7 r _ hc2, b1, b2]
    clear a0 a1 a2 a3 a4 a5 a6 a7 b1 b2 h1
    clear_value j9 j1
    have hmc : m = 0 ∨ (m ≠ 0 ∧ m = n - 1) ∨ (m ≠ 0 ∧ m ≠ n - 1) := by omega
    have hrc : r = 0 ∨ r = 1 ∨ 2 ≤ r := by omega
    have z1 : n + m ≠ 0 := by omega
    have z2 : n + m ≠ n - 1 := by omega
    have z3 : m ≠ n := by omega
    have z4 : m ≠ 2 * n - 1 := by omega
    simp only [z1, z2, z3, z4, and_false, if_false]
    rcases hmc with rfl | ⟨hm0, hm1⟩ | ⟨hm0, hm1⟩
    · have y1 : ¬ (0 = n - 1) := by omega
      have y2 : ¬ (n = 2 * n - 1) := by omega
      rw [colU_first hn, colU_first hn]
      rcases hrc with rfl | rfl | h2
      · constructor <;> (repeat first | rw [if_pos (by omega)] | rw [if_neg (by omega)])
      · constructor <;> (repeat first | rw [if_pos (by omega)] | rw [if_neg (by omega)])
      · have x1 : r ≠ 0 := by omega
        have x2 : r ≠ 1 := by omega
        simp only [y1, y2, x1, x2, and_false, and_true, if_false, add_zero, true_or, if_true, false_and,
          or_self]
    · have y1 : ¬ (n + (n - 1) = n) := by omega
      have y2 : n + (n - 1) = 2 * n - 1 := by omega
      have y3 : ¬ (n - 1 = 0) := by omega
      subst hm1
      rw [colU_last hn, colU_last hn]
      rcases hrc with rfl | rfl | h2
      · constructor <;> (repeat first | rw [if_pos (by omega)] | rw [if_neg (by omega)])
      · constructor <;> (repeat first | rw [if_pos (by omega)] | rw [if_neg (by omega)])
      · have x1 : r ≠ 0 := by omega
        have x2 : r ≠ 1 := by omega
        have y4 : ¬ (2 * n - 1 = n) := by omega
        simp only [y1, y2, y3, y4, x1, x2, and_false, and_true, if_false, or_true, if_true, false_and,
          or_self]
    · have y1 : ¬ (n + m = 2 * n - 1) := by omega
      have y2 : ¬ (n + m = n) := by omega
      rcases hrc with rfl | rfl | h2
      · constructor <;> (repeat first | rw [if_pos (by omega)] | rw [if_neg (by omega)])
      · constructor <;> (repeat first | rw [if_pos (by omega)] | rw [if_neg (by omega)])
      · have x1 : r ≠ 0 := by omega
        have x2 : r ≠ 1 := by omega
        simp only [y1, y2, hm0, hm1, x1, x2, and_false, if_false, false_and, or_self, and_self]
  -- interior materials
  have h := forN_inv (n := n - 2) (s := j9)
    (body := fun j k =>
      let m := k + 1
      let a := Function.update j ((1 + m) * 2 * n + m) (-d.dpdv m)
      let a := Function.update a ((2 + m) * 2 * n + m) (d.dpdv m)
      let a := Function.update a ((n + m) * 2 * n + m) (-d.dtdv m)
      let a := Function.update a ((n + m + 1) * 2 * n + m) (d.dtdv m)
      let a := Function.update a ((1 + m) * 2 * n + n + m) (-d.dpde m)
      let a := Function.update a ((2 + m) * 2 * n + n + m) (d.dpde m)
      let a := Function.update a ((n + m) * 2 * n + n + m) (-d.dtde m)
      Function.update a ((n + m + 1) * 2 * n + n + m) (d.dtde m))
    (P := fun k s => ∀ r m, r < N → m < n →
      s (r * N + m) = (if r = 0 then 1 else if r = 1 then 0
        else if m = 0 ∨ m = n - 1 ∨ m ≤ k then colU n (d.dpdv m) (d.dtdv m) m r else 0) ∧
      s (r * N + (n + m)) = (if r = 0 then 0 else if r = 1 then 1
        else if m = 0 ∨ m = n - 1 ∨ m ≤ k then colU n (d.dpde m) (d.dtde m) m r else 0)) ?_ ?_
  · intro r m hr hm
    obtain ⟨q1, q2⟩ := h r m hr hm
    have hc : m = 0 ∨ m = n - 1 ∨ m ≤ n - 2 := by omega
    rw [if_pos hc] at q1 q2
    exact ⟨q1, q2⟩
  · intro r m hr hm
    obtain ⟨q1, q2⟩ := h9 r m hr hm
    have hc : (m = 0 ∨ m = n - 1 ∨ m ≤ 0) ↔ (m = 0 ∨ m = n - 1) := by omega
    simp only [hc]
    exact ⟨q1, q2⟩
  · intro k s hk ih r m hr hm
    obtain ⟨q1, q2⟩ := ih r m hr hm
    have hc1 : m < N := by omega
    have hc2 : n + m < N := by omega
    have f1 : ∀ R C c, c < N → C < N → (r * N + c = R * 2 * n + C ↔ r = R ∧ c = C) := by
      intro R C c hc hC
      rw [← addr_inj hc hC, mul_assoc R, ← hN]
    have f2 : ∀ R C c, c < N → n + C < N → (r * N + c = R * 2 * n + n + C ↔ r = R ∧ c = n + C) := by
      intro R C c hc hC
      rw [← addr_inj hc hC, mul_assoc R, ← hN, add_assoc]
    have hC1 : k + 1 < N := by omega
    have hC2 : n + (k + 1) < N := by omega
    simp only [Function.update_apply, f1 _ _ _ hc1 hC1, f1 _ _ _ hc2 hC1, f2 _ _ _ hc1 hC2,
      f2 _ _ _ hc2 hC2, q1, q2]
    clear q1 q2 f1 f2 ih h9 h1 a0 a1 a2 a3 a4 a5 a6 a7
    clear_value j9 j1
    by_cases hmk : m = k + 1
    · subst hmk
      have z1 : ¬ (n + (k + 1) = k + 1) := by omega
      have z2 : ¬ (k + 1 = n + (k + 1)) := by omega
      have z3 : ¬ (k + 1 = 0 ∨ k + 1 = n - 1 ∨ k + 1 ≤ k) := by omega
      have z4 : k + 1 = 0 ∨ k + 1 = n - 1 ∨ k + 1 ≤ k + 1 := by omega
      rw [colU_mid (by omega) (by omega), colU_mid (by omega) (by omega)]
      simp only [z1, z2, z3, z4, and_false, and_true, if_false, if_true]
      have hrc : r = 0 ∨ r = 1 ∨ 2 ≤ r := by omega
      rcases hrc with rfl | rfl | h2
      · constructor <;> (repeat first | rw [if_pos (by omega)] | rw [if_neg (by omega)])
      · constructor <;> (repeat first | rw [if_pos (by omega)] | rw [if_neg (by omega)])
      · have x1 : r ≠ 0 := by omega
        have x2 : r ≠ 1 := by omega
        simp only [x1, x2, if_false, and_self]
    · have e : (m = 0 ∨ m = n - 1 ∨ m ≤ k + 1) ↔ (m = 0 ∨ m = n - 1 ∨ m ≤ k) := by omega
      simp only [e]
      have hne : ¬ (n + m = n + (k + 1)) := by omega
      have hne' : ¬ (m = n + (k + 1)) := by omega
      have hne'' : ¬ (n + m = k + 1) := by omega
      simp only [hmk, hne, hne', hne'', and_false, if_false, and_self]

end Verif.PTE
