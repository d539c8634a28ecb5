import Verif.Spec.Rounding

/-! # Floating-point numbers with overflow, infinities and NaN

`Ext` is a number of the machine; its arithmetic is that of IEEE 754 with rounding `rnd` and largest finite number `Ω`. Signed
zeros are not distinguished. -/

namespace Verif

namespace Ieee

open Classical

/-- A machine number. The infinity carries its sign (`true`: negative). -/
inductive Ext where
  | nan
  | inf (neg : Bool)
  | fin (x : ℝ)

/-- A real result: rounded, or an infinity if too large. -/
noncomputable def ofReal (rnd : ℝ → ℝ) (Ω r : ℝ) : Ext :=
  if Ω < |rnd r| then .inf (decide (r < 0)) else .fin (rnd r)

/-- Addition. -/
noncomputable def add (rnd : ℝ → ℝ) (Ω : ℝ) : Ext → Ext → Ext
  | .nan, _ => .nan
  | _, .nan => .nan
  | .inf s, .inf t => if s = t then .inf s else .nan
  | .inf s, .fin _ => .inf s
  | .fin _, .inf t => .inf t
  | .fin x, .fin y => ofReal rnd Ω (x + y)

/-- Multiplication. -/
noncomputable def mul (rnd : ℝ → ℝ) (Ω : ℝ) : Ext → Ext → Ext
  | .nan, _ => .nan
  | _, .nan => .nan
  | .inf s, .inf t => .inf (xor s t)
  | .inf s, .fin y => if y = 0 then .nan else .inf (xor s (decide (y < 0)))
  | .fin x, .inf t => if x = 0 then .nan else .inf (xor (decide (x < 0)) t)
  | .fin x, .fin y => ofReal rnd Ω (x * y)

/-- Division. -/
noncomputable def div (rnd : ℝ → ℝ) (Ω : ℝ) : Ext → Ext → Ext
  | .nan, _ => .nan
  | _, .nan => .nan
  | .inf _, .inf _ => .nan
  | .inf s, .fin y => .inf (xor s (decide (y < 0)))
  | .fin _, .inf _ => .fin 0
  | .fin x, .fin y => if y = 0 then (if x = 0 then .nan else .inf (decide (x < 0))) else ofReal rnd Ω (x / y)

/-- The comparison `x < y`; false if either is NaN. -/
def lt : Ext → Ext → Prop
  | .nan, _ => False
  | _, .nan => False
  | .inf s, .inf t => s = true ∧ t = false
  | .inf s, .fin _ => s = true
  | .fin _, .inf t => t = false
  | .fin x, .fin y => x < y

/-- The comparison `x <= y`; false if either is NaN. -/
def le : Ext → Ext → Prop
  | .nan, _ => False
  | _, .nan => False
  | .inf s, .inf t => s = true ∨ t = false
  | .inf s, .fin _ => s = true
  | .fin _, .inf t => t = false
  | .fin x, .fin y => x ≤ y

/-- The largest finite `double`, `(2^53 - 1) · 2^971`. -/
noncomputable def maxDouble : ℝ := (2 ^ 53 - 1) * 2 ^ 971

end Ieee

end Verif
