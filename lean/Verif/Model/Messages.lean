import Mathlib.Logic.Function.Basic
import Mathlib.Order.Nat
import Mathlib.Data.Nat.Find
import Mathlib.Data.List.Basic

/-!
# Error messages built in fixed buffers: `eos_base/impl::StrCat` and its two callers (`eos_base.hpp:44-68, 591-600, 615-627`)

Memory from the start of a buffer is a map from positions to characters; positions at or after `MAX_NUM_CHARS` are not the
buffer's.  `none` is the abort of `PORTABLE_REQUIRE`, which is checked in debug builds only (`dbg`).
-/

namespace Verif.Msg

/-- Memory from the start of a `char` array. (eos_base.hpp:49) -/
abbrev Chars := Nat → Char

/-- The null terminator. (eos_base.hpp:53) -/
def nul : Char := Char.ofNat 0

/-- `MAX_NUM_CHARS`, `eos_base.hpp:46`. -/
def maxNumChars : Nat := 121

/-- The loop `for (j = 0; source[j] != '\0'; j++)`, `eos_base.hpp:56-62`, for the first `n` characters. -/
def copyLoop (dbg : Bool) (d s : Chars) (i : Nat) : Nat → Option Chars
  | 0 => some d
  | j + 1 => (copyLoop dbg d s i j).bind fun d' =>
      let ipj := i + j
      if dbg ∧ ¬ ipj < maxNumChars - 1 then none else some (Function.update d' ipj (s j))

/-- `StrCat`, `eos_base.hpp:48-67`. The first loop (`:53-54`) stops at the first null character of the destination, the
second at the first of the source: both must have one. -/
def strCat (dbg : Bool) (d s : Chars) (hd : ∃ i, d i = nul) (hs : ∃ j, s j = nul) : Option Chars :=
  let i := Nat.find hd
  let j := Nat.find hs
  (copyLoop dbg d s i j).map fun d' => Function.update d' (i + j) nul

/-- A string literal in memory: its characters, a null, then whatever follows. (eos_base.hpp:597-599) -/
def lit (l : List Char) (rest : Chars) : Chars := fun k => if k < l.length then l.getD k nul else if k = l.length then nul else rest k

/-- `char msg[MAX_NUM_CHARS] = "…"`: the rest of the array is null, what follows it is not the array's. (eos_base.hpp:597,622) -/
def initArray (l : List Char) (beyond : Chars) : Chars := fun k => if k < maxNumChars then l.getD k nul else beyond k

theorem lit_nul (l : List Char) (rest : Chars) : ∃ j, lit l rest j = nul := ⟨l.length, by simp [lit]⟩

/-- `StrCat` of a literal to memory holding a string; `none` also if the destination has no end. (eos_base.hpp:598-599) -/
noncomputable def strCatLit (dbg : Bool) (d : Chars) (l : List Char) (rest : Chars) : Option Chars := by
  classical
  exact if hd : ∃ i, d i = nul then strCat dbg d (lit l rest) hd (lit_nul l rest) else none

/-- The text before the name, `eos_base.hpp:597`. -/
def entropyText : List Char := "Singularity-EOS: Entropy is not enabled for the '".toList

/-- The text before the name, `eos_base.hpp:623`. -/
def minEnergyText : List Char := "Singularity-EOS: MinInternalEnergyFromDensity() is not enabled for the '".toList

/-- The text after the name, `eos_base.hpp:599,625`. -/
def tailText : List Char := "' EOS".toList

/-- `EntropyIsNotEnabled` and `MinInternalEnergyIsNotEnabled` up to the abort, `eos_base.hpp:591-600`, `:615-627`: the buffer
passed to `PORTABLE_ALWAYS_THROW_OR_ABORT`. -/
noncomputable def message (dbg : Bool) (text name : List Char) (beyond r1 r2 : Chars) : Option Chars :=
  (strCatLit dbg (initArray text beyond) name r1).bind fun d => strCatLit dbg d tailText r2

/-- The names the library passes to `EntropyIsNotEnabled`: `eos_spiner_rho_sie.hpp:699,707`, `eos_davis.hpp:112,119,264,271`,
`eos_gruneisen.hpp:382`, `eos_jwl.hpp:168,206`, `eos_spiner_rho_temp.hpp:831,837`. -/
def entropyNames : List (List Char) :=
  ["SpinerEOSDependsRhoSieTransformable".toList, "DavisReactants".toList, "DavisProducts".toList, "Gruneisen".toList,
    "JWL".toList, "SpinerEOSDependsRhoT".toList]

/-- The name passed to `MinInternalEnergyIsNotEnabled`: `eos_davis.hpp:257`. -/
def minEnergyNames : List (List Char) := ["DavisProducts".toList]

end Verif.Msg
