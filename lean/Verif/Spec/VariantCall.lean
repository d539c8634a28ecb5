import Verif.Model.VariantCall

/-! # What array calls of a Variant should do -/

namespace Verif

namespace VarCall

/-- The ways to write an array call: with or without an execution space, a scratch pointer and lambdas; arrays as raw pointers or as
other indexers. -/
structure Style (Λ : Type) where
  space : Option Bool
  scratch : Option Nat
  lams : Option (Nat → Λ)
  raw : Bool

variable {K Λ : Type}

/-- An array argument. -/
def Style.arr (st : Style Λ) (a : Nat) : Val Λ := if st.raw then .raw a else .idx a

/-- The execution-space argument, if given. -/
def Style.pre (st : Style Λ) : List (Val Λ) :=
  match st.space with
  | some b => [.space b]
  | none => []

/-- The scratch argument, if given. -/
def Style.scr (st : Style Λ) : List (Val Λ) :=
  match st.scratch with
  | some a => [.raw a]
  | none => []

/-- The lambda argument, if given. -/
def Style.post (st : Style Λ) : List (Val Λ) :=
  match st.lams with
  | some l => [.lams l]
  | none => []

/-- The lambda of an element: the caller's, or the null pointer. -/
def Style.lam (st : Style Λ) (nl : Λ) (i : Nat) : Λ :=
  match st.lams with
  | some l => l i
  | none => nl

/-- `NAME([space,] in1, in2, out, [scratch,] num[, lambdas])`. -/
def Style.args2 (st : Style Λ) (a b c : Nat) (n : Int) : List (Val Λ) :=
  st.pre ++ [st.arr a, st.arr b, st.arr c] ++ st.scr ++ [.int n] ++ st.post

/-- `MinInternalEnergyFromDensity([space,] rhos, sies, [scratch,] num[, lambdas])`. -/
def Style.args1 (st : Style Λ) (a c : Nat) (n : Int) : List (Val Λ) :=
  st.pre ++ [st.arr a, st.arr c] ++ st.scr ++ [.int n] ++ st.post

/-- `FillEos([space,] rhos, temps, energies, presses, cvs, bmods, num, output[, lambdas])`. -/
def Style.argsFill (st : Style Λ) (r t e p c b : Nat) (n : Int) (o : Mods.Flags) : List (Val Λ) :=
  st.pre ++ [st.arr r, st.arr t, st.arr e, st.arr p, st.arr c, st.arr b, .int n, .ulong o] ++ st.post

/-- The scalar answer of an object for the elements with the given index. -/
def thermoAt (m : Mem K) (r t e p c b i : Nat) : Mods.Thermo K where
  rho := m r i
  temp := m t i
  sie := m e i
  press := m p i
  cv := m c i
  bmod := m b i

/-- A class whose own raw-pointer array code, if any, answers what its scalar calls answer. -/
def Obj.OwnOk (h : Obj K Λ) : Prop :=
  (∀ k f, h.own2 k = some f → ∀ n a b l out i, f n a b l out i = if i < n then h.q k (l i) (a i) (b i) else out i) ∧
  (∀ f, h.own1 = some f → ∀ n a l out i, f n a l out i = if i < n then h.minE (l i) (a i) else out i)

/-- How each scalar function may be called: the number of arguments, and whether the last parameter is then left to its default.
(From the documentation: lambdas are optional except where they are not the last parameter.) -/
def counts : SFn → List (Nat × Bool)
  | .minInternalEnergyFromDensity => [(2, false), (1, true)]
  | .pTDerivativesFromPreferred => [(9, false)]
  | .fillEos => [(8, false), (7, true)]
  | .valuesAtReferenceState => [(9, false), (8, true)]
  | .densityEnergyFromPressureTemperature => [(5, false), (4, false)]
  | .internalEnergyFromDensityPressure => [(4, false), (3, true)]
  | .rhoPmin | .maximumPressureAtTemperature | .dumpDynamicMemory | .maxScratchSize => [(1, false)]
  | .scratchSize => [(2, false)]
  | .setDynamicMemory => [(2, false), (1, true)]
  | .minimumDensity | .minimumTemperature | .maximumDensity | .minimumPressure | .meanAtomicMass | .meanAtomicNumber
  | .checkParams | .dynamicMemorySizeInBytes | .sharedMemorySizeInBytes | .allDynamicMemoryIsShareable | .isModified
  | .preferredInput | .nlambda | .printParams | .eosType | .eosPyType | .finalize => [(0, false)]
  | _ => [(3, false), (2, true)]

end VarCall

end Verif
