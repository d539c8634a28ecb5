import Verif.Model.EosIface

/-! # Calls of a `Variant`: overloads, forwarding and array loops

`Variant` (eos_variant.hpp) forwards every call to the EOS it holds; the EOS classes inherit the array calls from `EosBase`
(eos_base.hpp). An overload is modelled by its formal parameters (name and which arguments they accept) and its body: a call of
another overload of the same function, a call of the held object, or a loop. Calls are resolved by the arguments given, as C++ does:
a call with no viable overload, or with several, is not compiled (`none`). Simplifications: conversions between numeric types and the
requirement that `IN1` and `IN2` have the same type are left out; the `Transform` argument, which users do not pass, is left out. -/

namespace Verif

namespace VarCall

/-- The two-input array queries. (eos_variant.hpp:543-545,645-650; eos_base.hpp:422-424,499-503,723) -/
inductive Q2
  | tRE | eRT | pRT | pRE | sRT | sRE | gibbsRT | gibbsRE | cvRT | cvRE | bRT | bRE | grRT | grRE | eRP
  deriving DecidableEq

/-- The array functions. (eos_variant.hpp:543-712) -/
inductive AFn
  | q2 (m : Q2)
  | minE
  | fill
  deriving DecidableEq

/-- Actual arguments. `raw a`: a `Real *` (or `const Real *`) to the array number `a` (the scratch pointer is one, too); `idx a`: any
other object with `operator[](int)`, for the array number `a`; `space true` is `PortsOfCall::Exec::Device()`. `lams` is the lambda
indexer: the lambda of each element. (eos_variant.hpp:535-542) -/
inductive Val (Λ : Type)
  | space (device : Bool)
  | raw (a : Nat)
  | idx (a : Nat)
  | int (n : Int)
  | ulong (f : Mods.Flags)
  | lams (l : Nat → Λ)

/-- Types of formal parameters: `space` is a template parameter that has no `operator[](int)`; `constIdx` the first array, required
to have it; `any` an unconstrained template parameter; `notRaw` one that may not be `Real *`; `ptr` is `Real *`.
(eos_variant.hpp:56-145; eos_base.hpp:171-232; variadic_utils.hpp:117-124) -/
inductive FTy
  | space | constIdx | any | notRaw | ptr | int | ulong

/-- Whether an argument can be passed. (variadic_utils.hpp:117-124 `has_int_index_v`; eos_base.hpp:332-334 `is_raw_pointer`) -/
def FTy.accepts {Λ : Type} : FTy → Val Λ → Bool
  | .space, .space _ => true
  | .space, .int _ => true
  | .space, .ulong _ => true
  | .space, _ => false
  | .constIdx, .raw _ => true
  | .constIdx, .idx _ => true
  | .constIdx, .lams _ => true
  | .constIdx, _ => false
  | .any, _ => true
  | .notRaw, .raw _ => false
  | .notRaw, _ => true
  | .ptr, .raw _ => true
  | .ptr, _ => false
  | .int, .int _ => true
  | .int, _ => false
  | .ulong, .ulong _ => true
  | .ulong, .int _ => true
  | .ulong, _ => false

/-- Names of parameters. (eos_variant.hpp:56-145,547-712) -/
inductive Nm
  | s | in1 | in2 | out | scratch | num | lambdas | rhos | sies | temps | energies | presses | cvs | bmods | output
  deriving DecidableEq

/-- An actual argument in a forwarded call: a parameter, `PortsOfCall::Exec::Device()`, or a local `NullIndexer`.
(eos_variant.hpp:46-51,62,113) -/
inductive Ex
  | var (x : Nm)
  | device
  | null

/-- The body of an overload: another overload of the same function, the same function of the held object, or the loop of the base
class. (eos_variant.hpp:62-84; eos_base.hpp:178-183) -/
inductive Body
  | self (args : List Ex)
  | held (args : List Ex)
  | loop

/-- An overload: formal parameters and body. (eos_variant.hpp:56-145) -/
structure Ovl where
  formals : List (Nm × FTy)
  body : Body

variable {K Λ : Type}

/-- Can the overload be called with these arguments? (not code: C++ overload resolution) -/
def Ovl.viable (o : Ovl) (args : List (Val Λ)) : Bool :=
  decide (args.length = o.formals.length) && (o.formals.zip args).all (fun p => p.1.2.accepts p.2)

/-- The overload a call uses: the only viable one. (not code: C++ overload resolution) -/
def resolve (tbl : List Ovl) (args : List (Val Λ)) : Option Ovl :=
  match tbl.filter (fun o => o.viable args) with
  | [o] => some o
  | _ => none

/-- The value of a parameter in a call. (not code: parameter passing) -/
def Ovl.get (o : Ovl) (args : List (Val Λ)) (x : Nm) : Option (Val Λ) :=
  ((o.formals.map Prod.fst).zip args).lookup x

/-- The value of a forwarded argument; `nl` is the null lambda. (eos_variant.hpp:46-51) -/
def Ovl.eval (nl : Λ) (o : Ovl) (args : List (Val Λ)) : Ex → Option (Val Λ)
  | .var x => o.get args x
  | .device => some (.space true)
  | .null => some (.lams (fun _ => nl))

/-- The eight overloads of `SG_VARIANT_VEC_2IN_1OUT`. (eos_variant.hpp:56-145) -/
def variant2 : List Ovl :=
  [ -- :57-67
    { formals := [(.s, .space), (.in1, .any), (.in2, .any), (.out, .any), (.num, .int)]
      body := .self [.var .s, .var .in1, .var .in2, .var .out, .var .num, .null] },
    -- :68-84
    { formals := [(.s, .space), (.in1, .any), (.in2, .any), (.out, .any), (.num, .int), (.lambdas, .any)]
      body := .held [.var .s, .var .in1, .var .in2, .var .out, .var .num, .var .lambdas] },
    -- :85-94
    { formals := [(.s, .space), (.in1, .any), (.in2, .any), (.out, .any), (.scratch, .ptr), (.num, .int)]
      body := .self [.var .s, .var .in1, .var .in2, .var .out, .var .scratch, .var .num, .null] },
    -- :95-111
    { formals := [(.s, .space), (.in1, .any), (.in2, .any), (.out, .any), (.scratch, .ptr), (.num, .int), (.lambdas, .any)]
      body := .held [.var .s, .var .in1, .var .in2, .var .out, .var .scratch, .var .num, .var .lambdas] },
    -- :112-120
    { formals := [(.in1, .constIdx), (.in2, .any), (.out, .any), (.num, .int)]
      body := .self [.device, .var .in1, .var .in2, .var .out, .var .num] },
    -- :121-129
    { formals := [(.in1, .constIdx), (.in2, .any), (.out, .any), (.num, .int), (.lambdas, .any)]
      body := .self [.device, .var .in1, .var .in2, .var .out, .var .num, .var .lambdas] },
    -- :130-138
    { formals := [(.in1, .constIdx), (.in2, .any), (.out, .any), (.scratch, .ptr), (.num, .int)]
      body := .self [.device, .var .in1, .var .in2, .var .out, .var .scratch, .var .num] },
    -- :139-148
    { formals := [(.in1, .constIdx), (.in2, .any), (.out, .any), (.scratch, .ptr), (.num, .int), (.lambdas, .any)]
      body := .self [.device, .var .in1, .var .in2, .var .out, .var .scratch, .var .num, .var .lambdas] } ]

/-- The eight overloads of `MinInternalEnergyFromDensity`. (eos_variant.hpp:547-643) -/
def variant1 : List Ovl :=
  [ { formals := [(.s, .space), (.rhos, .any), (.sies, .any), (.num, .int)]
      body := .self [.var .s, .var .rhos, .var .sies, .var .num, .null] },
    { formals := [(.s, .space), (.rhos, .any), (.sies, .any), (.num, .int), (.lambdas, .any)]
      body := .held [.var .s, .var .rhos, .var .sies, .var .num, .var .lambdas] },
    { formals := [(.s, .space), (.rhos, .any), (.sies, .any), (.scratch, .ptr), (.num, .int)]
      body := .self [.var .s, .var .rhos, .var .sies, .var .scratch, .var .num, .null] },
    { formals := [(.s, .space), (.rhos, .any), (.sies, .any), (.scratch, .ptr), (.num, .int), (.lambdas, .any)]
      body := .held [.var .s, .var .rhos, .var .sies, .var .scratch, .var .num, .var .lambdas] },
    { formals := [(.rhos, .constIdx), (.sies, .any), (.num, .int)]
      body := .self [.device, .var .rhos, .var .sies, .var .num] },
    { formals := [(.rhos, .constIdx), (.sies, .any), (.num, .int), (.lambdas, .any)]
      body := .self [.device, .var .rhos, .var .sies, .var .num, .var .lambdas] },
    { formals := [(.rhos, .constIdx), (.sies, .any), (.scratch, .ptr), (.num, .int)]
      body := .self [.device, .var .rhos, .var .sies, .var .scratch, .var .num] },
    { formals := [(.rhos, .constIdx), (.sies, .any), (.scratch, .ptr), (.num, .int), (.lambdas, .any)]
      body := .self [.device, .var .rhos, .var .sies, .var .scratch, .var .num, .var .lambdas] } ]

/-- The four array overloads of `FillEos`. (eos_variant.hpp:652-712) -/
def variantFill : List Ovl :=
  [ { formals := [(.s, .space), (.rhos, .any), (.temps, .any), (.energies, .any), (.presses, .any), (.cvs, .any), (.bmods, .any),
        (.num, .int), (.output, .ulong)]
      body := .self [.var .s, .var .rhos, .var .temps, .var .energies, .var .presses, .var .cvs, .var .bmods, .var .num,
        .var .output, .null] },
    { formals := [(.s, .space), (.rhos, .any), (.temps, .any), (.energies, .any), (.presses, .any), (.cvs, .any), (.bmods, .any),
        (.num, .int), (.output, .ulong), (.lambdas, .any)]
      body := .held [.var .s, .var .rhos, .var .temps, .var .energies, .var .presses, .var .cvs, .var .bmods, .var .num,
        .var .output, .var .lambdas] },
    { formals := [(.rhos, .constIdx), (.temps, .any), (.energies, .any), (.presses, .any), (.cvs, .any), (.bmods, .any),
        (.num, .int), (.output, .ulong)]
      body := .self [.device, .var .rhos, .var .temps, .var .energies, .var .presses, .var .cvs, .var .bmods, .var .num,
        .var .output] },
    { formals := [(.rhos, .constIdx), (.temps, .any), (.energies, .any), (.presses, .any), (.cvs, .any), (.bmods, .any),
        (.num, .int), (.output, .ulong), (.lambdas, .any)]
      body := .self [.device, .var .rhos, .var .temps, .var .energies, .var .presses, .var .cvs, .var .bmods, .var .num,
        .var .output, .var .lambdas] } ]

/-- The overloads of the `Variant`. (eos_variant.hpp:543-712) -/
def variantTbl : AFn → List Ovl
  | .q2 _ => variant2
  | .minE => variant1
  | .fill => variantFill

/-- The six overloads of `SG_EOS_VEC_2IN_1OUT`. (eos_base.hpp:171-232) -/
def base2 : List Ovl :=
  [ -- :172-183
    { formals := [(.s, .space), (.in1, .any), (.in2, .any), (.out, .any), (.num, .int), (.lambdas, .any)]
      body := .loop },
    -- :184-195
    { formals := [(.s, .space), (.in1, .any), (.in2, .any), (.out, .notRaw), (.scratch, .ptr), (.num, .int), (.lambdas, .any)]
      body := .self [.var .s, .var .in1, .var .in2, .var .out, .var .num, .var .lambdas] },
    -- :196-204
    { formals := [(.s, .space), (.in1, .ptr), (.in2, .ptr), (.out, .ptr), (.scratch, .ptr), (.num, .int), (.lambdas, .any)]
      body := .self [.var .s, .var .in1, .var .in2, .var .out, .var .num, .var .lambdas] },
    -- :205-213
    { formals := [(.in1, .constIdx), (.in2, .any), (.out, .any), (.num, .int), (.lambdas, .any)]
      body := .self [.device, .var .in1, .var .in2, .var .out, .var .num, .var .lambdas] },
    -- :214-224
    { formals := [(.in1, .constIdx), (.in2, .any), (.out, .notRaw), (.scratch, .ptr), (.num, .int), (.lambdas, .any)]
      body := .self [.device, .var .in1, .var .in2, .var .out, .var .num, .var .lambdas] },
    -- :225-231
    { formals := [(.in1, .ptr), (.in2, .ptr), (.out, .ptr), (.scratch, .ptr), (.num, .int), (.lambdas, .any)]
      body := .self [.device, .var .in1, .var .in2, .var .out, .var .num, .var .lambdas] } ]

/-- The six overloads of `MinInternalEnergyFromDensity`. (eos_base.hpp:427-497) -/
def base1 : List Ovl :=
  [ { formals := [(.s, .space), (.rhos, .any), (.sies, .any), (.num, .int), (.lambdas, .any)]
      body := .loop },
    { formals := [(.s, .space), (.rhos, .any), (.sies, .notRaw), (.scratch, .ptr), (.num, .int), (.lambdas, .any)]
      body := .self [.var .s, .var .rhos, .var .sies, .var .num, .var .lambdas] },
    { formals := [(.s, .space), (.rhos, .ptr), (.sies, .ptr), (.scratch, .ptr), (.num, .int), (.lambdas, .any)]
      body := .self [.var .s, .var .rhos, .var .sies, .var .num, .var .lambdas] },
    { formals := [(.rhos, .constIdx), (.sies, .any), (.num, .int), (.lambdas, .any)]
      body := .self [.device, .var .rhos, .var .sies, .var .num, .var .lambdas] },
    { formals := [(.rhos, .constIdx), (.sies, .notRaw), (.scratch, .ptr), (.num, .int), (.lambdas, .any)]
      body := .self [.device, .var .rhos, .var .sies, .var .num, .var .lambdas] },
    { formals := [(.rhos, .ptr), (.sies, .ptr), (.scratch, .ptr), (.num, .int), (.lambdas, .any)]
      body := .self [.device, .var .rhos, .var .sies, .var .num, .var .lambdas] } ]

/-- The two array overloads of `FillEos`. (eos_base.hpp:505-535) -/
def baseFill : List Ovl :=
  [ { formals := [(.s, .space), (.rhos, .any), (.temps, .any), (.energies, .any), (.presses, .any), (.cvs, .any), (.bmods, .any),
        (.num, .int), (.output, .ulong), (.lambdas, .any)]
      body := .loop },
    { formals := [(.rhos, .constIdx), (.temps, .any), (.energies, .any), (.presses, .any), (.cvs, .any), (.bmods, .any),
        (.num, .int), (.output, .ulong), (.lambdas, .any)]
      body := .self [.device, .var .rhos, .var .temps, .var .energies, .var .presses, .var .cvs, .var .bmods, .var .num,
        .var .output, .var .lambdas] } ]

/-- The overloads of the base class. (eos_base.hpp:422-535,723) -/
def baseTbl : AFn → List Ovl
  | .q2 _ => base2
  | .minE => base1
  | .fill => baseFill

/-- An EOS class: its scalar calls, and the class's own version, if any, of the raw-pointer overloads with scratch (modifiers and
EOSPAC; their scratch use is in `Verif.Model.Scratch`), given the arrays' contents. (eos_base.hpp:171-232; shifted_eos.hpp:194-420;
modifier_vector_macros.hpp:58-90) -/
structure Obj (K Λ : Type) where
  q : Q2 → Λ → K → K → K
  minE : Λ → K → K
  fill : Λ → Mods.Flags → Mods.Thermo K → Mods.Thermo K
  own2 : Q2 → Option (Nat → (Nat → K) → (Nat → K) → (Nat → Λ) → (Nat → K) → (Nat → K))
  own1 : Option (Nat → (Nat → K) → (Nat → Λ) → (Nat → K) → (Nat → K))

/-- The arrays of the program: array number, index. (not code: memory) -/
abbrev Mem (K : Type) := Nat → Nat → K

/-- Write one element. (not code: memory) -/
def Mem.set (m : Mem K) (a i : Nat) (x : K) : Mem K := fun b j => if b = a ∧ j = i then x else m b j

/-- The array an argument refers to. (not code: memory) -/
def Val.arr : Val Λ → Option Nat
  | .raw a => some a
  | .idx a => some a
  | _ => none

/-- `portableFor(cname, s, 0, num, ...)` over a two-input query: `OUT[i] = copy.NAME(IN1[i], IN2[i], lambdas[i])`.
(eos_base.hpp:178-183) -/
def loop2 (q : Λ → K → K → K) (a b c : Nat) (l : Nat → Λ) (n : Nat) (m : Mem K) : Mem K :=
  (List.range n).foldl (fun m i => m.set c i (q (l i) (m a i) (m b i))) m

/-- The same for `MinInternalEnergyFromDensity`. (eos_base.hpp:433-441) -/
def loop1 (q : Λ → K → K) (a c : Nat) (l : Nat → Λ) (n : Nat) (m : Mem K) : Mem K :=
  (List.range n).foldl (fun m i => m.set c i (q (l i) (m a i))) m

/-- One iteration of the loop of `FillEos`: the six elements are passed by reference. Simplification: the function reads all six
before it writes (they are six different arrays in the claims). (eos_base.hpp:515-518) -/
def fillStep (f : Λ → Mods.Flags → Mods.Thermo K → Mods.Thermo K) (r t e p c b : Nat) (o : Mods.Flags) (l : Nat → Λ) (m : Mem K)
    (i : Nat) : Mem K :=
  let x := f (l i) o
    { rho := m r i
      temp := m t i
      sie := m e i
      press := m p i
      cv := m c i
      bmod := m b i }
  (((((m.set r i x.rho).set t i x.temp).set e i x.sie).set p i x.press).set c i x.cv).set b i x.bmod

/-- The loop of `FillEos`. (eos_base.hpp:505-519) -/
def loopFill (f : Λ → Mods.Flags → Mods.Thermo K → Mods.Thermo K) (r t e p c b : Nat) (o : Mods.Flags) (l : Nat → Λ) (n : Nat)
    (m : Mem K) : Mem K :=
  (List.range n).foldl (fillStep f r t e p c b o l) m

/-- The loops of the base class, run with the arguments of the call. (eos_base.hpp:172-183,427-441,505-519) -/
def runLoop (h : Obj K Λ) : AFn → List (Val Λ) → Mem K → Option (Mem K)
  | .q2 k, [_, x, y, z, .int n, .lams l], m => do
    let a ← x.arr
    let b ← y.arr
    let c ← z.arr
    return loop2 (h.q k) a b c l n.toNat m
  | .minE, [_, x, z, .int n, .lams l], m => do
    let a ← x.arr
    let c ← z.arr
    return loop1 h.minE a c l n.toNat m
  | .fill, [_, x1, x2, x3, x4, x5, x6, .int n, .ulong o, .lams l], m => do
    let r ← x1.arr
    let t ← x2.arr
    let e ← x3.arr
    let p ← x4.arr
    let c ← x5.arr
    let b ← x6.arr
    return loopFill h.fill r t e p c b o l n.toNat m
  | _, _, _ => none

/-- The class's own raw-pointer overload with scratch, which hides the inherited one, if there is one and the arguments are raw
pointers. (shifted_eos.hpp:194-207; modifier_vector_macros.hpp:61-90) -/
def runOwn (h : Obj K Λ) : AFn → List (Val Λ) → Mem K → Option (Mem K)
  | .q2 k, [.space _, .raw a, .raw b, .raw c, .raw _, .int n, .lams l], m =>
    (h.own2 k).map (fun f => fun d j => if d = c then f n.toNat (m a) (m b) l (m c) j else m d j)
  | .minE, [.space _, .raw a, .raw c, .raw _, .int n, .lams l], m =>
    h.own1.map (fun f => fun d j => if d = c then f n.toNat (m a) l (m c) j else m d j)
  | _, _, _ => none

/-- An array call of an EOS class; `d` bounds the depth of nested calls. (eos_base.hpp:171-232,427-535) -/
def callObj (nl : Λ) (h : Obj K Λ) (f : AFn) : Nat → List (Val Λ) → Mem K → Option (Mem K)
  | 0, _, _ => none
  | d + 1, args, m =>
    match runOwn h f args m with
    | some m' => some m'
    | none => do
      let o ← resolve (baseTbl f) args
      match o.body with
      | .loop => runLoop h f args m
      | .self es => do
        let as ← es.mapM (o.eval nl args)
        callObj nl h f d as m
      | .held _ => none

/-- An array call of a `Variant` that holds `h`; `d` bounds the depth of nested calls. (eos_variant.hpp:56-145,547-712) -/
def callVariant (nl : Λ) (h : Obj K Λ) (f : AFn) : Nat → List (Val Λ) → Mem K → Option (Mem K)
  | 0, _, _ => none
  | d + 1, args, m => do
    let o ← resolve (variantTbl f) args
    match o.body with
    | .loop => none
    | .self es => do
      let as ← es.mapM (o.eval nl args)
      callVariant nl h f d as m
    | .held es => do
      let as ← es.mapM (o.eval nl args)
      callObj nl h f (d + 1) as m

/-! ## The scalar calls -/

/-- The scalar member functions. (eos_variant.hpp:189-192,225-534,728-748,785-868) -/
inductive SFn
  | temperatureFromDensityInternalEnergy | internalEnergyFromDensityTemperature | pressureFromDensityTemperature
  | pressureFromDensityInternalEnergy | minInternalEnergyFromDensity | entropyFromDensityTemperature
  | entropyFromDensityInternalEnergy | gibbsFreeEnergyFromDensityTemperature | gibbsFreeEnergyFromDensityInternalEnergy
  | specificHeatFromDensityTemperature | specificHeatFromDensityInternalEnergy | bulkModulusFromDensityTemperature
  | bulkModulusFromDensityInternalEnergy | gruneisenParamFromDensityTemperature | gruneisenParamFromDensityInternalEnergy
  | pTDerivativesFromPreferred | fillEos | referenceDensityTemperature | valuesAtReferenceState
  | densityEnergyFromPressureTemperature | internalEnergyFromDensityPressure | rhoPmin | minimumDensity | minimumTemperature
  | maximumDensity | minimumPressure | maximumPressureAtTemperature | meanAtomicMass | meanAtomicNumber
  | meanAtomicMassFromDensityTemperature | meanAtomicNumberFromDensityTemperature
  | checkParams | dynamicMemorySizeInBytes | dumpDynamicMemory | setDynamicMemory | sharedMemorySizeInBytes
  | allDynamicMemoryIsShareable | isModified | preferredInput | scratchSize | maxScratchSize | nlambda | printParams | eosType
  | eosPyType | finalize
  deriving DecidableEq

/-- Parameters of the scalar member functions. (eos_variant.hpp:225-534) -/
inductive SNm
  | rho | sie | temperature | temp | T | P | press | energy | cv | bmod | output | lambda | dedP_T | drdP_T | dedT_P | drdT_P
  | dpde | dvdt | dst | src | stngs | method | nelements
  deriving DecidableEq

/-- The formal parameters of a scalar function of the `Variant`, whether the last one has a default, and the function `eos.NAME`
of the held object it calls with which arguments. (eos_variant.hpp:225-534) -/
structure SOvl where
  formals : List SNm
  dflt : Bool
  callee : SFn
  args : List SNm

/-- The scalar functions of the `Variant`. (eos_variant.hpp:189-192,225-534,728-748,785-868) -/
def variantScalar : SFn → List SOvl
  | .temperatureFromDensityInternalEnergy => [⟨[.rho, .sie, .lambda], true, .temperatureFromDensityInternalEnergy, [.rho, .sie, .lambda]⟩]
  | .internalEnergyFromDensityTemperature => [⟨[.rho, .temperature, .lambda], true, .internalEnergyFromDensityTemperature, [.rho, .temperature, .lambda]⟩]
  | .pressureFromDensityTemperature => [⟨[.rho, .temperature, .lambda], true, .pressureFromDensityTemperature, [.rho, .temperature, .lambda]⟩]
  | .pressureFromDensityInternalEnergy => [⟨[.rho, .sie, .lambda], true, .pressureFromDensityInternalEnergy, [.rho, .sie, .lambda]⟩]
  | .minInternalEnergyFromDensity => [⟨[.rho, .lambda], true, .minInternalEnergyFromDensity, [.rho, .lambda]⟩]
  | .entropyFromDensityTemperature => [⟨[.rho, .temperature, .lambda], true, .entropyFromDensityTemperature, [.rho, .temperature, .lambda]⟩]
  | .entropyFromDensityInternalEnergy => [⟨[.rho, .sie, .lambda], true, .entropyFromDensityInternalEnergy, [.rho, .sie, .lambda]⟩]
  | .gibbsFreeEnergyFromDensityTemperature => [⟨[.rho, .T, .lambda], true, .gibbsFreeEnergyFromDensityTemperature, [.rho, .T, .lambda]⟩]
  | .gibbsFreeEnergyFromDensityInternalEnergy => [⟨[.rho, .sie, .lambda], true, .gibbsFreeEnergyFromDensityInternalEnergy, [.rho, .sie, .lambda]⟩]
  | .specificHeatFromDensityTemperature => [⟨[.rho, .temperature, .lambda], true, .specificHeatFromDensityTemperature, [.rho, .temperature, .lambda]⟩]
  | .specificHeatFromDensityInternalEnergy => [⟨[.rho, .sie, .lambda], true, .specificHeatFromDensityInternalEnergy, [.rho, .sie, .lambda]⟩]
  | .bulkModulusFromDensityTemperature => [⟨[.rho, .temperature, .lambda], true, .bulkModulusFromDensityTemperature, [.rho, .temperature, .lambda]⟩]
  | .bulkModulusFromDensityInternalEnergy => [⟨[.rho, .sie, .lambda], true, .bulkModulusFromDensityInternalEnergy, [.rho, .sie, .lambda]⟩]
  | .gruneisenParamFromDensityTemperature => [⟨[.rho, .temperature, .lambda], true, .gruneisenParamFromDensityTemperature, [.rho, .temperature, .lambda]⟩]
  | .gruneisenParamFromDensityInternalEnergy => [⟨[.rho, .sie, .lambda], true, .gruneisenParamFromDensityInternalEnergy, [.rho, .sie, .lambda]⟩]
  | .pTDerivativesFromPreferred =>
    [⟨[.rho, .sie, .P, .T, .lambda, .dedP_T, .drdP_T, .dedT_P, .drdT_P], false, .pTDerivativesFromPreferred,
      [.rho, .sie, .P, .T, .lambda, .dedP_T, .drdP_T, .dedT_P, .drdT_P]⟩]
  | .fillEos =>
    [⟨[.rho, .temp, .energy, .press, .cv, .bmod, .output, .lambda], true, .fillEos,
      [.rho, .temp, .energy, .press, .cv, .bmod, .output, .lambda]⟩]
  | .referenceDensityTemperature => [⟨[.rho, .T, .lambda], true, .referenceDensityTemperature, [.rho, .T, .lambda]⟩]
  | .valuesAtReferenceState =>
    [⟨[.rho, .temp, .sie, .press, .cv, .bmod, .dpde, .dvdt, .lambda], true, .valuesAtReferenceState,
      [.rho, .temp, .sie, .press, .cv, .bmod, .dpde, .dvdt, .lambda]⟩]
  | .densityEnergyFromPressureTemperature =>
    [⟨[.press, .temp, .lambda, .rho, .sie], false, .densityEnergyFromPressureTemperature, [.press, .temp, .lambda, .rho, .sie]⟩,
     ⟨[.press, .temp, .rho, .sie], false, .densityEnergyFromPressureTemperature, [.press, .temp, .rho, .sie]⟩]
  | .internalEnergyFromDensityPressure => [⟨[.rho, .P, .sie, .lambda], true, .internalEnergyFromDensityPressure, [.rho, .P, .sie, .lambda]⟩]
  | .rhoPmin => [⟨[.temp], false, .rhoPmin, [.temp]⟩]
  | .minimumDensity => [⟨[], false, .minimumDensity, []⟩]
  | .minimumTemperature => [⟨[], false, .minimumTemperature, []⟩]
  | .maximumDensity => [⟨[], false, .maximumDensity, []⟩]
  | .minimumPressure => [⟨[], false, .minimumPressure, []⟩]
  | .maximumPressureAtTemperature => [⟨[.temp], false, .maximumPressureAtTemperature, [.temp]⟩]
  | .meanAtomicMass => [⟨[], false, .meanAtomicMass, []⟩]
  | .meanAtomicNumber => [⟨[], false, .meanAtomicNumber, []⟩]
  | .meanAtomicMassFromDensityTemperature => [⟨[.rho, .T, .lambda], true, .meanAtomicMassFromDensityTemperature, [.rho, .T, .lambda]⟩]
  | .meanAtomicNumberFromDensityTemperature => [⟨[.rho, .T, .lambda], true, .meanAtomicNumberFromDensityTemperature, [.rho, .T, .lambda]⟩]
  | .checkParams => [⟨[], false, .checkParams, []⟩]
  | .dynamicMemorySizeInBytes => [⟨[], false, .dynamicMemorySizeInBytes, []⟩]
  | .dumpDynamicMemory => [⟨[.dst], false, .dumpDynamicMemory, [.dst]⟩]
  | .setDynamicMemory => [⟨[.src, .stngs], true, .setDynamicMemory, [.src, .stngs]⟩]
  | .sharedMemorySizeInBytes => [⟨[], false, .sharedMemorySizeInBytes, []⟩]
  | .allDynamicMemoryIsShareable => [⟨[], false, .allDynamicMemoryIsShareable, []⟩]
  | .isModified => [⟨[], false, .isModified, []⟩]
  | .preferredInput => [⟨[], false, .preferredInput, []⟩]
  | .scratchSize => [⟨[.method, .nelements], false, .scratchSize, [.method, .nelements]⟩]
  | .maxScratchSize => [⟨[.nelements], false, .maxScratchSize, [.nelements]⟩]
  | .nlambda => [⟨[], false, .nlambda, []⟩]
  | .printParams => [⟨[], false, .printParams, []⟩]
  | .eosType => [⟨[], false, .eosType, []⟩]
  | .eosPyType => [⟨[], false, .eosPyType, []⟩]
  | .finalize => [⟨[], false, .finalize, []⟩]

/-- The arguments bound to the formal parameters: all given, or the last one by default (`dv`: a null pointer, or the default
shared-memory settings). (eos_variant.hpp:227-228,736) -/
def SOvl.bind {V : Type} (dv : V) (o : SOvl) (vs : List V) : Option (List V) :=
  if vs.length = o.formals.length then some vs
  else if o.dflt = true ∧ vs.length + 1 = o.formals.length then some (vs ++ [dv])
  else none

/-- A scalar call of a `Variant` holding `h` (the answer of the held object to each function and arguments): the overload with that
many parameters is used. (eos_variant.hpp:225-534) -/
def callScalar {V R : Type} (dv : V) (h : SFn → List V → R) (f : SFn) (vs : List V) : Option R := do
  let o ← (variantScalar f).find? (fun o => (o.bind dv vs).isSome)
  let bound ← o.bind dv vs
  let as ← o.args.mapM (fun x => (o.formals.zip bound).lookup x)
  return h o.callee as

/-! ## What a `Variant` holds -/

/-- A `Variant<EOSs...>`: an object of one of the alternatives. `Ob t` are the objects of type `t`. (eos_variant.hpp:151-154) -/
structure Var (T : Type) (Ob : T → Type) where
  ty : T
  ob : Ob ty

/-- Construction from, or assignment of, an EOS: it must be one of the alternatives. (eos_variant.hpp:157-173) -/
def Var.of {T : Type} {Ob : T → Type} [DecidableEq T] (alts : List T) (t : T) (o : Ob t) : Option (Var T Ob) :=
  if t ∈ alts then some ⟨t, o⟩ else none

/-- `get<EOSChoice>()`: throws (none) if another type is held. (eos_variant.hpp:175-181) -/
def Var.get {T : Type} {Ob : T → Type} [DecidableEq T] (v : Var T Ob) (t : T) : Option (Ob t) :=
  if h : v.ty = t then some (h ▸ v.ob) else none

/-- `IsType<T>()`. (eos_variant.hpp:839-842) -/
def Var.isType {T : Type} {Ob : T → Type} [DecidableEq T] (v : Var T Ob) (t : T) : Bool := decide (v.ty = t)

/-- `EvaluateHost(f)`: the functor is called by reference with the held object; its state `σ` is the caller's.
(eos_variant.hpp:200-204; eos_base.hpp:342-346) -/
def Var.evaluateHost {T : Type} {Ob : T → Type} {S : Type} (v : Var T Ob) (f : (t : T) → Ob t → S → S) (st : S) : S :=
  f v.ty v.ob st

/-- `EvaluateDevice(f)`: the functor is copied and is const, so only what it writes through pointers (the world `w`) is seen.
(eos_variant.hpp:194-198; eos_base.hpp:337-341) -/
def Var.evaluateDevice {T : Type} {Ob : T → Type} {S W : Type} (v : Var T Ob) (f : (t : T) → Ob t → S → W → W) (st : S) (w : W) :
    S × W :=
  (st, f v.ty v.ob st w)

end VarCall

end Verif
