import Mathlib.Algebra.Order.Field.Basic
import Mathlib.Algebra.Order.Floor.Ring
import Mathlib.Data.List.Basic

/-!
# Loading tables from EOSPAC (`eospac-wrapper/eospac_wrapper.cpp`) and what its callers do with the handles

The EOSPAC library is external: it is represented by what it answers to the newest call of a history of
calls, which may be anything (`Lib`).  What is modelled is the history of calls the wrapper makes.
-/

set_option linter.unusedSectionVars false

namespace Verif.EospacLoad

/-- The table types the code names (`eos_eospac.hpp:1284-1291`, `io_eospac.cpp:35-37, 129-131, 227, 293, 338`,
`eospac_wrapper.cpp:30,33,176-178,203-204`). -/
inductive TT where
  | Info | Comment
  | Pt_DT | T_DUt | Ut_DT | D_PtT | T_DPt | Pt_DUt | Uc_D | St_DT | Pc_D | Ut_DPt | M_DT
  | Pe_DT | T_DUe | Ue_DT | T_DPe | Pe_DUe | Se_DT
  | Pic_DT | T_DUic | Uic_DT | T_DPic | Pic_DUic | Sic_DT
deriving DecidableEq

/-- The setup options of tables (`eospac_wrapper.cpp:179,188,205,215,226,234,239,244,251`). -/
inductive LOpt where
  | invertAtSetup | insertData | monotonicInX | monotonicInY | smooth
  | splitNumProp | splitIdealGas | splitCowan | linear
deriving DecidableEq

/-- The items of `eos_GetTableInfo` that are asked for (`eospac_wrapper.cpp:39-46,91`). -/
inductive Item where
  | exchangeCoeff | meanAtomicMass | meanAtomicNum | modulus | normalDensity
  | Rmin | Rmax | Tmin | Tmax | Fmin | Fmax | NR | NT | xConvert | yConvert | fConvert | cmntLen
deriving DecidableEq

/-- A table handle: which `eos_CreateTables` call made it, and the position in that call.
(`EOS_INTEGER tableHandle[]`, eospac_wrapper.cpp:29) -/
abbrev Handle := Nat × Nat

/-- The calls into the library (`eospac_wrapper.cpp:150,179,256,325,333,353-360,481`). -/
inductive Call (K : Type) where
  | create (mat : Int) (types : List TT) (hs : List Handle)
  | setOption (h : Handle) (o : LOpt) (v : Option K)
  | load (hs : List Handle)
  | lookup (h : Handle)
  | destroy (hs : List Handle)

/-- A history of calls, newest first. (the calls of eospac_wrapper.cpp) -/
abbrev Hist (K : Type) := List (Call K)

/-- The library: the code of the newest call (0 is `EOS_OK`), the error code kept with a handle
(`eos_GetErrorCode`), the value of an info item if the library stores one, the comment text.  All may depend on the
whole history. (eospac_wrapper.cpp:150,160,256,321-335) -/
structure Lib (K : Type) where
  code : Hist K → Int
  handleCode : Hist K → Handle → Int
  info : Hist K → Handle → Item → Option K
  comments : Hist K → Handle → List Char

variable {K : Type}

/-- Call the library. (e.g. eospac_wrapper.cpp:150) -/
def call (L : Lib K) (c : Call K) : StateM (Hist K) Int := fun h => (L.code (c :: h), c :: h)

/-- `enum class eospacMonotonicity`, `eospac_wrapper.hpp:28-33`. -/
inductive Mono where
  | none | X | XY | Y
deriving DecidableEq

/-- `enum class eospacSplit`, `eospac_wrapper.hpp:27`. -/
inductive SplitOpt where
  | none | numProp | idealGas | cowan
deriving DecidableEq

/-- The option arguments of `eosSafeLoad` (`eospac_wrapper.hpp:98-110`). -/
structure LoadOpts (K : Type) where
  invert : Bool
  insert : K
  mono : Mono
  smooth : Bool
  split : SplitOpt
  linear : Bool

/-- The number of `eos_CreateTables` calls so far: names the next handles. (eospac_wrapper.cpp:150) -/
def creates : Hist K → Nat
  | [] => 0
  | .create _ _ _ :: h => creates h + 1
  | _ :: h => creates h

/-- One loop `for i < ntables: if (accepts(tableType[i])) eos_SetOption(handle[i], o, v)`; the code is kept
(and printed), not acted on. (eospac_wrapper.cpp:172-253) -/
def optLoop (L : Lib K) (accepts : TT → Bool) (o : LOpt) (v : Option K) : List (TT × Handle) → StateM (Hist K) Unit
  | [] => pure ()
  | p :: ps => do
    if accepts p.1 then
      let _ ← call L (.setOption p.2 o v)
    optLoop L accepts o v ps

/-- Tables that may be inverted at setup, `eospac_wrapper.cpp:176-178`. -/
def mayInvert (t : TT) : Bool := t ≠ .Uc_D ∧ t ≠ .Pc_D ∧ t ≠ .Pt_DT ∧ t ≠ .Ut_DT ∧ t ≠ .St_DT

/-- Tables that may be made monotonic in x, or smoothed, `eospac_wrapper.cpp:203-204,224-225`. -/
def mayFix (t : TT) : Bool := t ≠ .Uc_D ∧ t ≠ .Ut_DT ∧ t ≠ .Ut_DPt ∧ t ≠ .St_DT

/-- The handles of the next `eos_CreateTables` call for so many tables. (eospac_wrapper.cpp:150) -/
def newHandles (h : Hist K) (types : List TT) : List Handle :=
  (List.range types.length).map (fun i => (creates h, i))

variable [Field K] [LinearOrder K] [IsStrictOrderedRing K]

/-- The options part of `eosSafeLoad`, `eospac_wrapper.cpp:171-254` (without
`SINGULARITY_EOSPAC_SKIP_EXTRAP`). -/
def setOptions (L : Lib K) (o : LoadOpts K) (ps : List (TT × Handle)) : StateM (Hist K) Unit := do
  if o.invert then optLoop L mayInvert .invertAtSetup (some 1) ps
  if o.insert > 0 then optLoop L (fun _ => true) .insertData (some o.insert) ps
  if o.mono = .X ∨ o.mono = .XY then optLoop L mayFix .monotonicInX none ps
  if o.mono = .XY ∨ o.mono = .Y then optLoop L (fun _ => true) .monotonicInY none ps
  if o.smooth then optLoop L mayFix .smooth none ps
  if o.split = .numProp then optLoop L (fun _ => true) .splitNumProp none ps
  else if o.split = .idealGas then optLoop L (fun _ => true) .splitIdealGas none ps
  else if o.split = .cowan then optLoop L (fun _ => true) .splitCowan none ps
  if o.linear then optLoop L (fun _ => true) .linear none ps

/-- `eosSafeLoad`, `eospac_wrapper.cpp:135-274`: the returned code and the handles written into `tableHandle`.
The messages printed are not modelled. -/
def safeLoad (L : Lib K) (mat : Int) (types : List TT) (o : LoadOpts K) : StateM (Hist K) (Int × List Handle) := do
  let hs := newHandles (← get) types
  let c ← call L (.create mat types hs)
  if c ≠ 0 then return (c, hs)
  setOptions L o (types.zip hs)
  let c ← call L (.load hs)
  return (c, hs)

/-- The default option arguments, `eospac_wrapper.hpp:98-103`. -/
def noOpts : LoadOpts K := ⟨false, 0, .none, false, .none, false⟩

/-- `eosSafeDestroy`, `eospac_wrapper.cpp:477-483`. -/
def safeDestroy (L : Lib K) (hs : List Handle) : StateM (Hist K) Unit := do
  let _ ← call L (.destroy hs)

/-- `eosCheckTableExistence`, `eospac_wrapper.cpp:345-377`; `noData` is `EOS_NO_DATA_TABLE`.
The code of `eos_CreateTables` is only printed. -/
def tableExists (L : Lib K) (noData : Int) (mat : Int) (t : TT) : StateM (Hist K) Int := do
  let hs := newHandles (← get) [t]
  let _ ← call L (.create mat [t] hs)
  let c ← call L (.load hs)
  safeDestroy L hs
  return (if c ≠ 0 then (if c = noData then 0 else -1) else 1)

/-- `class SesameMetadata`, `eospac_wrapper.hpp:54-72`. -/
structure Metadata (K : Type) where
  matid : Int
  exchangeCoefficient : K
  meanAtomicMass : K
  meanAtomicNumber : K
  solidBulkModulus : K
  normalDensity : K
  rhoMin : K
  rhoMax : K
  TMin : K
  TMax : K
  sieMin : K
  sieMax : K
  PMin : K
  PMax : K
  SMin : K
  SMax : K
  rhoConversionFactor : K
  TConversionFactor : K
  sieConversionFactor : K
  numRho : Int
  numT : Int
  comments : List Char
  name : List Char

/-- Unit factor of pressure, energy, entropy and bulk modulus, `eospac_wrapper.hpp:38-44`. -/
def unit : K := 10 ^ 10

/-- `static_cast<int>`, `eospac_wrapper.cpp:79-80,97`. -/
def truncI [FloorRing K] (x : K) : Int := if x < 0 then ⌈x⌉ else ⌊x⌋

/-! ## The name in the comments -/

/-- The literal text at the start of the pattern of `getName`, `eospac_wrapper.cpp:488`. -/
def tag : List Char := ['1', '0', '1', ':', ' ', 'm', 'a', 't', 'e', 'r', 'i', 'a', 'l']

/-- `.` of an ECMAScript pattern: anything but a line terminator (`eospac_wrapper.cpp:488`). -/
def isDot (c : Char) : Bool := c ≠ '\n' ∧ c ≠ '\r'

/-- `\s` of an ECMAScript pattern (`eospac_wrapper.cpp:488`): blank, tab, line feed, vertical tab, form feed, carriage return. -/
def isSpace (c : Char) : Bool := c = ' ' ∨ c = '\t' ∨ c = '\n' ∨ c = '\x0b' ∨ c = '\x0c' ∨ c = '\r'

/-- The look-ahead `\s+\(z` (`eospac_wrapper.cpp:488`): at least one space, then `(z`.  Neither `(` nor `z` is a space, so
backtracking into `\s+` never helps. -/
def ahead : List Char → Bool
  | [] => false
  | c :: r => isSpace c && ['(', 'z'].isPrefixOf (r.dropWhile isSpace)

/-- `(.*)` followed by the look-ahead, greedy: the longest stretch of the line that is followed by it.
(eospac_wrapper.cpp:488) -/
def greedy : List Char → Option (List Char)
  | [] => if ahead [] then some [] else none
  | c :: r =>
    match (if isDot c then greedy r else none) with
    | some m => some (c :: m)
    | none => if ahead (c :: r) then some [] else none

/-- A match of the whole pattern at this position: the group.  (eospac_wrapper.cpp:488; `match[0].substr(15)` is the group,
the text before it being 15 characters long.) -/
def matchHere (s : List Char) : Option (List Char) :=
  if tag.isPrefixOf s then
    match s.drop tag.length with
    | c :: ' ' :: r => if isDot c then greedy r else none
    | _ => none
  else none

/-- `regex_search`: the leftmost match. (eospac_wrapper.cpp:490) -/
def search : List Char → Option (List Char)
  | [] => matchHere []
  | c :: r =>
    match matchHere (c :: r) with
    | some m => some m
    | none => search r

/-- `getName`, `eospac_wrapper.cpp:485-495`. -/
def getName (s : List Char) : List Char :=
  match search s with
  | some m => m
  | none => ['-', '1']

/-- `eosSafeTableInfo` for one item: the place keeps its content (`d`) if the library stores nothing.
(eospac_wrapper.cpp:319-327) -/
def infoOr (L : Lib K) (d : K) (h : Handle) (i : Item) : StateM (Hist K) K := fun s => ((L.info s h i).getD d, s)

/-- The second part of `eosGetMetadata`, `eospac_wrapper.cpp:85-123`: comments and name.  `matStr` is
`std::to_string(matid)`. -/
def getComments [FloorRing K] (L : Lib K) (mat : Int) (matStr : List Char) :
    StateM (Hist K) (List Char × List Char) := do
  let (c, chs) ← safeLoad L mat [.Comment] noOpts
  let ch := chs.getD 0 (0, 0)
  let len ← if c = 0 then infoOr L (-1) ch .cmntLen else pure (-1)
  let txt := (L.comments (← get) ch).take (truncI len).toNat
  if c = 0 then safeDestroy L chs
  return (if len > 0 then txt else "Comment unavailable for matid ".toList ++ matStr,
          if len > 0 then getName txt else "No name for matid ".toList ++ matStr)

/-- `eosGetMetadata`, `eospac_wrapper.cpp:27-124`. -/
def getMetadata [FloorRing K] (L : Lib K) (mat : Int) (matStr : List Char) : StateM (Hist K) (Metadata K) := do
  let (_, hs) ← safeLoad L mat [.Info, .Ut_DT, .Pt_DT, .St_DT] noOpts
  let h := fun i => hs.getD i (0, 0)
  let v := fun i it => infoOr L 0 (h i) it
  let exch ← v 0 .exchangeCoeff
  let mass ← v 0 .meanAtomicMass
  let num ← v 0 .meanAtomicNum
  let bm ← v 0 .modulus
  let rn ← v 0 .normalDensity
  let rmin ← v 1 .Rmin
  let rmax ← v 1 .Rmax
  let tmin ← v 1 .Tmin
  let tmax ← v 1 .Tmax
  let emin ← v 1 .Fmin
  let emax ← v 1 .Fmax
  let nr ← v 1 .NR
  let nt ← v 1 .NT
  let xc ← v 1 .xConvert
  let yc ← v 1 .yConvert
  let fc ← v 1 .fConvert
  let pmin ← v 2 .Fmin
  let pmax ← v 2 .Fmax
  let smin ← v 3 .Fmin
  let smax ← v 3 .Fmax
  safeDestroy L hs
  let (comments, name) ← getComments L mat matStr
  return { matid := mat
           exchangeCoefficient := exch
           meanAtomicMass := mass
           meanAtomicNumber := num
           solidBulkModulus := unit * bm
           normalDensity := rn
           rhoMin := rmin
           rhoMax := rmax
           TMin := tmin
           TMax := tmax
           sieMin := unit * emin
           sieMax := unit * emax
           PMin := unit * pmin
           PMax := unit * pmax
           SMin := unit * smin
           SMax := unit * smax
           rhoConversionFactor := xc
           TConversionFactor := yc
           sieConversionFactor := fc
           numRho := truncI nr
           numT := truncI nt
           comments := comments
           name := name }

/-! ## The callers -/

/-- Lookups (`eosSafeInterpolate`) on the tables at these positions of a handle list. (e.g. io_eospac.cpp:264-270) -/
def lookups (L : Lib K) (hs : List Handle) : List Nat → StateM (Hist K) Unit
  | [] => pure ()
  | i :: is => do
    let _ ← call L (.lookup (hs.getD i (0, 0)))
    lookups L hs is

/-- The shape of `eosDataOfRhoSie`, `eosDataOfRhoT`, `eosColdCurveMask` (`io_eospac.cpp:27-118, 122-216, 285-328`):
load, look up, destroy.  Which lookups are made is a parameter; the values are modelled elsewhere. -/
def loadUseDestroy (L : Lib K) (mat : Int) (types : List TT) (o : LoadOpts K) (is : List Nat) : StateM (Hist K) Unit := do
  let (_, hs) ← safeLoad L mat types o
  lookups L hs is
  safeDestroy L hs

/-- `eosMassFraction`, `io_eospac.cpp:331-404`, as far as the tables are concerned: `false` if there is no phase table. -/
def massFraction (L : Lib K) (noData : Int) (mat : Int) : StateM (Hist K) Bool := do
  let e ← tableExists L noData mat .M_DT
  if e > 0 then
    loadUseDestroy L mat [.M_DT, .Comment] noOpts [0]
    return true
  else return false

/-- `eosColdCurves`, `io_eospac.cpp:219-283`, as far as the tables are concerned: there is no call to
`eosSafeDestroy`.  (If the first lookup reports an error the second is skipped; here both are made.) -/
def coldCurves (L : Lib K) (mat : Int) : StateM (Hist K) Unit := do
  let (_, hs) ← safeLoad L mat [.Pc_D, .Uc_D] noOpts
  lookups L hs [0, 1]

/-- `enum class TableSplit`, `constants.hpp:40`. -/
inductive Part where
  | total | electron | ionCold
deriving DecidableEq

/-- `TableSelect`, `eos_eospac.hpp:1277-1283`. -/
def sel {α : Type*} (p : Part) (a b c : α) : α :=
  match p with
  | .total => a
  | .electron => b
  | .ionCold => c

/-- The table types of the class, `eos_eospac.hpp:1284-1291`. -/
def ctorTypes (p : Part) : List TT :=
  [sel p .Pt_DT .Pe_DT .Pic_DT, sel p .T_DUt .T_DUe .T_DUic, sel p .Ut_DT .Ue_DT .Uic_DT, .D_PtT,
   sel p .T_DPt .T_DPe .T_DPic, sel p .Pt_DUt .Pe_DUe .Pic_DUic, .Uc_D, sel p .St_DT .Se_DT .Sic_DT]

/-- What the constructor keeps: the handles and whether there is an entropy table. (eos_eospac.hpp:1307-1314,1334) -/
structure Obj where
  handles : List Handle
  entropy : Bool

/-- The constructor, `eos_eospac.hpp:1271-1386`, as far as the tables are concerned; `none` is the abort at :1327.
Sizes and reference values are modelled elsewhere. -/
def ctor [FloorRing K] (L : Lib K) (mat : Int) (matStr : List Char) (p : Part) (o : LoadOpts K) :
    StateM (Hist K) (Option Obj) := do
  let (c, hs) ← safeLoad L mat (ctorTypes p) o
  let s ← get
  if c ≠ 0 ∧ (hs.take 7).any (fun h => L.handleCode s h ≠ 0) then return none
  let ent := !(decide (c ≠ 0) && decide (L.handleCode s (hs.getD 7 (0, 0)) ≠ 0))
  let _ ← getMetadata L mat matStr
  lookups L hs [2, 0]
  return some ⟨hs, ent⟩

/-- `Finalize`, `eos_eospac.hpp:1202-1205`. -/
def finalize (L : Lib K) (x : Obj) : StateM (Hist K) Unit := safeDestroy L x.handles

end Verif.EospacLoad
