import Verif.Model.Tools.EospacLoad

/-! # What loading tables from EOSPAC should do -/

namespace Verif.EospacLoad

variable {K : Type} [Field K] [LinearOrder K] [IsStrictOrderedRing K]

/-- Which setup options a table of a given type gets, with which value (`none`: the option has no value),
from the comments in `eosSafeLoad`: tables on (density, temperature) and cold curves are not inverted; cold
energy, energy and entropy tables are neither smoothed nor made monotonic in x; the other options go to every
table. -/
def Wanted (o : LoadOpts K) (t : TT) : LOpt → Option K → Prop
  | .invertAtSetup, v => o.invert = true ∧ t ∉ [TT.Uc_D, .Pc_D, .Pt_DT, .Ut_DT, .St_DT] ∧ v = some 1
  | .insertData, v => 0 < o.insert ∧ v = some o.insert
  | .monotonicInX, v => (o.mono = .X ∨ o.mono = .XY) ∧ t ∉ [TT.Uc_D, .Ut_DT, .Ut_DPt, .St_DT] ∧ v = none
  | .monotonicInY, v => (o.mono = .Y ∨ o.mono = .XY) ∧ v = none
  | .smooth, v => o.smooth = true ∧ t ∉ [TT.Uc_D, .Ut_DT, .Ut_DPt, .St_DT] ∧ v = none
  | .splitNumProp, v => o.split = .numProp ∧ v = none
  | .splitIdealGas, v => o.split = .idealGas ∧ v = none
  | .splitCowan, v => o.split = .cowan ∧ v = none
  | .linear, v => o.linear = true ∧ v = none

/-- A table is alive after a history (newest call first): a successful `eos_CreateTables` made it and no
`eos_DestroyTables` has named it since. -/
def Live (L : Lib K) : Hist K → Handle → Prop
  | [], _ => False
  | .create m ts hs :: s, h => (h ∈ hs ∧ L.code (.create m ts hs :: s) = 0) ∨ Live L s h
  | .destroy hs :: s, h => h ∉ hs ∧ Live L s h
  | _ :: s, h => Live L s h

/-- The library can load every comment table it can create. -/
def CommentsLoad (L : Lib K) : Prop :=
  ∀ (s : Hist K) (m : Int) (hs : List Handle), L.code (.create m [.Comment] hs :: s) = 0 →
    L.code (.load hs :: .create m [.Comment] hs :: s) = 0

/-- The operations of the wrapper and its callers that should leave no table behind. -/
inductive Op (K : Type) where
  | metadata (mat : Int) (matStr : List Char)
  | tableExists (noData : Int) (mat : Int) (t : TT)
  | tabulate (mat : Int) (types : List TT) (o : LoadOpts K) (is : List Nat)
  | massFraction (noData : Int) (mat : Int)
  | object (mat : Int) (matStr : List Char) (p : Part) (o : LoadOpts K) (is : List Nat)

/-- Run one; for `object`: construct, query, `Finalize` (an aborted construction ends the program). -/
def Op.run [FloorRing K] (L : Lib K) : Op K → StateM (Hist K) Unit
  | .metadata m str => do let _ ← getMetadata L m str
  | .tableExists n m t => do let _ ← EospacLoad.tableExists L n m t
  | .tabulate m ts o is => loadUseDestroy L m ts o is
  | .massFraction n m => do let _ ← EospacLoad.massFraction L n m
  | .object m str p o is => do
    match ← ctor L m str p o with
    | some x => do
      lookups L x.handles is
      finalize L x
    | none => fun _ => ((), [])

/-- Any sequence of them. -/
def runOps [FloorRing K] (L : Lib K) : List (Op K) → StateM (Hist K) Unit
  | [] => pure ()
  | p :: ps => do
    p.run L
    runOps L ps

end Verif.EospacLoad

namespace Verif.EospacLoad

variable {K : Type}

/-- Material and type of the table a handle names: of the newest `eos_CreateTables` call that made it. -/
def tableOf : Hist K → Handle → Option (Int × TT)
  | [], _ => none
  | .create m ts hs :: s, h =>
    match ((hs.zip ts).find? (fun p => p.1 = h)) with
    | some p => some (m, p.2)
    | none => tableOf s h
  | _ :: s, h => tableOf s h

/-- The library answers info queries from a data file: one value for each material, table type and item. -/
def AnswersFrom (L : Lib K) (D : Int → TT → Item → K) : Prop :=
  ∀ s h i, L.info s h i = (tableOf s h).map (fun mt => D mt.1 mt.2 i)

/-- Metadata of a material in cgs units, from a data file in EOSPAC units (g/cc, K, GPa, MJ/kg, MJ/kg/K): 1 GPa is 10^10
microbar, 1 MJ/kg is 10^10 erg/g. -/
structure Cgs [Field K] (D : Int → TT → Item → K) (mat : Int) (m : Metadata K) : Prop where
  matid : m.matid = mat
  exch : m.exchangeCoefficient = D mat .Info .exchangeCoeff
  mass : m.meanAtomicMass = D mat .Info .meanAtomicMass
  num : m.meanAtomicNumber = D mat .Info .meanAtomicNum
  bulk : m.solidBulkModulus = 10000000000 * D mat .Info .modulus
  rho0 : m.normalDensity = D mat .Info .normalDensity
  rmin : m.rhoMin = D mat .Ut_DT .Rmin
  rmax : m.rhoMax = D mat .Ut_DT .Rmax
  tmin : m.TMin = D mat .Ut_DT .Tmin
  tmax : m.TMax = D mat .Ut_DT .Tmax
  emin : m.sieMin = 10000000000 * D mat .Ut_DT .Fmin
  emax : m.sieMax = 10000000000 * D mat .Ut_DT .Fmax
  pmin : m.PMin = 10000000000 * D mat .Pt_DT .Fmin
  pmax : m.PMax = 10000000000 * D mat .Pt_DT .Fmax
  smin : m.SMin = 10000000000 * D mat .St_DT .Fmin
  smax : m.SMax = 10000000000 * D mat .St_DT .Fmax
  xconv : m.rhoConversionFactor = D mat .Ut_DT .xConvert
  yconv : m.TConversionFactor = D mat .Ut_DT .yConvert
  fconv : m.sieConversionFactor = D mat .Ut_DT .fConvert

/-- The numbers of points, when the file holds whole numbers. -/
def Points [Field K] (D : Int → TT → Item → K) (mat : Int) (m : Metadata K) : Prop :=
  (∀ n : Nat, D mat .Ut_DT .NR = n → m.numRho = n) ∧ (∀ n : Nat, D mat .Ut_DT .NT = n → m.numT = n)

end Verif.EospacLoad
