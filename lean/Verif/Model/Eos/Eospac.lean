import Verif.Model.EosIface

/-!
# `EOSPAC`: the wrapper around the EOSPAC library

`singularity-eos/eos/eos_eospac.hpp` and `eospac-wrapper/eospac_wrapper.{hpp,cpp}`.

The library itself is external.  It is modelled from its documentation and from the comments in the
code: a loaded table is a function of two arguments with its two partial derivatives, in Sesame units;
it carries mutable conversion factors, set by `eos_SetOption` and cleared by `eos_ResetOption`: an
argument `x` passed in is divided by the `X` factor, the value is multiplied by the `F` factor, and the
derivatives come out as derivatives of the converted value by the converted argument
(`eos_eospac.hpp:910-911`: "DEDR and DPDR are divided by EOS_X_CONVERT").  Not modelled: extrapolation
and error codes of the lookups (except in `safeInterpStatus`), tables that fail to load, entropy tables
that are absent.
-/

namespace Verif.Eospac

open Verif.Mods Verif.Robust

/-- The eight loaded tables. (eos_eospac.hpp:1224-1231) -/
inductive Tid where
  | PofRT | TofRE | EofRT | RofPT | TofRP | PofRE | EcofD | SofRT
deriving DecidableEq, Repr

/-- One table: value and partial derivatives, in Sesame units. (the EOSPAC library) -/
structure Tab (K : Type*) where
  f : K → K → K
  fx : K → K → K
  fy : K → K → K

/-- The loaded tables. (eos_eospac.hpp:1305-1315) -/
abbrev Tabs (K : Type*) := Tid → Tab K

/-- The options used: `EOS_X_CONVERT`, `EOS_Y_CONVERT`, `EOS_F_CONVERT`, `EOS_XY_PASSTHRU`.
(eos_eospac.hpp:60-132) -/
inductive Opt where
  | X | Y | F | XY
deriving DecidableEq, Repr

/-- The conversion factors a table currently carries. (the EOSPAC library) -/
structure Conv (K : Type*) where
  x : K
  y : K
  f : K

universe u
variable {K : Type u} [Field K] [LinearOrder K] [IsStrictOrderedRing K]

/-- No conversion: the state of a freshly loaded table. (the EOSPAC library) -/
def Conv.none : Conv K := ⟨1, 1, 1⟩

/-- `eos_SetOption` on one table. (called at eospac_wrapper.cpp:282; the EOSPAC library) -/
def Conv.set (c : Conv K) : Opt → K → Conv K
  | .X, v => { c with x := v }
  | .Y, v => { c with y := v }
  | .F, v => { c with f := v }
  | .XY, _ => { c with x := 1, y := 1 }

/-- `eos_ResetOption` on one table. (called at eospac_wrapper.cpp:311; the EOSPAC library) -/
def Conv.reset (c : Conv K) : Opt → Conv K
  | .X => { c with x := 1 }
  | .Y => { c with y := 1 }
  | .F => { c with f := 1 }
  | .XY => { c with x := 1, y := 1 }

/-- Value and derivatives returned by one lookup. (eospac_wrapper.cpp:291, arguments `var`, `dx`, `dy`) -/
structure Res (K : Type*) where
  v : K
  dx : K
  dy : K

/-- `eos_Interpolate` at one point, for a table that carries the factors `c`. (called at
eospac_wrapper.cpp:291; the EOSPAC library) -/
def lookup (t : Tab K) (c : Conv K) (x y : K) : Res K :=
  { v := c.f * t.f (x / c.x) (y / c.y)
    dx := c.f / c.x * t.fx (x / c.x) (y / c.y)
    dy := c.f / c.y * t.fy (x / c.x) (y / c.y) }

/-- The conversion factors of all tables: the mutable state of the library. (the EOSPAC library) -/
abbrev Sess (K : Type*) := Tid → Conv K

/-- `eos_SetOption`. (eospac_wrapper.cpp:282) -/
def setOpt (s : Sess K) (t : Tid) (o : Opt) (v : K) : Sess K := Function.update s t ((s t).set o v)

/-- `eos_ResetOption`. (eospac_wrapper.cpp:311) -/
def resetOpt (s : Sess K) (t : Tid) (o : Opt) : Sess K := Function.update s t ((s t).reset o)

/-- the loop that sets the options, `eospac_wrapper.cpp:281-289`. -/
def setOpts (s : Sess K) (t : Tid) (opts : List (Opt × K)) : Sess K :=
  opts.foldl (fun s o => setOpt s t o.1 o.2) s

/-- the loop that resets the options, `eospac_wrapper.cpp:310-318`. -/
def resetOpts (s : Sess K) (t : Tid) (opts : List (Opt × K)) : Sess K :=
  opts.foldl (fun s o => resetOpt s t o.1) s

/-- `eosSafeInterpolate` for one pair, `eospac_wrapper.cpp:273-320`: set the options, look up, reset the
options. -/
def safeInterp (T : Tabs K) (t : Tid) (opts : List (Opt × K)) (x y : K) : StateM (Sess K) (Res K) :=
  fun s =>
    let s1 := setOpts s t opts
    (lookup (T t) (s1 t) x y, resetOpts s1 t opts)

/-- The value returned by `eosSafeInterpolate`, `eospac_wrapper.cpp:273-320`: "1 for no errors".
`errorCode` is overwritten by every library call: `lookupOk` is the status of the lookup, `checkOk` that of
`eos_CheckExtrap` (called after a failed lookup if the verbosity is `Debug`), `resetOk` that of
`eos_ResetOption`. -/
def safeInterpStatus (opts : List (Opt × K)) (debug lookupOk checkOk resetOk : Bool) : Bool :=
  let e := if !lookupOk && debug then checkOk else lookupOk
  opts.foldl (fun _ _ => resetOk) e

/-! ## Units (`eospac_wrapper.hpp:34-44`) -/

/-- `sieFromSesame(1.0)`, `eospac_wrapper.hpp:41`. -/
def sieU : K := 10 ^ 10
/-- `pressureFromSesame(1.0)`, `eospac_wrapper.hpp:38`. -/
def presU : K := 10 ^ 10
/-- `sieToSesame(1.0)`, `eospac_wrapper.hpp:40`. -/
def toSieU : K := 1 / 10 ^ 10
/-- `pressureToSesame(1.0)`, `eospac_wrapper.hpp:39`. -/
def toPresU : K := 1 / 10 ^ 10
/-- `cvFromSesame(1.0)`, `bulkModulusFromSesame(1.0)`, `entropyFromSesame(1.0)`, `eospac_wrapper.hpp:42-44`. -/
def cvU : K := 10 ^ 10
/-- `bulkModulusFromSesame(1.0)`, `eospac_wrapper.hpp:44`. -/
def bmodU : K := 10 ^ 10
/-- `entropyFromSesame(1.0)`, `eospac_wrapper.hpp:42`. -/
def entU : K := 10 ^ 10

/-! ## Scalar queries

The queries are written over an arbitrary way `I` of performing `eosSafeInterpolate`: with `safeInterp` they run alone
on the state of the library, with `interpP` they are sequences of library calls that can be interleaved. -/

/-- A way of performing `eosSafeInterpolate` for one pair. (eospac_wrapper.cpp:273-320) -/
abbrev Interp (M : Type u → Type u) (K : Type u) := Tid → List (Opt × K) → K → K → M (Res K)

section queries
variable {M : Type u → Type u} [Monad M]


/-- The bulk modulus formula of every query, in the units of its arguments; `x` is the density factor of the
array versions. (`eos_eospac.hpp:1541-1560`; array versions `:919-940`, `:1018-1039`, `:593-615`) -/
def bulkOf (x rho P DPDR DPDT DEDR DEDT : K) : K :=
  let b :=
    if DEDT > 0 ∧ rho > 0 then rho * DPDR + DPDT / DEDT * (P / (rho * x) - rho * DEDR)
    else if rho > 0 then max (rho * DPDR) 0
    else 0
  max b 0

/-- `TemperatureFromDensityInternalEnergy`, `eos_eospac.hpp:1425-1439`. -/
def tRE (I : Interp M K) (rho sie : K) : M K := do
  let r ← I .TofRE [] rho (toSieU * sie)
  return r.v

/-- `PressureFromDensityTemperature`, `eos_eospac.hpp:1441-1455`. -/
def pRT (I : Interp M K) (rho temp : K) : M K := do
  let r ← I .PofRT [] rho temp
  return presU * r.v

/-- `EntropyFromDensityTemperature`, `eos_eospac.hpp:1457-1472` (entropy table present). -/
def sRT (I : Interp M K) (rho temp : K) : M K := do
  let r ← I .SofRT [] rho temp
  return entU * r.v

/-- The combinations of outputs for which `FillEos` aborts (`UNDEFINED_ERROR`), `eos_eospac.hpp:1488-1514`; the same
in the array version `:531-566`. The code aborts where it meets them;
here they are tested first. -/
def fillAborts (o : Flags) : Bool :=
  !(o.rho || o.temp || o.sie || o.press || o.cv || o.bmod) ||
  (o.rho && !(!o.press && !o.temp)) ||
  (o.temp && !(!o.rho && !o.sie) && !(!o.rho && !o.press))

/-- The density in `FillEos`, `eos_eospac.hpp:1491-1502`. -/
def fillDensity (I : Interp M K) (o : Flags) (P0 T0 R0 : K) : M K :=
  if o.rho then (do let r ← I .RofPT [] P0 T0; return r.v) else pure R0

/-- The temperature in `FillEos`, `eos_eospac.hpp:1503-1514`: the Sesame copy `T[0]` used by what follows, and
the output `temp`. The temperature computed from the energy is *not* copied to `T[0]` (`:1505`). -/
def fillTemp (I : Interp M K) (o : Flags) (rho R P0 T0 sie temp : K) : M (K × K) :=
  if o.temp then
    if !o.rho && !o.sie then (do let t ← tRE I rho sie; return (T0, t))
    else (do let r ← I .TofRP [] R P0; return (r.v, r.v))
  else pure (T0, temp)

/-- A lookup made only if its result is needed, `eos_eospac.hpp:1515-1532`. -/
def lookIf (I : Interp M K) (b : Bool) (t : Tid) (x y : K) : M (Res K) :=
  if b then I t [] x y else pure ⟨0, 0, 0⟩

/-- `FillEos`, `eos_eospac.hpp:1474-1562`, when it does not abort. `R`, `T`, `P` are the Sesame copies
made on entry. -/
def fillBody (I : Interp M K) (o : Flags) (v : Thermo K) : M (Thermo K) := do
  let R ← fillDensity I o (toPresU * v.press) v.temp v.rho
  let rho := if o.rho then R else v.rho
  let Tt ← fillTemp I o rho R (toPresU * v.press) v.temp v.sie v.temp
  let e ← lookIf I (o.sie || (o.cv || o.bmod)) .EofRT R Tt.1
  let p ← lookIf I (o.press || o.bmod) .PofRT R Tt.1
  -- `:1533-1560`
  return { rho := rho
           temp := Tt.2
           sie := if o.sie then sieU * e.v else v.sie
           press := if o.press then presU * p.v else v.press
           cv := if o.cv then cvU * max e.dy 0 else v.cv
           bmod := if o.bmod then bmodU * bulkOf 1 rho p.v p.dx p.dy e.dx e.dy else v.bmod }

/-- `FillEos`, `eos_eospac.hpp:1474-1562`; `none` is an abort. -/
def fill (I : Interp M K) (o : Flags) (v : Thermo K) : Option (M (Thermo K)) :=
  if fillAborts o then none else some (fillBody I o v)

/-- Only the named output requested. (eos_eospac.hpp:1573, 1588, 1603) -/
def only (sie cv bmod : Bool) : Flags := ⟨false, false, sie, false, cv, bmod⟩

/-- `InternalEnergyFromDensityTemperature`, `eos_eospac.hpp:1564-1577`: through `FillEos`; `g` is whatever the
uninitialised local variables contain. -/
def eRT (I : Interp M K) (g : Thermo K) (rho temp : K) : M K := do
  let r ← fillBody I (only true false false) { g with rho := rho, temp := temp }
  return r.sie

/-- `BulkModulusFromDensityTemperature`, `eos_eospac.hpp:1579-1592`. -/
def bRT (I : Interp M K) (g : Thermo K) (rho temp : K) : M K := do
  let r ← fillBody I (only false false true) { g with rho := rho, temp := temp }
  return r.bmod

/-- `SpecificHeatFromDensityTemperature`, `eos_eospac.hpp:1594-1607`. -/
def cvRT (I : Interp M K) (g : Thermo K) (rho temp : K) : M K := do
  let r ← fillBody I (only false true false) { g with rho := rho, temp := temp }
  return r.cv

/-- `PressureFromDensityInternalEnergy`, `eos_eospac.hpp:1609-1628`: conversion by options. -/
def pRE (I : Interp M K) (rho sie : K) : M K := do
  let r ← I .PofRE [(.Y, sieU), (.F, presU)] rho sie
  return r.v

/-- `MinInternalEnergyFromDensity`, `eos_eospac.hpp:1630-1649`; `u` is the content of the uninitialised
second argument (the table ignores it). -/
def minE (I : Interp M K) (u rho : K) : M K := do
  let r ← I .EcofD [(.F, sieU)] rho u
  return r.v

/-- `EntropyFromDensityInternalEnergy`, `eos_eospac.hpp:1651-1663`. -/
def sRE (I : Interp M K) (rho sie : K) : M K := do
  let t ← tRE I rho sie
  sRT I rho t

/-- `SpecificHeatFromDensityInternalEnergy`, `eos_eospac.hpp:1665-1676`. -/
def cvRE (I : Interp M K) (g : Thermo K) (rho sie : K) : M K := do
  let t ← tRE I rho sie
  cvRT I g rho t

/-- `BulkModulusFromDensityInternalEnergy`, `eos_eospac.hpp:1678-1689`. -/
def bRE (I : Interp M K) (g : Thermo K) (rho sie : K) : M K := do
  let t ← tRE I rho sie
  bRT I g rho t

/-- `GruneisenParamFromDensityTemperature`, `eos_eospac.hpp:1691-1712`. -/
def gRT (σ : K) (I : Interp M K) (rho temp : K) : M K := do
  let e ← I .EofRT [] rho temp
  let p ← I .PofRT [] rho temp
  return ratio σ (presU * (toSieU * (p.dy / e.dy))) rho

/-- `GruneisenParamFromDensityInternalEnergy`, `eos_eospac.hpp:1714-1724`. -/
def gRE (σ : K) (I : Interp M K) (rho sie : K) : M K := do
  let t ← tRE I rho sie
  gRT σ I rho t

/-- The scalar two-input queries. (eos_eospac.hpp:1425-1724) -/
def query (σ : K) (I : Interp M K) (g : Thermo K) : Q → K → K → M K
  | .tRE => tRE I
  | .eRT => eRT I g
  | .pRT => pRT I
  | .pRE => pRE I
  | .sRT => sRT I
  | .sRE => sRE I
  | .cvRT => cvRT I g
  | .cvRE => cvRE I g
  | .bRT => bRT I g
  | .bRE => bRE I g
  | .gRT => gRT σ I
  | .gRE => gRE σ I

/-- `DensityEnergyFromPressureTemperature`, `eos_eospac.hpp:1726-1751`. -/
def rePT (I : Interp M K) (press temp : K) : M (K × K) := do
  let r ← I .RofPT [] (toPresU * press) temp
  let e ← I .EofRT [] r.v temp
  return (r.v, sieU * e.v)

/-- `PTDerivativesFromPreferred`, `eos_eospac.hpp:1753-1797`. -/
def ptd (σ : K) (I : Interp M K) (rho temp : K) : M (PTDer K) := do
  let e ← I .EofRT [] rho temp
  let dedr_T := sieU * e.dx
  let dedT_r := sieU * e.dy
  let p ← I .PofRT [] rho temp
  let dPdr_T := presU * p.dx
  let dPdT_r := presU * p.dy
  return { dedP_T := ratio σ dedr_T dPdr_T
           dedT_P := dedT_r - ratio σ (dedr_T * dPdT_r) dPdr_T
           drdP_T := ratio σ 1 dPdr_T
           drdT_P := -ratio σ dPdT_r dPdr_T }

/-- The reference state stored by the constructor, `eos_eospac.hpp:1361-1386`, and returned by
`ValuesAtReferenceState`, `:1799-1817`; `rho` is the normal density of the material. -/
def reference (σ : K) (I : Interp M K) (rho : K) : M (RefState K) := do
  let temp : K := 293
  let e ← I .EofRT [] rho temp
  let p ← I .PofRT [] rho temp
  let DPDE := ratio σ p.dy e.dy
  let B := rho * p.dx + DPDE * (ratio σ p.v rho - rho * e.dx)
  let cv := cvU * max e.dy 0
  let dpde := presU * (toSieU * DPDE)
  return { rho := rho
           temp := temp
           sie := sieU * e.v
           press := presU * p.v
           cv := cv
           bmod := bmodU * max B 0
           dpde := dpde
           dvdt := ratio σ (dpde * cv) (rho * rho * (presU * p.dx)) }

end queries

/-! ## Table selection (`eos_eospac.hpp:1277-1291`) -/

/-- `enum class TableSplit`, `constants.hpp:40`. -/
inductive Split where
  | total | electron | ionCold
deriving DecidableEq

/-- What the data library has for a material: the tables of each part, the density table of the total, the cold
curve. -/
structure Material (K : Type*) where
  part : Split → Tid → Tab K
  densityOfTotal : Tab K
  cold : Tab K

/-- `TableSelect` and the table types, `eos_eospac.hpp:1277-1291`: density from pressure and temperature and
the cold curve are always those of the total. -/
def Material.load (m : Material K) (s : Split) : Tabs K
  | .RofPT => m.densityOfTotal
  | .EcofD => m.cold
  | t => m.part s t

/-! ## Array calls with scratch -/

/-- Memory: named arrays. 0, 1, 2 are the arrays of a two-input query (`in1`, `in2`, `out`); 0–5 those of
`FillEos` (density, temperature, energy, pressure, heat capacity, bulk modulus); 6 is the scratch area.
Distinct arrays do not overlap. (the arguments of eos_eospac.hpp:387-1175) -/
abbrev Mem (K : Type*) := Nat → Nat → K

/-- A pointer: array and offset. (`scratch + k * num`, e.g. eos_eospac.hpp:398) -/
structure Ptr where
  arr : Nat
  off : Nat

/-- `scratch + k * num`. (e.g. eos_eospac.hpp:398-399) -/
def scr (n k : Nat) : Ptr := ⟨6, k * n⟩

/-- `p[i]`. (C++ array access) -/
def get (m : Mem K) (p : Ptr) (i : Nat) : K := m p.arr (p.off + i)

/-- `p[i] = v`. (C++ array store) -/
def put (m : Mem K) (p : Ptr) (i : Nat) (v : K) : Mem K :=
  Function.update m p.arr (Function.update (m p.arr) (p.off + i) v)

/-- Library state and memory. -/
structure St (K : Type*) where
  sess : Sess K
  mem : Mem K

/-- `eosSafeInterpolate` for `n` pairs, `eospac_wrapper.cpp:273-320`. The library is taken to treat the pairs
one by one in order. -/
def safeInterpV (T : Tabs K) (t : Tid) (opts : List (Opt × K)) (n : Nat) (X Y F DX DY : Ptr) (s : St K) :
    St K :=
  let s1 := setOpts s.sess t opts
  { sess := resetOpts s1 t opts
    mem := forN n (fun m i =>
      let r := lookup (T t) (s1 t) (get m X i) (get m Y i)
      put (put (put m F i r.v) DX i r.dx) DY i r.dy) s.mem }

/-- A `portableFor` loop that stores one value per element. (e.g. eos_eospac.hpp:778-783) -/
def storeN (n : Nat) (out : Ptr) (f : Mem K → Nat → K) (s : St K) : St K :=
  { s with mem := forN n (fun m i => put m out i (f m i)) s.mem }

/-- `SetUpDensityTemperatureScalingOptions`, `eos_eospac.hpp:60-83`. -/
def optsDT (tr : Transform K) : List (Opt × K) :=
  if !tr.x.isSet && !tr.y.isSet then [(.XY, 1)]
  else (if tr.x.isSet then [(.X, 1 / tr.x.value)] else []) ++
    (if tr.y.isSet then [(.Y, 1 / tr.y.value)] else [])

/-- `SetUpDensityEnergyScalingOptions`, `eos_eospac.hpp:85-108`. -/
def optsDE (tr : Transform K) : List (Opt × K) :=
  let c : K := if tr.y.isSet then sieU / tr.y.value else sieU
  (if tr.x.isSet then [(.X, 1 / tr.x.value)] else []) ++
    (if !tr.x.isSet ∧ c = 1 then [(.XY, 1)] else [(.Y, c)])

/-- `SetUpOutputScalingOption`, `eos_eospac.hpp:110-117`. -/
def optF (tr : Transform K) : List (Opt × K) := if tr.f.isSet then [(.F, tr.f.value)] else []

/-- The overload with a unit conversion, `eos_eospac.hpp:119-129`: the conversion passed in is ignored,
`pressureFromSesame(1.0)` is used whatever the quantity. -/
def optFconv (tr : Transform K) (_conv : K) : List (Opt × K) :=
  [(.F, if tr.f.isSet then presU * tr.f.value else presU)]

/-- `EOS_X_CONVERT` alone, or `EOS_XY_PASSTHRU`: the second lookups of the by-energy array calls,
`eos_eospac.hpp:839-847`, `:989-999`, `:1146-1156`. -/
def optsX (tr : Transform K) : List (Opt × K) :=
  if tr.x.isSet then [(.X, 1 / tr.x.value)] else [(.XY, 1)]

/-- the first argument array (`IN1` of eos_eospac.hpp:387-1175) -/
def pIn1 : Ptr := ⟨0, 0⟩
/-- the second argument array (`IN2` of eos_eospac.hpp:387-1175) -/
def pIn2 : Ptr := ⟨1, 0⟩
/-- the output array (`OUT` of eos_eospac.hpp:387-1175) -/
def pOut : Ptr := ⟨2, 0⟩

/-- `transform.x.is_set() ? transform.x.get() : 1.0`, e.g. `eos_eospac.hpp:917`. -/
def orOne (f : Factor K) : K := if f.isSet then f.value else 1

/-- The array calls with raw pointers and scratch: `TemperatureFromDensityInternalEnergy`
`eos_eospac.hpp:387-414`, `PressureFromDensityTemperature` `:426-455`, `EntropyFromDensityTemperature`
`:467-496`, `InternalEnergyFromDensityTemperature` `:626-657`, `PressureFromDensityInternalEnergy`
`:670-698`, `SpecificHeatFromDensityTemperature` `:746-784`, `SpecificHeatFromDensityInternalEnergy`
`:796-859`, `BulkModulusFromDensityTemperature` `:871-941`, `BulkModulusFromDensityInternalEnergy`
`:953-1040`, `GruneisenParamFromDensityTemperature` `:1052-1097`,
`GruneisenParamFromDensityInternalEnergy` `:1109-1173`.  `EntropyFromDensityInternalEnergy` has no such
version. -/
def vec (σ : K) (T : Tabs K) (n : Nat) (tr : Transform K) (s : St K) : Q → St K
  | .tRE => safeInterpV T .TofRE (optsDE tr ++ optF tr) n pIn1 pIn2 pOut (scr n 0) (scr n 1) s
  | .pRT => safeInterpV T .PofRT (optsDT tr ++ optFconv tr presU) n pIn1 pIn2 pOut (scr n 0) (scr n 1) s
  | .sRT => safeInterpV T .SofRT (optsDT tr ++ optFconv tr sieU) n pIn1 pIn2 pOut (scr n 0) (scr n 1) s
  | .eRT => safeInterpV T .EofRT (optsDT tr ++ optFconv tr sieU) n pIn1 pIn2 pOut (scr n 1) (scr n 0) s
  | .pRE => safeInterpV T .PofRE (optsDE tr ++ optFconv tr presU) n pIn1 pIn2 pOut (scr n 0) (scr n 1) s
  | .cvRT =>
    let s1 := safeInterpV T .EofRT (optsDT tr) n pIn1 pIn2 (scr n 0) (scr n 1) pOut s
    let y := if tr.y.isSet then 1 / tr.y.value else 1
    storeN n pOut (fun m i => orOne tr.f * y * (cvU * max (get m pOut i) 0)) s1
  | .cvRE =>
    -- `T = scratch + 0`, `dTdr = scratch + 1*num = DEDT`, `dTde = scratch + 2*num = DEDR`, `NE = scratch + 3*num`
    let s1 := safeInterpV T .TofRE (optsDE tr) n pIn1 pIn2 (scr n 0) (scr n 1) (scr n 2) s
    let s2 := safeInterpV T .EofRT (optsX tr) n pIn1 (scr n 0) (scr n 3) (scr n 2) (scr n 1) s1
    storeN n pOut (fun m i => orOne tr.f * (cvU * max (get m (scr n 1) i) 0)) s2
  | .bRT =>
    -- E 0, P 1, DPDT 2, DPDR 3, DEDT 4, DEDR 5
    let s1 := safeInterpV T .EofRT (optsDT tr) n pIn1 pIn2 (scr n 0) (scr n 5) (scr n 4) s
    let s2 := safeInterpV T .PofRT (optsDT tr) n pIn1 pIn2 (scr n 1) (scr n 3) (scr n 2) s1
    storeN n pOut (fun m i => orOne tr.f * (bmodU * bulkOf (orOne tr.x) (get m pIn1 i)
      (get m (scr n 1) i) (get m (scr n 3) i) (get m (scr n 2) i) (get m (scr n 5) i)
      (get m (scr n 4) i))) s2
  | .bRE =>
    -- T 0, dTdr = DPDT 1, dTde = DPDR 2, Etmp = P 3, DEDT 4, DEDR 5
    let s1 := safeInterpV T .TofRE (optsDE tr) n pIn1 pIn2 (scr n 0) (scr n 1) (scr n 2) s
    let s2 := safeInterpV T .EofRT (optsX tr) n pIn1 (scr n 0) (scr n 3) (scr n 5) (scr n 4) s1
    let s3 := safeInterpV T .PofRT (optsX tr) n pIn1 (scr n 0) (scr n 3) (scr n 2) (scr n 1) s2
    storeN n pOut (fun m i => orOne tr.f * (bmodU * bulkOf (orOne tr.x) (get m pIn1 i)
      (get m (scr n 3) i) (get m (scr n 2) i) (get m (scr n 1) i) (get m (scr n 5) i)
      (get m (scr n 4) i))) s3
  | .gRT =>
    -- E = P 0, dx 1, DEDT 2, DPDT 3
    let s1 := safeInterpV T .EofRT (optsDT tr) n pIn1 pIn2 (scr n 0) (scr n 1) (scr n 2) s
    let s2 := safeInterpV T .PofRT (optsDT tr) n pIn1 pIn2 (scr n 0) (scr n 1) (scr n 3) s1
    storeN n pOut (fun m i => orOne tr.f * ratio σ
      (presU * (toSieU * (get m (scr n 3) i / get m (scr n 2) i))) (orOne tr.x * get m pIn1 i)) s2
  | .gRE =>
    -- T 0, P = Etmp 1, dx 2, DEDT = dy 3, DPDT 4
    let s1 := safeInterpV T .TofRE (optsDE tr) n pIn1 pIn2 (scr n 0) (scr n 2) (scr n 3) s
    let s2 := safeInterpV T .EofRT (optsX tr) n pIn1 (scr n 0) (scr n 1) (scr n 2) (scr n 3) s1
    let s3 := safeInterpV T .PofRT (optsX tr) n pIn1 (scr n 0) (scr n 1) (scr n 2) (scr n 4) s2
    storeN n pOut (fun m i => orOne tr.f * ratio σ
      (presU * (toSieU * (get m (scr n 4) i / get m (scr n 3) i))) (orOne tr.x * get m pIn1 i)) s3
  | .sRE => s

/-- `MinInternalEnergyFromDensity` with scratch, `eos_eospac.hpp:710-736`: input array 0, output array 2; both
derivative arguments are the same scratch array. -/
def vecMinE (T : Tabs K) (n : Nat) (tr : Transform K) (s : St K) : St K :=
  safeInterpV T .EcofD (optsDT tr ++ optFconv tr sieU) n pIn1 pIn1 pOut (scr n 0) (scr n 0) s

/-- `FillEos` with scratch, `eos_eospac.hpp:507-617`, when it does not abort. Unlike the scalar version it works
in the caller's arrays: the energy lookup overwrites the energy array and the pressure lookup the pressure
array. -/
def vecFillBody (T : Tabs K) (o : Flags) (n : Nat) (s : St K) : St K :=
  let R : Ptr := ⟨0, 0⟩
  let Tp : Ptr := ⟨1, 0⟩
  let E : Ptr := ⟨2, 0⟩
  let P : Ptr := ⟨3, 0⟩
  let cvs : Ptr := ⟨4, 0⟩
  let bmods : Ptr := ⟨5, 0⟩
  let DPDT := scr n 0
  let DPDR := scr n 1
  let DEDT := scr n 2
  let DEDR := scr n 3
  -- `:536-547`
  let s1 := if o.rho then safeInterpV T .RofPT [(.X, presU)] n P Tp R DPDT DPDR s else s
  -- `:548-566`
  let s2 :=
    if o.temp then
      if !o.rho && !o.sie then safeInterpV T .TofRE [(.Y, sieU)] n R E Tp DPDT DPDR s1
      else safeInterpV T .TofRP [(.Y, presU)] n R P Tp DPDT DPDR s1
    else s1
  -- `:567-575`
  let s3 := if o.sie || (o.cv || o.bmod) then
      safeInterpV T .EofRT [(.F, sieU)] n R Tp E DEDR DEDT s2 else s2
  -- `:576-587`
  let s4 := if o.press || o.bmod then
      safeInterpV T .PofRT [(.F, presU)] n R Tp P DPDR DPDT s3 else s3
  -- `:588-593`
  let s5 := if o.cv then storeN n cvs (fun m i => max (get m DEDT i) 0) s4 else s4
  -- `:594-616`
  if o.bmod then
    storeN n bmods (fun m i => bulkOf 1 (get m R i) (get m P i) (get m DPDR i) (get m DPDT i)
      (get m DEDR i) (get m DEDT i)) s5
  else s5

/-- `FillEos` with scratch; `none` is an abort. (eos_eospac.hpp:507-617) -/
def vecFill (T : Tabs K) (o : Flags) (n : Nat) (s : St K) : Option (St K) :=
  if fillAborts o then none else some (vecFillBody T o n s)

/-! ## Concurrent use

Queries are `const` but change the factors of the shared tables.  A query is a sequence of library calls, the later ones
depending on the answers to the earlier ones; single library calls are taken to be atomic. -/

/-- One call to the library. (eospac_wrapper.cpp:281-318) -/
inductive Act (K : Type*) where
  | set (t : Tid) (o : Opt) (v : K)
  | look (t : Tid) (x y : K)
  | reset (t : Tid) (o : Opt)

/-- Perform one call; a lookup produces an answer. (the EOSPAC library) -/
def Act.step (T : Tabs K) (s : Sess K) : Act K → Sess K × Option (Res K)
  | .set t o v => (setOpt s t o v, none)
  | .look t x y => (s, some (lookup (T t) (s t) x y))
  | .reset t o => (resetOpt s t o, none)

/-- A thread's remaining work: finished, or a library call and what to do with its answer.
(the control flow of eos_eospac.hpp:1425-1797) -/
inductive Prog (K : Type u) (α : Type u) : Type u where
  | done (a : α)
  | call (a : Act K) (k : Option (Res K) → Prog K α)

/-- Sequencing. (C++ statement order) -/
def Prog.bind {α β : Type u} : Prog K α → (α → Prog K β) → Prog K β
  | .done a, f => f a
  | .call a k, f => .call a (fun r => (k r).bind f)

instance : Monad (Prog K) where
  pure := .done
  bind := Prog.bind

/-- Make the calls of a list, ignoring answers, then go on. (the loops eospac_wrapper.cpp:281-289, :310-318) -/
def Prog.calls {α : Type u} : List (Act K) → Prog K α → Prog K α
  | [], p => p
  | a :: as, p => .call a (fun _ => Prog.calls as p)

/-- `eosSafeInterpolate` for one pair as a sequence of library calls, `eospac_wrapper.cpp:273-320`. -/
def interpP : Interp (Prog K) K := fun t opts x y =>
  Prog.calls (opts.map (fun o => .set t o.1 o.2))
    (.call (.look t x y) (fun r =>
      Prog.calls (opts.map (fun o => .reset t o.1)) (.done (r.getD ⟨0, 0, 0⟩))))

/-- Run a thread alone. (C++ execution) -/
def Prog.run {α : Type u} (T : Tabs K) : Prog K α → Sess K → α × Sess K
  | .done a, s => (a, s)
  | .call a k, s => (k (a.step T s).2).run T (a.step T s).1

/-- The state of the library and of every thread. -/
structure Cfg (K α : Type u) where
  sess : Sess K
  th : Nat → Prog K α

/-- Thread `i` makes its next call. (the host threads of a Kokkos/OpenMP loop share the tables) -/
def Cfg.step {α : Type u} (T : Tabs K) (c : Cfg K α) (i : Nat) : Cfg K α :=
  match c.th i with
  | .done _ => c
  | .call a k => ⟨(a.step T c.sess).1, Function.update c.th i (k (a.step T c.sess).2)⟩

/-- An arbitrary schedule: the thread that moves at each step. (the same) -/
def Cfg.runSched {α : Type u} (T : Tabs K) (c : Cfg K α) (sched : List Nat) : Cfg K α :=
  sched.foldl (fun c i => c.step T i) c

/-- The public scalar operations of the wrapper. (eos_eospac.hpp:1425-1817) -/
inductive Call (K : Type u) where
  | query (k : Q) (a b : K)
  | minE (u rho : K)
  | fill (o : Flags) (v : Thermo K)
  | rePT (p t : K)
  | ptd (rho t : K)

/-- Perform one operation; the outputs as a list. (eos_eospac.hpp:1425-1817) -/
def Call.run {M : Type u → Type u} [Monad M] (σ : K) (I : Interp M K) (g : Thermo K) : Call K → M (List K)
  | .query k a b => do let r ← Eospac.query σ I g k a b; return [r]
  | .minE u rho => do let r ← Eospac.minE I u rho; return [r]
  | .fill o v => do let r ← fillBody I o v; return [r.rho, r.temp, r.sie, r.press, r.cv, r.bmod]
  | .rePT p t => do let r ← Eospac.rePT I p t; return [r.1, r.2]
  | .ptd rho t => do let r ← Eospac.ptd σ I rho t; return [r.dedP_T, r.drdP_T, r.dedT_P, r.drdT_P]

/-- Perform a history of operations one after the other. (C++ statement order) -/
def runCalls (σ : K) (T : Tabs K) (g : Thermo K) : List (Call K) → Sess K → List (List K) × Sess K
  | [], s => ([], s)
  | c :: cs, s =>
    let (r, s1) := (c.run σ (safeInterp T) g : StateM (Sess K) (List K)) s
    let (rs, s2) := runCalls σ T g cs s1
    (r :: rs, s2)

end Verif.Eospac
