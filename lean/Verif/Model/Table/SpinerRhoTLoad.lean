import Verif.Model.Table.SpinerRhoT
import Verif.Model.Table.Transforms
import Verif.Model.Table.Mesh

/-!
# `SpinerEOSDependsRhoT`: loading a file, reference state, mass fractions

`eos_spiner_rho_temp.hpp:545-687` (`loadDataboxes_`), `:936-1004` (mass fractions), `:1102-1115` (reference state).
The tables of a material share one pair of grids and the cold curves are on the density grid, as sesame2spiner writes them
and `fixBulkModulus_` assumes (`:690`).  HDF5 (opening, attributes, status codes) and the phase names are left out.
-/

namespace Verif.RhoT

open Verif.RootFind Verif.Robust Verif.Mods Verif.Databox Verif.Spiner

/-- What the file holds for one material, `:549-602`. `gR`, `gT` are the log density and log temperature grids (`range(1)`,
`range(0)`); `d j i` is density `j`, temperature `i`; `mf` is the number of phases and their tables. -/
structure File (K : Type*) where
  (gR gT : Mesh K)
  (P sie dPdRho dPdE dEdRho dEdT : Nat → Nat → K)
  (PCold sieCold : Nat → K)
  (offR offT rhoNormal : K)
  mf : Option (Nat × (Nat → Nat → Nat → K))

/-- Constants and the logarithm: `lg`, `pw` are `FastMath::log10`, `pow10`; `room` is `ROOM_TEMPERATURE`; `c` is the
widening `1e-14` of `:761-762`; the rest as in `Tab` (eos_spiner_rho_temp.hpp:340-375). -/
structure Consts (K : Type*) where
  (lg pw : K → K)
  (eps thr soft σ c room vaporThresh big : K)
  (repro dome : Bool)

variable {K : Type*} [Field K] [LinearOrder K] [IsStrictOrderedRing K]

/-- `lRho_`, `:271-276`: `to_log(rho, lRhoOffset_)`; the offset is stored as its absolute value, `:556`. -/
def File.lRho (m : Consts K) (f : File K) (rho : K) : K := toLog m.lg m.eps rho |f.offR|

/-- `rho_`, `:279-283` -/
def File.rho (m : Consts K) (f : File K) (x : K) : K :=
  if fromLog m.pw x |f.offR| < 0 then 0 else fromLog m.pw x |f.offR|

/-- `lT_`, `:277-278`; offset `:557` -/
def File.lT (m : Consts K) (f : File K) (T : K) : K := toLog m.lg m.eps T |f.offT|

/-- `T_`, `:284-285` -/
def File.T (m : Consts K) (f : File K) (x : K) : K := fromLog m.pw x |f.offT|

/-- A table of the file as an interpolant, `:570-578`. -/
def File.tab (f : File K) (d : Nat → Nat → K) : K → K → K := f.gR.lin2 f.gT d

/-- `bMod_` after `fixBulkModulus_`, `:616`, `:689-714`. -/
def File.bulk (m : Consts K) (f : File K) (j i : Nat) : K :=
  let x := f.gR.x j
  let y := f.gT.x i
  fixedBulk m.eps (f.rho m x) (f.tab f.P x y) (f.tab f.dPdRho x y) (f.tab f.dPdE x y) (f.tab f.dEdRho x y)

/-- `lTColdCrit_`, `:620`, `:716-776`: entry `j`. -/
def File.crit (m : Consts K) (f : File K) (j : Nat) : K :=
  let x := f.gR.x j
  let e := f.gR.lin f.sieCold x
  coldCrit m.thr m.c f.gT.min (f.tab f.sie x) f.gT.x (fun i => f.sie j i - e) f.gT.N e

/-- One of the cold curves that are rebuilt from `lTColdCrit_`, `:635-647`: entry `j` of `bModCold_`, `dPdECold_`,
`dEdTCold_`, from the table `d`. -/
def File.cold (m : Consts K) (f : File K) (d : Nat → Nat → K) (j : Nat) : K := f.tab d (f.gR.x j) (f.crit m j)

/-- `loadDataboxes_`, `:545-687`: the members the queries read. The rows of the last temperature, `:650-662`; bounds
`:606-612`; `SetRhoPMin`, `:623`. -/
def File.load (m : Consts K) (f : File K) : Tab K where
  lRho := f.lRho m
  rho := f.rho m
  lT := f.lT m
  T := f.T m
  P := f.tab f.P
  sie := f.tab f.sie
  bMod := f.tab (f.bulk m)
  dPdE := f.tab f.dPdE
  dEdT := f.tab f.dEdT
  PCold := f.gR.lin f.PCold
  sieCold := f.gR.lin f.sieCold
  bModCold := f.gR.lin (f.cold m (f.bulk m))
  dPdECold := f.gR.lin (f.cold m f.dPdE)
  dEdTCold := f.gR.lin (f.cold m f.dEdT)
  PMax := f.gR.lin fun j => f.P j (f.gT.N - 1)
  dEdTMax := f.gR.lin fun j => f.dEdT j (f.gT.N - 1)
  gm1Max := f.gR.lin fun j => ratio m.σ (f.dPdE j (f.gT.N - 1)) (f.rho m (f.gR.x j))
  sielTMax := f.gR.lin fun j => f.sie j (f.gT.N - 1)
  rhoAtPmin := f.gT.lin
    (setRhoPMin (ratio m.σ) m.dome m.vaporThresh m.big f.P (fun j => fromLog m.pw (f.gR.x j) |f.offR|) f.gT.N f.gR.N).2
  lTMin := f.gT.min
  lTMax := f.gT.max
  lRhoMax := f.gR.max
  TMax := f.T m f.gT.max
  eps := m.eps
  thr := m.thr
  soft := m.soft
  σ := m.σ
  repro := m.repro

/-- The reference state, `:664-684`, as `ValuesAtReferenceState` (`:1102-1115`) returns it. -/
structure Ref (K : Type*) where
  (rho temp sie press cv bmod dpde dvdt : K)

/-- The reference density and its log, `:561`, `:665-670`. -/
def File.refRho (m : Consts K) (f : File K) : K × K :=
  let r := |f.rhoNormal|
  let x := f.lRho m r
  if f.gR.min < x ∧ x < f.gR.max then (r, x)
  else (f.rho m (1 / 2 * (f.gR.min + f.gR.max)), 1 / 2 * (f.gR.min + f.gR.max))

/-- The reference temperature and its log, `:671-677`. -/
def File.refT (m : Consts K) (f : File K) : K × K :=
  let x := f.lT m m.room
  if f.gT.min < x ∧ x < f.gT.max then (m.room, x)
  else (f.T m (1 / 2 * (f.gT.min + f.gT.max)), 1 / 2 * (f.gT.min + f.gT.max))

/-- The reference state, `:678-684`. -/
def File.ref (m : Consts K) (f : File K) : Ref K :=
  let r := f.refRho m
  let t := f.refT m
  let cv := f.tab f.dEdT r.2 t.2
  let dpde := f.tab f.dPdE r.2 t.2
  { rho := r.1
    temp := t.1
    sie := f.tab f.sie r.2 t.2
    press := f.tab f.P r.2 t.2
    cv := cv
    bmod := f.tab (f.bulk m) r.2 t.2
    dpde := dpde
    dvdt := dpde * cv / (r.1 * r.1 * f.tab f.dPdRho r.2 t.2) }

/-- `MassFractionsFromDensityTemperature`, `:936-949`: the entries written (`:939`: without phase data one entry, 1). -/
def File.massT (m : Consts K) (f : File K) (rho T : K) : List K :=
  match f.mf with
  | none => [1]
  | some (n, d) => (List.range n).map fun k => f.tab (fun j i => d j i k) (f.lRho m rho) (f.lT m T)

/-- `MassFractionsFromDensityInternalEnergy`, `:969-984`; the location that `lTFromlRhoSie_` reports is not used. -/
def File.massE (m : Consts K) (f : File K) (cache rho e : K) : List K :=
  match f.mf with
  | none => [1]
  | some (n, d) =>
    (List.range n).map fun k => f.tab (fun j i => d j i k) (f.lRho m rho) (lTOfE (f.load m) cache (f.lRho m rho) e).x

/-- `MinimumPressure()`, `:245-246`: `PMin_`, `:623`. -/
def File.pMin (m : Consts K) (f : File K) : K :=
  (setRhoPMin (ratio m.σ) m.dome m.vaporThresh m.big f.P (fun j => fromLog m.pw (f.gR.x j) |f.offR|) f.gT.N f.gR.N).1

/-- `MinimumDensity`, `MaximumDensity`, `MinimumTemperature`, `:226-228`, `:242-244`. -/
def File.bounds (m : Consts K) (f : File K) : K × K × K :=
  (f.rho m f.gR.min, fromLog m.pw f.gR.max |f.offR|, f.T m f.gT.min)

/-- `nlambda()`, `:253`, `:369`: the cells of `lambda` the class asks for. -/
def nlambda : Nat := 2

/-- The cells of a numerically indexed `lambda` that the variants without an output array write the fractions to,
`:950-967`, `:985-1003`: `(cell, value)`, in order. (A null `lambda` is not written to, indexable_types.hpp:99-101.) -/
def lambdaWrites (l : List K) : List (Nat × K) := (List.range l.length).map fun n => (nlambda + n, l.getD n 0)

end Verif.RhoT
