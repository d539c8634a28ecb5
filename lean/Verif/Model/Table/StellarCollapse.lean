import Verif.Model.Table.DataBox
import Verif.Model.Table.SpinerRhoT
import Verif.Model.Table.Transforms
import Mathlib.Data.List.Sort

/-!
# `StellarCollapse` (`singularity-eos/eos/eos_stellar_collapse.hpp`)

`Real` is a linearly ordered field `K` (with a floor); `FastMath::log10`/`pow10` and `std::log10`/`std::pow(10,.)` are
parameters.  `DataBox` is `Model/Table/DataBox.lean`.  HDF5 is a map from names to contents.  `lambda` is given by the
electron fraction `Ye` and the cached log temperature.  Abort (`EOS_ERROR`, `UNDEFINED_ERROR`, null `lambda`) is `none` or
excluded by the argument types.
-/

namespace Verif.SC

open Verif.RootFind Verif.Robust Verif.Mods Verif.Databox
open Verif.RhoT (invert)

/-- The three-dimensional tables, `eos_stellar_collapse.hpp:392-404`. -/
inductive F where
  | lP | lE | dPdRho | dPdE | dEdT | lBMod | entropy | Xa | Xh | Xn | Xp | Abar | Zbar
  | mu_e | mu_n | mu_p | muhat | munu
  deriving DecidableEq, Repr

/-- Mathematical environment: `lg = FastMath::log10`, `pw = FastMath::pow10`, `log10 = std::log10`,
`pow10 = std::pow(10, .)`, `eps = robust::EPS()`, `σ = robust::SMALL()`, `thr = ROOT_THRESH`. -/
structure Env (K : Type*) where
  (lg pw log10 pow10 : K → K)
  (eps σ thr : K)

/-- The members of the class, `:392-442`. -/
structure Eos (K : Type*) where
  tab : F → Box3 K
  (eCold eHot : Box2 K)
  (numRho numT numYe : Nat)
  (lRhoMin lRhoMax lTMin lTMax YeMin YeMax sieMin sieMax lEOffset : K)

variable {K : Type*} [Field K] [LinearOrder K] [IsStrictOrderedRing K] [FloorRing K]

/-! ## Conversions -/

/-- `toLog_`, `:318-323`. -/
def toLog (m : Env K) (x offset : K) : K := m.lg (|max x (-offset) + offset| + m.σ)

/-- `fromLog_`, `:324-330`. -/
def fromLog (m : Env K) (lx offset : K) : K := m.pw lx - offset

/-- `lRho_`, `:331-335` (`lRhoOffset_ = 0`, `:438`). -/
def lRho (m : Env K) (rho : K) : K := toLog m rho 0
/-- `lT_`, `:336-338`. -/
def lT (m : Env K) (T : K) : K := toLog m T 0
/-- `rho_`, `:339-342`. -/
def rhoOf (m : Env K) (x : K) : K := if fromLog m x 0 < 0 then 0 else fromLog m x 0
/-- `T_`, `:343-345`. -/
def tOf (m : Env K) (x : K) : K := fromLog m x 0
/-- `le2e_`, `:346-348`. -/
def eOf (m : Env K) (s : Eos K) (x : K) : K := fromLog m x s.lEOffset
/-- `e2le_`, `:349-351`. -/
def lEOf (m : Env K) (s : Eos K) (e : K) : K := toLog m e s.lEOffset
/-- `lP2P_`, `lB2B_`, `:352-354`, `:358-360` (both offsets are zero). -/
def pOf (m : Env K) (x : K) : K := fromLog m x 0
/-- `P2lP_`, `:355-357`. -/
def lPOf (m : Env K) (P : K) : K := toLog m P 0

/-- `x > robust::EPS() ? x : robust::EPS()` (eos_stellar_collapse.hpp:591, 600, 609, 618, 628, 745, 1162, 1166) -/
def flo (m : Env K) (x : K) : K := if x > m.eps then x else m.eps

/-! ## Queries -/

/-- `lTFromlRhoSie_`, `:1174-1233`: the root status and the log temperature, also written to `lambda`. -/
def lTOfE (m : Env K) (s : Eos K) (Ye cache lR sie : K) : Status × K :=
  if sie ≤ s.eCold.interp Ye lR then (.success, s.lTMin)
  else if sie ≥ s.eHot.interp Ye lR then (.success, s.lTMax)
  else
    let g := if s.lTMin ≤ cache ∧ cache ≤ s.lTMax then cache else 1 / 2 * (s.lTMin + s.lTMax)
    invert m.thr (fun x => (s.tab .lE).interp Ye x lR) (lEOf m s sie) g s.lTMin s.lTMax g

/-- The value of a query at log density and log temperature (the common part of `:542-659`). -/
def at_ (m : Env K) (s : Eos K) (k : Q) (Ye rho lR x : K) : K :=
  match k with
  | .tRE => tOf m x
  | .eRT => eOf m s ((s.tab .lE).interp Ye x lR)
  | .pRT | .pRE => pOf m ((s.tab .lP).interp Ye x lR)
  | .sRT | .sRE => flo m ((s.tab .entropy).interp Ye x lR)
  | .cvRT | .cvRE => flo m ((s.tab .dEdT).interp Ye x lR)
  | .bRT => flo m (pOf m ((s.tab .lBMod).interp Ye x lR))
  | .bRE => pOf m ((s.tab .lBMod).interp Ye x lR)
  | .gRT | .gRE => |(s.tab .dPdE).interp Ye x lR| / (|rho| + m.eps)

/-- The scalar queries, `:542-659`; `y` is a temperature or an energy. -/
def query (m : Env K) (s : Eos K) (k : Q) (Ye cache rho y : K) : K :=
  at_ m s k Ye rho (lRho m rho)
    (if k.byEnergy then (lTOfE m s Ye cache (lRho m rho) y).2 else lT m y)

/-- `MinInternalEnergyFromDensity`, `:576-583`. -/
def minE (m : Env K) (s : Eos K) (Ye rho : K) : K := s.eCold.interp Ye (lRho m rho)

/-- `MassFractionsFromDensityTemperature`, `ChemicalPotentialsFromDensityTemperature`,
`MeanAtomicMass/NumberFromDensityTemperature` (`:179-194`, `:688-713`): table `f`, read linearly. -/
def composition (m : Env K) (s : Eos K) (f : F) (Ye rho T : K) : K := (s.tab f).interp Ye (lT m T) (lRho m rho)

/-- `TNormal_`, `:426-430`: `5 * GK2MeV_`. -/
def TNormal : K := 5 * (1 / (11604525006 / 10 ^ 9))
/-- `MeV2K_`, `:428`. -/
def MeV2K : K := 10 ^ 9 * (11604525006 / 10 ^ 9)
/-- `rhoNormal_`, `:431`. -/
def rhoNormal : K := 2 * 10 ^ 12
/-- `YeNormal_`, `:432`. -/
def YeNormal : K := 3517 / 10000

/-- `DensityEnergyFromPressureTemperature`, `:661-686`; `rho0` is the incoming density. The status of the root
finder is ignored; on failure `lrguess` keeps its value. -/
def dePT (m : Env K) (s : Eos K) (Ye P T rho0 : K) : K × K :=
  let g0 := lRho m rho0
  let g := if g0 < s.lRhoMin ∨ g0 > s.lRhoMax then lRho m rhoNormal else g0
  let x := (invert m.thr (fun r => (s.tab .lP).interp Ye (lT m T) r) (lPOf m P) g s.lRhoMin s.lRhoMax g).2
  (rhoOf m x, eOf m s ((s.tab .lE).interp Ye (lT m T) x))

/-- `FillEos`, `:715-751`; `none` is an abort. -/
def fillEos (m : Env K) (s : Eos K) (fl : Flags) (Ye cache : K) (v : Thermo K) : Option (Thermo K) :=
  if !(fl.rho || fl.temp || fl.sie || fl.press || fl.cv || fl.bmod) then none
  else if fl.rho then none
  else if fl.temp && fl.sie then none
  else
    let lR := lRho m v.rho
    let x := if !fl.temp then lT m v.temp else (lTOfE m s Ye cache lR v.sie).2
    some
      { rho := v.rho
        temp := v.temp
        sie := if fl.sie then eOf m s ((s.tab .lE).interp Ye x lR) else v.sie
        press := if fl.press then pOf m ((s.tab .lP).interp Ye x lR) else v.press
        cv := if fl.cv then flo m ((s.tab .dEdT).interp Ye x lR) else v.cv
        bmod := if fl.bmod then pOf m ((s.tab .lBMod).interp Ye x lR) else v.bmod }

/-- `setNormalValues_`, `:1147-1172`, as returned by `ValuesAtReferenceState`, `:753-770`. -/
def refState (m : Env K) (s : Eos K) : RefState K :=
  let x := lT m TNormal
  let lR := lRho m rhoNormal
  let i := fun f => (s.tab f).interp YeNormal x lR
  let cv := flo m (i .dEdT)
  { rho := rhoNormal, temp := TNormal, sie := eOf m s (i .lE), press := pOf m (i .lP), cv := cv
    bmod := flo m (pOf m (i .lBMod)), dpde := i .dPdE
    dvdt := i .dPdE * cv / (rhoNormal * rhoNormal * i .dPdRho) }

/-! ## Loading a table -/

/-- Width of the median filter, `MF_W`, `:452`. -/
def W : Nat := 3

/-- `fillMedianBuffer_`, `:1081-1091`: the `(2W+1)³` entries around `(iY, iT, irho)` (`i + d - W` for `d` in `[0, 2W]`; the
loops of `medianFilter_` keep the indices non-negative). -/
def window (tab : Nat → Nat → Nat → K) (iY iT ir : Nat) : List K :=
  (List.range (2 * W + 1)).flatMap fun a => (List.range (2 * W + 1)).flatMap fun b =>
    (List.range (2 * W + 1)).map fun c => tab (iY + a - W) (iT + b - W) (ir + c - W)

/-- `findMedian_`, `:1093-1104`: `qsort` then the middle (the mean of the two middle entries for even sizes). -/
def median (buf : List K) : K :=
  let b := buf.insertionSort (· ≤ ·)
  let n := buf.length
  if n % 2 = 0 then 1 / 2 * (b.getD ((n - 1) / 2) 0 + b.getD (n / 2) 0) else b.getD (n / 2) 0

/-- The test `abs(avg - point) / abs(avg) > DELTASMOOTH` of `:1074` in IEEE arithmetic: with `avg = 0` the quotient is
`inf` (true) for a nonzero point and `NaN` (false) for a zero one. -/
def bad (avg point : K) : Bool :=
  if avg = 0 then decide (point ≠ 0) else decide (|avg - point| / |avg| > 10)

/-- `medianFilter_(in, out)`, `:1064-1079`: entries outside the loops keep the value `out` already has, which
`medianFilter_(db)` (`:1057-1062`) makes a copy of `in`. -/
def medianFilter (nY nT nR : Nat) (tab : Nat → Nat → Nat → K) : Nat → Nat → Nat → K :=
  forN (nY - W - W) (fun o a => forN (nT - W - W) (fun o b => forN (nR - W - W) (fun o c =>
    let iY := a + W
    let iT := b + W
    let ir := c + W
    let put := fun (o : Nat → Nat → Nat → K) v =>
      Function.update o iY (Function.update (o iY) iT (Function.update (o iY iT) ir v))
    let o := put o (tab iY iT ir)
    let avg := median (window tab iY iT ir)
    if bad avg (tab iY iT ir) then put o avg else o) o) o) tab

/-- `computeBulkModulus_`, `:1107-1124`: one entry, before the logarithm. -/
def bulkEntry (m : Env K) (lr lp dpdr dpde : K) : K :=
  let rho := m.pow10 lr
  let b := rho * dpdr + ratio m.σ (m.pow10 lp) rho * dpde
  if b < m.eps then m.eps else b

/-- `computeBulkModulus_`, `:1107-1124`. -/
def bulkBox (m : Env K) (lP dPdRho dPdE : Box3 K) : Box3 K :=
  { lP with data := fun k j i => m.log10 (bulkEntry m (lP.g0.x i) (lP.data k j i) (dPdRho.data k j i) (dPdE.data k j i)) }

/-- `gridToNQT`, `:264-270` with `log10toNQT`, `:260-262`. -/
def gridToNQT (m : Env K) (g : Grid K) (n : Nat) : Grid K := ⟨m.lg (m.pow10 g.min), m.lg (m.pow10 g.max), n⟩

/-- `dataBoxToFastLogs`, `:1024-1055`; `r1`, `r0` are the ranges of `scratch` (its range 2 is that of the box). -/
def regrid (m : Env K) (r1 r0 : Grid K) (isLog : Bool) (db : Box3 K) : Box3 K :=
  { g2 := db.g2, g1 := r1, g0 := r0
    data := fun k j i =>
      let v := db.interp (db.g2.x k) (m.log10 (m.pw (r1.x j))) (m.log10 (m.pw (r0.x i)))
      if isLog then m.lg (m.pow10 v) else v }

/-- A file in the stellarcollapse.org format: sizes, bounds of the axes (first and last entries, `:984-996`), energy shift
and data sets.  `data .lBMod` does not exist in the file and is not read. -/
structure File (K : Type*) where
  (nRho nT nYe : Nat)
  (logrhoMin logrhoMax logtempMin logtempMax yeMin yeMax energyShift : K)
  data : F → Nat → Nat → Nat → K

/-- The tables re-gridded in `:926-941`, and whether as logarithms; the five chemical potentials are not. -/
def regridded : F → Option Bool
  | .lP | .lE | .lBMod => some true
  | .mu_e | .mu_n | .mu_p | .muhat | .munu => none
  | _ => some false

/-- The tables as read and hardened, before re-gridding, `:828-912`. -/
def rawTab (m : Env K) (filter : Bool) (fi : File K) : F → Box3 K :=
  let gY : Grid K := ⟨fi.yeMin, fi.yeMax, fi.nYe⟩
  let gT : Grid K := ⟨fi.logtempMin + m.log10 MeV2K, fi.logtempMax + m.log10 MeV2K, fi.nT⟩
  let gR : Grid K := ⟨fi.logrhoMin, fi.logrhoMax, fi.nRho⟩
  let box := fun d => (⟨gY, gT, gR, d⟩ : Box3 K)
  let filt := fun d => if filter then medianFilter fi.nYe fi.nT fi.nRho d else d
  let lP := box (fi.data .lP)
  let dPdRho := box (filt (fi.data .dPdRho))
  let dPdE := box (filt (fi.data .dPdE))
  let dEdT := box (filt fun k j i => fi.data .dEdT k j i * (1 / MeV2K))
  fun f => match f with
    | .dPdRho => dPdRho
    | .dPdE => dPdE
    | .dEdT => dEdT
    | .lBMod => bulkBox m lP dPdRho dPdE
    | f => box (fi.data f)

/-- `static_cast<int>(n * DENSE_FACTOR)`, `DENSE_FACTOR = 1.25`, `:455`, `:915-916`. -/
def dense (n : Nat) : Nat := 5 * n / 4

/-- `computeColdAndHotCurves_`, `:1126-1145`: one of the two curves, at temperature index `j`. -/
def curve (m : Env K) (off : K) (lE : Box3 K) (j : Nat) (gY gR : Grid K) : Box2 K :=
  { g1 := gY, g0 := gR, data := fun k i => fromLog m (lE.data k j i) off }

/-- `LoadFromStellarCollapseFile_`, `:828-959`. -/
def load (m : Env K) (filter : Bool) (fi : File K) : Eos K :=
  let raw := rawTab m filter fi
  let nT := dense fi.nT
  let nR := dense fi.nRho
  let r1 := gridToNQT m (raw .lP).g1 nT
  let r0 := gridToNQT m (raw .lP).g0 nR
  let tab := fun f => match regridded f with
    | some l => regrid m r1 r0 l (raw f)
    | none => raw f
  let gY := (tab .lP).g2
  let gT := (tab .lP).g1
  let gR := (tab .lP).g0
  let eC := curve m fi.energyShift (tab .lE) 0 ⟨gY.min, gY.max, fi.nYe⟩ ⟨gR.min, gR.max, nR⟩
  let eH := curve m fi.energyShift (tab .lE) (nT - 1) ⟨gY.min, gY.max, fi.nYe⟩ ⟨gR.min, gR.max, nR⟩
  { tab := tab, eCold := eC, eHot := eH, numRho := nR, numT := nT, numYe := fi.nYe
    lRhoMin := gR.min, lRhoMax := gR.max, lTMin := gT.min, lTMax := gT.max, YeMin := gY.min, YeMax := gY.max
    sieMin := eC.min, sieMax := eH.max, lEOffset := fi.energyShift }

/-! ## `Save` and `LoadFromSP5File_` -/

/-- Contents of an HDF5 file: what is stored under each name. (eos_stellar_collapse.hpp:478-520, 772-810) -/
inductive Item (K : Type*) where
  | attr (x : K)
  | box3 (b : Box3 K)
  | box2 (b : Box2 K)

/-- The names of the tables, `:492-511`, `:784-803`. -/
def nameOf : F → String
  | .lP => "logpress" | .lE => "logenergy" | .dPdRho => "dpdrhoe" | .dPdE => "dpderho" | .dEdT => "dedt"
  | .entropy => "entropy" | .Xa => "Xa" | .Xh => "Xh" | .Xn => "Xn" | .Xp => "Xp" | .Abar => "Abar" | .Zbar => "Zbar"
  | .lBMod => "logbulkmodulus" | .mu_e => "mu_e" | .mu_n => "mu_n" | .mu_p => "mu_p" | .muhat => "muhat" | .munu => "munu"

/-- Order in which `Save` writes the three-dimensional tables. (eos_stellar_collapse.hpp:493-512) -/
def saved : List F := [.lP, .lE, .dPdRho, .dPdE, .dEdT, .entropy, .Xa, .Xh, .Xn, .Xp, .Abar, .Zbar, .lBMod, .mu_e, .mu_n,
  .mu_p, .muhat, .munu]

/-- `Save`, `:478-518`: writes in order; a later write under the same name replaces (HDF5 would refuse it). -/
def save (s : Eos K) : List (String × Item K) :=
  ("Metadata/sieOffset", .attr s.lEOffset) :: (saved.map fun f => (nameOf f, .box3 (s.tab f))) ++
    [("ecold", .box2 s.eCold), ("ehot", .box2 s.eHot)]

/-- `loadHDF` of one table from a file. (eos_stellar_collapse.hpp:784-803) -/
def get3 (h : List (String × Item K)) (n : String) : Option (Box3 K) :=
  match h.lookup n with
  | some (.box3 b) => some b
  | _ => none

/-- `loadHDF` of a curve. (eos_stellar_collapse.hpp:797-798) -/
def get2 (h : List (String × Item K)) (n : String) : Option (Box2 K) :=
  match h.lookup n with
  | some (.box2 b) => some b
  | _ => none

/-- `LoadFromSP5File_`, `:772-825`; `none` is an abort because something is missing. -/
def loadSP5 (h : List (String × Item K)) : Option (Eos K) := do
  let off ← match h.lookup "Metadata/sieOffset" with
    | some (.attr x) => some x
    | _ => none
  let lP ← get3 h "logpress"
  let lE ← get3 h "logenergy"
  let dPdRho ← get3 h "dpdrhoe"
  let dPdE ← get3 h "dpderho"
  let dEdT ← get3 h "dedt"
  let entropy ← get3 h "entropy"
  let Xa ← get3 h "Xa"
  let Xh ← get3 h "Xh"
  let Xn ← get3 h "Xn"
  let Xp ← get3 h "Xp"
  let Abar ← get3 h "Abar"
  let Zbar ← get3 h "Zbar"
  let lBMod ← get3 h "logbulkmodulus"
  let eCold ← get2 h "ecold"
  let eHot ← get2 h "ehot"
  let mu_e ← get3 h "mu_e"
  let mu_n ← get3 h "mu_n"
  let mu_p ← get3 h "mu_p"
  let muhat ← get3 h "muhat"
  let munu ← get3 h "munu"
  some
    { tab := fun f => match f with
        | .lP => lP | .lE => lE | .dPdRho => dPdRho | .dPdE => dPdE | .dEdT => dEdT | .lBMod => lBMod
        | .entropy => entropy | .Xa => Xa | .Xh => Xh | .Xn => Xn | .Xp => Xp | .Abar => Abar | .Zbar => Zbar
        | .mu_e => mu_e | .mu_n => mu_n | .mu_p => mu_p | .muhat => muhat | .munu => munu
      eCold := eCold, eHot := eHot
      numRho := lP.g0.N, numT := lP.g1.N, numYe := lP.g2.N
      lRhoMin := lP.g0.min, lRhoMax := lP.g0.max, lTMin := lP.g1.min, lTMax := lP.g1.max
      YeMin := lP.g2.min, YeMax := lP.g2.max, sieMin := eCold.min, sieMax := eHot.max, lEOffset := off }

end Verif.SC
