import Verif.Model.RootFind
import Verif.Model.Robust
import Verif.Model.EosIface

/-!
# `SpinerEOSDependsRhoT` (`singularity-eos/eos/eos_spiner_rho_temp.hpp`)

`Real` is a linearly ordered field `K`.  Each `DataBox` is an arbitrary interpolation function (of one or two log
coordinates); `lRho_`, `rho_`, `lT_`, `T_` are arbitrary functions, instantiated with `toLog`/`fromLog` of
`Model/Table/Transforms.lean` in the theorems that need their properties.  What `SafeGet` reads from `lambda` (a stale
cache, or an uninitialised variable when there is no lambda) is an arbitrary value `cache`; what is written is
returned.  The counters and the verbose error messages are left out.
-/

namespace Verif.RhoT

open Verif.RootFind Verif.Robust Verif.Mods

/-- `TableStatus`, `eos_spiner_common.hpp`. (constants.hpp:39) -/
inductive Loc where
  | onTable
  | offBottom
  | offTop
deriving DecidableEq, Repr

/-- The members of the class that the queries read (`eos_spiner_rho_temp.hpp:355-400`). `eps = robust::EPS()`,
`thr = ROOT_THRESH`, `soft = SOFT_THRESH`, `σ = robust::SMALL()`. -/
structure Tab (K : Type*) where
  (lRho rho lT T : K → K)
  (P sie bMod dPdE dEdT : K → K → K)
  (PCold sieCold bModCold dPdECold dEdTCold : K → K)
  (PMax dEdTMax gm1Max sielTMax rhoAtPmin : K → K)
  (lTMin lTMax lRhoMax TMax : K)
  (eps thr soft σ : K)
  (repro : Bool)

variable {K : Type*} [Field K] [LinearOrder K]

/-- `getLocDependsRhoSie_`, `:1377-1393`. -/
def locE (t : Tab K) (lRho sie : K) : Loc :=
  if sie ≥ t.sielTMax lRho - t.soft * |t.sielTMax lRho| then .offTop
  else if sie ≤ t.sieCold lRho + t.soft * |t.sieCold lRho| then .offBottom
  else .onTable

/-- `getLocDependsRhoT_`, `:1395-1405`. -/
def locT (t : Tab K) (lT : K) : Loc :=
  if lT ≤ (1 + t.soft) * t.lTMin then .offBottom
  else if lT ≥ (1 - t.soft) * t.lTMax then .offTop
  else .onTable

/-- What an inversion returns and writes into `lambda`: the log coordinate, the `TableStatus`, the root status.
(eos_spiner_rho_temp.hpp:1130-1300) -/
structure Inv (K : Type*) where
  x : K
  loc : Loc
  status : Status

/-- `SP_ROOT_FINDER(..)` (`regula_falsi`, `eos_spiner_common.hpp:43`) followed by the fallback on failure. -/
def invert (thr : K) (f : K → K) (y guess a b fallback : K) : Status × K :=
  match regulaFalsi 1000 f y guess a b thr thr with
  | some (⟨.success, some x⟩, _) => (.success, x)
  | _ => (.fail, fallback)

/-- The guess: the cached value if it lies in `[a, b]`, else `dflt`.
(eos_spiner_rho_temp.hpp:1150-1166, 1205-1222, 1262-1280) -/
def guessOf (cache a b dflt : K) : K := if a ≤ cache ∧ cache ≤ b then cache else dflt

/-- `lTFromlRhoSie_`, `:1195-1250`. -/
def lTOfE (t : Tab K) (cache lRho sie : K) : Inv K :=
  match locE t lRho sie with
  | .offBottom => ⟨t.lTMin, .offBottom, .success⟩
  | .offTop => ⟨t.lT (t.TMax + ratio t.σ (sie - t.sielTMax lRho) (t.dEdTMax lRho)), .offTop, .success⟩
  | .onTable =>
    let g := guessOf cache t.lTMin t.lTMax (if t.repro then t.lTMin else 1 / 2 * (t.lTMin + t.lTMax))
    let r := invert t.thr (t.sie lRho) sie g t.lTMin t.lTMax (if t.repro then t.lTMin else g)
    ⟨r.2, .onTable, r.1⟩

/-- `lTFromlRhoP_`, `:1252-1306`. (The numeric index of its `SafeGet` is the uninitialised `lT`, so `cache` may be any
cell of `lambda`.) -/
def lTOfP (t : Tab K) (cache lRho press : K) : Inv K :=
  if press ≤ t.PCold lRho then ⟨t.lTMin, .offBottom, .success⟩
  else if press ≥ t.PMax lRho then ⟨t.lTMax, .offTop, .success⟩
  else
    let g := guessOf cache t.lTMin t.lTMax (1 / 2 * (t.lTMin + t.lTMax))
    let r := invert t.thr (t.P lRho) press g t.lTMin t.lTMax (if t.repro then t.lTMin else g)
    ⟨r.2, .onTable, r.1⟩

/-- `callable_interp::prod_interp_1d`, `eos_spiner_common.hpp:249-261`. -/
def prodInterp (f1 f2 : K → K) (r x : K) : K := f1 x * f2 x * r * x

/-- `lRhoFromPlT_`, `:1130-1193`. -/
def lRhoOfPT (t : Tab K) (cache P lT : K) : Inv K :=
  let a := t.lRho (t.rhoAtPmin lT)
  let g := guessOf cache a t.lRhoMax (if t.repro then t.lRhoMax else 1 / 2 * (a + t.lRhoMax))
  let fb := if t.repro then t.lRhoMax else g
  let go := fun (f : K → K) (loc : Loc) =>
    let r := invert t.thr f P g a t.lRhoMax fb
    (⟨r.2, loc, r.1⟩ : Inv K)
  if lT ≤ t.lTMin then go t.PCold .offBottom
  else if lT ≥ t.lTMax then go (prodInterp t.gm1Max t.dEdTMax lT) .offTop
  else go (fun x => t.P x lT) .onTable

/-- `sieFromlRhoTlT_`, `:1308-1323`. -/
def sieAt (t : Tab K) (lRho T lT : K) : Loc → K
  | .offBottom => t.sieCold lRho
  | .offTop => t.sielTMax lRho + t.dEdTMax lRho * (T - t.TMax)
  | .onTable => t.sie lRho lT

/-- `PFromRholRhoTlT_`, `:1325-1343`. -/
def pAt (t : Tab K) (rho lRho T lT : K) : Loc → K
  | .offBottom => t.PCold lRho
  | .offTop => t.gm1Max lRho * rho * (t.sielTMax lRho + t.dEdTMax lRho * (T - t.TMax))
  | .onTable => t.P lRho lT

/-- `x > robust::EPS() ? x : robust::EPS()` (eos_spiner_rho_temp.hpp:866, 1355, 1374) -/
def floorEps (t : Tab K) (x : K) : K := if x > t.eps then x else t.eps

/-- `CvFromlRholT_`, `:1345-1359`. -/
def cvAt (t : Tab K) (lRho lT : K) : Loc → K
  | .offBottom => floorEps t (t.dEdTCold lRho)
  | .offTop => floorEps t (t.dEdTMax lRho)
  | .onTable => floorEps t (t.dEdT lRho lT)

/-- `bModFromRholRhoTlT_`, `:1361-1377`. -/
def bAt (t : Tab K) (rho lRho T lT : K) : Loc → K
  | .offBottom => floorEps t (t.bModCold lRho)
  | .offTop => floorEps t
      ((t.gm1Max lRho + 1) * t.gm1Max lRho * rho * (t.sielTMax lRho + t.dEdTMax lRho * (T - t.TMax)))
  | .onTable => floorEps t (t.bMod lRho lT)

/-- The Grüneisen parameter at a location, `:884-895`, `:925-935`. -/
def gAt (t : Tab K) (rho lRho lT : K) : Loc → K
  | .offBottom => ratio t.σ |t.dPdECold lRho| |rho|
  | .offTop => t.gm1Max lRho
  | .onTable => ratio t.σ |t.dPdE lRho lT| |rho|

/-- The queries by density and temperature or energy, `:780-935`; `cache` is what `SafeGet` reads. Entropy is not
enabled (`:827-839`, aborts; the value returned is 1). -/
def query (t : Tab K) (k : Q) (cache rho y : K) : K :=
  let lRho := t.lRho rho
  let lT := t.lT y
  let i := lTOfE t cache lRho y
  match k with
  | .tRE => t.T i.x
  | .eRT => sieAt t lRho y lT (locT t lT)
  | .pRT => pAt t rho lRho y lT (locT t lT)
  | .pRE =>
    match i.loc with
    | .offBottom => t.PCold lRho
    | .offTop => t.gm1Max lRho * rho * y
    | .onTable => t.P lRho i.x
  | .cvRT => cvAt t lRho lT (locT t lT)
  | .cvRE => cvAt t lRho i.x i.loc
  | .bRT => bAt t rho lRho y lT (locT t lT)
  | .bRE =>
    match i.loc with
    | .offBottom => t.bModCold lRho
    | .offTop => (t.gm1Max lRho + 1) * t.gm1Max lRho * rho * y
    | .onTable => t.bMod lRho i.x
  | .gRT => gAt t rho lRho lT (locT t lT)
  | .gRE => gAt t rho lRho i.x i.loc
  | .sRT => 1
  | .sRE => 1

/-- `MinInternalEnergyFromDensity`, `:821-826`. -/
def minE (t : Tab K) (rho : K) : K := t.sieCold (t.lRho rho)

/-- `DensityEnergyFromPressureTemperature`, `:1002-1011`: `(rho, sie)`. -/
def dePT (t : Tab K) (cache press temp : K) : K × K :=
  let rho := t.rho (lRhoOfPT t cache press (t.lT temp)).x
  (rho, query t .eRT cache rho temp)

/-- `FillEos`, `:1045-1093`; `none` is `UNDEFINED_ERROR`. `cacheR`, `cacheT` are what the `SafeGet`s of the two
inversions read. -/
def fillEos (t : Tab K) (fl : Flags) (cacheR cacheT : K) (s : Thermo K) : Option (Thermo K) :=
  if !(fl.rho || fl.temp || fl.sie || fl.press || fl.cv || fl.bmod) then none
  else if fl.rho && !(!fl.press && !fl.temp) then none
  else
    let lRho := if fl.rho then (lRhoOfPT t cacheR s.press (t.lT s.temp)).x else t.lRho s.rho
    let rho := if fl.rho then t.rho lRho else s.rho
    if fl.temp && !((!fl.rho && !fl.sie) || (!fl.rho && !fl.press)) then none
    else
      let lT :=
        if fl.temp then
          if !fl.rho && !fl.sie then (lTOfE t cacheT lRho s.sie).x else (lTOfP t cacheT lRho s.press).x
        else t.lT s.temp
      let temp := if fl.temp then t.T lT else s.temp
      let w := locT t lT
      some
        { rho := rho, temp := temp
          sie := if fl.sie then sieAt t lRho temp lT w else s.sie
          press := if fl.press then pAt t rho lRho temp lT w else s.press
          cv := if fl.cv then cvAt t lRho lT w else s.cv
          bmod := if fl.bmod then bAt t rho lRho temp lT w else s.bmod }

/-- `RhoPmin`, `:1117-1123`. -/
def rhoPmin (t : Tab K) (at0 : K) (temp : K) : K :=
  if t.lT temp ≤ t.lTMin then at0 else if t.lT temp ≥ t.lTMax then 0 else t.rhoAtPmin (t.lT temp)

/-! ## Table preparation -/

/-- `fixBulkModulus_`, `:689-715`: one entry, from the interpolated values at that grid point. -/
def fixedBulk (eps rho press dpdr_e dpde_r dedr_t : K) : K :=
  let dpdr_t := dpdr_e + dpde_r * dedr_t
  let b :=
    if dpde_r > 0 ∧ rho > 0 then rho * dpdr_e + dpde_r * (press / rho)
    else if rho > 0 then max (rho * dpdr_t) 0
    else 0
  max b |eps|

/-- The scan of `setlTColdCrit_`, `:733-748`: state is `crossings` (in order) and `last_pos_crossing`; `d i` is
`sie_(j, i) - sieCold`. -/
def crossings (d : Nat → K) (n : Nat) : List Nat × Int :=
  forN (n - 1) (fun (s : List Nat × Int) i =>
    if d i < 0 ∧ d (i + 1) > 0 then (s.1 ++ [i], (s.1.length : Int))
    else if d i > 0 ∧ d (i + 1) < 0 then (s.1 ++ [i], s.2)
    else s) ([], -1)

/-- `setlTColdCrit_`, `:717-777`: one entry. `x i` is the grid point `i` of the temperature axis, `f` the interpolant
of `sie` at this density, `c` is `1e-14`. -/
def coldCrit (thr c lTMin : K) (f : K → K) (x d : Nat → K) (n : Nat) (sieCold : K) : K :=
  let s := crossings d n
  let v :=
    if s.2 ≤ 0 then lTMin
    else
      let i := s.1.getD s.2.toNat 0
      let lo := x i - c
      let hi := x (i + 1) + c
      let g := 1 / 2 * (lo + hi)
      (invert thr f sieCold g lo hi g).2
  max lTMin v

end Verif.RhoT
