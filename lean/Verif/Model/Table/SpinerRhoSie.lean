import Verif.Model.Table.SpinerRhoT
import Verif.Model.Table.Transforms

/-!
# `SpinerEOSDependsRhoSie` (`singularity-eos/eos/eos_spiner_rho_sie.hpp`) and the table generator

Conventions as in `Model/Table/SpinerRhoT.lean`: each `DataBox` is an arbitrary interpolation function, what `SafeGet`
reads from `lambda` is an arbitrary value.  `robust::EPS()` is `eps` (both the root-find threshold and the floor of the
bulk modulus table).
-/

namespace Verif.RhoSie

open Verif.RootFind Verif.Robust Verif.Mods Verif.RhoT Verif.Spiner

/-- The members the queries read, `eos_spiner_rho_sie.hpp:320-372`.  The subscripts `T`, `E` stand for
`dependsRhoT_`, `dependsRhoSie_`; `tr` is `transformer_`; `mf n` is phase `n` of `mF_`. -/
structure Tab (K : Type*) where
  (lRho rho lT T lE : K → K)
  (sie PT bModT dPdRhoT dPdET dTdET dEdRhoT : K → K → K)
  (TE PE bModE dPdEE dTdEE : K → K → K)
  (sieCold PMaxRho dPdRhoMax rhoAtPmin : K → K)
  (lRhoMin lRhoMax rhoMax lTMin lTMax : K)
  (eps : K)
  (repro : Bool)
  (hasMf : Bool)
  (mf : Nat → K → K → K)
  (tr : Spiner.Transform K)

variable {K : Type*} [Field K] [LinearOrder K]

/-- `interpRhoT_`, `:900-911`. -/
def interpRhoT (t : Tab K) (rho T : K) (db : K → K → K) : K := db (t.lRho rho) (t.lT T)

/-- `interpRhoSie_`, `:913-922`. -/
def interpRhoSie (t : Tab K) (rho e : K) (db : K → K → K) : K := db (t.lRho rho) (t.lE (t.tr.fwd e rho))

/-- The queries by density and temperature or energy, `:652-766`. Entropy is not enabled (aborts). The Grüneisen
parameter by energy (`:759-766`) does not transform the energy. -/
def query (t : Tab K) (k : Q) (rho y : K) : K :=
  match k with
  | .tRE => interpRhoSie t rho y t.TE
  | .eRT => interpRhoT t rho y t.sie
  | .pRT => interpRhoT t rho y t.PT
  | .pRE => interpRhoSie t rho y t.PE
  | .cvRT => 1 / interpRhoT t rho y t.dTdET
  | .cvRE => 1 / interpRhoSie t rho y t.dTdEE
  | .bRT => interpRhoT t rho y t.bModT
  | .bRE => interpRhoSie t rho y t.bModE
  | .gRT => interpRhoT t rho y t.dPdET / rho
  | .gRE => t.dPdEE (t.lRho rho) (t.lE y) / rho
  | .sRT => 1
  | .sRE => 1

/-- `MinInternalEnergyFromDensity`, `:687-692`. -/
def minE (t : Tab K) (rho : K) : K := t.sieCold (t.lRho rho)

/-- `MassFractionsFromDensityTemperature`, `:768-800`: entry `n` of what is written (`:772`: without phase data only
entry 0 is written, with 1). -/
def massT (t : Tab K) (rho T : K) (n : Nat) : K := if t.hasMf then t.mf n (t.lRho rho) (t.lT T) else 1

/-- `MassFractionsFromDensityInternalEnergy`, `:801-836`: the energy is not transformed. -/
def massE (t : Tab K) (rho e : K) (n : Nat) : K :=
  if t.hasMf then t.mf n (t.lRho rho) (t.lT (t.TE (t.lRho rho) (t.lE e))) else 1

/-- `lRhoFromPlT_`, `:924-968`: the log density and the status written to `lambda`. -/
def lRhoOfPT (t : Tab K) (cache P lT : K) : K × Status :=
  let a := t.lRho (t.rhoAtPmin lT)
  if t.dPdRhoMax lT > 0 ∧ P > t.PMaxRho lT then
    (t.lRho ((P - t.PMaxRho lT) / t.dPdRhoMax lT + t.rhoMax), .success)
  else
    let g := guessOf cache a t.lRhoMax (if t.repro then t.lRhoMax else 1 / 2 * (a + t.lRhoMax))
    let r := invert t.eps (fun x => t.PT x lT) P g a t.lRhoMax (if t.repro then t.lRhoMax else g)
    (r.2, r.1)

/-- `DensityEnergyFromPressureTemperature`, `:838-845`. -/
def dePT (t : Tab K) (cache P T : K) : K × K :=
  let x := (lRhoOfPT t cache P (t.lT T)).1
  (t.rho x, t.sie x (t.lT T))

/-- `FillEos`, `:847-897`; `none` is `UNDEFINED_ERROR`. -/
def fillEos (t : Tab K) (fl : Flags) (cache : K) (s : Thermo K) : Option (Thermo K) :=
  if !(fl.rho || fl.temp || fl.sie || fl.press || fl.cv || fl.bmod) then none
  else if fl.temp && fl.sie then none
  else if fl.rho && (fl.press || fl.temp) then none
  else
    let lRho := if fl.rho then (lRhoOfPT t cache s.press (t.lT s.temp)).1 else t.lRho s.rho
    let rho := if fl.rho then t.rho lRho else s.rho
    if fl.temp then
      let lE := t.lE (t.tr.fwd s.sie rho)
      some
        { rho := rho, temp := t.TE lRho lE, sie := s.sie
          press := if fl.press then t.PE lRho lE else s.press
          cv := if fl.cv then 1 / t.dTdEE lRho lE else s.cv
          bmod := if fl.bmod then t.bModE lRho lE else s.bmod }
    else if fl.sie then
      let lT := t.lT s.temp
      some
        { rho := rho, temp := s.temp, sie := t.sie lRho lT
          press := if fl.press then t.PT lRho lT else s.press
          cv := if fl.cv then 1 / t.dTdET lRho lT else s.cv
          bmod := if fl.bmod then t.bModT lRho lT else s.bmod }
    else some { s with rho := rho }

/-- The reference state, `:528-553` (the same code is at `eos_spiner_rho_temp.hpp:664-684`): `rho0` is the normal density
read from the file, `T0` is `ROOM_TEMPERATURE`. -/
def refState (t : Tab K) (rho0 T0 : K) : RefState K :=
  let onR := t.lRhoMin < t.lRho rho0 ∧ t.lRho rho0 < t.lRhoMax
  let lRho := if onR then t.lRho rho0 else 1 / 2 * (t.lRhoMin + t.lRhoMax)
  let rho := if onR then rho0 else t.rho lRho
  let onT := t.lTMin < t.lT T0 ∧ t.lT T0 < t.lTMax
  let lT := if onT then t.lT T0 else 1 / 2 * (t.lTMin + t.lTMax)
  let T := if onT then T0 else t.T lT
  let cv := 1 / t.dTdET lRho lT
  let dpde := t.dPdET lRho lT
  { rho := rho, temp := T, sie := t.sie lRho lT, press := t.PT lRho lT, cv := cv, bmod := t.bModT lRho lT
    dpde := dpde, dvdt := dpde * cv / (rho * rho * t.dPdRhoT lRho lT) }

/-- `calcBMod_`, `:556-577`: one entry. -/
def fixedBulk (eps rho press dpdr_e dpde_r dedr_t : K) : K :=
  let dpdr_t := dpdr_e + dpde_r * dedr_t
  let b :=
    if dpde_r > 0 ∧ rho > 0 then rho * dpdr_e + dpde_r * (press / rho)
    else if rho > 0 then max (rho * dpdr_t) 0
    else 0
  max b eps

/-! ## `sesame2spiner/io_eospac.cpp`: the values stored at one grid point -/

/-- What EOSPAC returns at one point, in its units: pressure and energy at density and temperature, temperature at
density and energy, with their partial derivatives. (sesame2spiner/io_eospac.cpp) -/
structure Ses (K : Type*) where
  (P DPDR_T DPDT_R E DEDR_T DEDT_R T DTDR_E DTDE_R : K)

/-- `eospac_wrapper.hpp:38-41`: `pressureFromSesame(1)`, `sieFromSesame(1)`; `sieToSesame(1)` is the inverse. -/
def sesU : K := 10 ^ 10

/-- `getBulkModulus`, `eospac_wrapper.hpp:45-48`. -/
def getBulk (rho P DPDR_T DPDE_R DEDR_T : K) : K := rho * DPDR_T + DPDE_R * (P / rho - rho * DEDR_T)

/-- What is stored (cgs). (sesame2spiner/io_eospac.cpp, generate_files.cpp) -/
structure Stored (K : Type*) where
  (P sie T bMod dPdRho dPdE dTdRho dTdE dEdRho dEdT : K)

/-- `eosDataOfRhoT`, `io_eospac.cpp:196-213`, and `eosDataOfRhoSie`, `:98-115` (which stores `T` in place of `sie`, and
no `dEdT`). -/
def store (rho : K) (s : Ses K) : Stored K :=
  { P := sesU * s.P
    sie := sesU * s.E
    T := s.T
    bMod := sesU * max (getBulk rho s.P s.DPDR_T (s.DPDT_R / s.DEDT_R) s.DEDR_T) 0
    dPdRho := sesU * (s.DPDR_T + s.DTDR_E * s.DPDT_R)
    dPdE := 1 / sesU * (sesU * (s.DPDT_R * s.DTDE_R))
    dTdRho := s.DTDR_E
    dTdE := 1 / sesU * s.DTDE_R
    dEdRho := sesU * s.DEDR_T
    dEdT := sesU * s.DEDT_R }

/-- `eosColdCurves`, `io_eospac.cpp:272-282`: pressure, energy, bulk modulus, `dP/drho`, `dE/drho` on the cold curve. -/
def storeCold (rho P DPDR E DEDR : K) : K × K × K × K × K :=
  (sesU * P, sesU * E, sesU * max (getBulk rho P DPDR 0 0) 0, sesU * DPDR, sesU * DEDR)

end Verif.RhoSie
