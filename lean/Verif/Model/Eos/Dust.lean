import Verif.Model.EosIface

/-! # The example plug-in `Dust` (pressureless matter) -/

namespace Verif.DustEos

open Verif.Mods

variable {K : Type*} [Field K]

/-- `example/plugin/dust/dust.hpp:39-92` the scalar queries of `Dust`, with `_Cv` (`:137`). -/
def q (Cv : K) : Q → K → K → K
  | .tRE, _, e => e / Cv
  | .eRT, _, T => Cv * T
  | .pRT, _, _ => 0
  | .pRE, _, _ => 0
  | .sRT, _, _ => 0
  | .sRE, _, _ => 0
  | .cvRT, _, _ => Cv
  | .cvRE, _, _ => Cv
  | .bRT, _, _ => 0
  | .bRE, _, _ => 0
  | .gRT, _, _ => 0
  | .gRE, _, _ => 0

/-- `example/plugin/dust/dust.hpp:55-58` `MinInternalEnergyFromDensity`. -/
def minE (_ : K) : K := 0

/-- `example/plugin/dust/dust.hpp:93-113` `FillEos`; `none` is `UNDEFINED_ERROR`. -/
def fillEos (Cv : K) (fl : Flags) (s : Thermo K) : Option (Thermo K) :=
  let s := { s with press := 0, bmod := 0, cv := Cv }
  if fl.rho then none
  else if fl.sie ∧ ¬ fl.temp then none
  else
    let s := if fl.sie then { s with sie := Cv * s.temp } else s
    some (if fl.temp ∧ ¬ fl.sie then { s with temp := s.sie / Cv } else s)

/-- `example/plugin/dust/dust.hpp:114-121` `ValuesAtReferenceState`, from the values `s` the variables of the caller had
before. -/
def refState (s : RefState K) : RefState K :=
  { s with rho := 1, temp := 1, sie := 1, press := 0, bmod := 0, dpde := 0, dvdt := 0 }

end Verif.DustEos
