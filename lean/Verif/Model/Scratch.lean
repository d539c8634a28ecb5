import Verif.Model.EosIface

/-!
# Scratch memory of the array calls

`scratch_size`/`max_scratch_size` of every EOS and modifier, and the part of the scratch area the
array calls actually touch.  `sizeof(Real) = 8`.
-/

namespace Verif.Mods

/-- The array methods that take a scratch pointer and that modifiers forward. (modifier_vector_macros.hpp:20-86) -/
inductive Meth where
  | q (k : Q)
  | minE
deriving DecidableEq

/-- The method names as used in the `std::string method` arguments. (modifier_vector_macros.hpp:20-86) -/
def Meth.name : Meth → String
  | .q .tRE => "TemperatureFromDensityInternalEnergy"
  | .q .eRT => "InternalEnergyFromDensityTemperature"
  | .q .pRT => "PressureFromDensityTemperature"
  | .q .pRE => "PressureFromDensityInternalEnergy"
  | .q .sRT => "EntropyFromDensityTemperature"
  | .q .sRE => "EntropyFromDensityInternalEnergy"
  | .q .cvRT => "SpecificHeatFromDensityTemperature"
  | .q .cvRE => "SpecificHeatFromDensityInternalEnergy"
  | .q .bRT => "BulkModulusFromDensityTemperature"
  | .q .bRE => "BulkModulusFromDensityInternalEnergy"
  | .q .gRT => "GruneisenParamFromDensityTemperature"
  | .q .gRE => "GruneisenParamFromDensityInternalEnergy"
  | .minE => "MinInternalEnergyFromDensity"

/-- `std::string::rfind`: the last position at which `pat` occurs, `npos = 2^64 - 1` if none.
(called at shifted_eos.hpp:376, floored_energy.hpp:364, ramps_eos.hpp:502) -/
def rfind (s pat : List Char) : Nat :=
  ((List.range (s.length + 1)).reverse.find? fun i => pat.isPrefixOf (s.drop i)).getD (2 ^ 64 - 1)

/-- `shifted_eos.hpp:375-376`, `floored_energy.hpp:363-364`:
`method.rfind(suffix) == method.length() - sizeof(suffix) + 1` in `size_t` arithmetic
(`sizeof` counts the terminating zero). -/
def hasSuffix (method : String) : Bool :=
  let suffix := "FromDensityInternalEnergy".toList
  rfind method.toList suffix == (method.toList.length + (2 ^ 64 - (suffix.length + 1)) + 1) % 2 ^ 64

/-- `ramps_eos.hpp:501-502`: `method.rfind("BulkModulusFrom") == 0`. -/
def hasPrefix (method : String) : Bool := rfind method.toList "BulkModulusFrom".toList == 0

/-- A stack of modifiers over an EOS that inherits the array calls of the base class, or over
EOSPAC. (eos/modifiers/*.hpp) -/
inductive Stack where
  | base
  | eospac
  | shifted (t : Stack)
  | floored (t : Stack)
  | ramped (t : Stack)
  | scaled (t : Stack)
  | unitSystem (t : Stack)
  | relativistic (t : Stack)
  | zsplit (t : Stack)

/-- `eos_eospac.hpp:1248-1264` `scratch_nbuffers` (`FillEos` is handled by `max`). -/
def eospacBuffers : Meth → Nat
  | .q .tRE => 2
  | .q .pRT => 2
  | .q .eRT => 2
  | .q .pRE => 2
  | .q .cvRT => 2
  | .q .cvRE => 4
  | .q .bRT => 6
  | .q .bRE => 6
  | .q .gRT => 4
  | .q .gRE => 5
  | .q .sRT => 2
  -- not in the map: `scratch_size` returns 0 (`:1190`)
  | .q .sRE => 0
  | .minE => 1

/-- `scratch_size(method, n)` in bytes.
(eos_base.hpp:559-562, eos_eospac.hpp:1185-1192, shifted_eos.hpp:374-380, floored_energy.hpp:362-368, ramps_eos.hpp:500-506, scaled_eos.hpp:232-234, zsplit_eos.hpp:260-262, relativistic_eos.hpp:171-173, eos_unitsystem.hpp:367-369) -/
def Stack.scratchSize : Stack → Meth → Nat → Nat
  -- `eos_base.hpp:559-562`
  | .base, _, _ => 0
  -- `eos_eospac.hpp:1185-1191`
  | .eospac, m, n => 8 * eospacBuffers m * n
  -- `shifted_eos.hpp:374-380`
  | .shifted t, m, n => if hasSuffix m.name then t.scratchSize m n + 8 * n else t.scratchSize m n
  -- `floored_energy.hpp:362-368`
  | .floored t, m, n => if hasSuffix m.name then t.scratchSize m n + 8 * n else t.scratchSize m n
  -- `ramps_eos.hpp:500-506`
  | .ramped t, m, n => if hasPrefix m.name then t.scratchSize m n + 8 * n else t.scratchSize m n
  -- `scaled_eos.hpp:232-234`, `eos_unitsystem.hpp:367-369`, `relativistic_eos.hpp:171-173`,
  -- `zsplit_eos.hpp:260-262`
  | .scaled t, m, n => t.scratchSize m n
  | .unitSystem t, m, n => t.scratchSize m n
  | .relativistic t, m, n => t.scratchSize m n
  | .zsplit t, m, n => t.scratchSize m n

/-- `max_scratch_size(n)` in bytes.
(eos_base.hpp:563, eos_eospac.hpp:1193-1200, shifted_eos.hpp:382-392, floored_energy.hpp:370-380, ramps_eos.hpp:508-516 and the forwarding ones) -/
def Stack.maxScratchSize : Stack → Nat → Nat
  -- `eos_base.hpp:563`
  | .base, _ => 0
  -- `eos_eospac.hpp:1193-1199`: the entry with the most buffers (6, both bulk moduli; `FillEos` has 4)
  | .eospac, n => 8 * 6 * n
  -- `shifted_eos.hpp:382-391`
  | .shifted t, n =>
    [Q.tRE, .pRE, .cvRE, .bRE, .gRE].foldl
      (fun m k => max m ((Stack.shifted t).scratchSize (.q k) n)) (t.maxScratchSize n)
  -- `floored_energy.hpp:370-379`
  | .floored t, n =>
    [Q.tRE, .pRE, .cvRE, .bRE, .gRE].foldl
      (fun m k => max m ((Stack.floored t).scratchSize (.q k) n)) (t.maxScratchSize n)
  -- `ramps_eos.hpp:508-515`
  | .ramped t, n =>
    [Q.bRE, .bRT].foldl
      (fun m k => max m ((Stack.ramped t).scratchSize (.q k) n)) (t.maxScratchSize n)
  -- `scaled_eos.hpp:236-238`, `eos_unitsystem.hpp:371-373`, `relativistic_eos.hpp:175-177`,
  -- `zsplit_eos.hpp:263-265`
  | .scaled t, n => t.maxScratchSize n
  | .unitSystem t, n => t.maxScratchSize n
  | .relativistic t, n => t.maxScratchSize n
  | .zsplit t, n => t.maxScratchSize n

/-- Reals of scratch touched by an inner call handed `&scratch[num]`: nothing if the inner call touches
nothing, otherwise `num` more than the inner call's extent.
(shifted_eos.hpp and floored_energy.hpp array methods) -/
def behind (n inner : Nat) : Nat := if inner = 0 then 0 else n + inner

/-- One past the last Real of the scratch area that the array call touches.
(the array methods of eos/modifiers/*.hpp) -/
def Stack.touched : Stack → Meth → Nat → Nat
  -- `eos_base.hpp:196-204`, `:457-466` the scratch pointer is dropped
  | .base, _, _ => 0
  -- `eos_eospac.hpp:398-399, 438-439, 479-480, 640-641, 681-682, 720, 759-760, 810-813, 885-890,
  -- 966-971, 1065-1068, 1122-1126`; `EntropyFromDensityInternalEnergy` has no EOSPAC array version
  | .eospac, m, n =>
    match m with
    | .q .tRE => 2 * n
    | .q .pRT => 2 * n
    | .q .sRT => 2 * n
    | .q .sRE => 0
    | .q .eRT => 2 * n
    | .q .pRE => 2 * n
    | .minE => 1 * n
    | .q .cvRT => 2 * n
    | .q .cvRE => 4 * n
    | .q .bRT => 6 * n
    | .q .bRE => 6 * n
    | .q .gRT => 4 * n
    | .q .gRE => 5 * n
  -- `shifted_eos.hpp:196-361`: shifted energies in the first `num`, the rest to the inner call;
  -- `:242` the minimum-energy call also passes `&scratch[num]`
  | .shifted t, m, n =>
    match m with
    | .q k => if k.byEnergy then max n (behind n (t.touched m n)) else t.touched m n
    | .minE => behind n (t.touched m n)
  -- `floored_energy.hpp:172-353`, `:224`
  | .floored t, m, n =>
    match m with
    | .q k => if k.byEnergy then max n (behind n (t.touched m n)) else t.touched m n
    | .minE => behind n (t.touched m n)
  -- `ramps_eos.hpp:288-488`: `:385-389`, `:411-415` pressures in the first `num`, two inner calls
  | .ramped t, m, n =>
    match m with
    | .q .bRT => max n (max (behind n (t.touched (.q .pRT) n)) (behind n (t.touched (.q .bRT) n)))
    | .q .bRE => max n (max (behind n (t.touched (.q .pRE) n)) (behind n (t.touched (.q .bRE) n)))
    | _ => t.touched m n
  -- `modifier_vector_macros.hpp:60-84` forward the pointer
  | .scaled t, m, n => t.touched m n
  | .unitSystem t, m, n => t.touched m n
  -- no array members of their own: the base class drops the pointer
  | .relativistic _, _, _ => 0
  | .zsplit _, _, _ => 0

end Verif.Mods
