import Verif.Model.Table.StellarCollapse

/-!
# The calls on a `StellarCollapse` object, with the lambda they read and write

`singularity-eos/eos/eos_stellar_collapse.hpp:366-388`, `:542-770`, `:1174-1233`.  The lambda is `none` for a null pointer and an abort is
`none`.  (`checkLambda_`, `:308-316`, is compiled out of release builds; the abort modelled is that of `SafeMustGet`/`SafeMustSet`,
`indexable_types.hpp:146-150`.)  `u` is what the uninitialised `lTGuess` of `:1183` happens to contain.
-/

namespace Verif.SC

open Verif.Mods

variable {K : Type} [Field K] [LinearOrder K] [IsStrictOrderedRing K] [FloorRing K]

/-- The caller's lambda: the electron fraction (which must be there) and the cached log temperature; `lT = none` is a type-indexed
lambda without a `LogTemperature` entry, for which `SafeGet` and `SafeSet` do nothing (`indexable_types.hpp:60-127`). -/
structure Lam (K : Type) where
  ye : K
  lT : Option K

/-- `SafeGet<LogTemperature>(lambda, Lambda::lT, lTGuess)`, `:1184`. -/
def Lam.cache (l : Lam K) (u : K) : K := l.lT.getD u

/-- `SafeSet<LogTemperature>(lambda, Lambda::lT, x)`, `:376`, `:685`, `:769`, `:1229`. -/
def Lam.store (l : Lam K) (x : K) : Lam K := { l with lT := l.lT.map fun _ => x }

/-- `SafeMustSet<ElectronFraction>(lambda, Lambda::Ye, y)`, `:767-768`. -/
def Lam.setYe (l : Lam K) (y : K) : Lam K := { l with ye := y }

/-- The public calls (`:542-770`): the two-argument queries, the minimum energy, a composition quantity (`:688-713`; `f` is the table),
`FillEos`, the reference state, and `DensityEnergyFromPressureTemperature` with the incoming density. -/
inductive Call (K : Type) where
  | query (k : Q) (rho y : K)
  | minE (rho : K)
  | comp (f : F) (rho T : K)
  | fill (fl : Flags) (v : Thermo K)
  | ref
  | pt (P T rho0 : K)

/-- What a call returns. (eos_stellar_collapse.hpp:542-770) -/
inductive Ans (K : Type) where
  | num (x : K)
  | thermo (v : Thermo K)
  | ref (r : RefState K)
  | pair (rho sie : K)

/-- The scalar part of one call: answer and lambda afterwards. `getLogsFromRhoT_` (`:367-377`) stores `lT_(temp)`, `lTFromlRhoSie_`
(`:1174-1233`) the log temperature it found, `MinInternalEnergyFromDensity` (`:576-583`) nothing, `ValuesAtReferenceState`
(`:753-770`) stores `YeNormal_` and `lT_(TNormal_)`, `DensityEnergyFromPressureTemperature` (`:661-686`) `lT_(temp)`. -/
def step (m : Env K) (s : Eos K) (u : K) (c : Call K) (l : Lam K) : Option (Ans K × Lam K) :=
  match c with
  | .query k rho y =>
    let x := if k.byEnergy then (lTOfE m s l.ye (l.cache u) (lRho m rho) y).2 else lT m y
    some (.num (at_ m s k l.ye rho (lRho m rho) x), l.store x)
  | .minE rho => some (.num (minE m s l.ye rho), l)
  | .comp f rho T => some (.num (composition m s f l.ye rho T), l.store (lT m T))
  | .fill fl v =>
    (fillEos m s fl l.ye (l.cache u) v).map fun w =>
      (.thermo w, l.store (if !fl.temp then lT m v.temp else (lTOfE m s l.ye (l.cache u) (lRho m v.rho) v.sie).2))
  | .ref => some (.ref (refState m s), (l.setYe YeNormal).store (lT m TNormal))
  | .pt P T rho0 => some (.pair (dePT m s l.ye P T rho0).1 (dePT m s l.ye P T rho0).2, l.store (lT m T))

/-- One call with the pointer the caller passes; a null pointer aborts. (eos_stellar_collapse.hpp:374-375, 580-581, 671-672, 767-768,
1180-1181; indexable_types.hpp:146-150) -/
def call (m : Env K) (s : Eos K) (u : K) (c : Call K) (l : Option (Lam K)) : Option (Ans K × Option (Lam K)) := do
  let a ← l
  let r ← step m s u c a
  some (r.1, some r.2)

/-- A run of calls with one lambda, each with its own `u`; the answers in order and the lambda afterwards, `none` if one aborts.
(eos_stellar_collapse.hpp:542-770) -/
def run (m : Env K) (s : Eos K) : List (K × Call K) → Lam K → Option (List (Ans K) × Lam K)
  | [], l => some ([], l)
  | (u, c) :: cs, l => do
    let r ← step m s u c l
    let q ← run m s cs r.2
    some (r.1 :: q.1, q.2)

end Verif.SC
