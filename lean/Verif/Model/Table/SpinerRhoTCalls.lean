import Verif.Model.Table.SpinerRhoT

/-!
# The calls on a `SpinerEOSDependsRhoT` object, with the lambda they read and write

`singularity-eos/eos/eos_spiner_rho_temp.hpp:777-1020`, `:1052-1132`, `:1137-1306`.  A lambda is a null pointer, a numerically indexed array
(cells 0 and 1 are the log density and temperature, 2, 3, … the mass fractions, `:79-82`, `:957`, `:964`), or a type-indexed container with any
selection of the entries.  An abort is `none`.  The record `Junk` holds what uninitialised variables contain.
-/

namespace Verif.RhoT

open Verif.RootFind Verif.Mods

/-- The entries of a lambda (indexable_types.hpp:330-352). -/
inductive Slot where
  | lRho | lT | root | loc
  | mf (n : Nat)
  deriving DecidableEq

/-- A lambda: whether it is indexed by number, and its entries (`none`: not there). The null pointer has none; a numerically indexed one has
no `root` and `loc`, which are set without a numerical index (`:1187-1188`; indexable_types.hpp:178-220). -/
structure Lam (K : Type) where
  numeric : Bool
  val : Slot → Option K

/-- What `lRho_cache` (`:1147`), `lT_cache` (`:1219`, `:1278`) and the cell read by `:1279` (whose number is the uninitialised `lT`) contain. -/
structure Junk (K : Type) where
  lRho : K
  lT : K
  cell : K

variable {K : Type} [Field K] [LinearOrder K]

/-- `SafeGet` into a variable containing `u` (indexable_types.hpp:60-88). -/
def Lam.get (l : Lam K) (s : Slot) (u : K) : K := (l.val s).getD u

/-- `SafeSet` (indexable_types.hpp:99-127). -/
def Lam.set (l : Lam K) (s : Slot) (v : K) : Lam K :=
  { l with val := fun s' => if s' = s then (l.val s').map fun _ => v else l.val s' }

/-- The null pointer (indexable_types.hpp:63-65). -/
def Lam.null : Lam K := ⟨false, fun _ => none⟩

/-- `static_cast<Real>(status)`, root_finding.hpp:43. -/
def statusCode : Status → K
  | .success => 0
  | .fail => 1

/-- `static_cast<Real>(whereAmI)`, constants.hpp:39. -/
def locCode : Loc → K
  | .onTable => 0
  | .offBottom => 1
  | .offTop => 2

/-- The two writes of the cache, `:1099-1100`, `:1131-1132`, `:1184-1185`, `:1244-1245`, `:1299-1300`. -/
def Lam.logs (l : Lam K) (a b : K) : Lam K := (l.set .lRho a).set .lT b

/-- The two writes of the diagnostics, `:1187-1188`, `:1247-1248`, `:1302-1303`. -/
def Lam.diag (l : Lam K) (i : Inv K) : Lam K := (l.set .root (statusCode i.status)).set .loc (locCode i.loc)

/-- The object: the tables, the phases (`has_mf`, `numphases`, `mF_`; `:355-400`) and the reference state. -/
structure Obj (K : Type) where
  t : Tab K
  mf : Option (Nat × (Nat → K → K → K))
  ref : RefState K

/-- The public calls, `:777-1011`, `:1052-1115`; the mass fractions into the lambda (`:950-967`, `:985-1003`). -/
inductive Call (K : Type) where
  | query (k : Q) (rho y : K)
  | minE (rho : K)
  | fill (fl : Flags) (v : Thermo K)
  | ref
  | pt (P T : K)
  | massT (rho T : K)
  | massE (rho e : K)

/-- What a call returns. (eos_spiner_rho_temp.hpp:777-1115) -/
inductive Ans (K : Type) where
  | num (x : K)
  | thermo (v : Thermo K)
  | ref (r : RefState K)
  | pair (rho sie : K)
  | unit

/-- The cached log temperature as `lTFromlRhoP_` reads it, `:1278-1279`. -/
def Lam.cacheP (l : Lam K) (j : Junk K) : K := if l.numeric then j.cell else l.get .lT j.lT

/-- The mass fractions written into the lambda, `:963-966`, `:1000-1003`. -/
def Lam.phases (l : Lam K) (n : Nat) (f : Nat → K) : Lam K := forN n (fun l k => l.set (.mf k) (f k)) l

/-- The lambda after the inversion `i` and the final writes of `FillEos`, `:1099-1100`. -/
def afterFill (o : Obj K) (j : Junk K) (fl : Flags) (v : Thermo K) (l : Lam K) : Lam K :=
  let t := o.t
  if fl.rho then
    let i := lRhoOfPT t (l.get .lRho j.lRho) v.press (t.lT v.temp)
    ((l.logs i.x (t.lT v.temp)).diag i).logs i.x (t.lT v.temp)
  else if fl.temp then
    let i := if !fl.sie then lTOfE t (l.get .lT j.lT) (t.lRho v.rho) v.sie else lTOfP t (l.cacheP j) (t.lRho v.rho) v.press
    ((l.logs (t.lRho v.rho) i.x).diag i).logs (t.lRho v.rho) i.x
  else l.logs (t.lRho v.rho) (t.lT v.temp)

/-- One call: answer and lambda afterwards. The entropies abort (`:827-839`). -/
def step (o : Obj K) (j : Junk K) (c : Call K) (l : Lam K) : Option (Ans K × Lam K) :=
  let t := o.t
  match c with
  | .query .sRT _ _ => none
  | .query .sRE _ _ => none
  | .query k rho y =>
    let c := l.get .lT j.lT
    let i := lTOfE t c (t.lRho rho) y
    some (.num (query t k c rho y),
      if k.byEnergy then (l.logs (t.lRho rho) i.x).diag i else l.logs (t.lRho rho) (t.lT y))
  | .minE rho => some (.num (minE t rho), l)
  | .fill fl v =>
    (fillEos t fl (l.get .lRho j.lRho) (if !fl.sie then l.get .lT j.lT else l.cacheP j) v).map fun w =>
      (.thermo w, afterFill o j fl v l)
  | .ref => some (.ref o.ref, l)
  | .pt P T =>
    let c := l.get .lRho j.lRho
    let i := lRhoOfPT t c P (t.lT T)
    some (.pair (dePT t c P T).1 (dePT t c P T).2, ((l.logs i.x (t.lT T)).diag i).logs (t.lRho (t.rho i.x)) (t.lT T))
  | .massT rho T =>
    match o.mf with
    | none => some (.unit, l.set (.mf 0) 1)
    | some (n, f) => some (.unit, (l.logs (t.lRho rho) (t.lT T)).phases n fun k => f k (t.lRho rho) (t.lT T))
  | .massE rho e =>
    match o.mf with
    | none => some (.unit, l.set (.mf 0) 1)
    | some (n, f) =>
      let i := lTOfE t (l.get .lT j.lT) (t.lRho rho) e
      some (.unit, ((l.logs (t.lRho rho) i.x).diag i).phases n fun k => f k (t.lRho rho) i.x)

/-- A run of calls with one lambda: answers in order, and the lambda afterwards; `none` if one aborts.
(eos_spiner_rho_temp.hpp:777-1115) -/
def run (o : Obj K) : List (Junk K × Call K) → Lam K → Option (List (Ans K) × Lam K)
  | [], l => some ([], l)
  | (j, c) :: cs, l => do
    let r ← step o j c l
    let q ← run o cs r.2
    some (r.1 :: q.1, q.2)

end Verif.RhoT
