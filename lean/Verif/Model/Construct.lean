import Mathlib.Data.List.Basic

/-! # Building an EOS from C++, C, Fortran and Python: how parameters travel

Each layer is a function with a list of formal parameters that calls the next layer with a list of actual arguments; the names are
those of the source. Parameters are passed by position from layer to layer (the Fortran interfaces bind to C functions, so their
dummy names do not matter to C); a Fortran or Python caller may also use keywords. Values are of any type `V`. -/

namespace Verif

namespace Construct

/-- The names of parameters and local variables that occur in the functions below. -/
inductive Name
  | gm1 | Cv | Pinf | q | qq | b | bb | C0 | s1 | s2 | s3 | G0 | rho0 | T0 | P0
  | A | B | R1 | R2 | w | a | k | n | vc | pc | e0 | C | Z | alpha | Cv0
  | a0 | a1 | a2c | a2e | a3 | b0 | b1 | b2c | b2e | b3
  | filename | matid | id | split | split_use | reproducibility_mode | pmin_vapor_dome
  | rad | gas | coul | ion | ele | verbose | newton_raphson
  | invert_at_setup | insert_data | monotonicity | apply_smoothing | apply_splitting | linear_interp
  | o0 | o1 | o2 | o3 | o4 | o5
  deriving DecidableEq

/-- The EOS types that can be built through the C interface (singularity_eos.cpp:66-386). -/
inductive Kind
  | ideal | gruneisen | jwl | products | reactants | sap | stiff | noble | carnahan
  | helmholtz | spinerT | spinerE | eospac
  deriving DecidableEq

variable {V : Type}

/-- Values used as defaults. (eos_eospac.hpp:218-223; eos_spiner_rho_temp.hpp:85-92; eos_helmholtz.hpp:435-441) -/
structure Consts (V : Type) where
  no : V
  yes : V
  zero : V
  total : V
  monoNone : V
  splitNone : V

/-- The environment of a function called with positional arguments. -/
def bindPos (fs : List Name) (vs : List V) : Name → Option V := fun x => (fs.zip vs).lookup x

/-- A function whose body is a call of the next: formal parameters, local variables (with the variable each is initialised from) and
the actual arguments of the call. -/
structure Fn where
  formals : List Name
  locs : List (Name × Name) := []
  args : List Name

/-- Calling such a function: the arguments the next function receives. None if the number of arguments is wrong or a name is not
in scope (the program does not compile). -/
def Fn.call (f : Fn) (vs : List V) : Option (List V) :=
  if vs.length = f.formals.length then
    let env := bindPos f.formals vs
    let env' := fun x => match f.locs.lookup x with
      | some y => env y
      | none => env x
    f.args.mapM env'
  else none

/-- The formal parameters of the C++ constructors (the one each C initialiser calls). (eos_ideal.hpp:42; eos_gruneisen.hpp:60-62;
eos_jwl.hpp:42-43; eos_davis.hpp:213-214,44-46; eos_sap_polynomial.hpp:40-42; eos_stiff.hpp:40; eos_noble_abel.hpp:40;
eos_carnahan_starling.hpp:42; eos_helmholtz.hpp:455-456; eos_spiner_rho_temp.hpp:85-87; eos_spiner_rho_sie.hpp:109-112;
eos_eospac.hpp:218-223). Simplification: the atomic properties are always the default; the Helmholtz overloads of one, six, seven and
eight arguments are one function with defaults. -/
def cppFormals : Kind → List Name
  | .ideal => [.gm1, .Cv]
  | .gruneisen => [.C0, .s1, .s2, .s3, .G0, .b, .rho0, .T0, .P0, .Cv]
  | .jwl => [.A, .B, .R1, .R2, .w, .rho0, .Cv]
  | .products => [.a, .b, .k, .n, .vc, .pc, .Cv]
  | .reactants => [.rho0, .e0, .P0, .T0, .A, .B, .C, .G0, .Z, .alpha, .Cv0]
  | .sap => [.rho0, .a0, .a1, .a2c, .a2e, .a3, .b0, .b1, .b2c, .b2e, .b3]
  | .stiff => [.gm1, .Cv, .Pinf, .qq]
  | .noble => [.gm1, .Cv, .bb, .qq]
  | .carnahan => [.gm1, .Cv, .bb, .qq]
  | .helmholtz => [.filename, .rad, .gas, .coul, .ion, .ele, .verbose, .newton_raphson]
  | .spinerT => [.filename, .matid, .split, .reproducibility_mode, .pmin_vapor_dome]
  | .spinerE => [.filename, .matid, .split, .reproducibility_mode, .pmin_vapor_dome]
  | .eospac => [.matid, .split, .invert_at_setup, .insert_data, .monotonicity, .apply_smoothing, .apply_splitting, .linear_interp]

/-- Default arguments of the constructors. (eos_helmholtz.hpp:435-441; eos_spiner_rho_temp.hpp:86-87; eos_spiner_rho_sie.hpp:111-112;
eos_eospac.hpp:218-223) -/
def cppDefault (c : Consts V) : Kind → Name → Option V
  | .helmholtz, .verbose => some c.no
  | .helmholtz, .newton_raphson => some c.yes
  | .spinerT, .reproducibility_mode => some c.no
  | .spinerT, .pmin_vapor_dome => some c.no
  | .spinerE, .reproducibility_mode => some c.no
  | .spinerE, .pmin_vapor_dome => some c.no
  | .eospac, .invert_at_setup => some c.no
  | .eospac, .insert_data => some c.zero
  | .eospac, .monotonicity => some c.monoNone
  | .eospac, .apply_smoothing => some c.no
  | .eospac, .apply_splitting => some c.splitNone
  | .eospac, .linear_interp => some c.no
  | _, _ => none

/-- Which formal parameter each data member (or, for the tables, each use in the constructor) is initialised from: the member
initialisers, `_gm1(gm1)` and so on, with the members named as the documentation names the parameters. (eos_ideal.hpp:43-45;
eos_gruneisen.hpp:63-65; eos_jwl.hpp:44-47; eos_davis.hpp:216-218,48-50; eos_sap_polynomial.hpp:44-45; eos_stiff.hpp:42;
eos_noble_abel.hpp:42; eos_carnahan_starling.hpp:44; eos_helmholtz.hpp:431-434,457-458; eos_spiner_rho_temp.hpp:377-398;
eos_spiner_rho_sie.hpp:994-1010; eos_eospac.hpp:1275-1320) -/
def members : Kind → List (Name × Name)
  | .ideal => [(.gm1, .gm1), (.Cv, .Cv)]
  | .gruneisen => [(.C0, .C0), (.s1, .s1), (.s2, .s2), (.s3, .s3), (.G0, .G0), (.b, .b), (.rho0, .rho0), (.T0, .T0), (.P0, .P0),
      (.Cv, .Cv)]
  | .jwl => [(.A, .A), (.B, .B), (.R1, .R1), (.R2, .R2), (.w, .w), (.rho0, .rho0), (.Cv, .Cv)]
  | .products => [(.a, .a), (.b, .b), (.k, .k), (.n, .n), (.vc, .vc), (.pc, .pc), (.Cv, .Cv)]
  | .reactants => [(.rho0, .rho0), (.e0, .e0), (.P0, .P0), (.T0, .T0), (.A, .A), (.B, .B), (.C, .C), (.G0, .G0), (.Z, .Z),
      (.alpha, .alpha), (.Cv0, .Cv0)]
  | .sap => [(.rho0, .rho0), (.a0, .a0), (.a1, .a1), (.a2c, .a2c), (.a2e, .a2e), (.a3, .a3), (.b0, .b0), (.b1, .b1), (.b2c, .b2c),
      (.b2e, .b2e), (.b3, .b3)]
  | .stiff => [(.gm1, .gm1), (.Cv, .Cv), (.Pinf, .Pinf), (.q, .qq)]
  | .noble => [(.gm1, .gm1), (.Cv, .Cv), (.b, .bb), (.q, .qq)]
  | .carnahan => [(.gm1, .gm1), (.Cv, .Cv), (.b, .bb), (.q, .qq)]
  | .helmholtz => [(.filename, .filename), (.rad, .rad), (.gas, .gas), (.coul, .coul), (.ion, .ion), (.ele, .ele), (.verbose, .verbose),
      (.newton_raphson, .newton_raphson)]
  | .spinerT => [(.filename, .filename), (.matid, .matid), (.split, .split), (.reproducibility_mode, .reproducibility_mode),
      (.pmin_vapor_dome, .pmin_vapor_dome)]
  | .spinerE => [(.filename, .filename), (.matid, .matid), (.split, .split), (.reproducibility_mode, .reproducibility_mode),
      (.pmin_vapor_dome, .pmin_vapor_dome)]
  | .eospac => [(.matid, .matid), (.split, .split), (.invert_at_setup, .invert_at_setup), (.insert_data, .insert_data),
      (.monotonicity, .monotonicity), (.apply_smoothing, .apply_smoothing), (.apply_splitting, .apply_splitting),
      (.linear_interp, .linear_interp)]

/-- An object: its type and the value of each parameter. -/
abbrev Built (V : Type) := Kind × List (Name × V)

/-- The C++ constructor called with positional arguments: missing ones at the end take their defaults. (the constructors cited at
`cppFormals`) -/
def construct (c : Consts V) (k : Kind) (vs : List V) : Option (Built V) := do
  let fs := cppFormals k
  if fs.length < vs.length then none else
  let rest ← (fs.drop vs.length).mapM (cppDefault c k)
  let env := bindPos fs (vs ++ rest)
  let ms ← (members k).mapM fun m => (env m.2).map fun v => (m.1, v)
  pure (k, ms)

/-- The C initialisers `init_sg_*`: formal parameters (those for `matindex`, `eos` and the modifiers left out) and the arguments of
the constructor call inside `SGAPPLYMODSIMPLE`. The six options of `init_sg_eospac` are the elements of one array. (singularity_eos.cpp:66-76,
82-96,107-119,126-138,148-166,175-199,201-220,227-246,253-272,283-297,306-318,332-345,361-383) -/
def cSimple : Kind → Fn
  | .ideal => { formals := [.gm1, .Cv], args := [.gm1, .Cv] }
  | .gruneisen => { formals := [.C0, .s1, .s2, .s3, .G0, .b, .rho0, .T0, .P0, .Cv], args := [.C0, .s1, .s2, .s3, .G0, .b, .rho0, .T0, .P0, .Cv] }
  | .jwl => { formals := [.A, .B, .R1, .R2, .w, .rho0, .Cv], args := [.A, .B, .R1, .R2, .w, .rho0, .Cv] }
  | .products => { formals := [.a, .b, .k, .n, .vc, .pc, .Cv], args := [.a, .b, .k, .n, .vc, .pc, .Cv] }
  | .reactants => { formals := [.rho0, .e0, .P0, .T0, .A, .B, .C, .G0, .Z, .alpha, .Cv0],
                    args := [.rho0, .e0, .P0, .T0, .A, .B, .C, .G0, .Z, .alpha, .Cv0] }
  | .sap => { formals := [.rho0, .a0, .a1, .a2c, .a2e, .a3, .b0, .b1, .b2c, .b2e, .b3],
              args := [.rho0, .a0, .a1, .a2c, .a2e, .a3, .b0, .b1, .b2c, .b2e, .b3] }
  | .stiff => { formals := [.gm1, .Cv, .Pinf, .qq], args := [.gm1, .Cv, .Pinf, .qq] }
  | .noble => { formals := [.gm1, .Cv, .bb, .qq], args := [.gm1, .Cv, .bb, .qq] }
  | .carnahan => { formals := [.gm1, .Cv, .bb, .qq], args := [.gm1, .Cv, .bb, .qq] }
  | .helmholtz => { formals := [.filename, .rad, .gas, .coul, .ion, .ele, .verbose],
                    args := [.filename, .rad, .gas, .coul, .ion, .ele, .verbose] }
  | .spinerT => { formals := [.filename, .matid, .split], args := [.filename, .matid, .split] }
  | .spinerE => { formals := [.filename, .matid, .split], args := [.filename, .matid, .split] }
  | .eospac => { formals := [.id, .split, .o0, .o1, .o2, .o3, .o4, .o5],
                 locs := [(.invert_at_setup, .o0), (.insert_data, .o1), (.monotonicity, .o2), (.apply_smoothing, .o3),
                   (.apply_splitting, .o4), (.linear_interp, .o5)],
                 args := [.id, .split, .invert_at_setup, .insert_data, .monotonicity, .apply_smoothing, .apply_splitting, .linear_interp] }

/-- The arguments of the second constructor call of each `init_sg_*`, inside `SGAPPLYMOD`, whose result is stored.
(singularity_eos.cpp:74,95,118,137,165,191,212,238,264,294,316,343,377-380) -/
def cFull : Kind → Fn
  | .ideal => { formals := [.gm1, .Cv], args := [.gm1, .Cv] }
  | .gruneisen => { formals := [.C0, .s1, .s2, .s3, .G0, .b, .rho0, .T0, .P0, .Cv], args := [.C0, .s1, .s2, .s3, .G0, .b, .rho0, .T0, .P0, .Cv] }
  | .jwl => { formals := [.A, .B, .R1, .R2, .w, .rho0, .Cv], args := [.A, .B, .R1, .R2, .w, .rho0, .Cv] }
  | .products => { formals := [.a, .b, .k, .n, .vc, .pc, .Cv], args := [.a, .b, .k, .n, .vc, .pc, .Cv] }
  | .reactants => { formals := [.rho0, .e0, .P0, .T0, .A, .B, .C, .G0, .Z, .alpha, .Cv0],
                    args := [.rho0, .e0, .P0, .T0, .A, .B, .C, .G0, .Z, .alpha, .Cv0] }
  | .sap => { formals := [.rho0, .a0, .a1, .a2c, .a2e, .a3, .b0, .b1, .b2c, .b2e, .b3],
              args := [.rho0, .a0, .a1, .a2c, .a2e, .a3, .b0, .b1, .b2c, .b2e, .b3] }
  | .stiff => { formals := [.gm1, .Cv, .Pinf, .qq], args := [.gm1, .Cv, .Pinf, .qq] }
  | .noble => { formals := [.gm1, .Cv, .bb, .qq], args := [.gm1, .Cv, .bb, .qq] }
  | .carnahan => { formals := [.gm1, .Cv, .bb, .qq], args := [.gm1, .Cv, .bb, .qq] }
  | .helmholtz => { formals := [.filename, .rad, .gas, .coul, .ion, .ele, .verbose],
                    args := [.filename, .rad, .gas, .coul, .ion, .ele, .verbose] }
  | .spinerT => { formals := [.filename, .matid, .split], args := [.filename, .matid, .split] }
  | .spinerE => { formals := [.filename, .matid, .split], args := [.filename, .matid, .split] }
  | .eospac => { formals := [.id, .split, .o0, .o1, .o2, .o3, .o4, .o5],
                 locs := [(.invert_at_setup, .o0), (.insert_data, .o1), (.monotonicity, .o2), (.apply_smoothing, .o3),
                   (.apply_splitting, .o4), (.linear_interp, .o5)],
                 args := [.id, .split, .invert_at_setup, .insert_data, .monotonicity, .apply_smoothing, .apply_splitting, .linear_interp] }

/-- A C initialiser: the object the modifiers' parameters are computed from, and the object that is stored (before modifiers).
(singularity_eos.cpp:66-383; the modifiers are modelled in `Model/CInterface`) -/
def cInit (c : Consts V) (k : Kind) (vs : List V) : Option (Built V × Built V) := do
  let s ← (cSimple k).call vs
  let f ← (cFull k).call vs
  let s' ← construct c k s
  let f' ← construct c k f
  pure (s', f')

/-- The overloads without modifier arrays pass their parameters on; `SAP_Polynomial` has none. (singularity_eos.cpp:78-80,98-105,121-124,
140-144,168-173,222-225,248-251,274-277,298-303,320-323,347-350,385-388) -/
def cShort : Kind → Option Fn
  | .ideal => some { formals := [.gm1, .Cv], args := [.gm1, .Cv] }
  | .gruneisen => some { formals := [.C0, .s1, .s2, .s3, .G0, .b, .rho0, .T0, .P0, .Cv],
                         args := [.C0, .s1, .s2, .s3, .G0, .b, .rho0, .T0, .P0, .Cv] }
  | .jwl => some { formals := [.A, .B, .R1, .R2, .w, .rho0, .Cv], args := [.A, .B, .R1, .R2, .w, .rho0, .Cv] }
  | .products => some { formals := [.a, .b, .k, .n, .vc, .pc, .Cv], args := [.a, .b, .k, .n, .vc, .pc, .Cv] }
  | .reactants => some { formals := [.rho0, .e0, .P0, .T0, .A, .B, .C, .G0, .Z, .alpha, .Cv0],
                         args := [.rho0, .e0, .P0, .T0, .A, .B, .C, .G0, .Z, .alpha, .Cv0] }
  | .sap => none
  | .stiff => some { formals := [.gm1, .Cv, .Pinf, .qq], args := [.gm1, .Cv, .Pinf, .qq] }
  | .noble => some { formals := [.gm1, .Cv, .bb, .qq], args := [.gm1, .Cv, .bb, .qq] }
  | .carnahan => some { formals := [.gm1, .Cv, .bb, .qq], args := [.gm1, .Cv, .bb, .qq] }
  | .helmholtz => some { formals := [.filename, .rad, .gas, .coul, .ion, .ele, .verbose],
                         args := [.filename, .rad, .gas, .coul, .ion, .ele, .verbose] }
  | .spinerT => some { formals := [.filename, .matid, .split], args := [.filename, .matid, .split] }
  | .spinerE => some { formals := [.filename, .matid, .split], args := [.filename, .matid, .split] }
  | .eospac => some { formals := [.id, .split, .o0, .o1, .o2, .o3, .o4, .o5], args := [.id, .split, .o0, .o1, .o2, .o3, .o4, .o5] }

/-- A call of a short overload. -/
def cInitShort (c : Consts V) (k : Kind) (vs : List V) : Option (Built V × Built V) := do
  let f ← cShort k
  let vs' ← f.call vs
  cInit c k vs'

/-- The Fortran functions `init_sg_*_f`: dummy arguments and the arguments of the C function they call. (singularity_eos.f90:440-727).
Simplifications: `split` is given; the file name has no trailing blanks; all six EOSPAC options are given. -/
def fortran : Kind → Fn
  | .ideal => { formals := [.gm1, .Cv], args := [.gm1, .Cv] }
  | .gruneisen => { formals := [.C0, .s1, .s2, .s3, .G0, .b, .rho0, .T0, .P0, .Cv], args := [.C0, .s1, .s2, .s3, .G0, .b, .rho0, .T0, .P0, .Cv] }
  | .jwl => { formals := [.A, .B, .R1, .R2, .w, .rho0, .Cv], args := [.A, .B, .R1, .R2, .w, .rho0, .Cv] }
  | .products => { formals := [.a, .b, .k, .n, .vc, .pc, .Cv], args := [.a, .b, .k, .n, .vc, .pc, .Cv] }
  | .reactants => { formals := [.rho0, .e0, .P0, .T0, .A, .B, .C, .G0, .Z, .alpha, .Cv0],
                    args := [.rho0, .e0, .P0, .T0, .A, .B, .C, .G0, .Z, .alpha, .Cv0] }
  | .sap => { formals := [.rho0, .a0, .a1, .a2c, .a2e, .a3, .b0, .b1, .b2c, .b2e, .b3],
              args := [.rho0, .a0, .a1, .a2c, .a2e, .a3, .b0, .b1, .b2c, .b2e, .b3] }
  | .stiff => { formals := [.gm1, .Cv, .Pinf, .qq], args := [.gm1, .Cv, .Pinf, .qq] }
  | .noble => { formals := [.gm1, .Cv, .bb, .qq], args := [.gm1, .Cv, .bb, .qq] }
  | .carnahan => { formals := [.gm1, .Cv, .bb, .qq], args := [.gm1, .Cv, .bb, .qq] }
  | .helmholtz => { formals := [.filename, .rad, .gas, .coul, .ion, .ele, .verbose],
                    args := [.filename, .rad, .gas, .coul, .ion, .ele, .verbose] }
  | .spinerT => { formals := [.filename, .id, .split], locs := [(.split_use, .split)], args := [.filename, .id, .split_use] }
  | .spinerE => { formals := [.filename, .id, .split], locs := [(.split_use, .split)], args := [.filename, .id, .split_use] }
  | .eospac => { formals := [.id, .split, .o0, .o1, .o2, .o3, .o4, .o5], args := [.id, .split, .o0, .o1, .o2, .o3, .o4, .o5] }

/-- A call with positional arguments followed by keyword arguments: the values in the order of the formal parameters. None (an error
when compiling, or a Python `TypeError`) if there are too many, a keyword does not occur among the remaining parameters or occurs
twice, or a parameter without default is missing. `key` identifies the spellings of a name that the language does not distinguish. -/
def bindCall (key : Name → Name) (dflt : Name → Option V) (fs : List Name) (pos : List V) (kws : List (Name × V)) : Option (List V) :=
  let rest := fs.drop pos.length
  let ks := kws.map fun x => (key x.1, x.2)
  if pos.length ≤ fs.length ∧ (ks.map Prod.fst).Nodup ∧ ∀ x ∈ ks, x.1 ∈ rest.map key then do
    let vs ← rest.mapM fun x => match ks.lookup (key x) with
      | some v => some v
      | none => dflt x
    pure (pos ++ vs)
  else none

/-- Fortran does not distinguish upper and lower case. (Fortran standard; singularity_eos.f90) -/
def fkey : Name → Name
  | .A => .a
  | .B => .b
  | x => x

/-- A Fortran program calls `init_sg_*_f` with positional and keyword arguments. (singularity_eos.f90:440-727) -/
def fInit (c : Consts V) (k : Kind) (pos : List V) (kws : List (Name × V)) : Option (Built V × Built V) := do
  let vs ← bindCall fkey (fun _ => none) (fortran k).formals pos kws
  let vs' ← (fortran k).call vs
  cInit c k vs'

/-- The Python classes that can be built from parameters with names: `py::arg` names, in order. (python/module.cpp:29-76,80-82,93-95,
128-131) -/
def pyArgs : Kind → Option (List Name)
  | .ideal => some [.gm1, .Cv]
  | .stiff => some [.gm1, .Cv, .Pinf, .q]
  | .gruneisen => some [.C0, .s1, .s2, .s3, .G0, .b, .rho0, .T0, .P0, .Cv]
  | .jwl => some [.A, .B, .R1, .R2, .w, .rho0, .Cv]
  | .reactants => some [.rho0, .e0, .P0, .T0, .A, .B, .C, .G0, .Z, .alpha, .Cv0]
  | .products => some [.a, .b, .k, .n, .vc, .pc, .Cv]
  | .spinerT => some [.filename, .matid, .reproducibility_mode]
  | .spinerE => some [.filename, .matid, .reproducibility_mode]
  | .eospac => some [.matid, .invert_at_setup]
  | _ => none

/-- Defaults of the Python arguments. (python/module.cpp:80-81,92-93,131) -/
def pyDefault (c : Consts V) : Kind → Name → Option V
  | .spinerT, .reproducibility_mode => some c.no
  | .spinerE, .reproducibility_mode => some c.no
  | .eospac, .invert_at_setup => some c.no
  | _, _ => none

/-- `py::init<...>` calls the constructor with the arguments in order; for the tables that is the overload without `split`, which
inserts the total table. (python/module.cpp:29-131; eos_spiner_rho_temp.hpp:88-92; eos_spiner_rho_sie.hpp:113-117; eos_eospac.hpp:225-230) -/
def pyTarget (c : Consts V) : Kind → List V → List V
  | .spinerT, f :: m :: r => f :: m :: c.total :: r
  | .spinerE, f :: m :: r => f :: m :: c.total :: r
  | .eospac, m :: r => m :: c.total :: r
  | _, vs => vs

/-- A Python program builds an EOS with positional and keyword arguments. (python/module.cpp:29-131) -/
def pyInit (c : Consts V) (k : Kind) (pos : List V) (kws : List (Name × V)) : Option (Built V) := do
  let fs ← pyArgs k
  let vs ← bindCall id (pyDefault c k) fs pos kws
  construct c k (pyTarget c k vs)

end Construct

end Verif
