import Verif.Model.Construct

/-! # What building an EOS should do: every parameter gets the value given under its documented name -/

namespace Verif

namespace Construct

variable {V : Type}

/-- The constructor parameters in the order of the documentation (doc/sphinx/src/models.rst; the tables: sesame and EOSPAC options). -/
def documented : Kind → List Name
  | .ideal => [.gm1, .Cv]
  | .gruneisen => [.C0, .s1, .s2, .s3, .G0, .b, .rho0, .T0, .P0, .Cv]
  | .jwl => [.A, .B, .R1, .R2, .w, .rho0, .Cv]
  | .products => [.a, .b, .k, .n, .vc, .pc, .Cv]
  | .reactants => [.rho0, .e0, .P0, .T0, .A, .B, .C, .G0, .Z, .alpha, .Cv0]
  | .sap => [.rho0, .a0, .a1, .a2c, .a2e, .a3, .b0, .b1, .b2c, .b2e, .b3]
  | .stiff => [.gm1, .Cv, .Pinf, .q]
  | .noble => [.gm1, .Cv, .b, .q]
  | .carnahan => [.gm1, .Cv, .b, .q]
  | .helmholtz => [.filename, .rad, .gas, .coul, .ion, .ele, .verbose, .newton_raphson]
  | .spinerT => [.filename, .matid, .split, .reproducibility_mode, .pmin_vapor_dome]
  | .spinerE => [.filename, .matid, .split, .reproducibility_mode, .pmin_vapor_dome]
  | .eospac => [.matid, .split, .invert_at_setup, .insert_data, .monotonicity, .apply_smoothing, .apply_splitting, .linear_interp]

/-- The object in which every documented parameter has the value `v` gives its name. -/
def wanted (k : Kind) (v : Name → V) : Built V := (k, (documented k).map fun n => (n, v n))

/-- The documented name behind an argument name of one of the interfaces. -/
def canon : Name → Name
  | .qq => .q
  | .bb => .b
  | .id => .matid
  | .o0 => .invert_at_setup
  | .o1 => .insert_data
  | .o2 => .monotonicity
  | .o3 => .apply_smoothing
  | .o4 => .apply_splitting
  | .o5 => .linear_interp
  | n => n

/-- The documented defaults. -/
def defaults (c : Consts V) : Name → Option V
  | .verbose => some c.no
  | .newton_raphson => some c.yes
  | .reproducibility_mode => some c.no
  | .pmin_vapor_dome => some c.no
  | .split => some c.total
  | .invert_at_setup => some c.no
  | .insert_data => some c.zero
  | .monotonicity => some c.monoNone
  | .apply_smoothing => some c.no
  | .apply_splitting => some c.splitNone
  | .linear_interp => some c.no
  | _ => none

/-- `v` has the default value for every documented parameter that is not among the names `fs` (which the caller gives). -/
def DefaultsElsewhere (c : Consts V) (k : Kind) (fs : List Name) (v : Name → V) : Prop :=
  ∀ n ∈ documented k, n ∉ fs.map canon → defaults c n = some (v n)

/-- The keyword arguments for the parameters `fs`, each spelled in some way the language takes for its name, in any order. -/
def Keywords (key : Name → Name) (fs : List Name) (v : Name → V) (kws : List (Name × V)) : Prop :=
  ∃ spell : Name → Name, (∀ n, key (spell n) = key n) ∧ kws.Perm (fs.map fun n => (spell n, v (canon n)))

end Construct

end Verif
