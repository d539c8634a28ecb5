import Verif.Model.CInterfaceCall

/-!
# How the Fortran module calls the C functions

`singularity_eos.f90` declares every C function a second time in an interface block (`:69-362`): nothing checks the two
declarations against each other, since the linker only sees the name. What a C parameter receives is what the caller left in
the register or stack slot that the callee reads for it. The model has the two declarations as tables, the calling convention
(System V on x86-64, as a concrete one: six integer registers, eight floating-point registers, then the stack), and the actual
argument lists of the module's own functions (`:366-823`).
-/

namespace Verif.FAbi

/-! ## Calling convention -/

/-- How a scalar is passed (the C types `int`, `bool`, any pointer, `double`; `iso_c_binding` kinds `c_int`, `c_bool`, `c_ptr`,
`c_double`, `singularity_eos.f90:38`). -/
inductive Rep where
  | i32 | b8 | ptr | f64
  deriving DecidableEq, Repr

/-- Where an argument is: integer register, floating-point register or stack slot (calling convention of the targets of
`singularity_eos.f90:69-362`; the hidden parts of the convention, such as the width of the upper register bits, are not
modelled). -/
inductive Loc where
  | gp (n : Nat) | xmm (n : Nat) | stk (n : Nat)
  deriving DecidableEq

/-- The slots of a list of arguments when `g` integer registers, `x` floating-point registers and `s` stack slots are used
(calling convention for `singularity_eos.f90:69-362` and `singularity_eos.hpp:28-140`). -/
def place : List Rep → Nat → Nat → Nat → List Loc
  | [], _, _, _ => []
  | .f64 :: ks, g, x, s => if x < 8 then .xmm x :: place ks g (x + 1) s else .stk s :: place ks g x (s + 1)
  | .i32 :: ks, g, x, s | .b8 :: ks, g, x, s | .ptr :: ks, g, x, s =>
    if g < 6 then .gp g :: place ks (g + 1) x s else .stk s :: place ks g x (s + 1)

/-- The caller stores the arguments: later stores do not undo earlier ones since the slots differ
(`singularity_eos.f90:425-430` and the other calls). -/
def store {V : Type} : List Loc → List (Rep × V) → Loc → Option (Rep × V)
  | l :: ls, a :: as, x => if x = l then some a else store ls as x
  | _, _, _ => none

/-- The callee reads its parameters; a slot holding a value of another representation is garbage
(`singularity_eos.hpp:28-140`). -/
def fetch {V : Type} (ks : List Rep) (m : Loc → Option (Rep × V)) : List (Option V) :=
  ((place ks 0 0 0).zip ks).map fun lk =>
    match m lk.1 with
    | some (k, v) => if k = lk.2 then some v else none
    | none => none

/-! ## The two declarations -/

/-- Dummy arguments of the interface blocks (`singularity_eos.f90:69-362`): `integer(c_int), value`,
`real(c_double), value`, `logical(c_bool), value`, `type(c_ptr), value`, `type(c_ptr)` (by reference),
`character(kind=c_char) :: x(*)`. -/
inductive FTy where
  | int | dbl | log | ptr | ptrRef | chars
  deriving DecidableEq, Repr

/-- Parameters of the C functions (`singularity_eos.hpp:28-140`): `int`, `TableSplit`, `double`, `bool`, a pointer, `EOS *&`,
`const char *`. -/
inductive CTy where
  | int | split | dbl | bool | ptr | ref | str
  deriving DecidableEq, Repr

/-- (`singularity_eos.f90:69-362`) -/
def FTy.rep : FTy → Rep
  | .int => .i32
  | .dbl => .f64
  | .log => .b8
  | .ptr | .ptrRef | .chars => .ptr

/-- (`singularity_eos.hpp:28-140`; `TableSplit` is an enumeration of underlying type `int`,
`singularity-eos/base/constants.hpp:40`) -/
def CTy.rep : CTy → Rep
  | .int | .split => .i32
  | .dbl => .f64
  | .bool => .b8
  | .ptr | .ref | .str => .ptr

/-- The functions of the C interface that Fortran declares (`singularity_eos.f90:69-362`). -/
inductive Fn where
  | init | idealGas | gruneisen | jwl | davisProducts | davisReactants | nobleAbel | carnahanStarling | stiffGas | sap
  | helmholtz | spinerRhoT | spinerRhoSie | eospac | entropy | pressure | minSie | bulkModulus | mixed | finalize
  deriving DecidableEq, Repr

/-- Some reals of an interface block in a row. -/
def dbls (xs : List String) : List (String × FTy) := xs.map fun x => (x, .dbl)

/-- Some doubles of a prototype in a row. -/
def doubles (xs : List String) : List (String × CTy) := xs.map fun x => (x, .dbl)

/-- `type(c_ptr), value, intent(in) :: sg_mods_enabled, sg_mods_values`: the end of most interface blocks
(`singularity_eos.f90:89` and the others). -/
def fMods : List (String × FTy) := [("sg_mods_enabled", .ptr), ("sg_mods_values", .ptr)]

/-- `int const *const enabled, double *const vals`: the end of most prototypes (`singularity_eos.hpp:31` and the others). -/
def cMods : List (String × CTy) := [("enabled", .ptr), ("vals", .ptr)]

/-- `matindex, eos`: the beginning of most interface blocks (`singularity_eos.f90:86-87` and the others). -/
def fHead : List (String × FTy) := [("matindex", .int), ("eos", .ptr)]

/-- `const int matindex, EOS *eos`: the beginning of most prototypes (`singularity_eos.hpp:30` and the others). -/
def cHead : List (String × CTy) := [("matindex", .int), ("eos", .ptr)]

/-- The interface blocks, in the order of the dummy argument list (`singularity_eos.f90:70-362`). -/
def iface : Fn → List (String × FTy)
  | .init => [("nmat", .int), ("eos", .ptrRef)]
  | .idealGas => fHead ++ dbls ["gm1", "Cv"] ++ fMods
  | .gruneisen => fHead ++ dbls ["C0", "s1", "s2", "s3", "G0", "b", "rho0", "T0", "P0", "Cv"] ++ fMods
  | .jwl => fHead ++ dbls ["A", "B", "R1", "R2", "w", "rho0", "Cv"] ++ fMods
  | .davisProducts => fHead ++ dbls ["a", "b", "k", "n", "vc", "pc", "Cv"] ++ fMods
  | .davisReactants => fHead ++ dbls ["rho0", "e0", "P0", "T0", "A", "B", "C", "G0", "Z", "alpha", "Cv0"] ++ fMods
  | .nobleAbel => fHead ++ dbls ["gm1", "Cv", "bb", "qq"] ++ fMods
  | .carnahanStarling => fHead ++ dbls ["gm1", "Cv", "bb", "qq"] ++ fMods
  | .stiffGas => fHead ++ dbls ["gm1", "Cv", "Pinf", "qq"] ++ fMods
  | .sap => fHead ++ dbls ["rho0", "a0", "a1", "a2c", "a2e", "a3", "b0", "b1", "b2c", "b2e", "b3"] ++ fMods
  | .helmholtz => fHead ++ [("filename", .chars), ("rad", .log), ("gas", .log), ("coul", .log), ("ion", .log), ("ele", .log),
      ("verbose", .log)] ++ fMods
  | .spinerRhoT => fHead ++ [("filename", .chars), ("id", .int), ("split", .int)] ++ fMods
  | .spinerRhoSie => fHead ++ [("filename", .chars), ("id", .int), ("split", .int)] ++ fMods
  | .eospac => fHead ++ [("id", .int), ("split", .int), ("eospac_opts_values", .ptr)] ++ fMods
  | .entropy => fHead ++ [("rhos", .ptr), ("sies", .ptr), ("entropies", .ptr), ("len", .int), ("stride", .int),
      ("lambda_data", .ptr)]
  | .pressure => fHead ++ [("rhos", .ptr), ("sies", .ptr), ("pressures", .ptr), ("len", .int), ("stride", .int),
      ("lambda_data", .ptr)]
  | .minSie => fHead ++ [("rhos", .ptr), ("sies", .ptr), ("len", .int)]
  | .bulkModulus => fHead ++ [("rhos", .ptr), ("sies", .ptr), ("bmods", .ptr), ("len", .int), ("stride", .int),
      ("lambda_data", .ptr)]
  | .mixed => [("nmat", .int), ("ncell", .int), ("cell_dim", .int), ("option", .int), ("eos_offsets", .ptr), ("eos", .ptr),
      ("offsets", .ptr), ("press", .ptr), ("pmax", .ptr), ("vol", .ptr), ("spvol", .ptr), ("sie", .ptr), ("temp", .ptr),
      ("bmod", .ptr), ("dpde", .ptr), ("cv", .ptr), ("frac_mass", .ptr), ("frac_vol", .ptr), ("frac_sie", .ptr),
      ("frac_bmod", .ptr), ("frac_dpde", .ptr), ("frac_cv", .ptr), ("mass_frac_cutoff", .dbl)]
  | .finalize => [("nmat", .int), ("eos", .ptrRef), ("own_kokkos", .int)]

/-- The C functions, in the order of their parameters (`singularity_eos.hpp:28-136`). -/
def proto : Fn → List (String × CTy)
  | .init => [("nmat", .int), ("eos", .ref)]
  | .idealGas => cHead ++ doubles ["gm1", "Cv"] ++ cMods
  | .jwl => cHead ++ doubles ["A", "B", "R1", "R2", "w", "rho0", "Cv"] ++ cMods
  | .gruneisen => cHead ++ doubles ["C0", "s1", "s2", "s3", "G0", "b", "rho0", "T0", "P0", "Cv"] ++ cMods
  | .davisProducts => cHead ++ doubles ["a", "b", "k", "n", "vc", "pc", "Cv"] ++ cMods
  | .davisReactants => cHead ++ doubles ["rho0", "e0", "P0", "T0", "A", "B", "C", "G0", "Z", "alpha", "Cv0"] ++ cMods
  | .sap => cHead ++ doubles ["rho0", "a0", "a1", "a2c", "a2e", "a3", "b0", "b1", "b2c", "b2e", "b3"] ++ cMods
  | .stiffGas => cHead ++ doubles ["gm1", "Cv", "Pinf", "qq"] ++ cMods
  | .nobleAbel => cHead ++ doubles ["gm1", "Cv", "bb", "qq"] ++ cMods
  | .carnahanStarling => cHead ++ doubles ["gm1", "Cv", "bb", "qq"] ++ cMods
  | .helmholtz => cHead ++ [("filename", .str), ("rad", .bool), ("gas", .bool), ("coul", .bool), ("ion", .bool),
      ("ele", .bool), ("verbose", .bool)] ++ cMods
  | .spinerRhoT => cHead ++ [("filename", .str), ("id", .int), ("split", .split)] ++ cMods
  | .spinerRhoSie => cHead ++ [("filename", .str), ("id", .int), ("split", .split)] ++ cMods
  | .eospac => cHead ++ [("id", .int), ("split", .split), ("eospac_vals", .ptr)] ++ cMods
  | .entropy => cHead ++ [("rhos", .ptr), ("sies", .ptr), ("entropies", .ptr), ("len", .int), ("stride", .int),
      ("lambda_data", .ptr)]
  | .pressure => cHead ++ [("rhos", .ptr), ("sies", .ptr), ("pressures", .ptr), ("len", .int), ("stride", .int),
      ("lambda_data", .ptr)]
  | .minSie => cHead ++ [("rhos", .ptr), ("sies", .ptr), ("len", .int)]
  | .bulkModulus => cHead ++ [("rhos", .ptr), ("sies", .ptr), ("bmods", .ptr), ("len", .int), ("stride", .int),
      ("lambda_data", .ptr)]
  | .mixed => [("nmat", .int), ("ncell", .int), ("cell_dim", .int), ("input_int", .int), ("eos_offsets", .ptr), ("eos", .ptr),
      ("offsets", .ptr), ("press", .ptr), ("pmax", .ptr), ("vol", .ptr), ("spvol", .ptr), ("sie", .ptr), ("temp", .ptr),
      ("bmod", .ptr), ("dpde", .ptr), ("cv", .ptr), ("frac_mass", .ptr), ("frac_vol", .ptr), ("frac_ie", .ptr),
      ("frac_bmod", .ptr), ("frac_dpde", .ptr), ("frac_cv", .ptr), ("mass_frac_cutoff", .dbl)]
  | .finalize => [("nmat", .int), ("eos", .ref), ("own_kokkos", .int)]

/-! ## The calls in the module -/

/-- Actual arguments in the calls of `singularity_eos.f90:366-823`. -/
inductive Act where
  /-- a dummy or local variable -/
  | var (x : String)
  /-- `x - 1` -/
  | pred (x : String)
  /-- `eos%ptr` -/
  | eosPtr
  /-- `c_loc(x)`, also of the first element `x(1,1,1)` -/
  | loc (x : String)
  /-- `trim(x)//C_NULL_CHAR` -/
  | cstr (x : String)
  /-- a literal -/
  | lit (n : Int)
  /-- `C_NULL_PTR` -/
  | null
  deriving DecidableEq, Repr

/-- `matindex-1, eos%ptr` (`singularity_eos.f90:457` and the others). -/
def aHead : List Act := [.pred "matindex", .eosPtr]

/-- `c_loc(sg_mods_enabled_use), c_loc(sg_mods_values_use)` (`singularity_eos.f90:458` and the others). -/
def aMods : List Act := [.loc "sg_mods_enabled_use", .loc "sg_mods_values_use"]

/-- The actual arguments in the calls to C (`singularity_eos.f90:425-430`, `:437`, `:457`, `:480`, `:502`, `:524`, `:548`,
`:572`, `:595`, `:617`, `:630`, `:655`, `:685`, `:713`, `:747`, `:763-767`, `:781-785`, `:796`, `:810-814`, `:822`); `lam`: both
`stride` and `lambda_data` are present. The optional pointers of the mixed call are the locals `bmod_ptr` etc. -/
def call (lam : Bool) : Fn → List Act
  | .init => [.var "nmat", .eosPtr]
  | .idealGas => aHead ++ [.var "gm1", .var "Cv"] ++ aMods
  | .gruneisen => aHead ++ ["C0", "s1", "s2", "s3", "G0", "b", "rho0", "T0", "P0", "Cv"].map .var ++ aMods
  | .jwl => aHead ++ ["A", "B", "R1", "R2", "w", "rho0", "Cv"].map .var ++ aMods
  | .davisProducts => aHead ++ ["a", "b", "k", "n", "vc", "pc", "Cv"].map .var ++ aMods
  | .davisReactants => aHead ++ ["rho0", "e0", "P0", "T0", "A", "B", "C", "G0", "Z", "alpha", "Cv0"].map .var ++ aMods
  | .nobleAbel => aHead ++ ["gm1", "Cv", "bb", "qq"].map .var ++ aMods
  | .carnahanStarling => aHead ++ ["gm1", "Cv", "bb", "qq"].map .var ++ [.loc "sg_mods_enabled", .loc "sg_mods_values"]
  | .stiffGas => aHead ++ ["gm1", "Cv", "Pinf", "qq"].map .var ++ aMods
  | .sap => aHead ++ ["rho0", "a0", "a1", "a2c", "a2e", "a3", "b0", "b1", "b2c", "b2e", "b3"].map .var ++ aMods
  | .helmholtz => aHead ++ [.cstr "filename"] ++ ["rad", "gas", "coul", "ion", "ele", "verbose"].map .var ++ aMods
  | .spinerRhoT => aHead ++ [.cstr "filename", .var "id", .var "split_use"] ++ aMods
  | .spinerRhoSie => aHead ++ [.cstr "filename", .var "id", .var "split_use"] ++ aMods
  | .eospac => aHead ++ [.var "id", .var "split", .loc "eospac_opts_values_use"] ++ aMods
  | .entropy => aHead ++ [.loc "rhos", .loc "sies", .loc "entropies", .var "len"] ++
      if lam then [.var "stride", .loc "lambda_data"] else [.lit (-1), .null]
  | .pressure => aHead ++ [.loc "rhos", .loc "sies", .loc "pressures", .var "len"] ++
      if lam then [.var "stride", .loc "lambda_data"] else [.lit (-1), .null]
  | .minSie => aHead ++ [.loc "rhos", .loc "sies", .var "len"]
  | .bulkModulus => aHead ++ [.loc "rhos", .loc "sies", .loc "bmods", .var "len"] ++
      if lam then [.var "stride", .loc "lambda_data"] else [.lit (-1), .null]
  | .mixed => [.var "nmat", .var "ncell", .var "cell_dim", .var "option", .loc "eos_offsets", .eosPtr, .loc "offsets",
      .loc "press", .loc "pmax", .loc "vol", .loc "spvol", .loc "sie", .loc "temp", .loc "bmod", .loc "dpde", .loc "cv",
      .loc "frac_mass", .loc "frac_vol", .loc "frac_sie", .var "bmod_ptr", .var "dpde_ptr", .var "cv_ptr",
      .var "mass_frac_cutoff_used"]
  | .finalize => [.var "nmat", .eosPtr, .lit 1]

/-- The values in the parameters of the C function when Fortran calls it with the values `vs` of its actual arguments: the
caller places them by the interface block, the callee reads them by its prototype (`singularity_eos.f90:69-362`,
`singularity_eos.hpp:28-140`). -/
def received {V : Type} (f : Fn) (vs : List V) : List (String × Option V) :=
  let fk := (iface f).map fun p => p.2.rep
  let ck := (proto f).map fun p => p.2.rep
  ((proto f).map Prod.fst).zip (fetch ck (store (place fk 0 0 0) (fk.zip vs)))

/-! ## Optional arguments of the mixed call -/

/-- `bmod_ptr`, `dpde_ptr`, `cv_ptr` and `mass_frac_cutoff_used` of `get_sg_eos_f` (`singularity_eos.f90:403-423`): address or
null for an array, the value or `1.0d-12` for the cutoff. -/
def optionals {A K : Type} (cut : K) (bmod dpde cv : Option A) (cutoff : Option K) : Option A × Option A × Option A × K :=
  (bmod, dpde, cv, match cutoff with | some c => c | none => cut)

/-! ## The handle of the EOS array -/

/-- How the compiler hands an `intent(in)` argument without `value` to C: the address of the variable or of a copy of it. The
Fortran standard leaves the choice since the callee declares not to change it (`singularity_eos.f90:75`, `:358`, `:435`,
`:821`). -/
inductive Pass where
  | address | copy
  deriving DecidableEq

/-- `init_sg_eos_f` (`singularity_eos.f90:433-438`, `singularity_eos.cpp:58-65`): C assigns the address `fresh` of the new array
to the referenced pointer; the caller's `eos%ptr` afterwards. -/
def initEos {A : Type} (p : Pass) (fresh : A) (handle : Option A) : Option A :=
  match p with
  | .address => some fresh
  | .copy => handle

/-- `finalize_sg_eos_f` (`singularity_eos.f90:818-823`, `singularity_eos.cpp:430-444`): C deletes the array and assigns null;
the caller's `eos%ptr` afterwards. -/
def finalizeEos {A : Type} (p : Pass) (handle : Option A) : Option A :=
  match p with
  | .address => none
  | .copy => handle

end Verif.FAbi
