import Verif.Model.Loops
import Verif.Model.EosIface
import Verif.Model.CInterface

/-!
# The Python and Fortran bindings

Memory is one space of `Real`s addressed by integers (`Int → K`); an array argument is a base address with strides
counted in `Real`s and a length. Byte strides that are no multiple of `sizeof(Real)` (fields of NumPy structured
arrays) are not modelled. An EOS query is an arbitrary function of its two numbers and of the `nl` values behind the
lambda pointer; it returns the answer and the values it leaves there (lambdas are also caches).
-/

namespace Verif.Bind

open Verif.Mods

/-- Memory. (module.hpp:41-102: raw `Real *` everywhere) -/
abbrev Mem (K : Type*) := Int → K

/-- A one-dimensional array: address of element 0, distance between neighbours, number of elements.
(module.hpp:77-101 `PyArrayHelper`: `data_`, `stride_`, `size()`) -/
structure View where
  base : Int
  stride : Int
  len : Nat

/-- `PyArrayHelper::operator[]`, `&data_[i*stride_]`. `stride_` is unsigned, but the sum wraps around, so a negative
NumPy stride works. (module.hpp:86-88) -/
def View.at (v : View) (i : Nat) : Int := v.base + i * v.stride

/-- A two-dimensional array of lambdas, `n0` rows of `n1` values, with both strides. (module.hpp:106-109, 52-65) -/
structure View2 where
  base : Int
  s0 : Int
  s1 : Int
  n0 : Nat
  n1 : Nat

/-- `LambdaHelper::operator[]`, `&data_[i*stride_]`: the pointer handed to the EOS for point `i`. (module.hpp:61-64) -/
def View2.row (v : View2) (i : Nat) : Int := v.base + i * v.s0

/-- A query: two numbers and the lambda values; the answer and the lambda values left behind.
(e.g. eos_base.hpp: `Real f(const Real, const Real, Indexer_t &&lambda) const`) -/
abbrev Query (K : Type*) := K → K → (Nat → K) → K × (Nat → K)

variable {K : Type*}

/-- Store the first `nl` lambda values behind the pointer `p`. (what a query does through `Real *lambda`) -/
def storeRow (nl : Nat) (p : Int) (l : Nat → K) (m : Mem K) : Mem K :=
  forN nl (fun m j => Function.update m (p + j) (l j)) m

/-- One pass of the loop of a vector query: read the two numbers, run the query on the pointer (which may change
the values there), store the answer. (eos_base.hpp:178-181; called at module.hpp:115-119) -/
def vecBody (q : Query K) (nl : Nat) (ra rb out p : Nat → Int) (m : Mem K) (i : Nat) : Mem K :=
  let r := q (m (ra i)) (m (rb i)) (fun j => m (p i + j))
  Function.update (storeRow nl (p i) r.2 m) (out i) r.1

/-- `portableFor(0, n, out[i] = f(a[i], b[i], lambdas[i]))` over memory, the points visited in the order `ord`
(`0, 1, ..., n-1` in a serial build). (eos_base.hpp:178-181) -/
def vecOrd (q : Query K) (nl : Nat) (ord : List Nat) (ra rb out p : Nat → Int) (m : Mem K) : Mem K :=
  ord.foldl (vecBody q nl ra rb out p) m

/-- The serial loop. (eos_base.hpp:178-181) -/
def vecLoop (q : Query K) (nl n : Nat) (ra rb out p : Nat → Int) (m : Mem K) : Mem K :=
  vecOrd q nl (List.range n) ra rb out p m

/-- A Python array query: `n = a.size()`, elements through the helpers, the row pointers through `LambdaHelper`.
The sizes of `b`, `out` and `lambdas` are not looked at. With lambdas of width 0 the query gets `nullptr`
(`nl = 0`). (module.hpp:104-121 `EOS_VEC_FUNC_TMPL`) -/
def pyVec (q : Query K) (nl : Nat) (a b out : View) (L : View2) (m : Mem K) : Mem K :=
  vecLoop q nl a.len a.at b.at out.at L.row m

/-- The same call in a build where the host loop is parallel, one whole iteration after the other, in some order of
all the points. (module.hpp:104-121, `PortsOfCall::Exec::Host`) -/
def pyVecOrd (q : Query K) (nl : Nat) (ord : List Nat) (a b out : View) (L : View2) (m : Mem K) : Mem K :=
  vecOrd q nl ord a.at b.at out.at L.row m

/-- The argument conversion of `py::array_t<Real>` (pybind11, default flag `forcecast`): an array of doubles is
shared, any other array is converted into a new array (here at address `fresh`, with the values of the old one).
(the parameter types at module.hpp:106-107; the conversion itself is pybind11's) -/
def convArg (isDouble : Bool) (fresh : Int) (v : View) (m : Mem K) : View × Mem K :=
  if isDouble then (v, m)
  else (⟨fresh, 1, v.len⟩, forN v.len (fun m' i => Function.update m' (fresh + i) (m (v.at i))) m)

/-- A Python array query whose output array has a given element type. (module.hpp:104-121) -/
def pyVecOut (isDouble : Bool) (fresh : Int) (q : Query K) (nl : Nat) (a b out : View) (L : View2) (m : Mem K) :
    Mem K :=
  let c := convArg isDouble fresh out m
  pyVec q nl a b c.1 L c.2

/-- A scalar Python query with a one-dimensional lambda array: the pointer is the base address, the stride of the
array is not looked at. (module.hpp:38-41 `two_params`) -/
def pyScalar (q : Query K) (nl : Nat) (x y : K) (lam : View) (m : Mem K) : K × Mem K :=
  let r := q x y (fun j => m (lam.base + j))
  (r.1, storeRow nl lam.base r.2 m)

/-! ## `FillEos` with keywords -/

/-- The keyword arguments of `eos.FillEos(...)`: absent or a number each, and the optional `output` bits.
(module.hpp:417-441) -/
structure KwArgs (K : Type*) where
  rho : Option K
  temp : Option K
  sie : Option K
  press : Option K
  cv : Option K
  bmod : Option K
  output : Option Flags

/-- The fresh `EOSState` (all NaN, here `nan`) after the provided values are stored. (module.hpp:419, 429-437) -/
def kwState (nan : K) (k : KwArgs K) : Thermo K :=
  ⟨k.rho.getD nan, k.temp.getD nan, k.sie.getD nan, k.press.getD nan, k.cv.getD nan, k.bmod.getD nan⟩

/-- The output bits: `output |= param_bitmask` for every keyword that is *present*, unless `output` is given.
(module.hpp:418, 429-442) -/
def kwOutput (k : KwArgs K) : Flags :=
  k.output.getD ⟨k.rho.isSome, k.temp.isSome, k.sie.isSome, k.press.isSome, k.cv.isSome, k.bmod.isSome⟩

/-- Python `FillEos(**kwargs)`; `none` is an abort of the EOS. (module.hpp:417-451) -/
def pyFill (fill : Flags → Thermo K → Option (Thermo K)) (nan : K) (k : KwArgs K) : Option (Thermo K) :=
  fill (kwOutput k) (kwState nan k)

/-! ## Fortran -/

/-- The descriptor of an assumed-shape rank-3 array: base address, element strides, extents.
(singularity_eos.f90:775-777 `dimension(:,:,:)`) -/
structure Arr3 where
  base : Int
  s1 : Int
  s2 : Int
  s3 : Int
  n1 : Nat
  n2 : Nat
  n3 : Nat

/-- A C query of the host interface: `len` consecutive numbers, with lambdas only if the stride is not -1 and the
pointer is not null (`none`). Row `i` starts at `data + stride*i`. Without lambdas the query gets whatever its default
is: `dflt` values that nobody sees. (singularity_eos.cpp:387-428, `lambdaIndexer2D` 39-50) -/
def cVec (q : Query K) (nl : Nat) (dflt : Nat → K) (rhos sies out : Int) (len : Nat) (stride : Int)
    (lam : Option Int) (m : Mem K) : Mem K :=
  match lam with
  | some p =>
    if stride = -1 then
      vecLoop (fun x y _ => ((q x y dflt).1, dflt)) 0 len (fun i => rhos + i) (fun i => sies + i) (fun i => out + i)
        (fun _ => 0) m
    else vecLoop q nl len (fun i => rhos + i) (fun i => sies + i) (fun i => out + i) (fun i => p + stride * i) m
  | none =>
    vecLoop (fun x y _ => ((q x y dflt).1, dflt)) 0 len (fun i => rhos + i) (fun i => sies + i) (fun i => out + i)
      (fun _ => 0) m

/-- `get_sg_PressureFromDensityInternalEnergy_f` and its siblings: addresses of the first elements; stride and lambdas
are passed on only if both are present. (singularity_eos.f90:753-816) -/
def fVec (q : Query K) (nl : Nat) (dflt : Nat → K) (rhos sies out : Arr3) (len : Nat) (stride : Option Int)
    (lam : Option Int) (m : Mem K) : Mem K :=
  match stride, lam with
  | some s, some p => cVec q nl dflt rhos.base sies.base out.base len s (some p) m
  | _, _ => cVec q nl dflt rhos.base sies.base out.base len (-1) none m

/-- A Fortran array of EOS objects: material numbers are 1-based, the C array is 0-based.
(singularity_eos.f90:457 and 775 `matindex-1`; singularity_eos.cpp:76 `eos[matindex] = ...`) -/
def fInit {E : Type*} (matindex : Int) (e : E) (arr : Int → E) : Int → E := Function.update arr (matindex - 1) e

/-- The EOS a Fortran query of a material runs on. (singularity_eos.f90:763, singularity_eos.cpp:391 `eos[matindex]`) -/
def fEos {E : Type*} (matindex : Int) (arr : Int → E) : E := arr (matindex - 1)

section
variable [Field K] [LinearOrder K]

/-- `init_sg_IdealGas_f` and all its siblings but one: absent modifier arrays are zeros, present ones are copied into
locals, so the C function works on the copies. The EOS stored and the caller's array of values afterwards.
(singularity_eos.f90:440-459, 461-619, 636-717) -/
def fInitSg (σ : K) (rho0 : CApi.Desc K → K) (rmid r1 : CApi.Desc K → K → K → K → K) (enabled : Option (Nat → Int))
    (vals : Option (Nat → K)) : CApi.Desc K × Option (Nat → K) :=
  ((CApi.initSg σ rho0 rmid r1 (enabled.getD fun _ => 0) (vals.getD fun _ => 0)).1, vals)

/-- `init_sg_CarnahanStarling_f`: the caller's arrays are required and handed over directly.
(singularity_eos.f90:621-632) -/
def fInitSgCS (σ : K) (rho0 : CApi.Desc K → K) (rmid r1 : CApi.Desc K → K → K → K → K) (enabled : Nat → Int)
    (vals : Nat → K) : CApi.Desc K × (Nat → K) :=
  CApi.initSg σ rho0 rmid r1 enabled vals
end

/-- The `split` handed to C by the Spiner initialisers: 0 when absent. (singularity_eos.f90:675-687, 704-715) -/
def fSplitSpiner (split : Option Int) : Int :=
  let use := split.getD 0
  use

/-- The `split` handed to C by `init_sg_eospac_f`: the optional argument itself, not the local `split_use` that has
the default; when the argument is absent its value is whatever is in that register (`junk`).
(singularity_eos.f90:737-747) -/
def fSplitEospac (junk : Int) (split : Option Int) : Int :=
  split.getD junk

/-! ## The per-material arrays of `get_sg_eos_f` -/

/-- A Fortran rank-2 array. (singularity_eos.f90:392-398 `dimension(:,:)`) -/
structure Arr2 where
  base : Int
  s1 : Int
  s2 : Int
  n1 : Nat
  n2 : Nat

/-- Address of element `(i+1, j+1)`. (the Fortran array element) -/
def Arr2.at (a : Arr2) (i j : Nat) : Int := a.base + i * a.s1 + j * a.s2

/-- Address of entry (cell `i`, material `j`) in the view `host_frac_v(frac, cell_dim, nmat)` with layout left.
(get_sg_eos.cpp:89-91; get_sg_eos.hpp `Llft`; the base address is `c_loc(frac)`, singularity_eos.f90:427-429) -/
def fracAt (a : Arr2) (cellDim : Nat) (i j : Nat) : Int := a.base + i + j * cellDim

/-! ## Kokkos ownership -/

/-- Whether the Kokkos runtime has not started, runs or has been shut down, and how many errors happened.
(Kokkos; singularity_eos.cpp:58-64, 430-444) -/
inductive Runtime where
  | off | on | down
  deriving DecidableEq

/-- `init_sg_eos`: start Kokkos unless it already runs (`is_initialized`); `none` is Kokkos refusing to start again
after having been shut down. (singularity_eos.cpp:58-61) -/
def kInit : Runtime → Option Runtime
  | .off => some .on
  | .on => some .on
  | .down => none

/-- `finalize_sg_eos`: the fence needs a running Kokkos; shut it down if told that we own it.
(singularity_eos.cpp:430-444) -/
def kFinalize (own : Bool) : Runtime → Option Runtime
  | .on => some (if own then .down else .on)
  | _ => none

/-- `finalize_sg_eos_f` always claims ownership. (singularity_eos.f90:818-823) -/
def kFinalizeF : Runtime → Option Runtime := kFinalize true

end Verif.Bind
