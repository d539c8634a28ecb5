import Verif.Model.Bindings

/-! # Python: array calls with scratch memory, and `FillEos` on arrays

`python/module.hpp`. Memory, arrays and rows of lambdas as in `Bindings.lean`. -/

namespace Verif.Bind

open Verif.Mods

/-- `PyArrayHelper::IsContiguous`: the distance between neighbours is one `Real`. It is computed from the strides, whatever the
length. (module.hpp:83-84, 92-94) -/
def View.isContiguous (v : View) : Bool := v.stride == 1

/-- An array call of an EOS that takes raw pointers and scratch memory: addresses of the two inputs, the output and the scratch
memory, number of points, addresses of the lambdas. (module.hpp:141-147; the EOS's side is `Model/Eos/EospacVec.lean`) -/
abbrev RawCall (K : Type*) := (a b out scr : Int) → (n : Nat) → (row : Nat → Int) → Mem K → Mem K

variable {K : Type*}

/-- An array call with scratch memory; `checked` says whether the build checks `PORTABLE_REQUIRE` (a debug build). `none`: the program
stops. The lengths of the arrays after the first are not looked at. (module.hpp:125-150; without lambdas 160-175, `n1 = 0`) -/
def pyVecScratch (checked : Bool) (F : RawCall K) (a b out scr : View) (L : View2) (m : Mem K) : Option (Mem K) :=
  if checked && !(a.isContiguous && b.isContiguous && out.isContiguous && scr.isContiguous) then none
  else some (F a.base b.base out.base scr.base a.len L.row m)

/-- `FillEos` of one point: six numbers and the lambda values in, six numbers and the lambda values left behind out. Density,
temperature, energy, pressure, heat capacity, bulk modulus are number 0 to 5. (eos_base.hpp:515-516) -/
abbrev FillQuery (K : Type*) := (Fin 6 → K) → (Nat → K) → (Fin 6 → K) × (Nat → K)

/-- Store the six numbers through the six references. (eos_base.hpp:515-516) -/
def store6 (adr : Fin 6 → Int) (v : Fin 6 → K) (m : Mem K) : Mem K :=
  (List.finRange 6).foldl (fun m k => Function.update m (adr k) (v k)) m

/-- One pass of the loop of an array `FillEos`. (eos_base.hpp:511-518) -/
def fillBody (f : FillQuery K) (nl : Nat) (adr : Fin 6 → Nat → Int) (p : Nat → Int) (m : Mem K) (i : Nat) : Mem K :=
  let r := f (fun k => m (adr k i)) (fun j => m (p i + j))
  store6 (fun k => adr k i) r.1 (storeRow nl (p i) r.2 m)

/-- Python's `FillEos` on six arrays, the points in the order `ord` (`0, ..., n-1`, with `n` the length of the first array, in a serial
build). The lengths of the others are not looked at. (module.hpp:261-305; eos_base.hpp:506-519) -/
def pyFillVec (f : FillQuery K) (nl : Nat) (ord : List Nat) (arr : Fin 6 → View) (L : View2) (m : Mem K) : Mem K :=
  ord.foldl (fillBody f nl (fun k => (arr k).at) L.row) m

/-- Python's `FillEos` on arrays with scratch memory: the addresses of the first elements are handed over; nothing is checked.
(module.hpp:336-389) -/
def pyFillScratch (F : (Fin 6 → Int) → Int → Nat → (Nat → Int) → Mem K → Mem K) (arr : Fin 6 → View) (scr : View) (L : View2)
    (m : Mem K) : Mem K :=
  F (fun k => (arr k).base) scr.base (arr 0).len L.row m

end Verif.Bind
