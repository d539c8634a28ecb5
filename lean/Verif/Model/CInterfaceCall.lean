import Verif.Model.CInterface

/-!
# One call of `get_sg_eos` on the caller's arrays

The arrays of the caller are seen cell by cell (`Nat → Cell K`, index `cell`, 0-based). With Kokkos the arrays are
mirrored in the memory of the device (`create_mirror_view_and_copy`: the same memory when the device can use host memory,
a copy otherwise), one kernel runs over the cells named in `offsets`, and chosen arrays are copied back.
-/

namespace Verif.CApi

/-- `get_sg_eos.cpp:25-32`, `:72` `EAPInputToBD.at(input_int)` (`none`: `std::out_of_range` is thrown), and `:157`, `:167-231`
the kernel run for it: -3 (density, temperature), -2 (density, pressure), -1 (pressure, temperature), 0 and 1 (density,
energy). -/
def modeOf (inputInt : Int) : Option Mode :=
  if inputInt = -3 then some .rhoT
  else if inputInt = -2 then some .rhoP
  else if inputInt = -1 then some .pT
  else if inputInt = 0 then some .rhoE
  else if inputInt = 1 then some .rhoE
  else none

/-- `get_sg_eos.cpp:26-31`, `:73` `p_is_inp`. -/
def pIsInp : Mode → Bool
  | .rhoT => false
  | .rhoP => true
  | .pT => true
  | .rhoE => false

/-- `get_sg_eos.cpp:26-31`, `:74` `r_is_inp`. -/
def rIsInp : Mode → Bool
  | .rhoT => true
  | .rhoP => true
  | .pT => false
  | .rhoE => true

/-- `get_sg_eos.cpp:26-31`, `:75` `t_is_inp`. -/
def tIsInp : Mode → Bool
  | .rhoT => true
  | .rhoP => false
  | .pT => true
  | .rhoE => false

/-- `get_sg_eos.cpp:26-31`, `:76` `s_is_inp`. -/
def sIsInp : Mode → Bool
  | .rhoT => false
  | .rhoP => false
  | .pT => false
  | .rhoE => true

variable {K : Type*}

/-- `get_sg_eos.cpp:241-277`: what the host arrays `h` of a cell hold after the copies back from the device arrays `d` of
that cell. The mass fractions are not copied back. -/
def copyBack (mode : Mode) (flags : Bool × Bool × Bool) (h d : Cell K) : Cell K where
  press := if pIsInp mode then h.press else d.press
  pmax := d.pmax
  vol := d.vol
  spvol := if rIsInp mode then h.spvol else d.spvol
  sie := if sIsInp mode then h.sie else d.sie
  temp := if tIsInp mode then h.temp else d.temp
  bmod := d.bmod
  dpde := d.dpde
  cv := d.cv
  fmass := h.fmass
  fvol := d.fvol
  fie := d.fie
  fbmod := if flags.1 then d.fbmod else h.fbmod
  fdpde := if flags.2.1 then d.fdpde else h.fdpde
  fcv := if flags.2.2 then d.fcv else h.fcv

/-- `get_sg_eos.cpp:122` `eos_nmat = *max_element(eos_offsets, eos_offsets + nmat)`: length of the view of the EOS
(`:123-124`). -/
def eosNmat (n : Nat) (offs : Nat → Int) : Int := forN (n - 1) (fun s m => if s < offs (m + 1) then offs (m + 1) else s) (offs 0)

/-- `get_sg_eos_rho_t.cpp:34` `offsets_v(iloop) - 1`: the cell iteration `iloop` works on. -/
def cellOf (offsets : Nat → Int) (iloop : Nat) : Nat := (offsets iloop - 1).toNat

/-- The caller's view of one call `get_sg_eos` (`get_sg_eos.cpp:35-280`). `kokkos`: built with Kokkos (`:77`, `:278`; otherwise
nothing is done); `shared`: the device uses host memory, so that the mirrors are the caller's arrays themselves; `progs`:
the loop bodies as steps; `ntok`: the number of tokens. The arrays `h` become `h'` under some schedule of the loop and
`ret` is returned (`:57`, `:279`: `ret` is never assigned). -/
def GetSgEos {R : Type*} (kokkos shared : Bool) (flags : Bool × Bool × Bool) (mode : Mode) (offsets : Nat → Int)
    (ncell ntok : Nat) (progs : Nat → Prog (Cell K) R) (h h' : Nat → Cell K) (ret : Int) : Prop :=
  ret = 0 ∧
  if kokkos then
    ∃ (r0 : Nat → R) (s : Mem (Cell K) R), MemReach ncell ntok (cellOf offsets) progs h r0 s ∧
      (∀ i, i < ncell → i ∈ s.started) ∧ s.active = [] ∧
      h' = fun j => if shared then s.cell j else copyBack mode flags (h j) (s.cell j)
  else h' = h

end Verif.CApi
