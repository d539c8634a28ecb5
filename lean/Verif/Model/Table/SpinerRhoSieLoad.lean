import Verif.Model.Table.SpinerRhoSie
import Verif.Model.Table.SpinerRhoTLoad
import Verif.Model.Tools.Sp5Eos

/-!
# `SpinerEOSDependsRhoSie`: the members made of what a file holds

`eos_spiner_rho_sie.hpp:434-577` (`loadDataboxes_`, `calcBMod_`).  As for `SpinerEOSDependsRhoT` the tables by density and
temperature share one pair of grids, those by density and energy another, with the same densities, as sesame2spiner writes
them.  The energy transform is a parameter.
-/

namespace Verif.RhoSie

open Verif.Robust Verif.Mods Verif.Databox Verif.Spiner

/-- The tables of `SP5Tables` that the queries and `calcBMod_` read (eos_spiner_rho_sie.hpp:100-102, 477-491). -/
structure Boxes (K : Type*) where
  (P dPdRho dPdE dTdE dEdRho : Nat → Nat → K)

/-- What the file holds for one material, `:441-507`: log density, temperature and energy grids; `sie` and the tables `t` by
density and temperature, `T` and the tables `e` by density and energy; `d j i` is density `j`. -/
structure FileE (K : Type*) where
  (gR gT gE : Mesh K)
  (sie T : Nat → Nat → K)
  (t e : Boxes K)
  (sieCold : Nat → K)
  (offR offT offE rhoNormal : K)
  mf : Option (Nat × (Nat → Nat → Nat → K))

variable {K : Type*} [Field K] [LinearOrder K] [IsStrictOrderedRing K]

/-- `calcBMod_`, `:556-577`: entry `(j, i)` of the bulk modulus of one of the two sets of tables. -/
def FileE.bulk (m : RhoT.Consts K) (f : FileE K) (b : Boxes K) (j i : Nat) : K :=
  fixedBulk m.eps (fromLog m.pw (f.gR.x j) |f.offR|) (b.P j i) (b.dPdRho j i) (b.dPdE j i) (b.dEdRho j i)

/-- `loadDataboxes_`, `:434-553`: the members the queries read. Offsets `:448-450`; bounds `:514-518`; rows of the highest
density `:520-522`; `SetRhoPMin`, `:525-526`. -/
def FileE.load (m : RhoT.Consts K) (tr : Spiner.Transform K) (f : FileE K) : Tab K where
  lRho := fun x => toLog m.lg m.eps x |f.offR|
  rho := fun x => fromLog m.pw x |f.offR|
  lT := fun x => toLog m.lg m.eps x |f.offT|
  T := fun x => fromLog m.pw x |f.offT|
  lE := fun x => toLog m.lg m.eps x |f.offE|
  sie := f.gR.lin2 f.gT f.sie
  PT := f.gR.lin2 f.gT f.t.P
  bModT := f.gR.lin2 f.gT (f.bulk m f.t)
  dPdRhoT := f.gR.lin2 f.gT f.t.dPdRho
  dPdET := f.gR.lin2 f.gT f.t.dPdE
  dTdET := f.gR.lin2 f.gT f.t.dTdE
  dEdRhoT := f.gR.lin2 f.gT f.t.dEdRho
  TE := f.gR.lin2 f.gE f.T
  PE := f.gR.lin2 f.gE f.e.P
  bModE := f.gR.lin2 f.gE (f.bulk m f.e)
  dPdEE := f.gR.lin2 f.gE f.e.dPdE
  dTdEE := f.gR.lin2 f.gE f.e.dTdE
  sieCold := f.gR.lin f.sieCold
  PMaxRho := f.gT.lin (f.t.P (f.gR.N - 1))
  dPdRhoMax := f.gT.lin (f.t.dPdRho (f.gR.N - 1))
  rhoAtPmin := f.gT.lin
    (setRhoPMin (ratio m.σ) m.dome m.vaporThresh m.big f.t.P (fun j => fromLog m.pw (f.gR.x j) |f.offR|) f.gT.N f.gR.N).2
  lRhoMin := f.gR.min
  lRhoMax := f.gR.max
  rhoMax := fromLog m.pw f.gR.max |f.offR|
  lTMin := f.gT.min
  lTMax := f.gT.max
  eps := m.eps
  repro := m.repro
  hasMf := f.mf.isSome
  mf := fun n => match f.mf with
    | none => fun _ _ => 0
    | some (_, d) => f.gR.lin2 f.gT fun j i => d j i n
  tr := tr

/-- What the transform is constructed with, `:91-95`, `:293-296`, `:1032`: the offsets, the cold energy, the temperature (read
with one coordinate, as `T1`) and `dTdE` by density and energy. -/
def FileE.tdata (m : RhoT.Consts K) (f : FileE K) (T1 : K → K) : Spiner.TData K where
  lg := m.lg
  ε := m.eps
  lRhoOffset := |f.offR|
  lEOffset := |f.offE|
  sieCold := f.gR.lin f.sieCold
  T1 := T1
  dTdE := f.gR.lin2 f.gE f.e.dTdE

/-- The reference state of the loaded EOS, `:452-454`, `:528-553`. -/
def FileE.ref (m : RhoT.Consts K) (tr : Spiner.Transform K) (f : FileE K) : RefState K :=
  refState (f.load m tr) |f.rhoNormal| m.room

/-- `MinimumDensity`, `MaximumDensity`, `MinimumTemperature`, `:242-249`, `:262-264`. -/
def FileE.bounds (m : RhoT.Consts K) (f : FileE K) : K × K × K :=
  (fromLog m.pw f.gR.min |f.offR|, fromLog m.pw f.gR.max |f.offR|, fromLog m.pw f.gT.min |f.offT|)

end Verif.RhoSie

namespace Verif.Sp5

open Verif.Databox Verif.RhoSie

variable {K : Type} [Field K] [LinearOrder K]

/-- The members that `loadDataboxes_` has read when it starts computing, eos_spiner_rho_sie.hpp:507: the grids of the tables by
temperature are those of the energy, the grid of energies that of the temperature. -/
def LoadedE.toFile (t : LoadedE K (Mesh K)) : FileE K where
  gR := t.sie.rangeRho noGrid
  gT := t.sie.rangeX noGrid
  gE := t.T.rangeX noGrid
  sie := t.sie.v2
  T := t.T.v2
  t := ⟨t.tP.v2, t.tdPdRho.v2, t.tdPdE.v2, t.tdTdE.v2, t.tdEdRho.v2⟩
  e := ⟨t.eP.v2, t.edPdRho.v2, t.edPdE.v2, t.edTdE.v2, t.edEdRho.v2⟩
  sieCold := t.sieCold.v1
  offR := t.rhoOffset
  offT := t.TOffset
  offE := t.sieOffset
  rhoNormal := t.rhoNormal
  mf := t.mF.map fun p => (p.1.toNat, p.2.v3)

end Verif.Sp5
