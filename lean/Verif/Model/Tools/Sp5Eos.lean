import Verif.Model.Tools.Sp5File
import Verif.Model.Table.SpinerRhoTLoad

/-!
# From the boxes found in an `sp5` file to the EOS made of them

The datasets of `Model/Tools/Sp5File.lean`, with the piecewise grids of `Model/Table/Mesh.lean`, as the file of
`Model/Table/SpinerRhoTLoad.lean`.
-/

namespace Verif.Sp5

open Verif.Databox

variable {K : Type} [Field K] [LinearOrder K]

/-- The values of a dataset with one index (`operator()(i)` of the `DataBox` read at eos_spiner_rho_temp.hpp:580-584). -/
def Dset.v1 {G : Type} : Dset K G → Nat → K
  | .d1 _ v => v
  | _ => fun _ => 0

/-- The values of a dataset with two indices (`operator()(j, i)` of the `DataBox` read at eos_spiner_rho_temp.hpp:570-578). -/
def Dset.v2 {G : Type} : Dset K G → Nat → Nat → K
  | .d2 _ _ v => v
  | _ => fun _ _ => 0

/-- The values of a dataset with three indices (eos_spiner_rho_temp.hpp:586-602). -/
def Dset.v3 {G : Type} : Dset K G → Nat → Nat → Nat → K
  | .d3 _ _ _ v => v
  | _ => fun _ _ _ => 0

/-- `range(1)` of a dataset with two indices (eos_spiner_rho_temp.hpp:604-612). -/
def Dset.rangeRho {G : Type} (g : G) : Dset K G → G
  | .d2 g1 _ _ => g1
  | _ => g

/-- `range(0)` of a dataset with two indices (eos_spiner_rho_temp.hpp:604-612). -/
def Dset.rangeX {G : Type} (g : G) : Dset K G → G
  | .d2 _ g0 _ => g0
  | _ => g

/-- An empty grid, for boxes that are not there. (model helper, cf. eos_spiner_rho_temp.hpp:604) -/
def noGrid : Mesh K := ⟨fun _ => 0, 0, fun _ => 0⟩

/-- The members that `loadDataboxes_` has read when it starts computing, eos_spiner_rho_temp.hpp:604: the grids are those of the
pressure. (The offsets and the normal density are stored as absolute values already, `:556-561`.) -/
def LoadedT.toFile (t : LoadedT K (Mesh K)) : RhoT.File K where
  gR := t.P.rangeRho noGrid
  gT := t.P.rangeX noGrid
  P := t.P.v2
  sie := t.sie.v2
  dPdRho := t.dPdRho.v2
  dPdE := t.dPdE.v2
  dEdRho := t.dEdRho.v2
  dEdT := t.dEdT.v2
  PCold := t.PCold.v1
  sieCold := t.sieCold.v1
  offR := t.rhoOffset
  offT := t.TOffset
  rhoNormal := t.rhoNormal
  mf := t.mF.map fun p => (p.1.toNat, p.2.v3)

end Verif.Sp5
