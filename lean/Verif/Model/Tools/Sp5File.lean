import Verif.Model.Loops
import Verif.Model.Table.SpinerRhoSie

/-! # The `sp5` file: what `sesame2spiner` writes and what the Spiner EOS read

`sesame2spiner/io_eospac.cpp`, `sesame2spiner/generate_files.cpp`, and the constructors of `SpinerEOSDependsRhoT` and
`SpinerEOSDependsRhoSie`.

An HDF5 file is a map from names at the top level to groups and soft links; inside the group of a material, objects are found by
paths of constant names. The constant names of `singularity_eos_sp5.hpp:24-73` are pairwise different strings and are represented by
the constructors of `Key` and `Att`. Names with a slash or empty names cannot be created or opened at the top level (the
intermediate group does not exist). Closing and printing are left out. -/

namespace Verif.Sp5

open Verif.RhoSie

abbrev Str := List Char


variable {K : Type} [Field K] [LinearOrder K]

/-! ## The library -/

/-- `TableSplit`, `constants.hpp:40`. -/
inductive Split where
  | total
  | electronOnly
  | ionCold
deriving DecidableEq

/-- Value and derivatives of one lookup. (eospac_wrapper.cpp:291) -/
structure Res (K : Type*) where
  (v dx dy : K)

/-- What EOSPAC knows of one material: pressure and energy at density and temperature, temperature at density and energy (of the
total, the electrons, the ions with the cold curve), cold curves, mass fractions of the phases. (the tables requested at
io_eospac.cpp:36-38, 126-128, 229, 336) -/
structure Lib (K : Type*) where
  (P U T : Split → K → K → Res K)
  (Pc Uc : K → Res K)
  nph : Option Nat
  M : Nat → K → K → K
  phases : Str

/-- `eos_Interpolate` on arrays: the value and derivatives at each of the `n` points. (called in io_eospac.cpp:85-93) -/
def look (f : K → K → Res K) (n : Nat) (x y : Nat → K) : Nat → Res K := fill n (fun i => f (x i) (y i)) (fun _ => ⟨0, 0, 0⟩)

/-- The loops that fill a flat array, `io_eospac.cpp:77-84`, `168-175`, `384-389`: `a[iflat] = g(j, i); iflat++`. -/
def flat (nR nX : Nat) (g : Nat → Nat → K) : Nat × (Nat → K) :=
  forN nR (fun st j => forN nX (fun st i => (st.1 + 1, Function.update st.2 st.1 (g j i))) st) (0, fun _ => 0)

/-- The loops that fill the boxes from flat arrays, `io_eospac.cpp:97-119`, `193-214`, `396-402`: `box(j, i) = h(j, i, iflat);
iflat++`. -/
def unflat {α : Type*} (nR nX : Nat) (h : Nat → Nat → Nat → α) (dflt : α) : Nat × (Nat → Nat → α) :=
  forN nR (fun st j => forN nX (fun st i => (st.1 + 1, Function.update st.2 j (Function.update (st.2 j) i (h j i st.1)))) st)
    (0, fun _ _ => dflt)

/-- `Bounds`: the grid in the log coordinate, the offset, and `makeInterpPoints` (`io_eospac.cpp:407-412`): the number of points and
the points `i2lin(i)`. -/
structure Bnd (K G : Type*) where
  grid : G
  offset : K
  n : Nat
  pt : Nat → K

/-- `eosDataOfRhoT`, `io_eospac.cpp:118-217`: the nine boxes, point by point. -/
def dataRhoT {G : Type*} (L : Lib K) (s : Split) (bR bT : Bnd K G) : Nat → Nat → Stored K :=
  let rho := (flat bR.n bT.n fun j _ => bR.pt j).2
  let T := (flat bR.n bT.n fun _ i => bT.pt i).2
  let n := bR.n * bT.n
  let p := look (L.P s) n rho T
  let e := look (L.U s) n rho T
  let t := look (L.T s) n rho (fun k => (e k).v)
  (unflat bR.n bT.n (fun j _ k => store (bR.pt j)
    ⟨(p k).v, (p k).dx, (p k).dy, (e k).v, (e k).dx, (e k).dy, (t k).v, (t k).dx, (t k).dy⟩) (store 0 ⟨0, 0, 0, 0, 0, 0, 0, 0, 0⟩)).2

/-- `eosDataOfRhoSie`, `io_eospac.cpp:26-116`: the eight boxes, point by point; energies go to the library in its units. -/
def dataRhoSie {G : Type*} (L : Lib K) (s : Split) (bR bE : Bnd K G) : Nat → Nat → Stored K :=
  let rho := (flat bR.n bE.n fun j _ => bR.pt j).2
  let sie := (flat bR.n bE.n fun _ i => 1 / sesU * bE.pt i).2
  let n := bR.n * bE.n
  let t := look (L.T s) n rho sie
  let p := look (L.P s) n rho (fun k => (t k).v)
  let e := look (L.U s) n rho (fun k => (t k).v)
  (unflat bR.n bE.n (fun j _ k => store (bR.pt j)
    ⟨(p k).v, (p k).dx, (p k).dy, (e k).v, (e k).dx, (e k).dy, (t k).v, (t k).dx, (t k).dy⟩) (store 0 ⟨0, 0, 0, 0, 0, 0, 0, 0, 0⟩)).2

/-- `eosColdCurves`, `io_eospac.cpp:219-284`: pressure, energy, bulk modulus, `dP/drho`, `dE/drho` along the cold curve. -/
def dataCold {G : Type*} (L : Lib K) (bR : Bnd K G) : Nat → K × K × K × K × K :=
  fill bR.n (fun j => storeCold (bR.pt j) (L.Pc (bR.pt j)).v (L.Pc (bR.pt j)).dx (L.Uc (bR.pt j)).v (L.Uc (bR.pt j)).dx)
    (fun _ => (0, 0, 0, 0, 0))

/-- `eosMassFraction`, `io_eospac.cpp:328-405`: the library returns the phases one after the other, each for all points
(`M_pack[k * nXYPairs + iflat]`). -/
def dataMf {G : Type*} (L : Lib K) (nph : Nat) (bR bT : Bnd K G) : Nat → Nat → Nat → K :=
  let rho := (flat bR.n bT.n fun j _ => bR.pt j).2
  let T := (flat bR.n bT.n fun _ i => bT.pt i).2
  let n := bR.n * bT.n
  let pack : Nat → K := fun q => if q < n * nph then L.M (q / n) (rho (q % n)) (T (q % n)) else 0
  (unflat bR.n bT.n (fun _ _ k => fun ph => if ph < nph then pack (ph * n + k) else 0) (fun _ => 0)).2

/-! ## The file -/

/-- The names of groups and datasets inside a material. (singularity_eos_sp5.hpp:30-40, 59-72) -/
inductive Key where
  | dependsLogRhoLogT | dependsLogRhoLogSie | coldCurve | massFrac
  | electronOnly | ionCold
  | P | sie | T | bMod | dPdRho | dPdE | dTdRho | dTdE | dEdRho | dEdT | massFractions
deriving DecidableEq

/-- The names of the attributes of a material and of the group of mass fractions. (singularity_eos_sp5.hpp:42-57,
generate_files.cpp:132-134) -/
inductive Att where
  | rhoOffset | TOffset | sieOffset
  | exchangeCoefficient | meanAtomicMass | meanAtomicNumber | solidBulkModulus | normalDensity | matid
  | numphases
deriving DecidableEq

/-- A `DataBox` with its ranges: one, two (density first) or three (density, temperature, phase) indices.
(io_eospac.cpp:54-56, 148-151, 241-242, 369-371) -/
inductive Dset (K G : Type*) where
  | d1 (gRho : G) (v : Nat → K)
  | d2 (gRho gX : G) (v : Nat → Nat → K)
  | d3 (gRho gT : G) (nph : Nat) (v : Nat → Nat → Nat → K)

/-- An object inside the group of a material. (generate_files.cpp:85-94) -/
inductive Obj (K G : Type*) where
  | group
  | data (d : Dset K G)

/-- Values of attributes. (generate_files.cpp:57-83) -/
inductive Val (K : Type*) where
  | real (x : K)
  | int (i : Int)

/-- The group of a material. Attributes are stored with the path of the group they belong to.
(generate_files.cpp:52) -/
structure MGroup (K G : Type*) where
  attr : List Key → Att → Option (Val K)
  obj : List Key → Option (Obj K G)

/-- What a name at the top level stands for. (generate_files.cpp:52-53) -/
inductive Top (K G : Type*) where
  | mat (g : MGroup K G)
  | link (target : Str)

/-- The file. (generate_files.cpp:183-189) -/
structure File (K G : Type*) where
  logType : Option Int
  top : Str → Option (Top K G)

/-- One write inside a material: create a group, or save a dataset, under the name `k` at `loc`.
(generate_files.cpp:85-160, 257-290) -/
inductive Op (K G : Type*) where
  | mkgroup (loc : List Key) (k : Key)
  | save (loc : List Key) (k : Key) (d : Dset K G)

variable {G : Type}

/-- `H5Gcreate`, `DataBox::saveHDF`: nothing happens if the place is taken, or the group is not there. (the HDF5 library; called
in generate_files.cpp:85-160) -/
def MGroup.put (g : MGroup K G) (loc : List Key) (k : Key) (o : Obj K G) : MGroup K G :=
  match g.obj loc, g.obj (loc ++ [k]) with
  | some .group, none => { g with obj := Function.update g.obj (loc ++ [k]) (some o) }
  | _, _ => g

/-- One write. (generate_files.cpp:85-160) -/
def MGroup.step (g : MGroup K G) : Op K G → MGroup K G
  | .mkgroup loc k => g.put loc k .group
  | .save loc k d => g.put loc k (.data d)

/-- A freshly created group. (generate_files.cpp:52) -/
def MGroup.empty : MGroup K G :=
  { attr := fun _ _ => none
    obj := fun p => if p = [] then some .group else none }

/-- A material to be written: its number, the name of its link, the numbers of `SesameMetadata`, its grids, and whether the tables
of electrons and ions are wanted. (generate_files.cpp:46-50, 241-245) -/
structure Mat (K G : Type*) where
  matid : Int
  name : Str
  (exchange abar zbar bulk rhoNormal : K)
  (bR bT bE : Bnd K G)
  subtables : Bool

/-- `saveTablesRhoSie`, `generate_files.cpp:257-274`. -/
def saveRhoSie (L : Lib K) (loc : List Key) (s : Split) (m : Mat K G) : List (Op K G) :=
  let d := dataRhoSie L s m.bR m.bE
  let box := fun (f : Stored K → K) => Dset.d2 m.bR.grid m.bE.grid fun j i => f (d j i)
  [.save loc .P (box Stored.P), .save loc .T (box Stored.T), .save loc .bMod (box Stored.bMod),
   .save loc .dPdRho (box Stored.dPdRho), .save loc .dPdE (box Stored.dPdE), .save loc .dTdRho (box Stored.dTdRho),
   .save loc .dTdE (box Stored.dTdE), .save loc .dEdRho (box Stored.dEdRho)]

/-- `saveTablesRhoT`, `generate_files.cpp:276-294`. -/
def saveRhoT (L : Lib K) (loc : List Key) (s : Split) (m : Mat K G) : List (Op K G) :=
  let d := dataRhoT L s m.bR m.bT
  let box := fun (f : Stored K → K) => Dset.d2 m.bR.grid m.bT.grid fun j i => f (d j i)
  [.save loc .P (box Stored.P), .save loc .sie (box Stored.sie), .save loc .bMod (box Stored.bMod),
   .save loc .dPdRho (box Stored.dPdRho), .save loc .dPdE (box Stored.dPdE), .save loc .dTdRho (box Stored.dTdRho),
   .save loc .dTdE (box Stored.dTdE), .save loc .dEdRho (box Stored.dEdRho), .save loc .dEdT (box Stored.dEdT)]

/-- The cold curves, `generate_files.cpp:101-118`. -/
def saveCold (L : Lib K) (m : Mat K G) : List (Op K G) :=
  let d := dataCold L m.bR
  let box := fun (f : K × K × K × K × K → K) => Dset.d1 m.bR.grid fun j => f (d j)
  [.save [.coldCurve] .P (box fun x => x.1), .save [.coldCurve] .sie (box fun x => x.2.1),
   .save [.coldCurve] .bMod (box fun x => x.2.2.1), .save [.coldCurve] .dPdRho (box fun x => x.2.2.2.1),
   .save [.coldCurve] .dEdRho (box fun x => x.2.2.2.2)]

/-- The mass fractions, if the library has them, `generate_files.cpp:120-137`. -/
def saveMf (L : Lib K) (m : Mat K G) : List (Op K G) :=
  match L.nph with
  | none => []
  | some n => [.mkgroup [] .massFrac, .save [.massFrac] .massFractions (.d3 m.bR.grid m.bT.grid n (dataMf L n m.bR m.bT))]

/-- The tables of electrons and ions, `generate_files.cpp:139-158`. -/
def saveSub (L : Lib K) (m : Mat K G) : List (Op K G) :=
  if m.subtables then
    .mkgroup [.dependsLogRhoLogSie] .electronOnly :: saveRhoSie L [.dependsLogRhoLogSie, .electronOnly] .electronOnly m ++
    .mkgroup [.dependsLogRhoLogT] .electronOnly :: saveRhoT L [.dependsLogRhoLogT, .electronOnly] .electronOnly m ++
    .mkgroup [.dependsLogRhoLogSie] .ionCold :: saveRhoSie L [.dependsLogRhoLogSie, .ionCold] .ionCold m ++
    .mkgroup [.dependsLogRhoLogT] .ionCold :: saveRhoT L [.dependsLogRhoLogT, .ionCold] .ionCold m
  else []

/-- Everything written through the handle of the material's group, `generate_files.cpp:85-158`. -/
def ops (L : Lib K) (m : Mat K G) : List (Op K G) :=
  [.mkgroup [] .dependsLogRhoLogT, .mkgroup [] .dependsLogRhoLogSie, .mkgroup [] .coldCurve] ++
  saveRhoSie L [.dependsLogRhoLogSie] .total m ++ saveRhoT L [.dependsLogRhoLogT] .total m ++
  saveCold L m ++ saveMf L m ++ saveSub L m

/-- The attributes of a material, `generate_files.cpp:55-83` (without the texts). -/
def attrs (m : Mat K G) : Att → Option (Val K)
  | .rhoOffset => some (.real m.bR.offset)
  | .TOffset => some (.real m.bT.offset)
  | .sieOffset => some (.real m.bE.offset)
  | .exchangeCoefficient => some (.real m.exchange)
  | .meanAtomicMass => some (.real m.abar)
  | .meanAtomicNumber => some (.real m.zbar)
  | .solidBulkModulus => some (.real m.bulk)
  | .normalDensity => some (.real m.rhoNormal)
  | .matid => some (.int m.matid)
  | .numphases => none

/-- Attributes set on the object a path leads to: those given replace the old ones. (`H5LTset_attribute_*`,
generate_files.cpp:55-83, 132) -/
def MGroup.setAttrs (g : MGroup K G) (loc : List Key) (a : Att → Option (Val K)) : MGroup K G :=
  { g with attr := fun p k => if p = loc then (match a k with | some v => some v | none => g.attr p k) else g.attr p k }

/-- `std::to_string` of an `int`. (generate_files.cpp:47) -/
def toStr (i : Int) : Str := if i < 0 then '-' :: Nat.toDigits 10 i.natAbs else Nat.toDigits 10 i.natAbs

/-- Names the HDF5 library takes at the top level. (the HDF5 library) -/
def plain (s : Str) : Bool := s ≠ [] && s ≠ ['.'] && !s.contains '/'

/-- The group a name at the top level leads to; a soft link leads to the group of its target. (the HDF5 library) -/
def File.find (f : File K G) (s : Str) : Option (Str × MGroup K G) :=
  if plain s then
    match f.top s with
    | some (.mat g) => some (s, g)
    | some (.link t) => (match f.top t with
        | some (.mat g) => some (t, g)
        | _ => none)
    | none => none
  else none

/-- Replace the group named `s`. (generate_files.cpp:52) -/
def File.set (f : File K G) (s : Str) (t : Top K G) : File K G := { f with top := Function.update f.top s (some t) }

/-- `saveMaterial`, `generate_files.cpp:41-165`. The attributes are set on what the number leads to (`loc, sMatid`), the rest is
written through the handle of the new group, which is invalid if the group could not be created. -/
def saveMaterial (L : Int → Lib K) (f : File K G) (m : Mat K G) : File K G :=
  let id := toStr m.matid
  let new := (f.top id).isNone
  let f := if new then f.set id (.mat .empty) else f
  let f := if plain m.name && (f.top m.name).isNone then f.set m.name (.link id) else f
  let f := match f.find id with
    | some (k, g) => f.set k (.mat (g.setAttrs [] (attrs m)))
    | none => f
  if new then
    match f.find id with
    | some (k, g) =>
      let g := (ops (L m.matid) m).foldl MGroup.step g
      let g := match (L m.matid).nph with
        | some n => g.setAttrs [.massFrac] fun a => if a = .numphases then some (.int n) else none
        | none => g
      f.set k (.mat g)
    | none => f
  else f

/-- `saveAllMaterials`, `generate_files.cpp:183-247`, after the choice of materials and names (`Model/Tools/Sesame2Spiner.lean`). -/
def saveAll (logType : Int) (L : Int → Lib K) (ms : List (Mat K G)) : File K G :=
  ms.foldl (saveMaterial L) ⟨some logType, fun _ => none⟩

/-! ## Reading -/

/-- `DataBox::loadHDF`; a missing dataset aborts (`aborting_error_handler`, `eos_spiner_common.hpp:118-122`). -/
def MGroup.box (g : MGroup K G) (loc : List Key) (k : Key) : Option (Dset K G) :=
  match g.obj (loc ++ [k]) with
  | some (.data d) => some d
  | _ => none

/-- `h5_safe_gopen`, `eos_spiner_common.hpp:142-148`. -/
def MGroup.open? (g : MGroup K G) (loc : List Key) : Option (List Key) :=
  match g.obj loc with
  | some .group => some loc
  | _ => none

/-- `h5_safe_get_attribute<double>`, `eos_spiner_common.hpp:184-206`. -/
def MGroup.real (g : MGroup K G) (a : Att) : Option K :=
  match g.attr [] a with
  | some (.real x) => some x
  | _ => none

/-- `h5_safe_get_attribute<int>`, `eos_spiner_common.hpp:184-206`. -/
def MGroup.int (g : MGroup K G) (loc : List Key) (a : Att) : Option Int :=
  match g.attr loc a with
  | some (.int x) => some x
  | _ => none

/-- The subgroup of a split, `eos_spiner_rho_temp.hpp:395-400`. -/
def sub (k : Key) : Split → List Key
  | .total => [k]
  | .electronOnly => [k, .electronOnly]
  | .ionCold => [k, .ionCold]

/-- How the caller names the material. (eos_spiner_rho_temp.hpp:373, 424) -/
inductive Name where
  | byId (i : Int)
  | byName (s : Str)

/-- The members of `SpinerEOSDependsRhoT` read from the file, `eos_spiner_rho_temp.hpp:551-604`. -/
structure LoadedT (K G : Type*) where
  matid : Int
  (rhoOffset TOffset rhoNormal abar zbar : K)
  (P sie bMod dPdRho dPdE dTdRho dTdE dEdRho dEdT : Dset K G)
  (PCold sieCold bModCold dPdRhoCold : Dset K G)
  mF : Option (Int × Dset K G)

/-- The mass fractions, if there are any, `eos_spiner_rho_temp.hpp:406-411`, `586-602`: the outer `none` is an abort. -/
def loadMf (g : MGroup K G) : Option (Option (Int × Dset K G)) :=
  match g.obj [.massFrac] with
  | none => some none
  | some _ => (match g.box [.massFrac] .massFractions, g.int [.massFrac] .numphases with
    | some d, some n => some (some (n, d))
    | _, _ => none)

/-- `SpinerEOSDependsRhoT::loadDataboxes_`, `eos_spiner_rho_temp.hpp:545-604`; `a` is the group the attributes are read from, `g` the
group of the tables. -/
def loadBoxesT (matid : Int) (a g : MGroup K G) (s : Split) : Option (LoadedT K G) := do
  let lT ← g.open? (sub .dependsLogRhoLogT s)
  let cold ← g.open? [.coldCurve]
  let ro ← a.real .rhoOffset
  let toff ← a.real .TOffset
  let rn ← a.real .normalDensity
  let ab ← a.real .meanAtomicMass
  let zb ← a.real .meanAtomicNumber
  let P ← g.box lT .P
  let sie ← g.box lT .sie
  let bMod ← g.box lT .bMod
  let dPdRho ← g.box lT .dPdRho
  let dPdE ← g.box lT .dPdE
  let dTdRho ← g.box lT .dTdRho
  let dTdE ← g.box lT .dTdE
  let dEdRho ← g.box lT .dEdRho
  let dEdT ← g.box lT .dEdT
  let PCold ← g.box cold .P
  let sieCold ← g.box cold .sie
  let bModCold ← g.box cold .bMod
  let dPdRhoCold ← g.box cold .dPdRho
  let mF ← loadMf g
  return ⟨matid, |ro|, |toff|, |rn|, ab, zb, P, sie, bMod, dPdRho, dPdE, dTdRho, dTdE, dEdRho, dEdT, PCold, sieCold, bModCold,
    dPdRhoCold, mF⟩

/-- The two constructors of `SpinerEOSDependsRhoT`, `eos_spiner_rho_temp.hpp:373-479`, in a build with the logarithm `logType`; `none`
if the program aborts. `FastMath::LogType::NQT1` is 1 (`logs.hpp:66`). -/
def loadRhoT (logType : Int) (f : File K G) (k : Name) (s : Split) : Option (LoadedT K G) :=
  match k with
  | .byId i =>
    if f.logType.getD 1 = logType then
      match f.find (toStr i) with
      | some (_, g) => loadBoxesT i g g s
      | none => none
    else none
  | .byName n =>
    match f.find n with
    | some (_, g) =>
      (match g.int [] .matid with
       | some i => (match f.find (toStr i) with
          | some (_, a) => loadBoxesT i a g s
          | none => none)
       | none => none)
    | none => none

/-- The members of `SpinerEOSDependsRhoSie` read from the file, `eos_spiner_rho_sie.hpp:441-507`. -/
structure LoadedE (K G : Type*) where
  matid : Int
  (rhoOffset TOffset sieOffset rhoNormal abar zbar : K)
  (sie T : Dset K G)
  (PCold sieCold bModCold dPdRhoCold : Dset K G)
  (tP tbMod tdPdRho tdPdE tdTdRho tdTdE tdEdRho : Dset K G)
  (eP ebMod edPdRho edPdE edTdRho edTdE edEdRho : Dset K G)
  mF : Option (Int × Dset K G)

/-- `SpinerEOSDependsRhoSie::loadDataboxes_`, `eos_spiner_rho_sie.hpp:434-507`. -/
def loadBoxesE (matid : Int) (a g : MGroup K G) (s : Split) : Option (LoadedE K G) := do
  let lT ← g.open? (sub .dependsLogRhoLogT s)
  let lE ← g.open? (sub .dependsLogRhoLogSie s)
  let cold ← g.open? [.coldCurve]
  let ro ← a.real .rhoOffset
  let toff ← a.real .TOffset
  let eo ← a.real .sieOffset
  let rn ← a.real .normalDensity
  let ab ← a.real .meanAtomicMass
  let zb ← a.real .meanAtomicNumber
  let sie ← g.box lT .sie
  let T ← g.box lE .T
  let PCold ← g.box cold .P
  let sieCold ← g.box cold .sie
  let bModCold ← g.box cold .bMod
  let dPdRhoCold ← g.box cold .dPdRho
  let tP ← g.box lT .P
  let tbMod ← g.box lT .bMod
  let tdPdRho ← g.box lT .dPdRho
  let tdPdE ← g.box lT .dPdE
  let tdTdRho ← g.box lT .dTdRho
  let tdTdE ← g.box lT .dTdE
  let tdEdRho ← g.box lT .dEdRho
  let eP ← g.box lE .P
  let ebMod ← g.box lE .bMod
  let edPdRho ← g.box lE .dPdRho
  let edPdE ← g.box lE .dPdE
  let edTdRho ← g.box lE .dTdRho
  let edTdE ← g.box lE .dTdE
  let edEdRho ← g.box lE .dEdRho
  let mF ← loadMf g
  return ⟨matid, |ro|, |toff|, |eo|, |rn|, ab, zb, sie, T, PCold, sieCold, bModCold, dPdRhoCold, tP, tbMod, tdPdRho, tdPdE, tdTdRho,
    tdTdE, tdEdRho, eP, ebMod, edPdRho, edPdE, edTdRho, edTdE, edEdRho, mF⟩

/-- The two constructors of `SpinerEOSDependsRhoSie`, `eos_spiner_rho_sie.hpp:376-433`, `988-1044`; the type of the logarithm is not
looked at. -/
def loadRhoSie (f : File K G) (k : Name) (s : Split) : Option (LoadedE K G) :=
  match k with
  | .byId i =>
    match f.find (toStr i) with
    | some (_, g) => loadBoxesE i g g s
    | none => none
  | .byName n =>
    match f.find n with
    | some (_, g) =>
      (match g.int [] .matid with
       | some i => (match f.find (toStr i) with
          | some (_, a) => loadBoxesE i a g s
          | none => none)
       | none => none)
    | none => none

end Verif.Sp5
