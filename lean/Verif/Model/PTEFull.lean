import Verif.Model.PTEDriver
import Verif.Model.PTEInit
import Verif.Model.PTECheck
import Verif.Model.PTEDerivs

/-!
# The five PTE solver classes of `closure/mixed_cell_models.hpp` as complete objects

Each class becomes a `Sys` that the driver `PTESolver` of `Model/PTEDriver` runs: constructor state, `Init`, `Residual`,
`CheckPTE`, `Jacobian`, `Solve`, `ScaleDx`, `TestUpdate`, `Fixup`, `Finalize`.  One state type serves all five; a class
leaves the members it does not have alone.  Arithmetic is exact; the lambda cache and the `PORTABLE_REQUIRE`s (no code in
release builds) are left out.
-/

namespace Verif.PTE

open Robust

section
variable {K : Type*} [Field K] [LinearOrder K]

/-- What `Init` asks of the materials' equations of state beyond `MatEOS`: whether `PreferredInput() & thermalqs::pressure`,
`MinimumTemperature`, `MaximumDensity`, `SpecificHeatFromDensityTemperature`, `SpecificHeatFromDensityInternalEnergy`,
and `error_utils::bad_value` of a pressure handed in. (mixed_cell_models.hpp:522-560, :601-620, :647-649) -/
structure InitEOS (K : Type*) where
  prefersP : Nat → Bool
  tMin : Nat → K
  rhoMax : Nat → K
  cvRT : Nat → K → K → K
  cvRE : Nat → K → K → K
  bad : K → Bool

/-- The members of `MixParams` a solver object reads (`mixed_cell_models.hpp:43-79`), apart from the tolerances (`MixTols`)
and the driver's (`DriverParams`). -/
structure SolverParams (K : Type*) where
  iterateT : Bool
  eps : K
  saf : K
  tlimit : K
  tdefault : K
  minDtde : K
  maxDpdv : K
  exclude : Int

/-- Defaults (`mixed_cell_models.hpp:45-46`, `:67-79`). -/
def defaultSolver : SolverParams K where
  iterateT := true
  eps := 3 / 10 ^ 6
  saf := 95 / 100
  tlimit := 10 ^ 15
  tdefault := 300
  minDtde := 1 / 10 ^ 16
  maxDpdv := -(1 / 10 ^ 8)
  exclude := -1

/-- A solver object: the caller's arrays (with the scratch array `u`), the other scratch arrays and the members
(`mixed_cell_models.hpp:772-787`, `:1188-1192`, `:1442-1449`, `:1667-1669`, `:1917-1919`, `:2185`).
`jac`, `dx`, `residual`, … are separate arrays (`Verif.PTE.C16_scratch_layout`). -/
structure PS (K : Type*) where
  a : Mats K
  rhobar : Nat → K
  rhoTotal : K
  uscale : K
  utot : K
  Tnorm : K
  ms : Nat
  Tequil : K
  Ttemp : K
  Pequil : K
  Ptemp : K
  vtemp : Nat → K
  utemp : Nat → K
  residual : Nat → K
  jac : Nat → K
  dx : Nat → K
  d : Derivs K
  dU : DerivsU K

/-! ## `PTESolverBase` -/

/-- `InitRhoBarandRho` (`mixed_cell_models.hpp:389-399`). -/
def initRhoBar (n : Nat) (s : PS K) : PS K :=
  let rb := fill n (fun m => s.a.rho m * s.a.vfrac m) s.rhobar
  { s with rhobar := rb, rhoTotal := sumNeumaier rb n }

/-- `GetSieCvFromTAndPreferred` (`mixed_cell_models.hpp:602-622`): `(sie, cv)`. -/
def sieCv (E : MatEOS K) (I : InitEOS K) (m : Nat) (rho P T : K) : K × K :=
  if I.prefersP m = true then
    let Pmin := E.pMin m
    let Pmax := E.pMaxAtT m T
    let Pguess := if I.bad P = true then 1 / 2 * (Pmin + Pmax) else max Pmin (min Pmax P)
    let re := E.rhoEOfPT m Pguess T
    (re.2, I.cvRE m re.1 re.2)
  else (E.eOf m rho T, I.cvRT m rho T)

/-- The lambda `newton_step` of `GetTguess` (`mixed_cell_models.hpp:522-538`); `ut` is `utotal_scale * uscale`. -/
def newtonStep (σ : K) (E : MatEOS K) (I : InitEOS K) (n : Nat) (ut : K) (rhobar press rho : Nat → K) (T : K) : K :=
  let q := fun m => sieCv E I m (min (rho m) (I.rhoMax m)) (press m) T
  let us := forN n (fun (t : K × K) m => (t.1 + rhobar m * (q m).1, t.2 + rhobar m * (q m).2)) (0, 0)
  T - ratio σ (us.1 - ut) us.2

/-- The starting temperature of `GetTguess` (`mixed_cell_models.hpp:504-511`). -/
def startT (n : Nat) (tdefault Tnorm : K) (temp : Nat → K) : K :=
  if Tnorm > 0 then Tnorm else forN n (fun T m => max T (temp m)) tdefault

/-- `GetTguess` (`mixed_cell_models.hpp:501-580`) as a member: returns the temperature, updates `vfrac` and `rho`. -/
def tguess (σ : K) (E : MatEOS K) (I : InitEOS K) (p : SolverParams K) (n : Nat) (vt : K) (s : PS K) : K × PS K :=
  let r := getTguess σ E I.tMin n vt p.tlimit s.rhobar
    (fun _ q => if p.iterateT = true then
      some (newtonStep σ E I n (s.utot * s.uscale) s.rhobar s.a.press q.2.2 q.1) else none)
    (startT n p.tdefault s.Tnorm s.a.temp, s.a.vfrac, s.a.rho)
  (r.2.1, { s with a := { s.a with vfrac := r.2.2.1, rho := r.2.2.2 } })

/-- The pressure `InitBase` starts a material with (`mixed_cell_models.hpp:647-657`), in units of `uscale`: the caller's
value if the EOS takes pressure as an input and the value is usable. -/
def startPress (σ : K) (E : MatEOS K) (I : InitEOS K) (uscale T : K) (a : Mats K) (m : Nat) : K :=
  if I.prefersP m = true ∧ I.bad (a.press m) = false then ratio σ (a.press m) uscale
  else ratio σ (E.pOf m (a.rho m) T (E.eOf m (a.rho m) T)) uscale

/-- `InitBase` (`mixed_cell_models.hpp:628-662`). -/
def initBase (σ : K) (E : MatEOS K) (I : InitEOS K) (p : SolverParams K) (n : Nat) (vt sieTot : K) (s0 : PS K) : PS K :=
  let s := initRhoBar n s0
  let utotal := s.rhoTotal * sieTot
  let us := max |utotal| (1 / 10 ^ 14)
  let s := { s with uscale := us, utot := ratio σ utotal us }
  let g := tguess σ E I p n vt s
  let T := g.1
  let s := g.2
  { s with
    Tnorm := T
    a := { s.a with
      temp := fill n (fun _ => 1) s.a.temp
      sie := fill n (fun m => E.eOf m (s.a.rho m) T) s.a.sie
      press := fill n (startPress σ E I us T s.a) s.a.press
      u := fill n (fun m => E.eOf m (s.a.rho m) T * ratio σ (s.rhobar m) us) s.a.u } }

/-- `ResidualNorm` (`mixed_cell_models.hpp:665-667`). -/
def residualNorm (neq : Nat) (res : Nat → K) : K := 1 / 2 * sumNeumaier res neq 0 (-1) (fun x => x * x)

/-- `Solve` (`mixed_cell_models.hpp:360-364`). `jac` and `dx` after a failed solve are not followed (nothing reads them). -/
def solveMember (σ : K) (qr : (Nat → K) → (Nat → K) → Nat → K) (neq : Nat) (s : PS K) : PS K × Bool :=
  match solveAxb σ qr neq s.jac (fill neq s.residual s.dx) with
  | none => (s, false)
  | some x => ({ s with dx := x }, true)

/-- `for (i < neq) dx[i] *= scale` at the end of every `ScaleDx` (`mixed_cell_models.hpp:1148-1150`, `:1406-1408`,
`:1636-1638`, `:1883-1885`, `:2148-2150`). -/
def applyScale (neq : Nat) (scale : K) (s : PS K) : PS K × K :=
  ({ s with dx := mapN neq (fun _ x => x * scale) s.dx }, scale)

/-- `PTESolverBase::Finalize` (`mixed_cell_models.hpp:351-357`). -/
def finalizeBase (n : Nat) (s : PS K) : PS K :=
  { s with a := { s.a with
      temp := mapN n (fun _ x => x * s.Tnorm) s.a.temp
      u := mapN n (fun _ x => x * s.uscale) s.a.u
      press := mapN n (fun _ x => x * s.uscale) s.a.press } }

/-! ## RhoT -/

/-- Index of the largest of `f 0 … f (n-1)` that is positive, `0` if none is (the scans of
`mixed_cell_models.hpp:964-972` and `:996-1003`). -/
def argmaxPos (n : Nat) (f : Nat → K) : Nat :=
  (forN n (fun (t : Nat × K) m => if f m > t.2 then (m, f m) else t) (0, 0)).1

/-- `PTESolverRhoT::Residual` as a member (`mixed_cell_models.hpp:1011-1019`). -/
def rhoTResid (n : Nat) (s : PS K) : PS K :=
  { s with residual := rhoTResidual n s.ms s.utot s.a.u s.a.press s.residual }

/-- `PTESolverRhoT::Init` (`mixed_cell_models.hpp:948-984`). -/
def rhoTInit (σ : K) (E : MatEOS K) (I : InitEOS K) (p : SolverParams K) (n : Nat) (vt sieTot : K) (s0 : PS K) :
    PS K × K :=
  let s := initBase σ E I p n vt sieTot s0
  let ms := if 0 ≤ p.exclude then p.exclude.toNat else argmaxPos n (fun m => ratio σ (s.rhobar m) s.rhoTotal)
  let s := rhoTResid n { s with ms := ms }
  ({ s with Tequil := s.a.temp 0 }, residualNorm n s.residual)

/-- `PTESolverRhoT::Fixup` (`mixed_cell_models.hpp:987-1008`). -/
def rhoTFixup (p : SolverParams K) (n : Nat) (s : PS K) : PS K :=
  if p.exclude < 0 then rhoTResid n { s with ms := argmaxPos n s.a.vfrac } else s

/-- `PTESolverRhoT::Jacobian` (`mixed_cell_models.hpp:1043-1104`). -/
def rhoTJac (σ : K) (E : MatEOS K) (p : SolverParams K) (n : Nat) (s : PS K) : PS K :=
  let d := rhoTDerivs σ E n p.eps p.maxDpdv s.uscale s.Tnorm s.Tequil s.rhobar s.a
  { s with d := d, jac := rhoTJacobian n s.ms d s.jac }

/-- `PTESolverRhoT::TestUpdate` (`mixed_cell_models.hpp:1156-1188`). -/
def rhoTTest (σ : K) (E : MatEOS K) (n : Nat) (s : PS K) (scale : K) (cache : Bool) : PS K × K :=
  let s := if cache = true then { s with Ttemp := s.Tequil, vtemp := fill n s.a.vfrac s.vtemp } else s
  let r := rhoTTestUpdate σ E n s.ms s.uscale s.Tnorm s.rhobar s.dx s.Ttemp s.vtemp scale s.a
  let s := rhoTResid n { s with Tequil := r.1, a := r.2 }
  (s, residualNorm n s.residual)

/-! ## PT -/

/-- `PTESolverPT::Residual` as a member (`mixed_cell_models.hpp:1315-1320`). -/
def ptResid (n : Nat) (vt : K) (s : PS K) : PS K :=
  { s with residual := ptResidual n vt s.utot s.a.vfrac s.a.u s.residual }

/-- `PTESolverPT::Init` (`mixed_cell_models.hpp:1266-1297`). The first `Residual()` is overwritten by the second. The pressure
array is not set. -/
def ptInit (σ : K) (E : MatEOS K) (I : InitEOS K) (p : SolverParams K) (n : Nat) (vt sieTot : K) (s0 : PS K) : PS K × K :=
  let s := ptResid n vt (initBase σ E I p n vt sieTot s0)
  let P := forN n (fun P m => P + |s.a.press m| * s.a.vfrac m) 0 / sumNeumaier s.a.vfrac n
  let re := fun m => E.rhoEOfPT m (P * s.uscale) (1 * s.Tnorm)
  let s := ptResid n vt { s with
    Pequil := P
    Tequil := 1
    a := { s.a with
      rho := fill n (fun m => (re m).1) s.a.rho
      sie := fill n (fun m => (re m).2) s.a.sie
      vfrac := fill n (fun m => ratio σ (s.rhobar m) (re m).1) s.a.vfrac
      u := fill n (fun m => ratio σ ((re m).2 * s.rhobar m) s.uscale) s.a.u
      temp := fill n (fun _ => 1) s.a.temp } }
  (s, residualNorm 2 s.residual)

/-- `PTESolverPT::Finalize` (`mixed_cell_models.hpp:1300-1312`), for arrays that are not null pointers. -/
def ptFinalize (n : Nat) (s : PS K) : PS K :=
  { s with a := { s.a with
      press := fill n (fun _ => s.Pequil * s.uscale) s.a.press
      temp := fill n (fun _ => s.Tequil * s.Tnorm) s.a.temp
      u := mapN n (fun _ x => x * s.uscale) s.a.u } }

/-- `PTESolverPT::TestUpdate` (`mixed_cell_models.hpp:1416-1440`). -/
def ptTest (σ : K) (E : MatEOS K) (n : Nat) (vt : K) (s : PS K) (scale : K) (cache : Bool) : PS K × K :=
  let s := if cache = true then { s with Ttemp := s.Tequil, Ptemp := s.Pequil } else s
  let r := ptTestUpdate σ E n s.uscale s.Tnorm s.rhobar s.dx s.Ptemp s.Ttemp scale s.a
  let s := ptResid n vt { s with Pequil := r.1.1, Tequil := r.1.2, a := r.2 }
  (s, residualNorm 2 s.residual)

/-! ## FixedT -/

/-- The constructor's last three lines (`mixed_cell_models.hpp:1508-1510`). -/
def fixedTCtor (T : K) (s : PS K) : PS K := { s with Tequil := T, Ttemp := T, Tnorm := 1 }

/-- `PTESolverFixedT::Residual` as a member (`mixed_cell_models.hpp:1554-1560`). -/
def fixedTResid (n : Nat) (vt : K) (s : PS K) : PS K :=
  { s with residual := fixedTResidual n vt s.a.vfrac s.a.press s.residual }

/-- `PTESolverFixedT::Init` (`mixed_cell_models.hpp:1524-1551`). The result of `SetVfracFromT` is ignored. The temperature
array is not set. `PressureFromDensityTemperature` is `pOf`, which for this solver does not depend on the energy. -/
def fixedTInit (σ : K) (E : MatEOS K) (n : Nat) (vt : K) (s0 : PS K) : PS K × K :=
  let s := initRhoBar n { s0 with Tnorm := 1 }
  let T := s.Tequil
  let v := (setVfracFromT σ n vt s.rhobar (fun m => E.rhoPmin m T) s.a.vfrac).2
  let r := fun m => ratio σ (s.rhobar m) (v m)
  let e := fun m => E.eOf m (r m) T
  let us := max (forN n (fun t m => t + |e m| * r m) 0) (1 / 10 ^ 14)
  let s := fixedTResid n vt { s with
    uscale := us
    a := { s.a with
      vfrac := v
      rho := fill n r s.a.rho
      sie := fill n e s.a.sie
      press := fill n (fun m => ratio σ (E.pOf m (r m) T (e m)) us) s.a.press
      u := fill n (fun m => e m * ratio σ (s.rhobar m) us) s.a.u } }
  (s, residualNorm n s.residual)

/-- `PTESolverFixedT::Jacobian` (`mixed_cell_models.hpp:1584-1609`). -/
def fixedTJac (σ : K) (E : MatEOS K) (p : SolverParams K) (n : Nat) (s : PS K) : PS K :=
  let dp := fixedTDpdv σ E p.eps p.maxDpdv s.uscale s.Tequil s.rhobar s.a
  { s with d := { s.d with dpdv := dp }, jac := fixedTJacobian n dp s.jac }

/-- `PTESolverFixedT::TestUpdate` (`mixed_cell_models.hpp:1645-1664`). -/
def fixedTTest (σ : K) (E : MatEOS K) (n : Nat) (vt : K) (s : PS K) (scale : K) (cache : Bool) : PS K × K :=
  let s := if cache = true then { s with vtemp := fill n s.a.vfrac s.vtemp } else s
  let s := fixedTResid n vt { s with
    a := fixedTTestUpdate σ E n s.uscale s.Tequil s.rhobar s.dx s.vtemp scale s.a }
  (s, residualNorm n s.residual)

/-! ## FixedP -/

/-- The constructor (`mixed_cell_models.hpp:1729-1735`): `Tnorm` is 0, `Pequil` the caller's pressure; `uscale` and
`utotal_scale` are not set. -/
def fixedPCtor (P : K) (s : PS K) : PS K := { s with Pequil := P, Tnorm := 0 }

/-- `PTESolverFixedP::Residual` as a member (`mixed_cell_models.hpp:1782-1788`). -/
def fixedPResid (σ : K) (n : Nat) (vt : K) (s : PS K) : PS K :=
  { s with residual := fixedPResidual σ n vt s.Pequil s.uscale s.a.vfrac s.a.press s.residual }

/-- `PTESolverFixedP::Init` (`mixed_cell_models.hpp:1748-1779`). `GetTguess` runs before `uscale` is set, with whatever
`uscale` and `utotal_scale` held. -/
def fixedPInit (σ : K) (E : MatEOS K) (I : InitEOS K) (p : SolverParams K) (n : Nat) (vt : K) (s0 : PS K) : PS K × K :=
  let g := tguess σ E I p n vt (initRhoBar n s0)
  let T := g.1
  let s := g.2
  let us := max |s.Pequil| (1 / 10 ^ 14)
  let e := fun m => E.eOf m (s.a.rho m) T
  let s := fixedPResid σ n vt { s with
    Tnorm := T
    uscale := us
    a := { s.a with
      temp := fill n (fun _ => 1) s.a.temp
      sie := fill n e s.a.sie
      u := fill n (fun m => ratio σ (e m * s.rhobar m) us) s.a.u
      press := fill n (fun m => ratio σ (E.pOf m (s.a.rho m) T (e m)) us) s.a.press } }
  ({ s with Tequil := s.a.temp 0, Ttemp := s.a.temp 0 }, residualNorm (n + 1) s.residual)

/-- `PTESolverFixedP::Jacobian` (`mixed_cell_models.hpp:1810-1849`). -/
def fixedPJac (σ : K) (E : MatEOS K) (p : SolverParams K) (n : Nat) (s : PS K) : PS K :=
  let q := fixedPDerivs σ E p.eps p.maxDpdv s.uscale s.Tnorm s.Tequil s.rhobar s.a
  { s with
    d := { s.d with
      dpdv := fun m => (q m).1
      dpdT := fun m => (q m).2 }
    jac := fixedPJacobian n (fun m => (q m).1) (fun m => (q m).2) s.jac }

/-- `PTESolverFixedP::TestUpdate` (`mixed_cell_models.hpp:1891-1915`). -/
def fixedPTest (σ : K) (E : MatEOS K) (n : Nat) (vt : K) (s : PS K) (scale : K) (cache : Bool) : PS K × K :=
  let s := if cache = true then { s with Ttemp := s.Tequil, vtemp := fill n s.a.vfrac s.vtemp } else s
  let r := fixedPTestUpdate σ E n s.uscale s.Tnorm s.rhobar s.dx s.Ttemp s.vtemp scale s.a
  let s := fixedPResid σ n vt { s with Tequil := r.1, a := r.2 }
  (s, residualNorm (n + 1) s.residual)

/-! ## RhoU -/

/-- `PTESolverRhoU::Residual` as a member (`mixed_cell_models.hpp:2009-2020`). -/
def rhoUResid (n : Nat) (vt : K) (s : PS K) : PS K :=
  { s with residual := rhoUResidual n vt s.utot s.a.vfrac s.a.u s.a.press s.a.temp s.residual }

/-- The arrays `TryIdealPTE` works on, the scratch as one flat array (`mixed_cell_models.hpp:381-386`, `:692-704`). -/
def toIdeal (N n : Nat) (s : PS K) : IdealState K where
  rho := s.a.rho
  vfrac := s.a.vfrac
  sie := s.a.sie
  temp := s.a.temp
  press := s.a.press
  mem := fun i =>
    if i < offRes N then s.jac i else if i < offU N then s.residual (i - offRes N)
    else if i < offRhobar N n then s.a.u (i - offU N) else s.rhobar (i - offRhobar N n)

/-- Reading the arrays back (`mixed_cell_models.hpp:381-386`). -/
def ofIdeal (N n : Nat) (t : IdealState K) (s : PS K) : PS K :=
  { s with
    jac := t.mem
    residual := fun i => t.mem (offRes N + i)
    rhobar := fun i => t.mem (offRhobar N n + i)
    a := ⟨t.rho, t.vfrac, t.sie, t.temp, t.press, fun i => t.mem (offU N + i)⟩ }

/-- `PTESolverRhoU::Init` (`mixed_cell_models.hpp:2001-2006`). -/
def rhoUInit (σ : K) (E : MatEOS K) (I : InitEOS K) (p : SolverParams K) (n : Nat) (vt sieTot : K) (s0 : PS K) :
    PS K × K :=
  let s := rhoUResid n vt (initBase σ E I p n vt sieTot s0)
  let s := ofIdeal (2 * n) n (tryIdealPTE σ E n (2 * n) s.uscale s.Tnorm vt
    (fun v u pr t => rhoUResidual n vt s.utot v u pr t s.residual) (toIdeal (2 * n) n s)) s
  (s, residualNorm (2 * n) s.residual)

/-- `PTESolverRhoU::Jacobian` (`mixed_cell_models.hpp:2051-2115`). -/
def rhoUJac (σ : K) (E : MatEOS K) (p : SolverParams K) (n : Nat) (s : PS K) : PS K :=
  let d := rhoUDerivs σ E p.eps p.maxDpdv p.minDtde s.uscale s.Tnorm s.rhobar s.a
  { s with dU := d, jac := rhoUJacobian n d s.jac }

/-- `PTESolverRhoU::TestUpdate` (`mixed_cell_models.hpp:2156-2182`). -/
def rhoUTest (σ : K) (E : MatEOS K) (n : Nat) (vt : K) (s : PS K) (scale : K) (cache : Bool) : PS K × K :=
  let s := if cache = true then { s with vtemp := fill n s.a.vfrac s.vtemp, utemp := fill n s.a.u s.utemp } else s
  let s := rhoUResid n vt { s with
    a := rhoUTestUpdate σ E n s.uscale s.Tnorm s.rhobar s.dx s.vtemp s.utemp scale s.a }
  (s, residualNorm (2 * n) s.residual)

end

/-! ## The objects the driver runs -/

open Classical in
/-- `PTESolverRhoT` (`mixed_cell_models.hpp:884-1192`). -/
noncomputable def rhoTSys (σ : ℝ) (E : MatEOS ℝ) (I : InitEOS ℝ) (p : SolverParams ℝ) (t : MixTols)
    (qr : (Nat → ℝ) → (Nat → ℝ) → Nat → ℝ) (n : Nat) (vt sieTot : ℝ) : Sys (PS ℝ) ℝ where
  nmat := n
  init := rhoTInit σ E I p n vt sieTot
  check := fun s => (decide (rhoTCheck t.tol n s.a.vfrac s.a.press s.residual),
    decide (rhoTCheck t.suff n s.a.vfrac s.a.press s.residual))
  jacobian := rhoTJac σ E p n
  solve := solveMember σ qr n
  scaleDx := fun s => applyScale n (rhoTScaleDx σ p.saf E n s.ms s.Tnorm s.Tequil s.rhobar s.a.vfrac s.dx) s
  testUpdate := rhoTTest σ E n
  fixup := rhoTFixup p n
  finalize := finalizeBase n

open Classical in
/-- `PTESolverPT` (`mixed_cell_models.hpp:1208-1449`). -/
noncomputable def ptSys (σ : ℝ) (E : MatEOS ℝ) (I : InitEOS ℝ) (p : SolverParams ℝ) (t : MixTols)
    (qr : (Nat → ℝ) → (Nat → ℝ) → Nat → ℝ) (n : Nat) (vt sieTot : ℝ) : Sys (PS ℝ) ℝ where
  nmat := n
  init := ptInit σ E I p n vt sieTot
  check := fun s => (decide (ptCheck t.tol s.residual), decide (ptCheck t.suff s.residual))
  jacobian := fun s =>
    { s with jac := ptJacobianOf σ E n p.eps s.uscale s.Tnorm s.Pequil s.Tequil s.rhobar s.a s.jac }
  solve := solveMember σ qr 2
  scaleDx := fun s => applyScale 2 (ptScaleDx σ E n s.uscale s.Tnorm s.Pequil s.Tequil s.dx) s
  testUpdate := ptTest σ E n vt
  fixup := id
  finalize := ptFinalize n

open Classical in
/-- `PTESolverFixedT` (`mixed_cell_models.hpp:1463-1669`). -/
noncomputable def fixedTSys (σ : ℝ) (E : MatEOS ℝ) (p : SolverParams ℝ) (t : MixTols)
    (qr : (Nat → ℝ) → (Nat → ℝ) → Nat → ℝ) (n : Nat) (vt : ℝ) : Sys (PS ℝ) ℝ where
  nmat := n
  init := fixedTInit σ E n vt
  check := fun s => (decide (fixedTCheck t.tol n s.a.vfrac s.a.press s.residual),
    decide (fixedTCheck t.suff n s.a.vfrac s.a.press s.residual))
  jacobian := fixedTJac σ E p n
  solve := solveMember σ qr n
  scaleDx := fun s => applyScale n (fixedTScaleDx σ p.saf E n s.Tequil s.rhobar s.a.vfrac s.dx) s
  testUpdate := fixedTTest σ E n vt
  fixup := id
  finalize := finalizeBase n

open Classical in
/-- `PTESolverFixedP` (`mixed_cell_models.hpp:1686-1919`). -/
noncomputable def fixedPSys (σ : ℝ) (E : MatEOS ℝ) (I : InitEOS ℝ) (p : SolverParams ℝ) (t : MixTols)
    (qr : (Nat → ℝ) → (Nat → ℝ) → Nat → ℝ) (n : Nat) (vt : ℝ) : Sys (PS ℝ) ℝ where
  nmat := n
  init := fixedPInit σ E I p n vt
  check := fun s => (decide (fixedPCheck t.tol n s.uscale s.residual), decide (fixedPCheck t.suff n s.uscale s.residual))
  jacobian := fixedPJac σ E p n
  solve := solveMember σ qr (n + 1)
  scaleDx := fun s => applyScale (n + 1) (fixedPScaleDx σ p.saf E n s.Tnorm s.Tequil s.rhobar s.a.vfrac s.dx) s
  testUpdate := fixedPTest σ E n vt
  fixup := id
  finalize := finalizeBase n

open Classical in
/-- `PTESolverRhoU` (`mixed_cell_models.hpp:1935-2186`). -/
noncomputable def rhoUSys (σ : ℝ) (E : MatEOS ℝ) (I : InitEOS ℝ) (p : SolverParams ℝ) (t : MixTols)
    (qr : (Nat → ℝ) → (Nat → ℝ) → Nat → ℝ) (n : Nat) (vt sieTot : ℝ) : Sys (PS ℝ) ℝ where
  nmat := n
  init := rhoUInit σ E I p n vt sieTot
  check := fun s =>
    (decide (rhoUCheck σ t.tol n s.rhoTotal s.rhobar s.a.vfrac s.a.press s.a.temp s.residual),
     decide (rhoUCheck σ t.suff n s.rhoTotal s.rhobar s.a.vfrac s.a.press s.a.temp s.residual))
  jacobian := rhoUJac σ E p n
  solve := solveMember σ qr (2 * n)
  scaleDx := fun s => applyScale (2 * n) (rhoUScaleDx σ E n s.Tnorm s.dU s.rhobar s.a.vfrac s.a.temp s.dx) s
  testUpdate := rhoUTest σ E n vt
  fixup := id
  finalize := finalizeBase n

end Verif.PTE
