import Verif.Model.MixUtils

/-!
# Model of the five PTE solver classes of `closure/mixed_cell_models.hpp`

`Real` is a linearly ordered field `K`, `σ` is `robust::SMALL`.  The scratch arrays of one solver are
separate arrays here (`Verif.PTE.C16_scratch_layout` shows they do not overlap).  An equation of state
enters through the functions the solver calls, as an arbitrary function of the material index; the
lambda cache is left out.
-/

namespace Verif.PTE

open Robust

variable {K : Type*} [Field K] [LinearOrder K]

/-- What a solver asks of the materials' equations of state. `pOf m rho T e` is
`GetPressureFromPreferred` (`mixed_cell_models.hpp:584-599`), which uses either `(rho,e)` or `(rho,T)`
according to the EOS; being a function of all three it covers both. `rhoEOfPT` is
`DensityEnergyFromPressureTemperature`. -/
structure MatEOS (K : Type*) where
  eOf : Nat → K → K → K
  pOf : Nat → K → K → K → K
  tOf : Nat → K → K → K
  rhoEOfPT : Nat → K → K → K × K
  rhoPmin : Nat → K → K
  pMin : Nat → K
  pMaxAtT : Nat → K → K

/-- The caller's per-material arrays and the solver's `u`. (mixed_cell_models.hpp:330-420) -/
structure Mats (K : Type*) where
  rho : Nat → K
  vfrac : Nat → K
  sie : Nat → K
  temp : Nat → K
  press : Nat → K
  u : Nat → K

/-! ## RhoT -/

/-- `for m < n: if (m == ms) continue; arr[idx++] = f(m);` starting from `idx = 1`
(pattern of `mixed_cell_models.hpp:1014-1018`, `:1083-1086`). -/
def skipFill (n ms : Nat) (f : Nat → K) (arr : Nat → K) : Nat → K :=
  (forN n (fun (s : Nat × (Nat → K)) m =>
    if m = ms then s else (s.1 + 1, Function.update s.2 s.1 (f m))) (1, arr)).2

/-- `mixed_cell_models.hpp:1011-1019` `PTESolverRhoT::Residual`. -/
def rhoTResidual (n ms : Nat) (utot : K) (u press : Nat → K) (res : Nat → K) : Nat → K :=
  skipFill n ms (fun m => press ms - press m)
    (Function.update res 0 (utot - sumNeumaier u n))

/-- Derivatives found by finite differences at the start of `Jacobian()`.
(mixed_cell_models.hpp:1190, 1667, 1917) -/
structure Derivs (K : Type*) where
  dpdv : Nat → K
  dedv : Nat → K
  dpdT : Nat → K
  dedTsum : K

/-- `mixed_cell_models.hpp:1043-1076`: the finite differences. `eps` is `derivative_eps`,
`pmx` is `pte_max_dpdv`. -/
def rhoTDerivs (σ : K) (E : MatEOS K) (n : Nat) (eps pmx uscale Tnorm Tequil : K)
    (rhobar : Nat → K) (s : Mats K) : Derivs K :=
  let dv := fun m => (if s.vfrac m < 1 / 2 then 1 else -1) * s.vfrac m * eps
  let rp := fun m => ratio σ (rhobar m) (s.vfrac m + dv m)
  let ep := fun m => E.eOf m (rp m) (Tnorm * Tequil)
  let pp := fun m => ratio σ (E.pOf m (rp m) (Tnorm * Tequil) (ep m)) uscale
  let dT := Tequil * eps
  let eT := fun m => E.eOf m (s.rho m) (Tnorm * (Tequil + dT))
  let pT := fun m => ratio σ (E.pOf m (s.rho m) (Tnorm * (Tequil + dT)) (eT m)) uscale
  { dpdv := fun m => min (ratio σ (pp m - s.press m) (dv m)) (-|pmx|)
    dedv := fun m => ratio σ (rhobar m * ratio σ (ep m) uscale - s.u m) (dv m)
    dpdT := fun m => ratio σ (pT m - s.press m) dT
    dedTsum := forN n (fun a m =>
      a + ratio σ (rhobar m * ratio σ (eT m) uscale - s.u m) dT) 0 }

/-- `mixed_cell_models.hpp:1078-1104`: the matrix; `neq = nmat`, entry `(i,j)` at `i*neq + j`
(`MatIndex`, `:669-672`). -/
def rhoTJacobian (n ms : Nat) (d : Derivs K) (jac : Nat → K) : Nat → K :=
  let j0 := fill (n * n) (fun _ => 0) jac
  let j1 := skipFill n ms (fun m => d.dedv m - d.dedv ms) (Function.update j0 0 d.dedTsum)
  (forN n (fun (s : Nat × (Nat → K)) m =>
    if m = ms then s
    else
      let a := Function.update s.2 (s.1 * n + 0) (d.dpdT m - d.dpdT ms)
      let r := forN n (fun (t : Nat × (Nat → K)) mm =>
        if mm = ms then t
        else (t.1 + 1, Function.update t.2 (s.1 * n + t.1)
          (if mm = m then d.dpdv m + d.dpdv ms else d.dpdv ms))) (1, a)
      (s.1 + 1, r.2)) (1, j1)).2

/-- `mixed_cell_models.hpp:1114-1122`: limiting the step towards zero volume fraction. -/
def rhoTScale1 (σ saf : K) (n ms : Nat) (vfrac dx : Nat → K) (dskip : K) : K × Nat :=
  forN n (fun (s : K × Nat) m =>
    let mydx := if m = ms then dskip else dx s.2
    let idx := if m = ms then s.2 else s.2 + 1
    if s.1 * mydx < -saf * vfrac m then
      (min s.1 |saf * ratio σ (vfrac m) mydx|, idx)
    else (s.1, idx)) (1, 1)

/-- `mixed_cell_models.hpp:1126-1142`: limiting the step towards `rho(Pmin)`. As in the code, the
`continue` for a material that is already too dilute comes before `dx[idx++]`.
`amax m` is `alpha_max`. -/
def rhoTScale2 (σ : K) (n ms : Nat) (vfrac dx amax : Nat → K) (dskip scale : K) : K × Nat :=
  forN n (fun (s : K × Nat) m =>
    if amax m < vfrac m then s
    else
      let mydx := if m = ms then dskip else dx s.2
      let idx := if m = ms then s.2 else s.2 + 1
      if s.1 * mydx > 1 / 2 * (amax m - vfrac m) then
        (min (ratio σ (1 / 2 * (amax m - vfrac m)) mydx) s.1, idx)
      else (s.1, idx)) (scale, 1)

/-- `mixed_cell_models.hpp:1144-1146`: limiting the step towards zero temperature. -/
def tempScale (σ T dT scale : K) : K :=
  if scale * dT < -(95 / 100) * T then min scale (ratio σ (-(95 / 100) * T) dT) else scale

/-- `alpha_max` of RhoT (`mixed_cell_models.hpp:1128-1130`). -/
def rhoTAmax (σ : K) (E : MatEOS K) (rhobar : Nat → K) (T0 T1 : K) (m : Nat) : K :=
  min 1 (ratio σ (rhobar m) (max (E.rhoPmin m T0) (E.rhoPmin m T1)))

/-- `mixed_cell_models.hpp:1108-1151` `PTESolverRhoT::ScaleDx`: the scale it returns; `dx` is multiplied
by it. `saf` is `vfrac_safety_fac`. -/
def rhoTScaleDx (σ saf : K) (E : MatEOS K) (n ms : Nat) (Tnorm Tequil : K)
    (rhobar vfrac dx : Nat → K) : K :=
  let dskip := -sumNeumaier dx (n - 1) 1
  let s1 := (rhoTScale1 σ saf n ms vfrac dx dskip).1
  let Tnew := Tequil + s1 * dx 0
  let s2 := (rhoTScale2 σ n ms vfrac dx (rhoTAmax σ E rhobar (Tnorm * Tequil) (Tnorm * Tnew)) dskip s1).1
  tempScale σ Tequil (dx 0) s2

/-- `mixed_cell_models.hpp:1166-1171`: the volume fractions of a trial step. -/
def rhoTVfrac (n ms : Nat) (scale : K) (dx vtemp vfrac : Nat → K) : Nat → K :=
  let v1 := (forN n (fun (s : Nat × (Nat → K)) m =>
    if ms = m then s else (s.1 + 1, Function.update s.2 m (vtemp m + scale * dx s.1))) (1, vfrac)).2
  let v2 := Function.update v1 ms (sumNeumaier v1 n 0 ms)
  Function.update v2 ms (1 - v2 ms)

/-- `mixed_cell_models.hpp:1172-1183`, `:1650-1659`, `:1899-1912`: the material states for given volume
fractions and one temperature (`Tsc` is what is stored in `temp`, `T` what the EOS is called with).
Each pass of the loop reads and writes index `m` only, so it is written one array at a time. -/
def stateFromVT (σ : K) (E : MatEOS K) (n : Nat) (uscale T Tsc : K) (rhobar v : Nat → K)
    (s : Mats K) : Mats K :=
  let r := fun m => ratio σ (rhobar m) (v m)
  let u1 := fun m => rhobar m * E.eOf m (r m) T
  let e := fun m => ratio σ (u1 m) (rhobar m)
  { rho := fill n r s.rho
    vfrac := v
    u := fill n (fun m => ratio σ (u1 m) uscale) s.u
    sie := fill n e s.sie
    temp := fill n (fun _ => Tsc) s.temp
    press := fill n (fun m => ratio σ (E.pOf m (r m) T (e m)) uscale) s.press }

/-- `mixed_cell_models.hpp:1156-1188` `PTESolverRhoT::TestUpdate` (state part; the residual is then
recomputed by `rhoTResidual`). `Ttemp`, `vtemp` are the cached state. Returns `Tequil` and the state. -/
def rhoTTestUpdate (σ : K) (E : MatEOS K) (n ms : Nat) (uscale Tnorm : K) (rhobar dx : Nat → K)
    (Ttemp : K) (vtemp : Nat → K) (scale : K) (s : Mats K) : K × Mats K :=
  let Tequil := Ttemp + scale * dx 0
  (Tequil, stateFromVT σ E n uscale (Tnorm * Tequil) Tequil rhobar
    (rhoTVfrac n ms scale dx vtemp s.vfrac) s)

/-! ## PT -/

/-- `mixed_cell_models.hpp:1315-1320` `PTESolverPT::Residual`. -/
def ptResidual (n : Nat) (vt utot : K) (vfrac u : Nat → K) (res : Nat → K) : Nat → K :=
  Function.update (Function.update res 0 (vt - sumNeumaier vfrac n)) 1 (utot - sumNeumaier u n)

/-- `mixed_cell_models.hpp:1380-1384`: the matrix of `PTESolverPT::Jacobian` from the four sums
(temperature derivatives first). `rT`, `rP` are the sums of `rhobar/rho² drho/dT` and `drho/dP`. -/
def ptJacobian (rT rP uT uP : K) (jac : Nat → K) : Nat → K :=
  Function.update (Function.update (Function.update (Function.update jac 0 (-rT)) 1 (-rP)) 2 uT) 3 uP

/-- `mixed_cell_models.hpp:1388-1411` `PTESolverPT::ScaleDx`. -/
def ptScaleDx (σ : K) (E : MatEOS K) (n : Nat) (uscale Tnorm Pequil Tequil : K) (dx : Nat → K) : K :=
  let s0 := if 1 * dx 0 < -(95 / 100) * Tequil then ratio σ (-(95 / 100) * Tequil) (dx 0) else 1
  let bounded := fun (pb delta : K) => ratio σ (ratio σ pb uscale - Pequil) delta
  let s1 := forN n (fun s m => min |s| |95 / 100 * bounded (E.pMin m) (dx 1)|) s0
  forN n (fun s m =>
    min |s| |95 / 100 * bounded (E.pMaxAtT m ((Tequil + s * dx 0) * Tnorm)) (dx 0)|) s1

/-- `mixed_cell_models.hpp:1416-1440` `PTESolverPT::TestUpdate`; returns `(Pequil, Tequil)` and the
state. Loop written one array at a time. -/
def ptTestUpdate (σ : K) (E : MatEOS K) (n : Nat) (uscale Tnorm : K) (rhobar dx : Nat → K)
    (Ptemp Ttemp scale : K) (s : Mats K) : (K × K) × Mats K :=
  let T := Ttemp + scale * dx 0
  let P := Ptemp + scale * dx 1
  let re := fun m => E.rhoEOfPT m (P * uscale) (T * Tnorm)
  ((P, T),
   { rho := fill n (fun m => (re m).1) s.rho
     sie := fill n (fun m => (re m).2) s.sie
     vfrac := fill n (fun m => ratio σ (rhobar m) (re m).1) s.vfrac
     u := fill n (fun m => ratio σ ((re m).2 * rhobar m) uscale) s.u
     temp := fill n (fun _ => T) s.temp
     press := fill n (fun _ => P) s.press })

/-! ## FixedT -/

/-- `mixed_cell_models.hpp:1554-1560` `PTESolverFixedT::Residual`. -/
def fixedTResidual (n : Nat) (vt : K) (vfrac press : Nat → K) (res : Nat → K) : Nat → K :=
  forN (n - 1) (fun r m => Function.update r (1 + m) (press m - press (m + 1)))
    (Function.update res 0 (vt - sumNeumaier vfrac n))

/-- `mixed_cell_models.hpp:1599-1608`: the matrix of `PTESolverFixedT::Jacobian`. -/
def fixedTJacobian (n : Nat) (dpdv : Nat → K) (jac : Nat → K) : Nat → K :=
  let j0 := fill (n * n) (fun _ => 0) jac
  let j1 := fill n (fun _ => 1) j0
  forN (n - 1) (fun j m => Function.update (Function.update j ((m + 1) * n + m) (-dpdv m))
    ((m + 1) * n + (m + 1)) (dpdv (m + 1))) j1

/-- `mixed_cell_models.hpp:1616-1620`: limit towards zero volume fraction
(FixedT). -/
def fixedScale1 (σ saf : K) (n : Nat) (vfrac dx : Nat → K) : K :=
  forN n (fun s m => if s * dx m < -saf * vfrac m then ratio σ (-saf * vfrac m) (dx m) else s) 1

/-- `mixed_cell_models.hpp:1622-1635`: limit towards `rho(Pmin)` (FixedT). -/
def fixedScale2 (σ : K) (n : Nat) (vfrac dx amax : Nat → K) (scale : K) : K :=
  forN n (fun s m =>
    if amax m < vfrac m then s
    else if s * dx m > 1 / 2 * (amax m - vfrac m) then ratio σ (1 / 2 * (amax m - vfrac m)) (dx m)
    else s) scale

/-- `mixed_cell_models.hpp:1612-1640` `PTESolverFixedT::ScaleDx`. -/
def fixedTScaleDx (σ saf : K) (E : MatEOS K) (n : Nat) (T : K) (rhobar vfrac dx : Nat → K) : K :=
  fixedScale2 σ n vfrac dx (fun m => ratio σ (rhobar m) (E.rhoPmin m T)) (fixedScale1 σ saf n vfrac dx)

/-- `mixed_cell_models.hpp:1645-1664` `PTESolverFixedT::TestUpdate` (state part; `temp` is not written
there, which `Mats.temp` ignores). -/
def fixedTTestUpdate (σ : K) (E : MatEOS K) (n : Nat) (uscale T : K) (rhobar dx vtemp : Nat → K)
    (scale : K) (s : Mats K) : Mats K :=
  { stateFromVT σ E n uscale T T rhobar (fill n (fun m => vtemp m + scale * dx m) s.vfrac) s with
    temp := s.temp }

/-! ## FixedP -/

/-- `mixed_cell_models.hpp:1782-1788` `PTESolverFixedP::Residual`. -/
def fixedPResidual (σ : K) (n : Nat) (vt P uscale : K) (vfrac press : Nat → K) (res : Nat → K) : Nat → K :=
  Function.update (fill n (fun m => ratio σ P uscale - press m) res) n (vt - sumNeumaier vfrac n)

/-- `mixed_cell_models.hpp:1839-1848`: the matrix of `PTESolverFixedP::Jacobian`; `neq = nmat + 1`. -/
def fixedPJacobian (n : Nat) (dpdv dpdT : Nat → K) (jac : Nat → K) : Nat → K :=
  let j0 := fill ((n + 1) * (n + 1)) (fun _ => 0) jac
  let j1 := forN n (fun j m => Function.update (Function.update j (m * (n + 1) + m) (dpdv m))
    (m * (n + 1) + n) (dpdT m)) j0
  forN n (fun j m => Function.update j (n * (n + 1) + m) 1) j1

/-- `mixed_cell_models.hpp:1852-1887` `PTESolverFixedP::ScaleDx`. `-saf * ratio(v,dx)` and
`0.5 * ratio(..)` equal the FixedT forms exactly (`ratio` is linear in its numerator). -/
def fixedPScaleDx (σ saf : K) (E : MatEOS K) (n : Nat) (Tnorm Tequil : K)
    (rhobar vfrac dx : Nat → K) : K :=
  let s1 := forN n (fun s m =>
    if s * dx m < -saf * vfrac m then -saf * ratio σ (vfrac m) (dx m) else s) 1
  let Tnew := Tequil + s1 * dx n
  let amax := fun m => ratio σ (rhobar m) (max (E.rhoPmin m (Tnorm * Tequil)) (E.rhoPmin m (Tnorm * Tnew)))
  let s2 := forN n (fun s m =>
    if amax m < vfrac m then s
    else if s * dx m > 1 / 2 * (amax m - vfrac m) then 1 / 2 * ratio σ (amax m - vfrac m) (dx m)
    else s) s1
  if s2 * dx n < -(95 / 100) * Tequil then -(95 / 100) * ratio σ Tequil (dx n) else s2

/-- `mixed_cell_models.hpp:1891-1915` `PTESolverFixedP::TestUpdate` (state part); returns `Tequil`. -/
def fixedPTestUpdate (σ : K) (E : MatEOS K) (n : Nat) (uscale Tnorm : K) (rhobar dx : Nat → K)
    (Ttemp : K) (vtemp : Nat → K) (scale : K) (s : Mats K) : K × Mats K :=
  let T := Ttemp + scale * dx n
  (T, stateFromVT σ E n uscale (Tnorm * T) T rhobar (fill n (fun m => vtemp m + scale * dx m) s.vfrac) s)

/-! ## RhoU -/

/-- `mixed_cell_models.hpp:2009-2020` `PTESolverRhoU::Residual`. -/
def rhoUResidual (n : Nat) (vt utot : K) (vfrac u press temp : Nat → K) (res : Nat → K) : Nat → K :=
  let r0 := Function.update (Function.update res 0 (vt - sumNeumaier vfrac n)) 1 (utot - sumNeumaier u n)
  let r1 := forN (n - 1) (fun r m => Function.update r (2 + m) (press (m + 1) - press m)) r0
  forN (2 * n - (n + 1)) (fun r k => Function.update r (n + 1 + k) (temp (1 + k) - temp k)) r1

/-- Derivative arrays of `PTESolverRhoU`. (mixed_cell_models.hpp:2182) -/
structure DerivsU (K : Type*) where
  dpdv : Nat → K
  dtdv : Nat → K
  dpde : Nat → K
  dtde : Nat → K

/-- `mixed_cell_models.hpp:2088-2114`: the matrix of `PTESolverRhoU::Jacobian`, `neq = 2*nmat`, every
store at the index written in the code. -/
def rhoUJacobian (n : Nat) (d : DerivsU K) (jac : Nat → K) : Nat → K :=
  let j0 := fill (2 * n * (2 * n)) (fun _ => 0) jac
  let j1 := forN n (fun j m => Function.update (Function.update j m 1) (2 * n + n + m) 1) j0
  let j2 := Function.update j1 (2 * 2 * n) (d.dpdv 0)
  let j3 := Function.update j2 (n * 2 * n + n - 1) (-d.dpdv (n - 1))
  let j4 := Function.update j3 ((n + 1) * 2 * n) (d.dtdv 0)
  let j5 := Function.update j4 ((2 * n - 1) * 2 * n + n - 1) (-d.dtdv (n - 1))
  let j6 := Function.update j5 (2 * 2 * n + n) (d.dpde 0)
  let j7 := Function.update j6 (n * 2 * n + 2 * n - 1) (-d.dpde (n - 1))
  let j8 := Function.update j7 ((n + 1) * 2 * n + n) (d.dtde 0)
  let j9 := Function.update j8 ((2 * n - 1) * 2 * n + 2 * n - 1) (-d.dtde (n - 1))
  forN (n - 2) (fun j k =>
    let m := k + 1
    let a := Function.update j ((1 + m) * 2 * n + m) (-d.dpdv m)
    let a := Function.update a ((2 + m) * 2 * n + m) (d.dpdv m)
    let a := Function.update a ((n + m) * 2 * n + m) (-d.dtdv m)
    let a := Function.update a ((n + m + 1) * 2 * n + m) (d.dtdv m)
    let a := Function.update a ((1 + m) * 2 * n + n + m) (-d.dpde m)
    let a := Function.update a ((2 + m) * 2 * n + n + m) (d.dpde m)
    let a := Function.update a ((n + m) * 2 * n + n + m) (-d.dtde m)
    Function.update a ((n + m + 1) * 2 * n + n + m) (d.dtde m)) j9

/-- `mixed_cell_models.hpp:2121-2147`: one pass of the loop of `PTESolverRhoU::ScaleDx`. -/
def rhoUScaleStep (σ : K) (E : MatEOS K) (n : Nat) (Tnorm : K) (d : DerivsU K)
    (rhobar vfrac temp dx : Nat → K) (scale : K) (m : Nat) : K :=
  let s1 := if scale * dx m < -(1 / 10) * vfrac m then -(1 / 10) * ratio σ (vfrac m) (dx m) else scale
  let dt := d.dtdv m * dx m + d.dtde m * dx (m + n)
  let s2 := if s1 * dt < -(1 / 10) * temp m then -(1 / 10) * ratio σ (temp m) dt else s1
  let tt := temp m + s2 * dt
  let amax := ratio σ (rhobar m) (max (E.rhoPmin m (Tnorm * temp m)) (E.rhoPmin m (Tnorm * tt)))
  if amax < vfrac m then s2
  else if s2 * dx m > 1 / 2 * (amax - vfrac m) then 1 / 2 * ratio σ (amax - vfrac m) (dx m)
  else s2

/-- `mixed_cell_models.hpp:2118-2152` `PTESolverRhoU::ScaleDx`. -/
def rhoUScaleDx (σ : K) (E : MatEOS K) (n : Nat) (Tnorm : K) (d : DerivsU K)
    (rhobar vfrac temp dx : Nat → K) : K :=
  forN n (rhoUScaleStep σ E n Tnorm d rhobar vfrac temp dx) 1

/-- `mixed_cell_models.hpp:2156-2182` `PTESolverRhoU::TestUpdate` (state part). Loop written one array
at a time. -/
def rhoUTestUpdate (σ : K) (E : MatEOS K) (n : Nat) (uscale Tnorm : K) (rhobar dx : Nat → K)
    (vtemp utemp : Nat → K) (scale : K) (s : Mats K) : Mats K :=
  let v := fun m => vtemp m + scale * dx m
  let r := fun m => ratio σ (rhobar m) (v m)
  let u := fun m => utemp m + scale * dx (n + m)
  let e := fun m => uscale * ratio σ (u m) (rhobar m)
  let t := fun m => ratio σ (E.tOf m (r m) (e m)) Tnorm
  { rho := fill n r s.rho
    vfrac := fill n v s.vfrac
    u := fill n u s.u
    sie := fill n e s.sie
    temp := fill n t s.temp
    press := fill n (fun m => ratio σ (E.pOf m (r m) (Tnorm * t m) (e m)) uscale) s.press }

end Verif.PTE
