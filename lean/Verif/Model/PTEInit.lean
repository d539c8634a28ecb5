import Verif.Model.PTESolvers

/-! # Model of the PTE initial guesses of `closure/mixed_cell_models.hpp`:
`SetVfracFromT`, `GetTguess`, `TryIdealPTE`, `ApproxTemperatureFromRhoMatU` -/

namespace Verif.PTE

open Robust

variable {K : Type*} [Field K] [LinearOrder K]

/-- `get_vfrac_max` (`mixed_cell_models.hpp:434-438`); `safety = 0.9`. -/
def vfracMax (σ : K) (rhobar rhoPmin : Nat → K) (m : Nat) : K :=
  min (9 / 10 * ratio σ (rhobar m) (rhoPmin m)) 1

/-- `NormalizeVfrac` (`mixed_cell_models.hpp:399-405`). -/
def normalizeVfrac (σ : K) (n : Nat) (vt : K) (v : Nat → K) : Nat → K :=
  mapN n (fun _ x => x * ratio σ vt (sumNeumaier v n)) v

/-- `min_dv` (`mixed_cell_models.hpp:427`). -/
def minDv : K := 1 / 10 ^ 12

/-- `mixed_cell_models.hpp:475-482`: cap every material and tally the excess. `n_uncapped_materials` is
decremented at most `n` times from `n`, so natural subtraction is exact. -/
def capPass (n : Nat) (vmax : Nat → K) (v : Nat → K) : (Nat → K) × K × Nat :=
  forN n (fun (s : (Nat → K) × K × Nat) m =>
    let dv := s.1 m - min (vmax m) (s.1 m)
    (Function.update s.1 m (s.1 m - dv), s.2.1 + dv, if dv > minDv then s.2.2 - 1 else s.2.2))
    (v, 0, n)

/-- `mixed_cell_models.hpp:486-491`: distribute the excess over the materials below their cap. -/
def spreadPass (σ : K) (n : Nat) (vmax : Nat → K) (rem : K) (unc : Nat) (v : Nat → K) : Nat → K :=
  mapN n (fun m x => if vmax m - x > minDv then x + ratio σ rem (unc : K) else x) v

/-- `mixed_cell_models.hpp:472-492`: the water-filling loop, `f` passes left. -/
def waterFill (σ : K) (n : Nat) (vmax : Nat → K) : Nat → (Nat → K) → Nat → K
  | 0, v => v
  | f + 1, v =>
    let c := capPass n vmax v
    if |c.2.1| < minDv then c.1
    else waterFill σ n vmax f (spreadPass σ n vmax c.2.1 c.2.2 c.1)

/-- `mixed_cell_models.hpp:423-498` `SetVfracFromT`: `true` is FAIL. `rhoPmin m` is `eos[m].RhoPmin(T)`. -/
def setVfracFromT (σ : K) (n : Nat) (vt : K) (rhobar rhoPmin v : Nat → K) : Bool × (Nat → K) :=
  let vmax := vfracMax σ rhobar rhoPmin
  let v1 := mapN n (fun m x => if x ≤ 0 then vmax m else x) v
  let vsum := forN n (fun a m => a + vmax m) 0
  if vsum < vt then (true, v1)
  else (false, normalizeVfrac σ n vt (waterFill σ n vmax n (normalizeVfrac σ n vt v1)))

/-- The Newton proposal, clipped to `[T, temperature_limit]`, if enabled (`mixed_cell_models.hpp:542-545`). -/
def clipNewton (tlimit : K) (newton : Option K) (T : K) : K :=
  newton.elim T (fun t => min tlimit (max T t))

/-- One pass of the loop of `GetTguess` (`mixed_cell_models.hpp:541-572`), `newton` being the proposed
temperature (used when `iterate_t_guess`; it depends on the state, so it is given per pass).
Returns `(bad, T, vfrac, rho)`. `PORTABLE_REQUIRE`s are left out. -/
def tguessPass (σ : K) (E : MatEOS K) (tmin : Nat → K) (n : Nat) (vt tlimit : K) (rhobar : Nat → K)
    (newton : Option K) (s : K × (Nat → K) × (Nat → K)) : Bool × K × (Nat → K) × (Nat → K) :=
  let T1 := clipNewton tlimit newton s.1
  let T2 := forN n (fun T m => max (tmin m) T) T1
  let r := setVfracFromT σ n vt rhobar (fun m => E.rhoPmin m T2) s.2.1
  if r.1 = true then (true, T2 * 10, r.2, s.2.2)
  else
    let rho := fill n (fun m => ratio σ (rhobar m) (r.2 m)) s.2.2
    let bad := forN n (fun b m => b || decide (rho m < E.rhoPmin m T2)) false
    if bad = true then (true, T2 * 10, r.2, rho) else (false, T2, r.2, rho)

/-- `mixed_cell_models.hpp:500-579` `GetTguess` after the starting guess `T0`: up to three passes.
`newton i` is the Newton proposal of pass `i`, if enabled. -/
def getTguess (σ : K) (E : MatEOS K) (tmin : Nat → K) (n : Nat) (vt tlimit : K) (rhobar : Nat → K)
    (newton : Nat → (K × (Nat → K) × (Nat → K)) → Option K) (s : K × (Nat → K) × (Nat → K)) :
    Bool × K × (Nat → K) × (Nat → K) :=
  let p := fun i s => tguessPass σ E tmin n vt tlimit rhobar (newton i s) s
  let r0 := p 0 s
  if r0.1 = false then r0
  else
    let r1 := p 1 r0.2
    if r1.1 = false then r1 else p 2 r1.2

/-- The state `TryIdealPTE` works on: the caller's arrays and the solver's scratch, one flat array.
(mixed_cell_models.hpp:378-390) -/
structure IdealState (K : Type*) where
  rho : Nat → K
  vfrac : Nat → K
  sie : Nat → K
  temp : Nat → K
  press : Nat → K
  mem : Nat → K

/-- Offsets of the scratch blocks (`mixed_cell_models.hpp:381-386`), `N = neq`. -/
def offRes (N : Nat) : Nat := N * N + N + 2 * N
/-- Offset of `u`. (mixed_cell_models.hpp:384) -/
def offU (N : Nat) : Nat := offRes N + N
/-- Offset of `rhobar`. (mixed_cell_models.hpp:385) -/
def offRhobar (N n : Nat) : Nat := offU N + n

/-- `dst[m] = f(m)` for `m < n` at offset `o` of flat memory. (C array stores in mixed_cell_models.hpp) -/
def store (o n : Nat) (f : Nat → K) (mem : Nat → K) : Nat → K :=
  forN n (fun a m => Function.update a (o + m) (f m)) mem

/-- `GetIdealPTE` (`mixed_cell_models.hpp:676-688`): `(Pideal, Tideal)`. -/
def idealPTE (σ : K) (n : Nat) (uscale Tnorm vt : K) (s : IdealState K) : K × K :=
  let A := forN n (fun a m => a + s.vfrac m * ratio σ (s.press m) (s.temp m)) 0 * (uscale / Tnorm)
  let B := forN n (fun a m => a + s.rho m * s.vfrac m * ratio σ (s.sie m) (s.temp m)) 0 / Tnorm
  let T := uscale / B / Tnorm
  (ratio σ (Tnorm * T * A) (uscale * vt), T)

/-- `mixed_cell_models.hpp:715-725`: rescale the volume fractions one by one; `true` means a material
was put into a bad state and the loop stopped there, the entries up to it having been restored from
`vtemp` (at offset `2n` of the scratch). The loop index is `m`, `f` entries left. -/
def idealVfrac (σ : K) (E : MatEOS K) (n N : Nat) (Tnorm P T : K) :
    Nat → Nat → IdealState K → Bool × IdealState K
  | 0, _, s => (false, s)
  | f + 1, m, s =>
    let v := Function.update s.vfrac m
      (s.vfrac m * ratio σ (s.press m) (s.temp m * ratio σ P T))
    if Tnorm * T < 0 ∨ ratio σ (s.mem (offRhobar N n + m)) (v m) < E.rhoPmin m (Tnorm * T) then
      (true, { s with vfrac := fill (m + 1) (fun i => s.mem (2 * n + i)) v })
    else idealVfrac σ E n N Tnorm P T f (m + 1) { s with vfrac := v }

/-- `TryIdealPTE` (`mixed_cell_models.hpp:692-763`). `resid` is `solver->Residual()` as a function of
the arrays it reads: it writes `residual[0..N)`. The four copies go to offsets `0, n, 2n, 3n` of the
scratch and the residual copy to `4n`. -/
def tryIdealPTE (σ : K) (E : MatEOS K) (n N : Nat) (uscale Tnorm vt : K)
    (resid : (vfrac u press temp : Nat → K) → Nat → K) (s : IdealState K) : IdealState K :=
  let id := idealPTE σ n uscale Tnorm vt s
  let P := id.1
  let T := id.2
  -- copy out, :705-714 (each pass writes four cells; residual and u are read from the scratch)
  let mem1 := forN n (fun a m =>
    Function.update (Function.update (Function.update (Function.update a
      (0 + m) (a (offU N + m))) (n + m) (s.press m)) (2 * n + m) (s.vfrac m)) (3 * n + m) (s.rho m)) s.mem
  let c := forN N (fun (t : (Nat → K) × K) m =>
    let a := Function.update t.1 (4 * n + m) (t.1 (offRes N + m))
    (a, t.2 + a (4 * n + m) * a (4 * n + m))) (mem1, 0)
  let mem2 := c.1
  let normOld := c.2
  let r := idealVfrac σ E n N Tnorm P T n 0 { s with mem := mem2 }
  if r.1 = true then r.2
  else
    let s1 := r.2
    -- fill in the rest, :727-738
    let rho := fill n (fun m => ratio σ (s1.mem (offRhobar N n + m)) (s1.vfrac m)) s1.rho
    let e := fun m => E.eOf m (rho m) (Tnorm * T)
    let mem3 := store (offU N) n (fun m => s1.mem (offRhobar N n + m) * ratio σ (e m) uscale) s1.mem
    let press := fill n (fun m => ratio σ (E.pOf m (rho m) (Tnorm * T) (e m)) uscale) s1.press
    let mem4 := store (offRes N) N
      (resid s1.vfrac (fun m => mem3 (offU N + m)) press s1.temp) mem3
    let normNew := forN N (fun a m => a + mem4 (offRes N + m) * mem4 (offRes N + m)) 0
    if normNew > normOld then
      -- restore, :745-755
      { s1 with
        vfrac := fill n (fun m => mem4 (2 * n + m)) s1.vfrac
        rho := fill n (fun m => mem4 (3 * n + m)) rho
        press := fill n (fun m => mem4 (n + m)) press
        mem := forN N (fun a m => Function.update a (offRes N + m) (a (4 * n + m)))
          (forN n (fun a m => Function.update a (offU N + m) (a (0 + m))) mem4) }
    else
      { s1 with
        rho := rho, press := press, mem := mem4
        temp := fill n (fun _ => T) s1.temp
        sie := fill n (fun m => uscale * ratio σ (mem4 (offU N + m)) (mem4 (offRhobar N n + m))) s1.sie }

/-- The bisection of `ApproxTemperatureFromRhoMatU` (`mixed_cell_models.hpp:829-843`): `f` passes left.
State: `(lTlo, ulo, lThi, uhi)`. -/
def approxBisect (U pow2 : K → K) (utot : K) : Nat → K × K × K × K → K × K × K × K
  | 0, s => s
  | f + 1, (lo, ulo, hi, uhi) =>
    if hi - lo > 1 / 100 then
      let lT := 1 / 2 * (lo + hi)
      let uT := U (pow2 lT)
      if uT < utot then approxBisect U pow2 utot f (lT, uT, hi, uhi)
      else approxBisect U pow2 utot f (lo, ulo, lT, uT)
    else (lo, ulo, hi, uhi)

/-- `ApproxTemperatureFromRhoMatU` (`mixed_cell_models.hpp:790-847`). `lg`, `pow2` are
`FastMath::lg`, `FastMath::pow2`; `tmin = 1e-9`, `tmax = 1e9`. `ufunc` is a sum over the materials. -/
def approxTemperature (σ : K) (E : MatEOS K) (lg pow2 : K → K) (n : Nat) (utot : K)
    (rho vfrac : Nat → K) (Tguess : K) : K :=
  let tmin : K := 1 / 10 ^ 9
  let tmax : K := 10 ^ 9
  let U := fun T => forN n (fun a m => a + rho m * vfrac m * E.eOf m (rho m) T) 0
  let ulo := U tmin
  if utot < ulo then tmin
  else
    let uhi := U tmax
    if utot > uhi then tmax
    else
      let s0 : K × K × K × K :=
        if Tguess > tmin ∧ Tguess < tmax then
          if U Tguess < utot then (lg Tguess, U Tguess, lg tmax, uhi)
          else (lg tmin, ulo, lg Tguess, U Tguess)
        else (lg tmin, ulo, lg tmax, uhi)
      let s := approxBisect U pow2 utot 10 s0
      let alpha := ratio σ (utot - s.2.1) (s.2.2.2 - s.2.1)
      pow2 ((1 - alpha) * s.1 + alpha * s.2.2.1)

end Verif.PTE
