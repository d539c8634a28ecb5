import Verif.Model.Loops
import Verif.Model.RootFind
import Verif.Model.Robust
import Verif.Model.PTECheck
import Verif.Model.Table.Bounds

/-!
# The example programs

`example/eos_grid.cpp`, `example/map_pt_space.cpp`, `example/pte_2mat.cpp`, `example/get_sound_speed_press.cpp`, and the
argument checks of these, of `example/get_sesame_state.cpp` and of `example/get_spiner_bounds.cpp`. Equations of state are arbitrary functions
of density and temperature or energy; a Spiner `DataBox` of sizes `(n, m)` keeps entry `(j, i)` at `j * m + i` of its storage
(external library). Printing, timing and device copies (the identity) are left out.
-/

namespace Verif.Examples

open RootFind Robust

variable {K : Type*} [Field K] [LinearOrder K]

/-! ## eos_grid -/

/-- `eos_grid.cpp:69, 74, 88-94`: the points `10^x(i)` of a logarithmic grid of `n` points between `10^lo` and `10^hi`. -/
noncomputable def gridPoint (lo hi : ℝ) (n : Nat) (i : Nat) : ℝ := (10 : ℝ) ^ (Bounds.Grid.x ⟨lo, hi, n⟩ (i : ℤ))

/-- `eos_grid.cpp:110-119`: the loop on the device, `j < nrho`, `i < nT`, storing into `press_d(j, i)`; in any order, here row by
row. -/
def deviceGrid (nrho nT : Nat) (P : K → K → K) (rhos Ts mem : Nat → K) : Nat → K :=
  forN nrho (fun m j => forN nT (fun m i => Function.update m (j * nT + i) (P (rhos j) (Ts i))) m) mem

/-- `eos_grid.cpp:143-149`: the loop on the host, `j < nT`, `i < nrho`, storing into `press_h(j, i)`; `rhos`, `Ts` are
what memory holds at and behind the arrays `rhos_h` (of `nrho` entries) and `Ts_h` (of `nT`). -/
def hostGrid (nrho nT : Nat) (P : K → K → K) (rhos Ts mem : Nat → K) : Nat → K :=
  forN nT (fun m j => forN nrho (fun m i => Function.update m (j * nT + i) (P (rhos j) (Ts i))) m) mem

/-- `eos_grid.cpp:110-149`: the table saved: the device loop, the copy to the host, the host loop. -/
def savedGrid (nrho nT : Nat) (P : K → K → K) (rhos Ts mem : Nat → K) : Nat → K :=
  hostGrid nrho nT P rhos Ts (deviceGrid nrho nT P rhos Ts mem)

/-- `eos_grid.cpp:143-147`: the positions read in `rhos_h` and `Ts_h` and written in the storage of `press_h`, in order. -/
def hostAccesses (nrho nT : Nat) : List (Nat × Nat × Nat) :=
  (List.range nT).flatMap fun j => (List.range nrho).map fun i => (j, i, j * nT + i)

/-! ## map_pt_space -/

/-- One line of the output of `map_pt_space`: temperature, the two pressures, and the residuals of volume, energy and pressure
(`map_pt_space.cpp:120-131`). -/
structure MapRow (K : Type*) where
  T : K
  p1 : K
  p2 : K
  resV : K
  resE : K
  resP : K

/-- `map_pt_space.cpp:154-157`: the energy density of the mixture at temperature `T`. -/
def mixEnergy (σ : K) (e1 e2 : K → K → K) (rb1 rb2 α : K) (T : K) : K :=
  rb1 * e1 (ratio σ rb1 α) T + rb2 * e2 (ratio σ rb2 (1 - α)) T

/-- `map_pt_space.cpp:169-170`: the line of a volume fraction for which the root finder failed. -/
def failedRow : MapRow K :=
  { T := -1
    p1 := -1
    p2 := -1
    resV := -1
    resE := -1
    resP := -1 }

/-- `map_pt_space.cpp:139-185`: one pass of the first loop, for the volume fraction `α` of the first material; `none` if the root
finder does not return. -/
def mapRow (σ : K) (e1 e2 p1 p2 : K → K → K) (rb1 rb2 sietot Tmin Tmax α : K) : Option (MapRow K) :=
  let utot := (rb1 + rb2) * sietot
  let rho1 := ratio σ rb1 α
  let rho2 := ratio σ rb2 (1 - α)
  match regulaFalsi 1000 (mixEnergy σ e1 e2 rb1 rb2 α) utot 1500 Tmin Tmax (1 / 10 ^ 16) (1 / 10 ^ 16) with
  | none => none
  | some (⟨.success, some T⟩, _) =>
    let P1 := p1 rho1 T
    let P2 := p2 rho2 T
    let u1 := rb1 * e1 rho1 T
    let u2 := rb2 * e2 rho2 T
    some
      { T := T
        p1 := P1
        p2 := P2
        resV := α + (1 - α) - 1
        resE := ratio σ (u1 + u2 - utot) utot
        resP := ratio σ (P2 - P1) utot }
  | some _ => some failedRow

/-- `map_pt_space.cpp:199`: `Ts_h.max()`, over the `n + 1` lines. -/
def maxWalked (Ts : Nat → K) (n : Nat) : K := forN n (fun m i => max m (Ts (i + 1))) (Ts 0)

/-! ## pte_2mat -/

/-- `pte_2mat.cpp:189-193`: volume fractions and densities the solver starts from. -/
def start2 (rb1 rb2 a1 a2 : K) : (K × K) × (K × K) :=
  let s := a1 + a2
  ((a1 / s, a2 / s), (s * rb1 / a1, s * rb2 / a2))

/-- `pte_2mat.cpp:170-179`: the tolerances tested for convergence (those for volume keep their default). -/
noncomputable def tol2mat : PTE.Tol := ⟨1 / 10 ^ 10, 1 / 10 ^ 10, 1 / 10 ^ 10, 1 / 10 ^ 6, 0, 0⟩

/-- `pte_2mat.cpp:173-179`: the tolerances tested for acceptance. -/
noncomputable def suff2mat : PTE.Tol := ⟨1 / 10 ^ 10, 1 / 10 ^ 10, 1 / 10 ^ 10, 100 * (1 / 10 ^ 6), 0, 0⟩

/-! ## get_sound_speed_press -/

/-- `get_sound_speed_press.cpp:50-55`: the loop with single queries; `P`, `B` are the pressure and bulk modulus queries by density and
energy. Returns the arrays `P`, `cs`. -/
noncomputable def singleCalls (σ : ℝ) (P B : ℝ → ℝ → ℝ) (n : Nat) (rho uu : Nat → ℝ) (p cs : Nat → ℝ) : (Nat → ℝ) × (Nat → ℝ) :=
  forN n (fun s i =>
    let sie := ratio σ (uu i) (rho i)
    (Function.update s.1 i (P (rho i) sie),
      Function.update s.2 i (Real.sqrt (ratio σ (B (rho i) sie) (rho i))))) (p, cs)

/-- `get_sound_speed_press.cpp:76-85`: the loop with `FillEos`, which returns pressure and bulk modulus (the bulk modulus is first
stored in `cs`). -/
noncomputable def fillCalls (σ : ℝ) (fillEos : ℝ → ℝ → ℝ × ℝ) (n : Nat) (rho uu : Nat → ℝ) (p cs : Nat → ℝ) :
    (Nat → ℝ) × (Nat → ℝ) :=
  forN n (fun s i =>
    let sie := ratio σ (uu i) (rho i)
    let q := fillEos (rho i) sie
    let cs1 := Function.update s.2 i q.2
    (Function.update s.1 i q.1, Function.update cs1 i (Real.sqrt (ratio σ (cs1 i) (rho i))))) (p, cs)

/-! ## Command lines -/

/-- The smallest `argc` a program accepts and the largest position in `argv` it then always reads. -/
structure Cli where
  need : Nat
  top : Nat

/-- `pte_2mat.cpp:107`, `:119-133` -/
def cliPte2mat : Cli := ⟨8, 10⟩

/-- `map_pt_space.cpp:68`, `:82-96` -/
def cliMap : Cli := ⟨6, 8⟩

/-- `eos_grid.cpp:58`, `:65-98` -/
def cliGrid : Cli := ⟨8, 9⟩

/-- `get_sesame_state.cpp:160`, `:166-170` -/
def cliState : Cli := ⟨6, 5⟩

/-- `get_spiner_bounds.cpp:31`, `:36-37` (position 3 is read only if there) -/
def cliBounds : Cli := ⟨3, 2⟩

end Verif.Examples
