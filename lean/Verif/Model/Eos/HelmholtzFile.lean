import Verif.Model.Eos.Helmholtz
import Verif.Model.Table.DataBox

/-! # Reading the Helmholtz table

`HelmUtils` and `HelmElectrons::InitDataFile_` of `eos_helmholtz.hpp`. -/

namespace Verif.Helm

open Verif.Databox

/-- What is left to read of the file: white-space separated words, `some v` for a number. Simplification: `file >> var` stops
in the middle of a word such as `1.0x`, takes the `1.0`, and fails at the next read; here such a word is not a number.
(eos_helmholtz.hpp:182) -/
abbrev Stream := List (Option ℝ)

/-- The tables being filled: table number, temperature index, density index. (eos_helmholtz.hpp:194-208) -/
abbrev Cols := Nat → Nat → Nat → ℝ

/-- `tables(j, i) = v` for table number `c`. (eos_helmholtz.hpp:206) -/
def Cols.set (t : Cols) (c j i : Nat) (v : ℝ) : Cols := fun c' j' i' => if c' = c ∧ j' = j ∧ i' = i then v else t c' j' i'

/-- `Read(file, error_msg, tables(j, i)...)` for the tables `c, c + 1, …` (`k` of them); `none` if the program is aborted.
`eos_helmholtz.hpp:180-192` -/
def readVars (j i : Nat) : Nat → Nat → Cols × Stream → Option (Cols × Stream)
  | _, 0, st => some st
  | c, k + 1, (t, some v :: s) => readVars j i (c + 1) k (t.set c j i v, s)
  | _, _ + 1, (_, _) => none

/-- `SetTablesFromFile` with `k` tables, `eos_helmholtz.hpp:193-210`; `t` is what the freshly allocated tables hold. -/
def setTables (n1 n0 k : Nat) (st : Cols × Stream) : Option (Cols × Stream) :=
  (List.range n1).foldlM (fun st j => (List.range n0).foldlM (fun st i => readVars j i 0 k st) st) st

/-- `NTEMP`, `eos_helmholtz.hpp:304` -/
def nTemp : Nat := 101
/-- `NRHO`, `eos_helmholtz.hpp:305` -/
def nRho : Nat := 271
/-- `db.setRange(1, r1min, r1max, n1)` with `lTMin_`, `lTMax_`. (eos_helmholtz.hpp:170, 310-311, 967) -/
noncomputable def gT : Grid ℝ := ⟨3, 13, nTemp⟩
/-- `db.setRange(0, r0min, r0max, n0)` with `lRhoMin_`, `lRhoMax_`. (eos_helmholtz.hpp:171, 312-313, 967) -/
noncomputable def gRho : Grid ℝ := ⟨-12, 15, nRho⟩

/-- `HelmElectrons::InitDataFile_`, `eos_helmholtz.hpp:962-989`. The argument is what the file holds after it was opened. -/
noncomputable def load (u : Cols) (file : Stream) : Option Tables :=
  match setTables nTemp nRho 9 (u, file) with
  | none => none
  | some (a, s1) =>
    match setTables nTemp nRho 4 (u, s1) with
    | none => none
    | some (b, s2) =>
      match setTables nTemp nRho 4 (u, s2) with
      | none => none
      | some (c, s3) =>
        match setTables nTemp nRho 4 (u, s3) with
        | none => none
        | some (d, _) => some
            { rho := fun i => pow10 (gRho.x i)
              T := fun j => pow10 (gT.x j)
              f := a 0
              fd := a 1
              ft := a 2
              fdd := a 3
              ftt := a 4
              fdt := a 5
              fddt := a 6
              fdtt := a 7
              fddtt := a 8
              dpdf := b 0
              dpdfd := b 1
              dpdft := b 2
              dpdfdt := b 3
              ef := c 0
              efd := c 1
              eft := c 2
              efdt := c 3
              xf := d 0
              xfd := d 1
              xft := d 2
              xfdt := d 3
              rhoMin := (10 ^ 12)⁻¹
              rhoMax := 10 ^ 15
              lRhoMin := -12
              lRhoMax := 15
              lTMin := 3
              lTMax := 13
              idxRho := gRho.index
              idxT := gT.index }

end Verif.Helm
