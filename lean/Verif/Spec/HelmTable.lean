import Mathlib.Data.Real.Basic

/-! # Specification: the published Helmholtz table file

`helm_table.dat` lists numbers separated by white space: four blocks one after the other, with 9, 4, 4 and 4 columns. In each
block there is one row for every temperature and density, the density running fastest: 101 temperatures from `10^3` K to
`10^13` K and 271 electron densities from `10^-12` to `10^15` g/cc, both equally spaced in the logarithm. -/

namespace Verif.Spec.HelmTable

/-- What is separated by white space in a file: numbers (`some v`) and other words. -/
abbrev File := List (Option ℝ)

/-- `n`-th number of the file, if there is one. -/
def numAt (file : File) (n : Nat) : Option ℝ := file[n]?.join

/-- Where the block beginning at number `off` and having `cols` columns holds column `c` at temperature `j`, density `i`, if
there are `nr` densities. -/
def pos (nr off cols c j i : Nat) : Nat := off + (nr * j + i) * cols + c

/-- Numbers of one column. -/
def pts : Nat := 101 * 271

/-- The file has all the numbers of a table. -/
def Complete (file : File) : Prop := ∀ n < 21 * pts, ∃ v, numAt file n = some v

end Verif.Spec.HelmTable
