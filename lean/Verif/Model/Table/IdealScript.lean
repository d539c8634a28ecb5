import Verif.Model.Table.StellarCollapse
import Mathlib.Analysis.SpecialFunctions.Pow.Real
import Mathlib.Analysis.SpecialFunctions.Log.Base

/-!
# `utils/scripts/make_tabulated_ideal_sc.py`: an ideal gas in the stellarcollapse.org format

Real arithmetic; `np.log10`, `np.power(10., .)` and `**` are the real functions. Not modelled: the command line, the data sets no
reader of this code base reads (`cs2`, `gamma`), the refusal to run without an output name.
-/

namespace Verif.SC

noncomputable section

/-- The constants used, `utils/scripts/units.py:29`, `:40-41`: `cgs['KBOL']`, `cgs['MEV']`. -/
structure Cgs where
  (KBOL MEV : ℝ)

/-- `utils/scripts/units.py:29`, `:40-41`. -/
def cgs : Cgs := ⟨13806505 / 10 ^ 23, 10 ^ 6 * (160217653 / 10 ^ 20)⟩

/-- The command line arguments, `make_tabulated_ideal_sc.py:24-50`. -/
structure Args where
  (gam mu : ℝ)
  (nrho ntemp nye : Nat)
  (rhomin rhomax tempmin tempmax yemin yemax : ℝ)

namespace Args

/-- `np.linspace(a, b, n)[i]` (used in make_tabulated_ideal_sc.py:70-73). -/
def linspace (a b : ℝ) (n i : Nat) : ℝ := a + i * ((b - a) / ((n : ℝ) - 1))

/-- `rho`, `make_tabulated_ideal_sc.py:70`, `:74`. -/
def rho (a : Args) (i : Nat) : ℝ := (10 : ℝ) ^ linspace (Real.logb 10 a.rhomin) (Real.logb 10 a.rhomax) a.nrho i

/-- `temp`, `make_tabulated_ideal_sc.py:71`, `:75` (kelvin). -/
def temp (a : Args) (j : Nat) : ℝ := (10 : ℝ) ^ linspace (Real.logb 10 a.tempmin) (Real.logb 10 a.tempmax) a.ntemp j

/-- `ye`, `make_tabulated_ideal_sc.py:73`. -/
def ye (a : Args) (k : Nat) : ℝ := linspace a.yemin a.yemax a.nye k

/-- `PRS`, `make_tabulated_ideal_sc.py:79`. -/
def prs (c : Cgs) (a : Args) (j i : Nat) : ℝ := a.rho i * c.KBOL * a.temp j / a.mu

/-- `EPS = UU / RHO`, `UU = PRS / (gam - 1)`, `make_tabulated_ideal_sc.py:80-81`. -/
def eps (c : Cgs) (a : Args) (j i : Nat) : ℝ := a.prs c j i / (a.gam - 1) / a.rho i

/-- The file written, `make_tabulated_ideal_sc.py:58-68` (bounds), `:85-105` (tables), `:111-138` (data sets). `logtemp` is in MeV,
the tables are at the temperatures in kelvin; `dedt` is per MeV. -/
def file (c : Cgs) (a : Args) : File ℝ :=
  { nRho := a.nrho
    nT := a.ntemp
    nYe := a.nye
    logrhoMin := linspace (Real.logb 10 a.rhomin) (Real.logb 10 a.rhomax) a.nrho 0
    logrhoMax := linspace (Real.logb 10 a.rhomin) (Real.logb 10 a.rhomax) a.nrho (a.nrho - 1)
    logtempMin := linspace (Real.logb 10 (a.tempmin * c.KBOL / c.MEV)) (Real.logb 10 (a.tempmax * c.KBOL / c.MEV)) a.ntemp 0
    logtempMax := linspace (Real.logb 10 (a.tempmin * c.KBOL / c.MEV)) (Real.logb 10 (a.tempmax * c.KBOL / c.MEV)) a.ntemp
      (a.ntemp - 1)
    yeMin := a.ye 0
    yeMax := a.ye (a.nye - 1)
    energyShift := 0
    data := fun f k j i => match f with
      | .lP => Real.logb 10 (a.prs c j i)
      | .lE => Real.logb 10 (a.eps c j i)
      | .dPdRho => (a.gam - 1) * a.eps c j i
      | .dPdE => (a.gam - 1) * a.rho i
      | .dEdT => 1 * a.eps c j i / a.temp j * c.MEV / c.KBOL
      | .entropy => a.prs c j i * a.rho i ^ (-a.gam)
      | .Xa => 0
      | .Xh => 0
      | .Xp => a.ye k
      | .Xn => 1 - a.ye k
      | .lBMod => 0
      | _ => 1 }

end Args

end

end Verif.SC
