import Verif.Model.Table.Hermite
import Verif.Model.Robust
import Verif.Spec.Jets
import Verif.Model.RootFind
import Mathlib.Analysis.SpecialFunctions.Pow.Real
import Mathlib.Analysis.SpecialFunctions.Log.Base
import Mathlib.Analysis.SpecialFunctions.Sqrt

/-!
# The Helmholtz (stellar plasma) EOS

`singularity-eos/eos/eos_helmholtz.hpp`.  Real arithmetic instead of `double`; the tables are arbitrary
functions of the two indices, Spiner's `RegularGrid1D::index` is an arbitrary function of the logarithm.
-/

namespace Verif.Helm

open Verif.Hermite Verif.Robust

noncomputable section

/-- `base/math_utils.hpp:56-59` (`ln10` is the literal 2.30258509299405; here the exact logarithm). -/
def pow10 (x : ℝ) : ℝ := Real.exp (Real.log 10 * x)

/-- `std::log10` (eos_helmholtz.hpp:752,757,769) -/
def log10 (x : ℝ) : ℝ := Real.logb 10 x

/-- A quantity and its derivatives with respect to density, temperature, abar, zbar:
`HelmUtils::DERIV`, `eos_helmholtz.hpp:162-164`. -/
abbrev D5 := Verif.Spec.Reported

/-- `Real x[NDERIV] = {0}`, `eos_helmholtz.hpp:1513-1515` -/
def zero5 : D5 := ⟨0, 0, 0, 0, 0⟩

/-- The sums over `i < 5` in `eos_helmholtz.hpp:1563-1572`. -/
def add5 (a b : D5) : D5 := ⟨a.val + b.val, a.ddr + b.ddr, a.ddt + b.ddt, a.dda + b.dda, a.ddz + b.ddz⟩

/-! ## The electron table -/

/-- The members of `HelmElectrons`, `eos_helmholtz.hpp:283-324`: `f j i` is `f_(jat, iat)`, temperature index
first.  `idxRho`/`idxT` stand for Spiner's `range(0).index` and `range(1).index`. -/
structure Tables where
  rho : Nat → ℝ
  T : Nat → ℝ
  (f fd ft fdd ftt fdt fddt fdtt fddtt : Nat → Nat → ℝ)
  (dpdf dpdfd dpdft dpdfdt : Nat → Nat → ℝ)
  (ef efd eft efdt : Nat → Nat → ℝ)
  (xf xfd xft xfdt : Nat → Nat → ℝ)
  (rhoMin rhoMax lRhoMin lRhoMax lTMin lTMax : ℝ)
  (idxRho idxT : ℝ → Nat)

/-- The six quintic weights of one direction: `si0, si1, si2` and the mirrored `si0m, si1m, si2m`.
(eos_helmholtz.hpp:1060-1110) -/
structure W6 where
  (w0 w1 w2 m0 m1 m2 : ℝ)

/-- The four cubic weights of one direction. (eos_helmholtz.hpp:1140-1180) -/
structure W4 where
  (w0 w1 m0 m1 : ℝ)

/-- `eos_helmholtz.hpp:1070-1084`: `si*t` (`h = dth`) and `si*d` (`h = dd`). -/
def wts (h x : ℝ) : W6 :=
  ⟨psi0 x, psi1 x * h, psi2 x * (h * h), psi0 (1 - x), -psi1 (1 - x) * h, psi2 (1 - x) * (h * h)⟩

/-- `eos_helmholtz.hpp:1087-1101`: `dsi*t` and `dsi*d` (`hi = dti` or `ddi`). -/
def dwts (h hi x : ℝ) : W6 :=
  ⟨dpsi0 x * hi, dpsi1 x, dpsi2 x * h, -dpsi0 (1 - x) * hi, dpsi1 (1 - x), -dpsi2 (1 - x) * h⟩

/-- `eos_helmholtz.hpp:1104-1110`: `ddsi*t`. -/
def ddwts (hi x : ℝ) : W6 :=
  ⟨ddpsi0 x * (hi * hi), ddpsi1 x * hi, ddpsi2 x, ddpsi0 (1 - x) * (hi * hi), -ddpsi1 (1 - x) * hi,
    ddpsi2 (1 - x)⟩

/-- `eos_helmholtz.hpp:1140-1150`: the cubic weights. -/
def xwts (h x : ℝ) : W4 := ⟨xpsi0 x, xpsi1 x * h, xpsi0 (1 - x), -xpsi1 (1 - x) * h⟩

/-- `eos_helmholtz.hpp:1153-1163`: derivatives of the cubic weights. -/
def xdwts (h hi x : ℝ) : W4 := ⟨xdpsi0 x * hi, xdpsi1 x, -xdpsi0 (1 - x) * hi, xdpsi1 (1 - x)⟩

/-- The argument order of the calls `hermite::h5(fi, si0t, si1t, si2t, si0mt, …, si0d, …)`.
(eos_helmholtz.hpp:1113-1136) -/
def h5w (fi : Nat → ℝ) (t d : W6) : ℝ :=
  h5 fi t.w0 t.w1 t.w2 t.m0 t.m1 t.m2 d.w0 d.w1 d.w2 d.m0 d.m1 d.m2

/-- The argument order of the calls `hermite::h3(fi, si0t, si1t, si0mt, si1mt, si0d, …)`.
(eos_helmholtz.hpp:1185-1245) -/
def h3w (fi : Nat → ℝ) (t d : W4) : ℝ := h3 fi t.w0 t.w1 t.m0 t.m1 d.w0 d.w1 d.m0 d.m1

/-- The cache `fi[36]`, `eos_helmholtz.hpp:1025-1061`. -/
def gather (tb : Tables) (j i : Nat) : Nat → ℝ
  | 0 => tb.f j i | 1 => tb.f j (i + 1) | 2 => tb.f (j + 1) i | 3 => tb.f (j + 1) (i + 1)
  | 4 => tb.ft j i | 5 => tb.ft j (i + 1) | 6 => tb.ft (j + 1) i | 7 => tb.ft (j + 1) (i + 1)
  | 8 => tb.ftt j i | 9 => tb.ftt j (i + 1) | 10 => tb.ftt (j + 1) i | 11 => tb.ftt (j + 1) (i + 1)
  | 12 => tb.fd j i | 13 => tb.fd j (i + 1) | 14 => tb.fd (j + 1) i | 15 => tb.fd (j + 1) (i + 1)
  | 16 => tb.fdd j i | 17 => tb.fdd j (i + 1) | 18 => tb.fdd (j + 1) i | 19 => tb.fdd (j + 1) (i + 1)
  | 20 => tb.fdt j i | 21 => tb.fdt j (i + 1) | 22 => tb.fdt (j + 1) i | 23 => tb.fdt (j + 1) (i + 1)
  | 24 => tb.fddt j i | 25 => tb.fddt j (i + 1) | 26 => tb.fddt (j + 1) i | 27 => tb.fddt (j + 1) (i + 1)
  | 28 => tb.fdtt j i | 29 => tb.fdtt j (i + 1) | 30 => tb.fdtt (j + 1) i | 31 => tb.fdtt (j + 1) (i + 1)
  | 32 => tb.fddtt j i | 33 => tb.fddtt j (i + 1) | 34 => tb.fddtt (j + 1) i | 35 => tb.fddtt (j + 1) (i + 1)
  | _ => 0

/-- The re-used cache `fi[0..15]` for a bicubic table: `eos_helmholtz.hpp:1166-1181`, `:1188-1203`,
`:1220-1235`. -/
def gather3 (g gt gd gdt : Nat → Nat → ℝ) (j i : Nat) : Nat → ℝ
  | 0 => g j i | 1 => g j (i + 1) | 2 => g (j + 1) i | 3 => g (j + 1) (i + 1)
  | 4 => gt j i | 5 => gt j (i + 1) | 6 => gt (j + 1) i | 7 => gt (j + 1) (i + 1)
  | 8 => gd j i | 9 => gd j (i + 1) | 10 => gd (j + 1) i | 11 => gd (j + 1) (i + 1)
  | 12 => gdt j i | 13 => gdt j (i + 1) | 14 => gdt (j + 1) i | 15 => gdt (j + 1) (i + 1)
  | _ => 0

/-- The cell-local quantities of `eos_helmholtz.hpp:1016-1022`, `:1064-1067`: `dth, dti, xt` or `dd, ddi, xd`. -/
structure Cell where
  (h hi x : ℝ)

/-- `eos_helmholtz.hpp:1016-1022,1064-1067` for one direction: nodes `X j, X (j+1)`, evaluation point `y`. -/
def cell (σ : ℝ) (X : Nat → ℝ) (j : Nat) (y : ℝ) : Cell :=
  let h := X (j + 1) - X j
  let hi := ratio σ 1 h
  ⟨h, hi, max 0 ((y - X j) * hi)⟩

/-- `free_en`, `eos_helmholtz.hpp:1113-1114` -/
def freeEn (σ : ℝ) (tb : Tables) (j i : Nat) (T De : ℝ) : ℝ :=
  let t := cell σ tb.T j T
  let d := cell σ tb.rho i De
  h5w (gather tb j i) (wts t.h t.x) (wts d.h d.x)

/-- `df_t`, `eos_helmholtz.hpp:1116-1117` -/
def dfT (σ : ℝ) (tb : Tables) (j i : Nat) (T De : ℝ) : ℝ :=
  let t := cell σ tb.T j T
  let d := cell σ tb.rho i De
  h5w (gather tb j i) (dwts t.h t.hi t.x) (wts d.h d.x)

/-- `df_tt`, `eos_helmholtz.hpp:1119-1120` -/
def dfTT (σ : ℝ) (tb : Tables) (j i : Nat) (T De : ℝ) : ℝ :=
  let t := cell σ tb.T j T
  let d := cell σ tb.rho i De
  h5w (gather tb j i) (ddwts t.hi t.x) (wts d.h d.x)

/-- `df_d`, `eos_helmholtz.hpp:1130-1131` -/
def dfD (σ : ℝ) (tb : Tables) (j i : Nat) (T De : ℝ) : ℝ :=
  let t := cell σ tb.T j T
  let d := cell σ tb.rho i De
  h5w (gather tb j i) (wts t.h t.x) (dwts d.h d.hi d.x)

/-- `df_dt`, `eos_helmholtz.hpp:1134-1135` -/
def dfDT (σ : ℝ) (tb : Tables) (j i : Nat) (T De : ℝ) : ℝ :=
  let t := cell σ tb.T j T
  let d := cell σ tb.rho i De
  h5w (gather tb j i) (dwts t.h t.hi t.x) (dwts d.h d.hi d.x)

/-- A bicubic table value `h3(fi, si0t, si1t, si0mt, si1mt, si0d, …)`. (eos_helmholtz.hpp:1185, 1206, 1238) -/
def cub (σ : ℝ) (tb : Tables) (g gt gd gdt : Nat → Nat → ℝ) (j i : Nat) (T De : ℝ) : ℝ :=
  let t := cell σ tb.T j T
  let d := cell σ tb.rho i De
  h3w (gather3 g gt gd gdt j i) (xwts t.h t.x) (xwts d.h d.x)

/-- Its density derivative `h3(fi, si0t, …, dsi0d, dsi1d, dsi0md, dsi1md)`. (eos_helmholtz.hpp:1209) -/
def cubD (σ : ℝ) (tb : Tables) (g gt gd gdt : Nat → Nat → ℝ) (j i : Nat) (T De : ℝ) : ℝ :=
  let t := cell σ tb.T j T
  let d := cell σ tb.rho i De
  h3w (gather3 g gt gd gdt j i) (xwts t.h t.x) (xdwts d.h d.hi d.x)

/-- Its temperature derivative `h3(fi, dsi0t, …, si0d, …)`. (eos_helmholtz.hpp:1213) -/
def cubT (σ : ℝ) (tb : Tables) (g gt gd gdt : Nat → Nat → ℝ) (j i : Nat) (T De : ℝ) : ℝ :=
  let t := cell σ tb.T j T
  let d := cell σ tb.rho i De
  h3w (gather3 g gt gd gdt j i) (xdwts t.h t.hi t.x) (xwts d.h d.x)

/-- The five arrays filled by each component. (eos_helmholtz.hpp:999-1002) -/
structure Five where
  (p e s eta xne : D5)

/-- The bounded density-like inputs, `eos_helmholtz.hpp:1004-1006`. -/
def clampTo (lo hi x : ℝ) : ℝ := min hi (max lo x)

/-- The body of `HelmElectrons::GetFromDensityTemperature` after the table lookup (`only_e = false`),
`eos_helmholtz.hpp:1113-1278`, in cell `(j, i)`. -/
def electronsCell (σ : ℝ) (tb : Tables) (j i : Nat) (rho T Ye Ytot De : ℝ) : Five :=
  let F := freeEn σ tb j i T De
  let Ft := dfT σ tb j i T De
  let Ftt := dfTT σ tb j i T De
  let Fd := dfD σ tb j i T De
  let Fdt := dfDT σ tb j i T De
  let p1 := max 0 (Ye * cub σ tb tb.dpdf tb.dpdft tb.dpdfd tb.dpdfdt j i T De)
  let ed := cubD σ tb tb.ef tb.eft tb.efd tb.efdt j i T De
  let xd := max 0 (cubD σ tb tb.xf tb.xft tb.xfd tb.xfdt j i T De)
  let p0 := De * De * Fd
  let s' := p1 / Ye - 2 * De * Fd
  let s0 := -Ft * Ye
  let s1 := -Fdt * (Ye * Ye)
  let s2 := -Ftt * Ye
  let s3 := Ytot * (Ye * Fdt * De - s0)
  let s4 := -Ytot * (Ye * Fdt * rho + Ft)
  { p := ⟨p0, p1, De * De * Fdt, -Ytot * (2 * p0 + s' * De), rho * Ytot * (2 * De * Fd + s')⟩
    s := ⟨s0, s1, s2, s3, s4⟩
    e := ⟨Ye * F + T * s0, Ye * Ye * Fd + T * s1, T * s2, -Ye * Ytot * (F + Fd * De) + T * s3,
          Ytot * (F + Ye * Fd * rho) + T * s4⟩
    eta := ⟨cub σ tb tb.ef tb.eft tb.efd tb.efdt j i T De, Ye * ed,
            cubT σ tb tb.ef tb.eft tb.efd tb.efdt j i T De, -ed * De * Ytot, ed * rho * Ytot⟩
    xne := ⟨cub σ tb tb.xf tb.xft tb.xfd tb.xfdt j i T De, Ye * xd,
            cubT σ tb tb.xf tb.xft tb.xfd tb.xfdt j i T De, -xd * De * Ytot, xd * rho * Ytot⟩ }

/-- `HelmElectrons::GetFromDensityTemperature` with `only_e = false`, `eos_helmholtz.hpp:997-1278`. -/
def electrons (σ : ℝ) (tb : Tables) (rho lT Ye Ytot De lDe : ℝ) : Five :=
  electronsCell σ tb (tb.idxT lT) (tb.idxRho (clampTo tb.lRhoMin tb.lRhoMax lDe))
    (clampTo tb.rhoMin tb.rhoMax rho) (pow10 lT) Ye Ytot (clampTo tb.rhoMin tb.rhoMax De)

/-- `only_e = true`: only `eele[0]` and `eele[2]` are written, `eos_helmholtz.hpp:1122-1126`. -/
def electronsE (σ : ℝ) (tb : Tables) (lT Ye De0 lDe0 : ℝ) : D5 :=
  let De := clampTo tb.rhoMin tb.rhoMax De0
  let lDe := clampTo tb.lRhoMin tb.lRhoMax lDe0
  let T := pow10 lT
  let i := tb.idxRho lDe
  let j := tb.idxT lT
  ⟨Ye * freeEn σ tb j i T De + T * (-dfT σ tb j i T De) * Ye, 0, T * (-dfTT σ tb j i T De) * Ye, 0, 0⟩

/-! ## Radiation, ions, Coulomb -/

/-- Pressure, energy, entropy arrays. (eos_helmholtz.hpp:344-345, 369-370, 391-392) -/
structure Three where
  (p e s : D5)

/-- `HelmRad::GetFromDensityTemperature`, `eos_helmholtz.hpp:1280-1320`; `A = PREFACTOR`. -/
def rad (σ A rho temp : ℝ) : Three :=
  let rhoi := ratio σ 1 rho
  let tempi := ratio σ 1 temp
  let T3 := temp ^ 3
  let T4 := T3 * temp
  let P := A * T4
  let dPdT := 4 * A * T3
  let PoR := P * rhoi
  let e := 3 * PoR
  let dedR := -e * rhoi
  let dedT := 3 * dPdT * rhoi
  let s := (PoR + e) * tempi
  { p := ⟨P, 0, dPdT, 0, 0⟩
    e := ⟨e, dedR, dedT, 0, 0⟩
    s := ⟨s, ((0 - PoR) * rhoi + dedR) * tempi, (dPdT * rhoi + dedT - s) * tempi, 0, 0⟩ }

/-- The constants of `HelmIon`/`HelmCoulomb`: `KB`, `NA`, `LSWOT15`, the electron charge, and the Coulomb fit
parameters (`eos_helmholtz.hpp:353-360`, `:377-381`, `:1378-1385`). -/
structure Consts where
  (KB NA LSWOT15 esu a1 b1 c1 d1 e1 a2 b2 c2 LN10 : ℝ)

/-- `GetMassFractions`, `eos_helmholtz.hpp:507-513`: `xni, dxnidd, dxnida`. -/
def massFractions (c : Consts) (rho ytot : ℝ) : ℝ × ℝ × ℝ :=
  (c.NA * ytot * rho, c.NA * ytot, -(c.NA * ytot * rho) * ytot)

/-- `HelmIon::GetFromDensityTemperature`, `eos_helmholtz.hpp:1322-1367`. -/
def ion (σ : ℝ) (c : Consts) (rho temp y ytot xni dxnidd dxnida : ℝ) : Three :=
  let kbT := c.KB * temp
  let P := xni * kbT
  let dPdR := dxnidd * kbT
  let dPdT := xni * c.KB
  let dPdA := dxnida * kbT
  let rhoi := ratio σ 1 rho
  let PoR := P * rhoi
  let e := 3 / 2 * PoR
  let dedR := (3 / 2 * dPdR - e) * rhoi
  let dedT := 3 / 2 * dPdT * rhoi
  let dedA := 3 / 2 * dPdA * rhoi
  let tempi := ratio σ 1 temp
  let KBNAY := c.KB * c.NA * ytot
  { p := ⟨P, dPdR, dPdT, dPdA, 0⟩
    e := ⟨e, dedR, dedT, dedA, 0⟩
    s := ⟨(PoR + e) * tempi + KBNAY * y,
          (dPdR * rhoi - P * rhoi * rhoi + dedR) * tempi - KBNAY * rhoi,
          (dPdT * rhoi + dedT) * tempi - (PoR + e) * tempi * tempi + 3 / 2 * KBNAY * tempi,
          (dPdA * rhoi + dedA) * tempi + KBNAY * ytot * (5 / 2 - y), 0⟩ }

/-- `HelmCoulomb::butterworth<n>`, `eos_helmholtz.hpp:395-401`: `(g, dgdf)`. -/
def butterworth (σ : ℝ) (n : Nat) (freq cfreq : ℝ) : ℝ × ℝ :=
  let g := ratio σ 1 (1 + ratio σ freq cfreq ^ (2 * n))
  (g, ratio σ (-g ^ 2 * 2 * n) (cfreq ^ (2 * n)) * freq ^ (2 * n - 1))

/-- The plasma coupling parameter and its derivatives, `eos_helmholtz.hpp:1399-1413`. -/
structure Plas where
  (g dd da dt dz : ℝ)

/-- `eos_helmholtz.hpp:1399-1413` -/
def plasma (σ : ℝ) (c : Consts) (temp zbar xni dxnidd dxnida : ℝ) : Plas :=
  let kbT := c.KB * temp
  let ftpi := 4 / 3 * Real.pi
  let s := ftpi * xni
  let dsdd := ftpi * dxnidd
  let dsda := ftpi * dxnida
  let si := ratio σ 1 s
  let lami := ratio σ 1 (s ^ (1 / 3 : ℝ))
  let lamidd := -lami * (1 / 3) * dsdd * si
  let lamida := -lami * (1 / 3) * dsda * si
  let plasg := (c.esu * zbar) ^ 2 / (kbT * lami)
  let pol := ratio σ plasg lami
  ⟨plasg, -pol * lamidd, -pol * lamida, -ratio σ plasg temp, 2 * ratio σ plasg zbar⟩

/-- The branch `plasg >= 0` of `eos_helmholtz.hpp:1418-1442`. -/
def coulStrong (σ : ℝ) (c : Consts) (rho temp ytot abar : ℝ) (pl : Plas) : Three :=
  let abari := ratio σ 1 abar
  let x := Real.sqrt (Real.sqrt pl.g)
  let y := c.KB * c.NA * ytot
  let c1x := ratio σ c.c1 x
  let e0 := y * temp * (c.a1 * pl.g + c.b1 * x + c1x + c.d1)
  let p0 := 1 / 3 * rho * e0
  let s0 := -y * (3 * c.b1 * x - 5 * c1x + c.d1 * (Real.log pl.g - 1) - c.e1)
  let y2 := c.KB * c.NA * temp * ytot * (c.a1 + ratio σ (1 / 4) pl.g * (c.b1 * x - c1x))
  let eR := y2 * pl.dd
  let eT := y2 * pl.dt + ratio σ e0 temp
  let eA := y2 * pl.da - e0 * abari
  let eZ := y2 * pl.dz
  let y3 := 1 / 3 * rho
  let y4 := -(c.KB * c.NA) * pl.g * abari * (3 / 4 * c.b1 * x + 5 / 4 * c1x + c.d1)
  { p := ⟨p0, 1 / 3 * e0 + y3 * eR, y3 * eT, y3 * eA, y3 * eZ⟩
    e := ⟨e0, eR, eT, eA, eZ⟩
    s := ⟨s0, y4 * pl.dd, y4 * pl.dt, y4 * pl.da - s0 * abari, y4 * pl.dz⟩ }

/-- The `else` branch, `eos_helmholtz.hpp:1443-1472`. -/
def coulWeak (σ : ℝ) (c : Consts) (rho temp abar xni dxnidd dxnida : ℝ) (pl : Plas) : Three :=
  let kbT := c.KB * temp
  let pion := xni * kbT
  let dpiondd := dxnidd * kbT
  let dpiondt := xni * c.KB
  let dpionda := dxnida * kbT
  let abari := ratio σ 1 abar
  let x := pl.g * Real.sqrt |pl.g|
  let y := pl.g ^ c.b2
  let z := c.c2 * x - 1 / 3 * c.a2 * y
  let plasgi := ratio σ 1 pl.g
  let rhoi := ratio σ 1 rho
  let p0 := -pion * z
  let e0 := 3 * p0 * rhoi
  let s0 := -(c.KB * c.NA) * abari * (c.c2 * x - c.a2 * ratio σ (c.b2 - 1) c.b2 * y)
  let s := 3 / 2 * c.c2 * x * plasgi - 1 / 3 * c.a2 * c.b2 * y * plasgi
  let pR := -dpiondd * z - pion * s * pl.dd
  let pT := -dpiondt * z - pion * s * pl.dt
  let pA := -dpionda * z - pion * s * pl.da
  let pZ := -0 * z - pion * s * pl.dz
  let s' := 3 * rhoi
  let s'' := -(c.KB * c.NA) * abari * plasgi * (3 / 2 * c.c2 * x - c.a2 * (c.b2 - 1) * y)
  { p := ⟨p0, pR, pT, pA, pZ⟩
    e := ⟨e0, s' * pR - e0 * rhoi, s' * pT, s' * pA, s' * pZ⟩
    s := ⟨s0, s'' * pl.dd, s'' * pl.dt, s'' * pl.da - s0 * abari, s'' * pl.dz⟩ }

/-- `eos_helmholtz.hpp:1484-1503`: values multiplied by the gain, derivatives by the chain rule. -/
def applyGain (σ gain dgaindt dgaindd : ℝ) (q : D5) : D5 :=
  let v := q.val * gain
  ⟨v, gain * q.ddr + ratio σ (v * dgaindd) gain, gain * q.ddt + ratio σ (v * dgaindt) gain, gain * q.dda,
    gain * q.ddz⟩

/-- The gain and its two derivatives as computed, `eos_helmholtz.hpp:1475-1482`: `(gain, dgaindt, dgaindd)`. -/
def gain (σ LN10 rho temp : ℝ) : ℝ × ℝ × ℝ :=
  let r := butterworth σ 12 (log10 temp - 9 / 2) 3
  let t := butterworth σ 12 (log10 rho + 1) 6
  (1 - t.1 * r.1, -ratio σ (r.1 * t.2) (temp * LN10), -ratio σ (t.1 * r.2) (rho * LN10))

/-- `HelmCoulomb::GetFromDensityTemperature`, `eos_helmholtz.hpp:1369-1504`. -/
def coulomb (σ : ℝ) (c : Consts) (rho temp ytot abar zbar xni dxnidd dxnida : ℝ) : Three :=
  let pl := plasma σ c temp zbar xni dxnidd dxnida
  let r := if 0 ≤ pl.g then coulStrong σ c rho temp ytot abar pl
    else coulWeak σ c rho temp abar xni dxnidd dxnida pl
  let g := gain σ c.LN10 rho temp
  ⟨applyGain σ g.1 g.2.1 g.2.2 r.p, applyGain σ g.1 g.2.1 g.2.2 r.e, applyGain σ g.1 g.2.1 g.2.2 r.s⟩

/-! ## The combined EOS -/

/-- `Helmholtz::Options`, `eos_helmholtz.hpp:421-442` -/
structure Options where
  (rad gas coul ionized degenerate newton : Bool)

/-- The EOS object, `eos_helmholtz.hpp:810-815`. -/
structure Model where
  (opt : Options)
  (A : ℝ)
  (c : Consts)
  (tb : Tables)

/-- `GetElectronDensities_`, `eos_helmholtz.hpp:744-753`. -/
structure Dens where
  (ytot ye ywot De lDe : ℝ)

/-- `GetElectronDensities_`, `eos_helmholtz.hpp:744-753`. -/
def dens (σ : ℝ) (c : Consts) (rho abar zbar : ℝ) : Dens :=
  let ytot := ratio σ 1 abar
  let ye := zbar * ytot
  ⟨ytot, ye, Real.log (ratio σ (abar * abar * Real.sqrt abar) (rho * c.NA)), rho * ye, log10 (rho * ye)⟩

/-- The ion contribution of `GetFromDensityLogTemperature_`, `eos_helmholtz.hpp:1527-1550`. -/
def ionPart (σ : ℝ) (m : Model) (rho T abar zbar : ℝ) (d : Dens) : Three :=
  let lnT := log10 T / log10 (Real.exp 1)
  if (m.opt.ionized && m.opt.degenerate) || !m.opt.ionized then
    let x := massFractions m.c rho d.ytot
    ion σ m.c rho T (d.ywot + m.c.LSWOT15 * lnT) d.ytot x.1 x.2.1 x.2.2
  else
    let abarI := ratio σ abar (zbar + 1)
    let ytotI := ratio σ 1 abarI
    let ywotI := ratio σ (Real.log (abarI * abarI * Real.sqrt abarI)) (rho * m.c.NA)
    let x := massFractions m.c rho ytotI
    ion σ m.c rho T (ywotI + m.c.LSWOT15 * lnT) ytotI x.1 x.2.1 x.2.2

/-- `GetFromDensityLogTemperature_` with `only_e = false`, `eos_helmholtz.hpp:1506-1572`: the arrays `p, e, s`
and the electron arrays. -/
def getRT (σ : ℝ) (m : Model) (rho T abar zbar : ℝ) (d : Dens) : Five :=
  let z : Three := ⟨zero5, zero5, zero5⟩
  let r := if m.opt.rad then rad σ m.A rho T else z
  let i := if m.opt.gas then ionPart σ m rho T abar zbar d else z
  let el : Five := if m.opt.gas && m.opt.degenerate then
      electrons σ m.tb rho (log10 T) d.ye d.ytot d.De d.lDe
    else ⟨zero5, zero5, zero5, zero5, zero5⟩
  let x := massFractions m.c rho d.ytot
  let co := if m.opt.gas && m.opt.degenerate && m.opt.coul then
      coulomb σ m.c rho T d.ytot abar zbar x.1 x.2.1 x.2.2
    else z
  { e := add5 (add5 (add5 r.e i.e) el.e) co.e
    p := add5 (add5 (add5 r.p i.p) el.p) co.p
    s := add5 (add5 (add5 r.s i.s) el.s) co.s
    eta := el.eta, xne := el.xne }

/-- `GetFromDensityLogTemperature_` with `only_e = true`: the array `e`. (eos_helmholtz.hpp:796-800, 1122) -/
def getE (σ : ℝ) (m : Model) (rho T abar zbar : ℝ) (d : Dens) : D5 :=
  let z : Three := ⟨zero5, zero5, zero5⟩
  let r := if m.opt.rad then rad σ m.A rho T else z
  let i := if m.opt.gas then ionPart σ m rho T abar zbar d else z
  let el : D5 := if m.opt.gas && m.opt.degenerate then
      electronsE σ m.tb (log10 T) d.ye d.De d.lDe
    else zero5
  let x := massFractions m.c rho d.ytot
  let co := if m.opt.gas && m.opt.degenerate && m.opt.coul then
      coulomb σ m.c rho T d.ytot abar zbar x.1 x.2.1 x.2.2
    else z
  add5 (add5 (add5 r.e i.e) el) co.e

/-- `ComputeGamma1_`, `eos_helmholtz.hpp:723-732` -/
def gamma1 (σ rho T : ℝ) (p e : D5) : ℝ :=
  let chit := ratio σ T p.val * p.ddt
  let chid := ratio σ (p.ddr * rho) p.val
  let x := ratio σ (p.val * chit) (rho * T * e.ddt)
  chit * x + chid

/-- `ComputeGamma3_`, `eos_helmholtz.hpp:734-742` -/
def gamma3 (σ rho T : ℝ) (p e : D5) : ℝ :=
  let chit := ratio σ T p.val * p.ddt
  let x := ratio σ (p.val * chit) (rho * T * e.ddt)
  x + 1

/-- `lTAnalytic_`, `eos_helmholtz.hpp:755-758` (`KBi = 1/KB`). -/
def lTAnalytic (σ : ℝ) (c : Consts) (rho e ni ne : ℝ) : ℝ :=
  log10 (2 / 3 * ratio σ (e * rho) (ni + ne) * (1 / c.KB))

/-- The lambda array: mean atomic mass, mean atomic number, cached log temperature
(`Lambda::Index`, `eos_helmholtz.hpp:412-418`).  `lT = none` models a type-indexed lambda without the
`LogTemperature` entry, for which `SafeGet` and `SafeSet` do nothing (`indexable_types.hpp:60-88`, `:99-127`). -/
structure Lam where
  (abar zbar : ℝ)
  (lT : Option ℝ)

/-- `IndexerUtils::SafeGet<LogTemperature>(lambda, Lambda::lT, out)`: the new value of `out`.
(eos_helmholtz.hpp:770, 884, 958; base/indexable_types.hpp) -/
def safeGet (l : Lam) (out : ℝ) : ℝ := l.lT.getD out

/-- The first guess of `lTFromRhoSie_`, `eos_helmholtz.hpp:883-891`.  `u` is the uninitialised `lTguess`. -/
def lTGuess (σ : ℝ) (m : Model) (rho e ni ne u : ℝ) (l : Lam) : ℝ :=
  let g := safeGet l u
  if m.tb.lTMin ≤ g ∧ g ≤ m.tb.lTMax then g
  else
    let a := lTAnalytic σ m.c rho e ni ne
    if m.tb.lTMin ≤ a ∧ a ≤ m.tb.lTMax then a else 8

/-- The Newton-Raphson call of `lTFromRhoSie_`, `eos_helmholtz.hpp:896-907` (`HELM_EOS_EPS = 1e-10`, no failure on
a bound); `none` is a failure status. -/
def nrT (σ : ℝ) (m : Model) (rho e abar zbar : ℝ) (Tguess : ℝ) : Option ℝ :=
  let d := dens σ m.c rho abar zbar
  let r := RootFind.newtonRaphson (fun a b => a / b)
    (fun T => let g := getE σ m rho T abar zbar d; (g.val, g.ddt)) e Tguess (pow10 m.tb.lTMin) (pow10 m.tb.lTMax)
    (1 / 10 ^ 10) false
  if r.1 = .success then some r.2 else none

/-- The regula falsi calls of `lTFromRhoSie_`, `eos_helmholtz.hpp:912-922`, `:925-935` (`ROOT_THRESH = 1e-14`). -/
def rfT (σ : ℝ) (m : Model) (rho e abar zbar : ℝ) (Tguess : ℝ) : Option ℝ :=
  let d := dens σ m.c rho abar zbar
  match RootFind.regulaFalsi 1000 (fun T => (getE σ m rho T abar zbar d).val) e Tguess (pow10 m.tb.lTMin)
      (pow10 m.tb.lTMax) (1 / 10 ^ 14) (1 / 10 ^ 14) with
  | some (⟨.success, x⟩, _) => x
  | _ => none

/-- The temperature found by `lTFromRhoSie_`, `eos_helmholtz.hpp:872-943`, before the bounds are applied. -/
def solveT (σ : ℝ) (m : Model) (rho e abar zbar ni ne Tguess : ℝ) : ℝ :=
  let analytic := pow10 (lTAnalytic σ m.c rho e ni (if m.opt.ionized then ne else 0))
  if m.opt.rad || m.opt.degenerate || m.opt.coul then
    if m.opt.newton then
      match nrT σ m rho e abar zbar Tguess with
      | some T => T
      | none => (rfT σ m rho e abar zbar Tguess).getD analytic
    else (rfT σ m rho e abar zbar Tguess).getD analytic
  else analytic

/-- `lTFromRhoSie_`, `eos_helmholtz.hpp:866-960`; `u` is the uninitialised `lTguess`. -/
def lTFromRhoSie (σ : ℝ) (m : Model) (rho e u : ℝ) (l : Lam) : ℝ :=
  let abari := ratio σ 1 l.abar
  let ni := abari * rho * m.c.NA
  let ne := l.zbar * ni
  let T := solveT σ m rho e l.abar l.zbar ni ne (pow10 (lTGuess σ m rho e ni ne u l))
  let lT := log10 T
  let lT := if lT < m.tb.lTMin then m.tb.lTMin else lT
  let lT := if m.tb.lTMax < lT then m.tb.lTMax else lT
  safeGet l lT

/-- `TemperatureFromDensityInternalEnergy` through `FillEos`, `eos_helmholtz.hpp:515-524`, `:818-842`. -/
def tempFromRhoSie (σ : ℝ) (m : Model) (rho e u : ℝ) (l : Lam) : ℝ := pow10 (lTFromRhoSie σ m rho e u l)

/-- The lambda after `InternalEnergyFromDensityTemperature` (`SafeSet` of the log temperature,
`eos_helmholtz.hpp:840-841`). -/
def lamAfterRT (l : Lam) (T : ℝ) : Lam := { l with lT := l.lT.map fun _ => log10 T }

/-- `FillEos` with the temperature given, `eos_helmholtz.hpp:818-864`: energy, pressure, heat capacity, bulk
modulus, and the Grüneisen parameter of `:616-626`. -/
structure Answers where
  (e p cv bmod grun s : ℝ)

/-- The by-temperature queries (`eos_helmholtz.hpp:525-534`, `:535-544`, `:557-564`, `:574-583`, `:595-604`,
`:616-626`); `ε = robust::EPS()`. -/
def atRT (σ ε : ℝ) (m : Model) (l : Lam) (rho T : ℝ) : Answers :=
  let g := getRT σ m rho T l.abar l.zbar (dens σ m.c rho l.abar l.zbar)
  { e := g.e.val, p := g.p.val, cv := g.e.ddt
    bmod := max ε (g.p.val * gamma1 σ rho T g.p g.e)
    grun := gamma3 σ rho T g.p g.e - 1
    s := g.s.val }

end

end Verif.Helm
