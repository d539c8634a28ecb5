import Verif.Model.Tools.Sp5Eos
import Verif.Props.Tools.Sp5File
import Verif.Props.Table.SpinerRhoTLoad
import Verif.Model.Table.Bounds

set_option linter.unusedSectionVars false

/-!
# C150: from EOSPAC through `sesame2spiner` and the file to the answers of `SpinerEOSDependsRhoT`

C124 (what is written is what is read) and C149 (the EOS says what the file says), composed.
-/

namespace Verif.Sp5

open Verif.Spec.Sp5 Verif.Databox Verif.Spiner Verif.RhoT Verif.Robust

variable {K : Type} [Field K] [LinearOrder K] [IsStrictOrderedRing K]

/-- The bounds of a table as `sesame2spiner` makes them: a grid in the log coordinate, an offset that is not negative, and as
points of interpolation the positions of the grid points in the linear coordinate. -/
structure Bnd.On (m : Consts K) (b : Bnd K (Mesh K)) : Prop where
  ok : b.grid.Ok
  n : b.n = b.grid.N
  off : 0 ≤ b.offset
  pt : ∀ j < b.n, b.pt j = m.pw (b.grid.x j) - b.offset

/-- `i2lin` (spiner_table_utils.hpp:137-146) limits the points to the linear bounds; for grids inside the bounds that changes
nothing. -/
theorem Bnd.on_of_log2lin {m : Consts K} {b : Bnd K (Mesh K)} (ok : b.grid.Ok) (n : b.n = b.grid.N) (off : 0 ≤ b.offset)
    {lo hi : K} (hpt : ∀ j < b.n, b.pt j = Verif.Bounds.log2lin m.pw lo hi b.offset (b.grid.x j))
    (hin : ∀ j < b.n, lo ≤ m.pw (b.grid.x j) - b.offset ∧ m.pw (b.grid.x j) - b.offset ≤ hi) : b.On m where
  ok := ok
  n := n
  off := off
  pt j hj := by
    rw [hpt j hj]
    unfold Verif.Bounds.log2lin
    rw [max_eq_right (hin j hj).1, min_eq_right (hin j hj).2]

/-- What the material is written and read with. -/
structure Mat.On (c : Consts K) (m : Mat K (Mesh K)) : Prop where
  R : m.bR.On c
  T : m.bT.On c
  top : 0 ≤ m.bT.grid.max
  clear : (1 + c.soft) * m.bT.grid.min < m.bT.grid.max

/-- The EOS that a file gives under a name. -/
def eosOf (lt : Int) (f : File K (Mesh K)) (k : Name) (s : Split) : Option (RhoT.File K) :=
  (loadRhoT lt f k s).map LoadedT.toFile

theorem v2_eq {d : Dset K (Mesh K)} {bR bX : Bnd K (Mesh K)} {F : K → K → K} (h : IsTable2 d bR bX F) {j i : Nat}
    (hj : j < bR.n) (hi : i < bX.n) : d.v2 j i = F (bR.pt j) (bX.pt i) := by
  obtain ⟨v, rfl, hv⟩ := h
  exact hv j hj i hi

theorem v1_eq {d : Dset K (Mesh K)} {bR : Bnd K (Mesh K)} {F : K → K} (h : IsTable1 d bR F) {j : Nat} (hj : j < bR.n) :
    d.v1 j = F (bR.pt j) := by
  obtain ⟨v, rfl, hv⟩ := h
  exact hv j hj

/-- The file made of a material that was read: its grids, offsets and tables. -/
structure Reads (c : Consts K) (L : Lib K) (m : Mat K (Mesh K)) (s : Split) (f : RhoT.File K) : Prop where
  gR : f.gR = m.bR.grid
  gT : f.gT = m.bT.grid
  offR : |f.offR| = m.bR.offset
  offT : |f.offT| = m.bT.offset
  ok : f.Ok c
  P : ∀ j < f.gR.N, ∀ i < f.gT.N, f.P j i = 10 ^ 10 * (L.P s (m.bR.pt j) (m.bT.pt i)).v
  sie : ∀ j < f.gR.N, ∀ i < f.gT.N, f.sie j i = 10 ^ 10 * (L.U s (m.bR.pt j) (m.bT.pt i)).v
  dEdT : ∀ j < f.gR.N, ∀ i < f.gT.N, f.dEdT j i = 10 ^ 10 * (L.U s (m.bR.pt j) (m.bT.pt i)).dy
  dEdRho : ∀ j < f.gR.N, ∀ i < f.gT.N, f.dEdRho j i = 10 ^ 10 * (L.U s (m.bR.pt j) (m.bT.pt i)).dx
  dPdE : ∀ j < f.gR.N, ∀ i < f.gT.N, f.dPdE j i =
    (L.P s (m.bR.pt j) (m.bT.pt i)).dy * (L.T s (m.bR.pt j) (L.U s (m.bR.pt j) (m.bT.pt i)).v).dy
  dPdRho : ∀ j < f.gR.N, ∀ i < f.gT.N, f.dPdRho j i = 10 ^ 10 * ((L.P s (m.bR.pt j) (m.bT.pt i)).dx +
    (L.T s (m.bR.pt j) (L.U s (m.bR.pt j) (m.bT.pt i)).v).dx * (L.P s (m.bR.pt j) (m.bT.pt i)).dy)
  sieCold : ∀ j < f.gR.N, f.sieCold j = 10 ^ 10 * (L.Uc (m.bR.pt j)).v
  PCold : ∀ j < f.gR.N, f.PCold j = 10 ^ 10 * (L.Pc (m.bR.pt j)).v
  fits : f.Fits f.P ∧ f.Fits f.sie ∧ f.Fits f.dEdT ∧ f.Fits f.dPdE ∧ f.Fits f.dPdRho
  fitsCold : f.gR.Agrees f.sieCold ∧ f.gR.Agrees f.PCold
  mf : ∃ d, f.mf = L.nph.map (fun n => (n, d)) ∧ ∀ n, L.nph = some n → ∀ k < n, ∀ j < f.gR.N, ∀ i < f.gT.N,
    d j i k = L.M k (m.bR.pt j) (m.bT.pt i)

theorem reads_of {c : Consts K} {L : Lib K} {m : Mat K (Mesh K)} (hm : m.On c) {s : Split} {t : LoadedT K (Mesh K)}
    (h : IsMaterialT L m s t) : Reads c L m s t.toFile := by
  have gR : t.toFile.gR = m.bR.grid := by
    obtain ⟨v, e, -⟩ := h.P
    show t.P.rangeRho noGrid = _
    rw [e]; rfl
  have gT : t.toFile.gT = m.bT.grid := by
    obtain ⟨v, e, -⟩ := h.P
    show t.P.rangeX noGrid = _
    rw [e]; rfl
  have nR : t.toFile.gR.N = m.bR.n := by rw [gR, hm.R.n]
  have nT : t.toFile.gT.N = m.bT.n := by rw [gT, hm.T.n]
  have tab : ∀ {d : Dset K (Mesh K)} {F : K → K → K}, IsTable2 d m.bR m.bT F →
      ∀ j < t.toFile.gR.N, ∀ i < t.toFile.gT.N, d.v2 j i = F (m.bR.pt j) (m.bT.pt i) := fun hd j hj i hi =>
    v2_eq hd (by rwa [← nR]) (by rwa [← nT])
  have fits : ∀ {d : Dset K (Mesh K)} {F : K → K → K}, IsTable2 d m.bR m.bT F → t.toFile.Fits d.v2 := fun hd => by
    refine ⟨fun j hj i i' hi hi' hx => ?_, fun i hi j j' hj hj' hx => ?_⟩
    · rw [gT] at hx
      rw [tab hd j hj i hi, tab hd j hj i' hi', hm.T.pt i (by rwa [← nT]), hm.T.pt i' (by rwa [← nT]), hx]
    · rw [gR] at hx
      simp only
      rw [tab hd j hj i hi, tab hd j' hj' i hi, hm.R.pt j (by rwa [← nR]), hm.R.pt j' (by rwa [← nR]), hx]
  have fits1 : ∀ {d : Dset K (Mesh K)} {F : K → K}, IsTable1 d m.bR F → t.toFile.gR.Agrees d.v1 := fun hd j j' hj hj' hx => by
    rw [gR] at hx
    rw [v1_eq hd (by rwa [← nR]), v1_eq hd (by rwa [← nR]), hm.R.pt j (by rwa [← nR]), hm.R.pt j' (by rwa [← nR]), hx]
  refine
    { gR := gR
      gT := gT
      offR := ?_
      offT := ?_
      ok := ⟨by rw [gR]; exact hm.R.ok, by rw [gT]; exact hm.T.ok, by rw [gT]; exact hm.top, by rw [gT]; exact hm.clear⟩
      P := tab h.P
      sie := tab h.sie
      dEdT := tab h.dEdT
      dEdRho := tab h.dEdRho
      dPdE := tab h.dPdE
      dPdRho := tab h.dPdRho
      sieCold := fun j hj => v1_eq h.cold.sie (by rwa [← nR])
      PCold := fun j hj => v1_eq h.cold.P (by rwa [← nR])
      fits := ⟨fits h.P, fits h.sie, fits h.dEdT, fits h.dPdE, fits h.dPdRho⟩
      fitsCold := ⟨fits1 h.cold.sie, fits1 h.cold.P⟩
      mf := ?_ }
  · show |t.rhoOffset| = _
    rw [h.rhoOffset, abs_abs, abs_of_nonneg hm.R.off]
  · show |t.TOffset| = _
    rw [h.TOffset, abs_abs, abs_of_nonneg hm.T.off]
  · have hmf := h.mF
    have e : t.toFile.mf = t.mF.map fun p => (p.1.toNat, p.2.v3) := rfl
    rw [e]
    cases ht : t.mF with
    | none =>
      rw [ht] at hmf
      have hn : L.nph = none := hmf
      exact ⟨fun _ _ _ => 0, by rw [hn]; rfl, fun n h' => by rw [hn] at h'; cases h'⟩
    | some p =>
      rw [ht] at hmf
      obtain ⟨n, d⟩ := p
      obtain ⟨k, hk, hkn, v, hv, hv'⟩ := hmf
      refine ⟨v, ?_, fun n' h' q hq j hj i hi => ?_⟩
      · rw [hk]; simp only [Option.map_some]; rw [hkn, hv]; simp [Dset.v3]
      · rw [hk] at h'
        obtain rfl : k = n' := by simpa using h'
        exact hv' q hq j (by rwa [← nR]) i (by rwa [← nT])

/-- A file made by `sesame2spiner` of the materials `ms` with distinct good names (C124), and a name `k` and part `s` under which
the material `m` is in it. -/
structure Written (c : Consts K) (ms : List (Mat K (Mesh K))) (m : Mat K (Mesh K)) (k : Name) (s : Split) : Prop where
  good : ∀ m ∈ ms, GoodName m.name
  distinct : Distinct (ms.map fun m => (m.matid, m.name))
  mem : m ∈ ms
  on : m.On c
  key : k = .byId m.matid ∨ k = .byName m.name
  part : s = .total ∨ m.subtables = true

theorem eos_reads {c : Consts K} (lt : Int) (L : Int → Lib K) {ms : List (Mat K (Mesh K))} {m : Mat K (Mesh K)} {k : Name}
    {s : Split} (h : Written c ms m k s) : ∃ f, eosOf lt (saveAll lt L ms) k s = some f ∧ Reads c (L m.matid) m s f := by
  obtain ⟨t, ht, hi⟩ := C124_rhoT lt L ms h.good h.distinct m h.mem k h.key s h.part
  exact ⟨t.toFile, by unfold eosOf; rw [ht]; rfl, reads_of h.on hi⟩

section
variable {c : Consts K} {L : Lib K} {m : Mat K (Mesh K)} {s : Split} {f : RhoT.File K}

theorem toLog_pt (hc : c.Ok) {x off : K} (hx : c.eps ≤ c.pw x) :
    toLog c.lg c.eps (c.pw x - off - c.eps) off = x := by
  unfold toLog
  rw [max_eq_left (by linarith), abs_of_nonneg (by linarith)]
  have e : c.pw x - off - c.eps + off + c.eps = c.pw x := by ring
  rw [e, hc.inv']

theorem toLog_pt' (hc : c.Ok) (x : K) (off : K) :
    toLog c.lg c.eps (c.pw x - off) off = c.lg (c.pw x + c.eps) ∧ x ≤ c.lg (c.pw x + c.eps) := by
  have hp := hc.pos x
  have he := hc.eps
  constructor
  · unfold toLog
    rw [max_eq_left (by linarith), abs_of_nonneg (by linarith)]
    congr 1; ring
  · conv_lhs => rw [← hc.inv' x]
    exact (hc.mono hp (show 0 < c.pw x + c.eps by linarith) (by linarith)).le

theorem Reads.lRho (hc : c.Ok) (hon : m.On c) (h : Reads c L m s f) {j : Nat} (hj : j < m.bR.n)
    (hx : c.eps ≤ c.pw (m.bR.grid.x j)) : f.lRho c (m.bR.pt j - c.eps) = f.gR.x j := by
  unfold RhoT.File.lRho
  rw [h.offR, h.gR, hon.R.pt j hj]
  exact toLog_pt hc hx

theorem Reads.lT (hc : c.Ok) (hon : m.On c) (h : Reads c L m s f) {i : Nat} (hi : i < m.bT.n)
    (hx : c.eps ≤ c.pw (m.bT.grid.x i)) : f.lT c (m.bT.pt i - c.eps) = f.gT.x i := by
  unfold RhoT.File.lT
  rw [h.offT, h.gT, hon.T.pt i hi]
  exact toLog_pt hc hx

theorem Reads.nR (hon : m.On c) (h : Reads c L m s f) : m.bR.n = f.gR.N := by rw [h.gR, hon.R.n]

theorem Reads.nT (hon : m.On c) (h : Reads c L m s f) : m.bT.n = f.gT.N := by rw [h.gT, hon.T.n]

theorem Reads.rho (hon : m.On c) (h : Reads c L m s f) {j : Nat} (hj : j < m.bR.n) :
    f.rho c (f.gR.x j) = max 0 (m.bR.pt j) := by
  unfold RhoT.File.rho
  have e : fromLog c.pw (f.gR.x j) |f.offR| = m.bR.pt j := by rw [h.offR, h.gR, hon.R.pt j hj]; rfl
  rw [e]
  split_ifs with h0
  · exact (max_eq_left h0.le).symm
  · exact (max_eq_right (not_lt.1 h0)).symm

end

/-- Inside the table: the log of the temperature point is clear of the ends of the range by the soft margin. -/
structure Inside (c : Consts K) (b : Bnd K (Mesh K)) (i : Nat) : Prop where
  lt : i < b.n
  low : (1 + c.soft) * b.grid.min < b.grid.x i
  high : b.grid.x i < (1 - c.soft) * b.grid.max

/-- C150: a material loaded from a file of `sesame2spiner`, by number or name, whole or part, answers at the points of the table
(less the `eps` that the library adds before it takes the logarithm) with what EOSPAC says there, in cgs units: pressure,
energy, heat capacity (above the floor), mass fractions. -/
theorem C150_points {c : Consts K} (hc : c.Ok) (lt : Int) (L : Int → Lib K) {ms : List (Mat K (Mesh K))} {m : Mat K (Mesh K)}
    {k : Name} {s : Split} (h : Written c ms m k s) : ∃ f, eosOf lt (saveAll lt L ms) k s = some f ∧
    ∀ (cache : K) (j i : Nat), j < m.bR.n → Inside c m.bT i → c.eps ≤ c.pw (m.bR.grid.x j) → c.eps ≤ c.pw (m.bT.grid.x i) →
      let ask := fun q => query (f.load c) q cache (m.bR.pt j - c.eps) (m.bT.pt i - c.eps)
      let p := (L m.matid).P s (m.bR.pt j) (m.bT.pt i)
      let u := (L m.matid).U s (m.bR.pt j) (m.bT.pt i)
      ask .pRT = 10 ^ 10 * p.v ∧ ask .eRT = 10 ^ 10 * u.v ∧ ask .cvRT = max (10 ^ 10 * u.dy) c.eps ∧
      f.massT c (m.bR.pt j - c.eps) (m.bT.pt i - c.eps) = (match (L m.matid).nph with
        | none => [1]
        | some n => (List.range n).map fun ph => (L m.matid).M ph (m.bR.pt j) (m.bT.pt i)) := by
  obtain ⟨f, hf, hr⟩ := eos_reads lt L h
  refine ⟨f, hf, fun cache j i hj hi hxR hxT => ?_⟩
  have hjN : j < f.gR.N := by rwa [← hr.nR h.on]
  have hiN : i < f.gT.N := by rw [← hr.nT h.on]; exact hi.lt
  have eR := hr.lRho hc h.on hj hxR
  have eT := hr.lT hc h.on hi.lt hxT
  obtain ⟨f1, f2, f3, f4, f5⟩ := hr.fits
  obtain ⟨a1, a2, a3, -, -⟩ := C149_points hc hr.ok f2 f1 f3 f5 f4 cache hjN hiN eR eT
    (by rw [hr.gT]; exact hi.low) (by rw [hr.gT]; exact hi.high)
  refine ⟨a1.trans (hr.P j hjN i hiN), a2.trans (hr.sie j hjN i hiN), ?_, ?_⟩
  · rw [← hr.dEdT j hjN i hiN]; exact a3
  · obtain ⟨d, hd, hd'⟩ := hr.mf
    unfold RhoT.File.massT
    rw [hd]
    cases hn : (L m.matid).nph with
    | none => rfl
    | some n =>
      simp only [Option.map_some]
      refine List.map_congr_left fun ph hph => ?_
      have hph := List.mem_range.1 hph
      have key : ∀ j < f.gR.N, ∀ i < f.gT.N, d j i ph = (L m.matid).M ph (m.bR.pt j) (m.bT.pt i) := fun j hj i hi =>
        hd' n hn ph hph j hj i hi
      rw [eR, eT, f.tab_node hr.ok.R hr.ok.T ⟨fun j hj i i' hi hi' hx => ?_, fun i hi j j' hj hj' hx => ?_⟩ hjN hiN, key j hjN i hiN]
      · rw [hr.gT] at hx
        rw [key j hj i hi, key j hj i' hi', h.on.T.pt i (by rwa [hr.nT h.on]), h.on.T.pt i' (by rwa [hr.nT h.on]), hx]
      · rw [hr.gR] at hx
        simp only
        rw [key j hj i hi, key j' hj' i hi, h.on.R.pt j (by rwa [hr.nR h.on]), h.on.R.pt j' (by rwa [hr.nR h.on]), hx]

/-- C150: the derivatives. Where EOSPAC's derivatives of the temperature are those of its energy inverted, energy and pressure
rise with temperature and the isentropic bulk modulus is not below the floor, the bulk modulus reported is the isentropic one,
`rho dP/drho|_T + (dP/dT / de/dT) (P / rho - rho de/drho|_T)`, in cgs units, and the Grüneisen coefficient is
`dP/dT / (rho de/dT)`. -/
theorem C150_derivatives {c : Consts K} (hc : c.Ok) (hσ : c.σ = 0) (lt : Int) (L : Int → Lib K) {ms : List (Mat K (Mesh K))}
    {m : Mat K (Mesh K)} {k : Name} {s : Split} (h : Written c ms m k s) : ∃ f, eosOf lt (saveAll lt L ms) k s = some f ∧
    ∀ (cache : K) (j i : Nat), j < m.bR.n → Inside c m.bT i → c.eps ≤ c.pw (m.bR.grid.x j) → c.eps ≤ c.pw (m.bT.grid.x i) →
      let r := m.bR.pt j
      let ask := fun q => query (f.load c) q cache (r - c.eps) (m.bT.pt i - c.eps)
      let p := (L m.matid).P s r (m.bT.pt i)
      let u := (L m.matid).U s r (m.bT.pt i)
      let t := (L m.matid).T s r u.v
      c.eps < r → 0 < u.dy → 0 < p.dy → t.dy = 1 / u.dy → t.dx = -u.dx / u.dy →
      c.eps ≤ 10 ^ 10 * (r * p.dx + p.dy / u.dy * (p.v / r - r * u.dx)) →
      ask .bRT = 10 ^ 10 * (r * p.dx + p.dy / u.dy * (p.v / r - r * u.dx)) ∧ ask .gRT = p.dy / ((r - c.eps) * u.dy) := by
  obtain ⟨f, hf, hr⟩ := eos_reads lt L h
  refine ⟨f, hf, fun cache j i hj hi hxR hxT => ?_⟩
  intro r ask p u t h0 hu hp h1 h2 h3
  have hjN : j < f.gR.N := by rwa [← hr.nR h.on]
  have hiN : i < f.gT.N := by rw [← hr.nT h.on]; exact hi.lt
  have eR := hr.lRho hc h.on hj hxR
  have eT := hr.lT hc h.on hi.lt hxT
  obtain ⟨f1, f2, f3, f4, f5⟩ := hr.fits
  have hlow : (1 + c.soft) * f.gT.min < f.gT.x i := by rw [hr.gT]; exact hi.low
  have hhigh : f.gT.x i < (1 - c.soft) * f.gT.max := by rw [hr.gT]; exact hi.high
  obtain ⟨-, -, -, a4, -⟩ := C149_points hc hr.ok f2 f1 f3 f5 f4 cache hjN hiN eR eT hlow hhigh
  have r0 : 0 < r := hc.eps.trans h0
  have er : f.rho c (f.gR.x j) = r := by rw [hr.rho h.on hj]; exact max_eq_right r0.le
  have e1 : f.dPdRho j i = 10 ^ 10 * (p.dx + t.dx * p.dy) := hr.dPdRho j hjN i hiN
  have e2 : f.dPdE j i = p.dy * t.dy := hr.dPdE j hjN i hiN
  have e3 : f.P j i = 10 ^ 10 * p.v := hr.P j hjN i hiN
  have hd : 0 < f.dPdE j i := by rw [e2, h1]; positivity
  have hB : r * f.dPdRho j i + f.dPdE j i * (f.P j i / r) = 10 ^ 10 * (r * p.dx + p.dy / u.dy * (p.v / r - r * u.dx)) := by
    rw [e1, e2, e3, h1, h2]; field_simp; ring
  constructor
  · dsimp only at a4
    rw [er, hB] at a4
    exact a4 r0 hd h3
  · have hloc : locT (f.load c) ((f.load c).lT (m.bT.pt i - c.eps)) = .onTable := by
      have e : (f.load c).lT (m.bT.pt i - c.eps) = f.gT.x i := eT
      unfold locT
      rw [e, if_neg (show ¬ f.gT.x i ≤ (1 + (f.load c).soft) * (f.load c).lTMin from not_le.2 hlow),
        if_neg (show ¬ f.gT.x i ≥ (1 - (f.load c).soft) * (f.load c).lTMax from not_le.2 hhigh)]
    have hval : (f.load c).dPdE ((f.load c).lRho (r - c.eps)) ((f.load c).lT (m.bT.pt i - c.eps)) = f.dPdE j i := by
      show f.tab f.dPdE (f.lRho c _) (f.lT c _) = _
      rw [eR, eT, f.tab_node hr.ok.R hr.ok.T f4 hjN hiN]
    show query (f.load c) .gRT cache _ _ = _
    simp only [query, hloc, gAt]
    rw [hval, show (f.load c).σ = 0 from hσ, ratio_exact, abs_of_pos hd, abs_of_pos (sub_pos.2 h0), e2, h1]
    have : r - c.eps ≠ 0 := (sub_pos.2 h0).ne'
    field_simp

/-- C150: the cold curve and the bounds. At the densities of the table the least energy is EOSPAC's cold energy, and at energies
not above it (and not near the highest isotherm) the pressure is EOSPAC's cold pressure and the temperature the lowest of the
table. The bounds reported are the first and last points. -/
theorem C150_cold {c : Consts K} (hc : c.Ok) (lt : Int) (L : Int → Lib K) {ms : List (Mat K (Mesh K))} {m : Mat K (Mesh K)}
    {k : Name} {s : Split} (h : Written c ms m k s) : ∃ f, eosOf lt (saveAll lt L ms) k s = some f ∧
    f.bounds c = (max 0 (m.bR.pt 0), m.bR.pt (m.bR.n - 1), m.bT.pt 0) ∧
    ∀ (cache : K) (j : Nat), j < m.bR.n → c.eps ≤ c.pw (m.bR.grid.x j) →
      let r := m.bR.pt j
      minE (f.load c) (r - c.eps) = 10 ^ 10 * ((L m.matid).Uc r).v ∧
      ∀ e, e ≤ 10 ^ 10 * ((L m.matid).Uc r).v →
        e < 10 ^ 10 * ((L m.matid).U s r (m.bT.pt (m.bT.n - 1))).v -
          c.soft * |10 ^ 10 * ((L m.matid).U s r (m.bT.pt (m.bT.n - 1))).v| →
        query (f.load c) .pRE cache (r - c.eps) e = 10 ^ 10 * ((L m.matid).Pc r).v ∧
        query (f.load c) .tRE cache (r - c.eps) e = m.bT.pt 0 := by
  obtain ⟨f, hf, hr⟩ := eos_reads lt L h
  have n0 : 0 < m.bR.n := by rw [h.on.R.n]; have := h.on.R.ok.two; omega
  have n1 : 0 < m.bT.n := by rw [h.on.T.n]; have := h.on.T.ok.two; omega
  have eT0 : f.T c f.gT.min = m.bT.pt 0 := by
    unfold RhoT.File.T
    rw [hr.offT, hr.gT, h.on.T.pt 0 n1]; rfl
  refine ⟨f, hf, ?_, fun cache j hj hxR => ?_⟩
  · have e1 : f.rho c f.gR.min = max 0 (m.bR.pt 0) := hr.rho h.on n0
    have e2 : fromLog c.pw f.gR.max |f.offR| = m.bR.pt (m.bR.n - 1) := by
      rw [hr.offR, hr.gR, h.on.R.pt (m.bR.n - 1) (by omega), h.on.R.n]; rfl
    unfold RhoT.File.bounds
    rw [e1, e2, eT0]
  · intro r
    have hjN : j < f.gR.N := by rwa [← hr.nR h.on]
    have eR := hr.lRho hc h.on hj hxR
    have cE : f.gR.lin f.sieCold (f.lRho c (r - c.eps)) = 10 ^ 10 * ((L m.matid).Uc r).v := by
      rw [eR, f.gR.lin_node hr.ok.R hr.fitsCold.1 hjN, hr.sieCold j hjN]
    have cP : f.gR.lin f.PCold (f.lRho c (r - c.eps)) = 10 ^ 10 * ((L m.matid).Pc r).v := by
      rw [eR, f.gR.lin_node hr.ok.R hr.fitsCold.2 hjN, hr.PCold j hjN]
    refine ⟨cE, fun e he he' => ?_⟩
    have hN : f.gT.N - 1 < f.gT.N := by have := hr.ok.T.two; omega
    have hmax : (f.load c).sielTMax ((f.load c).lRho (r - c.eps)) =
        10 ^ 10 * ((L m.matid).U s r (m.bT.pt (m.bT.n - 1))).v := by
      show f.gR.lin (fun j => f.sie j (f.gT.N - 1)) (f.lRho c (r - c.eps)) = _
      rw [eR, f.gR.lin_node hr.ok.R (hr.fits.2.1.col _ hN) hjN, hr.sie j hjN _ hN, hr.nT h.on]
    have hcold : (f.load c).sieCold ((f.load c).lRho (r - c.eps)) = 10 ^ 10 * ((L m.matid).Uc r).v := cE
    have hloc : locE (f.load c) ((f.load c).lRho (r - c.eps)) e = .offBottom := by
      unfold locE
      have hs := hc.soft
      rw [hmax, hcold, show (f.load c).soft = c.soft from rfl, if_neg (show ¬ e ≥ _ from not_le.2 he'), if_pos (by have := mul_nonneg hs (abs_nonneg (10 ^ 10 * ((L m.matid).Uc r).v)); linarith)]
    have hinv : lTOfE (f.load c) cache ((f.load c).lRho (r - c.eps)) e = ⟨(f.load c).lTMin, .offBottom, .success⟩ := by
      unfold lTOfE; rw [hloc]
    constructor
    · simp only [query, hinv]; exact cP
    · simp only [query, hinv]; exact eT0

/-- C150: temperature from energy. If EOSPAC's energies at the points of the table rise with the log temperature at rates between
`a` and `b` (in cgs units) and the iterations suffice, then the temperature found from EOSPAC's energy at a point inside the table
has a log within `max thr (2 thr / a)` of the log of that point's temperature, whatever the cache holds. -/
theorem C150_temperature {c : Consts K} (hc : c.Ok) (lt : Int) (L : Int → Lib K) {ms : List (Mat K (Mesh K))}
    {m : Mat K (Mesh K)} {k : Name} {s : Split} (h : Written c ms m k s) {a b : K} (ha : 0 < a) (hab : a ≤ b)
    (hrate : ∀ j < m.bR.n, ∀ i, i + 1 < m.bT.n →
      let d := 10 ^ 10 * (((L m.matid).U s (m.bR.pt j) (m.bT.pt (i + 1))).v - ((L m.matid).U s (m.bR.pt j) (m.bT.pt i)).v)
      a * (m.bT.grid.x (i + 1) - m.bT.grid.x i) ≤ d ∧ d ≤ b * (m.bT.grid.x (i + 1) - m.bT.grid.x i))
    (hen : Enough a b (m.bT.grid.max - m.bT.grid.min) c.thr)
    (hsoft : c.soft * m.bT.grid.min ≥ 0 ∧ c.soft * m.bT.grid.max ≥ 0) : ∃ f, eosOf lt (saveAll lt L ms) k s = some f ∧
    ∀ (cache : K) (j i : Nat), j < m.bR.n → Inside c m.bT i → c.eps ≤ c.pw (m.bR.grid.x j) → c.eps ≤ c.pw (m.bT.grid.x i) →
      let r := m.bR.pt j
      let e := 10 ^ 10 * ((L m.matid).U s r (m.bT.pt i)).v
      10 ^ 10 * ((L m.matid).Uc r).v + c.soft * |10 ^ 10 * ((L m.matid).Uc r).v| < e →
      e < 10 ^ 10 * ((L m.matid).U s r (m.bT.pt (m.bT.n - 1))).v -
          c.soft * |10 ^ 10 * ((L m.matid).U s r (m.bT.pt (m.bT.n - 1))).v| →
      ∃ x, query (f.load c) .tRE cache (r - c.eps) e = c.pw x - m.bT.offset ∧
        |x - m.bT.grid.x i| ≤ max c.thr (2 * c.thr / a) := by
  obtain ⟨f, hf, hr⟩ := eos_reads lt L h
  refine ⟨f, hf, fun cache j i hj hi hxR hxT => ?_⟩
  intro r e he1 he2
  have hjN : j < f.gR.N := by rwa [← hr.nR h.on]
  have hiN : i < f.gT.N := by rw [← hr.nT h.on]; exact hi.lt
  have eR := hr.lRho hc h.on hj hxR
  have eT := hr.lT hc h.on hi.lt hxT
  obtain ⟨f1, f2, f3, f4, f5⟩ := hr.fits
  have hlow : (1 + c.soft) * f.gT.min < f.gT.x i := by rw [hr.gT]; exact hi.low
  have hhigh : f.gT.x i < (1 - c.soft) * f.gT.max := by rw [hr.gT]; exact hi.high
  obtain ⟨-, a2, -, -, -⟩ := C149_points hc hr.ok f2 f1 f3 f5 f4 cache hjN hiN eR eT hlow hhigh
  have ee : query (f.load c) .eRT cache (r - c.eps) (m.bT.pt i - c.eps) = e := a2.trans (hr.sie j hjN i hiN)
  have hN : f.gT.N - 1 < f.gT.N := by have := hr.ok.T.two; omega
  have hmax : (f.load c).sielTMax (f.lRho c (r - c.eps)) = 10 ^ 10 * ((L m.matid).U s r (m.bT.pt (m.bT.n - 1))).v := by
    show f.gR.lin (fun j => f.sie j (f.gT.N - 1)) (f.lRho c (r - c.eps)) = _
    rw [eR, f.gR.lin_node hr.ok.R (hr.fits.2.1.col _ hN) hjN, hr.sie j hjN _ hN, hr.nT h.on]
  have hcold : (f.load c).sieCold (f.lRho c (r - c.eps)) = 10 ^ 10 * ((L m.matid).Uc r).v := by
    show f.gR.lin f.sieCold (f.lRho c (r - c.eps)) = _
    rw [eR, f.gR.lin_node hr.ok.R hr.fitsCold.1 hjN, hr.sieCold j hjN]
  have hlocE : locE (f.load c) (f.lRho c (r - c.eps)) e = .onTable := by
    unfold locE
    rw [hmax, hcold, show (f.load c).soft = c.soft from rfl, if_neg (show ¬ e ≥ _ from not_le.2 he2), if_neg (not_le.2 he1)]
  have hlocT : locT (f.load c) (f.lT c (m.bT.pt i - c.eps)) = .onTable := by
    unfold locT
    rw [eT, if_neg (show ¬ f.gT.x i ≤ (1 + (f.load c).soft) * (f.load c).lTMin from not_le.2 hlow),
      if_neg (show ¬ f.gT.x i ≥ (1 - (f.load c).soft) * (f.load c).lTMax from not_le.2 hhigh)]
  have rise : f.EnergyRises a ∧ f.EnergyAtMost b := by
    constructor <;> intro j' hj' i' hi'
    · have := (hrate j' (by rwa [hr.nR h.on]) i' (by rwa [hr.nT h.on])).1
      rw [hr.sie j' hj' _ hi', hr.sie j' hj' i' (by omega), hr.gT, ← mul_sub]; exact this
    · have := (hrate j' (by rwa [hr.nR h.on]) i' (by rwa [hr.nT h.on])).2
      rw [hr.sie j' hj' _ hi', hr.sie j' hj' i' (by omega), hr.gT, ← mul_sub]; exact this
  have hxin : f.gR.min ≤ f.lRho c (r - c.eps) ∧ f.lRho c (r - c.eps) ≤ f.gR.max := by
    rw [eR]
    exact ⟨hr.ok.R.mono _ _ (Nat.zero_le _) hjN, hr.ok.R.mono _ _ (by omega) (by omega)⟩
  obtain ⟨x, q1, q2⟩ := C149_temperature_round_trip hc hr.ok ha hab rise.1 rise.2 (by rw [hr.gT]; exact hen) cache cache hxin.1
    hxin.2 hlocT (by rw [ee]; exact hlocE) (by rw [hr.gT]; exact hsoft)
  rw [ee] at q1
  refine ⟨x, q1.trans ?_, by rw [← hr.gT, ← eT]; exact q2⟩
  unfold RhoT.File.T
  rw [hr.offT]; rfl

/-- C150: at the very points of the table, where the library's `eps` moves the logs: pressure and energy differ from EOSPAC's by at
most the largest rates of the table per unit of log density and log temperature times those shifts. -/
theorem C150_near_points {c : Consts K} (hc : c.Ok) (lt : Int) (L : Int → Lib K) {ms : List (Mat K (Mesh K))}
    {m : Mat K (Mesh K)} {k : Name} {s : Split} (h : Written c ms m k s) {q : Mods.Q} {F : K → K → K}
    (hq : (q = .pRT ∧ F = fun r T => 10 ^ 10 * ((L m.matid).P s r T).v) ∨
      (q = .eRT ∧ F = fun r T => 10 ^ 10 * ((L m.matid).U s r T).v)) {A B : K}
    (hA : ∀ i < m.bT.n, ∀ j, j + 1 < m.bR.n → |F (m.bR.pt (j + 1)) (m.bT.pt i) - F (m.bR.pt j) (m.bT.pt i)| ≤
      A * (m.bR.grid.x (j + 1) - m.bR.grid.x j))
    (hB : ∀ j < m.bR.n, ∀ i, i + 1 < m.bT.n → |F (m.bR.pt j) (m.bT.pt (i + 1)) - F (m.bR.pt j) (m.bT.pt i)| ≤
      B * (m.bT.grid.x (i + 1) - m.bT.grid.x i)) : ∃ f, eosOf lt (saveAll lt L ms) k s = some f ∧
    ∀ (cache : K) (j i : Nat), j < m.bR.n → i < m.bT.n → (1 + c.soft) * m.bT.grid.min < m.bT.grid.x i →
      c.lg (c.pw (m.bT.grid.x i) + c.eps) < (1 - c.soft) * m.bT.grid.max →
      |query (f.load c) q cache (m.bR.pt j) (m.bT.pt i) - F (m.bR.pt j) (m.bT.pt i)| ≤
        A * (c.lg (c.pw (m.bR.grid.x j) + c.eps) - m.bR.grid.x j) + B * (c.lg (c.pw (m.bT.grid.x i) + c.eps) - m.bT.grid.x i) := by
  obtain ⟨f, hf, hr⟩ := eos_reads lt L h
  refine ⟨f, hf, fun cache j i hj hi h1 h2 => ?_⟩
  have hjN : j < f.gR.N := by rwa [← hr.nR h.on]
  have hiN : i < f.gT.N := by rwa [← hr.nT h.on]
  have eR : f.lRho c (m.bR.pt j) = c.lg (c.pw (m.bR.grid.x j) + c.eps) := by
    unfold RhoT.File.lRho; rw [hr.offR, h.on.R.pt j hj]; exact (toLog_pt' hc _ _).1
  have eT : f.lT c (m.bT.pt i) = c.lg (c.pw (m.bT.grid.x i) + c.eps) := by
    unfold RhoT.File.lT; rw [hr.offT, h.on.T.pt i hi]; exact (toLog_pt' hc _ _).1
  have gR := (toLog_pt' hc (m.bR.grid.x j) 0).2
  have gT := (toLog_pt' hc (m.bT.grid.x i) 0).2
  have hloc : locT (f.load c) ((f.load c).lT (m.bT.pt i)) = .onTable := by
    have e : (f.load c).lT (m.bT.pt i) = _ := eT
    unfold locT
    rw [e, if_neg, if_neg]
    · show ¬ _ ≥ (1 - c.soft) * f.gT.max; rw [hr.gT]; exact not_le.2 h2
    · show ¬ _ ≤ (1 + c.soft) * f.gT.min; rw [hr.gT]; exact not_le.2 (h1.trans_le gT)
  have top : c.lg (c.pw (m.bT.grid.x i) + c.eps) ≤ f.gT.max := by
    rw [hr.gT]
    have := mul_nonneg hc.soft h.on.top
    linarith
  have main : ∀ d : Nat → Nat → K, f.Fits d → (∀ j < f.gR.N, ∀ i < f.gT.N, d j i = F (m.bR.pt j) (m.bT.pt i)) →
      |f.tab d (f.lRho c (m.bR.pt j)) (f.lT c (m.bT.pt i)) - F (m.bR.pt j) (m.bT.pt i)| ≤
        A * (c.lg (c.pw (m.bR.grid.x j) + c.eps) - m.bR.grid.x j) +
          B * (c.lg (c.pw (m.bT.grid.x i) + c.eps) - m.bT.grid.x i) := fun d hd hv => by
    rw [← hv j hjN i hiN, eR, eT]
    have := Mesh.lin2_near hr.ok.R hr.ok.T hd.row hd.col (A := A) (B := B) (j := j) (i := i) (x := c.lg (c.pw (m.bR.grid.x j) + c.eps))
      (y := c.lg (c.pw (m.bT.grid.x i) + c.eps))
      (fun i hi j hj => by
        rw [hv (j + 1) hj i hi, hv j (by omega) i hi, hr.gR]
        exact hA i (by rwa [hr.nT h.on]) j (by rwa [hr.nR h.on]))
      (fun j hj i hi => by
        rw [hv j hj (i + 1) hi, hv j hj i (by omega), hr.gT]
        exact hB j (by rwa [hr.nR h.on]) i (by rwa [hr.nT h.on])) hjN hiN (by rw [hr.gR]; exact gR) (by rw [hr.gT]; exact gT) top
    rw [hr.gR, hr.gT] at this
    rwa [show f.tab d = m.bR.grid.lin2 m.bT.grid d by unfold RhoT.File.tab; rw [hr.gR, hr.gT]]
  rcases hq with ⟨rfl, hF⟩ | ⟨rfl, hF⟩
  · have := main f.P hr.fits.1 (fun j hj i hi => by rw [hF]; exact hr.P j hj i hi)
    simp only [query, hloc, pAt]
    exact this
  · have := main f.sie hr.fits.2.1 (fun j hj i hi => by rw [hF]; exact hr.sie j hj i hi)
    simp only [query, hloc, sieAt]
    exact this

/-! ## A material -/

/-- Three points 0, 1/2, 1 in log space. -/
noncomputable def threePt : Mesh ℝ := ofGrid ⟨0, 1, 3⟩

theorem threePt_ok : threePt.Ok := ofGrid_ok ⟨by norm_num, by norm_num⟩

/-- Its bounds. -/
noncomputable def threeBnd : Bnd ℝ (Mesh ℝ) := ⟨threePt, 0, 3, fun j => (10 : ℝ) ^ threePt.x j - 0⟩

theorem threeBnd_on : threeBnd.On RhoT.std := ⟨threePt_ok, rfl, le_rfl, fun _ _ => rfl⟩

/-- Densities and temperatures 1, √10, 10. -/
noncomputable def iron : Mat ℝ (Mesh ℝ) where
  matid := 2140
  name := ['i', 'r', 'o', 'n']
  exchange := 0
  abar := 56
  zbar := 26
  bulk := 0
  rhoNormal := 8
  bR := threeBnd
  bT := threeBnd
  bE := threeBnd
  subtables := false

theorem threePt_min : threePt.min = 0 := by norm_num [threePt, Mesh.min, ofGrid, Grid.x, Grid.dx]

theorem threePt_max : threePt.max = 1 := by norm_num [threePt, Mesh.max, ofGrid, Grid.x, Grid.dx]

/-- The hypotheses of the theorems are met by it: a file of this material, its name, the whole material; the middle point is
inside. -/
theorem iron_written : Written RhoT.std [iron] iron (.byName ['i', 'r', 'o', 'n']) .total where
  good := by simp [iron, GoodName]
  distinct := by simp [Distinct]
  mem := by simp
  on := ⟨threeBnd_on, threeBnd_on, by show 0 ≤ threePt.max; rw [threePt_max]; norm_num,
    by show _ * threePt.min < threePt.max; rw [threePt_max, threePt_min]; norm_num⟩
  key := Or.inr rfl
  part := Or.inl rfl

example : Inside RhoT.std iron.bT 1 ∧ RhoT.std.eps ≤ RhoT.std.pw (iron.bT.grid.x 1) := by
  have hx : iron.bT.grid.x 1 = 1 / 2 := by
    show threePt.x 1 = _
    norm_num [threePt, ofGrid, Grid.x, Grid.dx]
  refine ⟨⟨by show 1 < 3; norm_num, ?_, ?_⟩, ?_⟩
  · rw [hx]; show _ * threePt.min < _; rw [threePt_min]; norm_num
  · rw [hx]; show _ < (1 - RhoT.std.soft) * threePt.max; rw [threePt_max]; norm_num [RhoT.std]
  · rw [hx]
    show 1 / 10 ^ 15 ≤ (10 : ℝ) ^ ((1 : ℝ) / 2)
    have : (1 : ℝ) ≤ (10 : ℝ) ^ ((1 : ℝ) / 2) := Real.one_le_rpow (by norm_num) (by norm_num)
    linarith [show (1 : ℝ) / 10 ^ 15 ≤ 1 by norm_num]

/-- And what it then says: the pressure at the middle point is the library's. -/
example (L : Lib ℝ) : ∃ f, eosOf 1 (saveAll 1 (fun _ => L) [iron]) (.byName ['i', 'r', 'o', 'n']) .total = some f ∧
    query (f.load RhoT.std) .pRT 0 (iron.bR.pt 1 - RhoT.std.eps) (iron.bT.pt 1 - RhoT.std.eps) =
      10 ^ 10 * (L.P .total (iron.bR.pt 1) (iron.bT.pt 1)).v := by
  obtain ⟨f, hf, h⟩ := C150_points RhoT.std_ok 1 (fun _ => L) iron_written
  have hx : iron.bT.grid.x 1 = 1 / 2 := by
    show threePt.x 1 = _
    norm_num [threePt, ofGrid, Grid.x, Grid.dx]
  have he : RhoT.std.eps ≤ RhoT.std.pw (iron.bT.grid.x 1) := by
    rw [hx]
    show 1 / 10 ^ 15 ≤ (10 : ℝ) ^ ((1 : ℝ) / 2)
    have : (1 : ℝ) ≤ (10 : ℝ) ^ ((1 : ℝ) / 2) := Real.one_le_rpow (by norm_num) (by norm_num)
    linarith [show (1 : ℝ) / 10 ^ 15 ≤ 1 by norm_num]
  refine ⟨f, hf, (h 0 1 1 (by show 1 < 3; norm_num) ⟨by show 1 < 3; norm_num, ?_, ?_⟩ he he).1⟩
  · rw [hx]; show _ * threePt.min < _; rw [threePt_min]; norm_num
  · rw [hx]; show _ < (1 - RhoT.std.soft) * threePt.max; rw [threePt_max]; norm_num [RhoT.std]

end Verif.Sp5
