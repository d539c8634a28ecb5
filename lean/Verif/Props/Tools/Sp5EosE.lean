import Verif.Model.Table.SpinerRhoSieLoad
import Verif.Props.Tools.Sp5Eos
import Verif.Props.Table.Converge

set_option linter.unusedSectionVars false

/-!
# C151: from EOSPAC through `sesame2spiner` and the file to the answers of `SpinerEOSDependsRhoSie`

C124 (what is written is what is read), and what the class makes of the tables read.
-/

namespace Verif.Sp5

open Verif.Spec.Sp5 Verif.Databox Verif.Spiner Verif.RhoSie Verif.Robust
open Verif.RhoT (Consts Rises AtMost Enough)

variable {K : Type} [Field K] [LinearOrder K] [IsStrictOrderedRing K]

/-- The EOS that a file gives under a name. -/
def eosOfE (f : File K (Mesh K)) (k : Name) (s : Split) : Option (FileE K) := (loadRhoSie f k s).map LoadedE.toFile

/-- As `Written`, and the energies of the table are made in the same way as densities and temperatures. -/
structure WrittenE (c : Consts K) (ms : List (Mat K (Mesh K))) (m : Mat K (Mesh K)) (k : Name) (s : Split) : Prop
    extends Written c ms m k s where
  E : m.bE.On c

/-- `v j i` is `F` at the points of the bounds, and `d` its interpolant. -/
theorem node2 {c : Consts K} {bR bX : Bnd K (Mesh K)} (hR : bR.On c) (hX : bX.On c) {v : Nat → Nat → K} {F : K → K → K}
    (hv : ∀ j < bR.n, ∀ i < bX.n, v j i = F (bR.pt j) (bX.pt i)) {j i : Nat} (hj : j < bR.n) (hi : i < bX.n) :
    bR.grid.lin2 bX.grid v (bR.grid.x j) (bX.grid.x i) = F (bR.pt j) (bX.pt i) := by
  have nR := hR.n
  have nX := hX.n
  rw [Mesh.lin2_node hR.ok hX.ok (fun j hj i i' hi hi' hx => ?_) (fun i hi j j' hj hj' hx => ?_) (nR ▸ hj) (nX ▸ hi), hv j hj i hi]
  · rw [hv j (nR ▸ hj) i (nX ▸ hi), hv j (nR ▸ hj) i' (nX ▸ hi'), hX.pt i (nX ▸ hi), hX.pt i' (nX ▸ hi'), hx]
  · simp only
    rw [hv j (nR ▸ hj) i (nX ▸ hi), hv j' (nR ▸ hj') i (nX ▸ hi), hR.pt j (nR ▸ hj), hR.pt j' (nR ▸ hj'), hx]

theorem node1 {c : Consts K} {bR : Bnd K (Mesh K)} (hR : bR.On c) {v : Nat → K} {F : K → K}
    (hv : ∀ j < bR.n, v j = F (bR.pt j)) {j : Nat} (hj : j < bR.n) : bR.grid.lin v (bR.grid.x j) = F (bR.pt j) := by
  have nR := hR.n
  rw [bR.grid.lin_node hR.ok (fun j j' hj hj' hx => ?_) (nR ▸ hj), hv j hj]
  rw [hv j (nR ▸ hj), hv j' (nR ▸ hj'), hR.pt j (nR ▸ hj), hR.pt j' (nR ▸ hj'), hx]

/-- The grids and offsets read are those of the material. -/
structure GridsE (m : Mat K (Mesh K)) (f : FileE K) : Prop where
  gR : f.gR = m.bR.grid
  gT : f.gT = m.bT.grid
  gE : f.gE = m.bE.grid
  offR : |f.offR| = m.bR.offset
  offT : |f.offT| = m.bT.offset
  offE : |f.offE| = m.bE.offset

theorem gridsE {c : Consts K} {L : Lib K} {m : Mat K (Mesh K)} (hm : m.On c) (hE : m.bE.On c) {s : Split} {t : LoadedE K (Mesh K)}
    (h : IsMaterialE L m s t) : GridsE m t.toFile := by
  obtain ⟨v, e, -⟩ := h.sie
  obtain ⟨w, e', -⟩ := h.T
  refine ⟨?_, ?_, ?_, ?_, ?_, ?_⟩
  · show t.sie.rangeRho noGrid = _; rw [e]; rfl
  · show t.sie.rangeX noGrid = _; rw [e]; rfl
  · show t.T.rangeX noGrid = _; rw [e']; rfl
  · show |t.rhoOffset| = _; rw [h.rhoOffset, abs_abs, abs_of_nonneg hm.R.off]
  · show |t.TOffset| = _; rw [h.TOffset, abs_abs, abs_of_nonneg hm.T.off]
  · show |t.sieOffset| = _; rw [h.sieOffset, abs_abs, abs_of_nonneg hE.off]

theorem eosE_reads {c : Consts K} (lt : Int) (L : Int → Lib K) {ms : List (Mat K (Mesh K))} {m : Mat K (Mesh K)} {k : Name}
    {s : Split} (h : WrittenE c ms m k s) : ∃ t : LoadedE K (Mesh K), eosOfE (saveAll lt L ms) k s = some t.toFile ∧
      IsMaterialE (L m.matid) m s t ∧ GridsE m t.toFile := by
  obtain ⟨t, ht, hi⟩ := C124_rhoSie lt L ms h.good h.distinct m h.mem k h.key s h.part
  exact ⟨t, by unfold eosOfE; rw [ht]; rfl, hi, gridsE h.on h.E hi⟩

section
variable {c : Consts K} {m : Mat K (Mesh K)} {f : FileE K} {tr : Spiner.Transform K}

theorem GridsE.lRho (hc : c.Ok) (hon : m.On c) (h : GridsE m f) {j : Nat} (hj : j < m.bR.n)
    (hx : c.eps ≤ c.pw (m.bR.grid.x j)) : (f.load c tr).lRho (m.bR.pt j - c.eps) = m.bR.grid.x j := by
  show toLog c.lg c.eps _ |f.offR| = _
  rw [h.offR, hon.R.pt j hj]
  exact toLog_pt hc hx

theorem GridsE.lT (hc : c.Ok) (hon : m.On c) (h : GridsE m f) {i : Nat} (hi : i < m.bT.n)
    (hx : c.eps ≤ c.pw (m.bT.grid.x i)) : (f.load c tr).lT (m.bT.pt i - c.eps) = m.bT.grid.x i := by
  show toLog c.lg c.eps _ |f.offT| = _
  rw [h.offT, hon.T.pt i hi]
  exact toLog_pt hc hx

theorem GridsE.lE (hc : c.Ok) (hE : m.bE.On c) (h : GridsE m f) {i : Nat} (hi : i < m.bE.n)
    (hx : c.eps ≤ c.pw (m.bE.grid.x i)) : (f.load c tr).lE (m.bE.pt i - c.eps) = m.bE.grid.x i := by
  show toLog c.lg c.eps _ |f.offE| = _
  rw [h.offE, hE.pt i hi]
  exact toLog_pt hc hx

theorem GridsE.rho (hon : m.On c) (h : GridsE m f) {j : Nat} (hj : j < m.bR.n) :
    fromLog c.pw (f.gR.x j) |f.offR| = m.bR.pt j := by
  rw [h.offR, h.gR, hon.R.pt j hj]; rfl

end

/-- C151: a material loaded from a file of `sesame2spiner`, by number or name, whole or part, with any energy transform, answers
by density and temperature at the points of the table (less the `eps` that the library adds before it takes the logarithm) with
what EOSPAC says there, in cgs units: pressure, energy, heat capacity (the inverse of EOSPAC's `dT/de`), mass fractions. -/
theorem C151_by_temperature {c : Consts K} (hc : c.Ok) (lt : Int) (L : Int → Lib K) {ms : List (Mat K (Mesh K))}
    {m : Mat K (Mesh K)} {k : Name} {s : Split} (h : WrittenE c ms m k s) : ∃ f, eosOfE (saveAll lt L ms) k s = some f ∧
    ∀ (tr : Spiner.Transform K) (j i : Nat), j < m.bR.n → i < m.bT.n → c.eps ≤ c.pw (m.bR.grid.x j) →
      c.eps ≤ c.pw (m.bT.grid.x i) →
      let ask := fun q => query (f.load c tr) q (m.bR.pt j - c.eps) (m.bT.pt i - c.eps)
      let p := (L m.matid).P s (m.bR.pt j) (m.bT.pt i)
      let u := (L m.matid).U s (m.bR.pt j) (m.bT.pt i)
      let t := (L m.matid).T s (m.bR.pt j) u.v
      ask .pRT = 10 ^ 10 * p.v ∧ ask .eRT = 10 ^ 10 * u.v ∧ ask .cvRT = 10 ^ 10 / t.dy ∧
      (f.load c tr).hasMf = (L m.matid).nph.isSome ∧
      ∀ ph, massT (f.load c tr) (m.bR.pt j - c.eps) (m.bT.pt i - c.eps) ph = 1 ∧ (L m.matid).nph = none ∨
        (∃ n, (L m.matid).nph = some n ∧
          (ph < n → massT (f.load c tr) (m.bR.pt j - c.eps) (m.bT.pt i - c.eps) ph = (L m.matid).M ph (m.bR.pt j) (m.bT.pt i))) := by
  obtain ⟨t, ht, hi, hg⟩ := eosE_reads lt L h
  refine ⟨_, ht, fun tr j i hj hi' hxR hxT => ?_⟩
  have eR := hg.lRho (tr := tr) hc h.on hj hxR
  have eT := hg.lT (tr := tr) hc h.on hi' hxT
  have tab : ∀ {d : Dset K (Mesh K)} {F : K → K → K}, IsTable2 d m.bR m.bT F →
      t.toFile.gR.lin2 t.toFile.gT d.v2 (m.bR.grid.x j) (m.bT.grid.x i) = F (m.bR.pt j) (m.bT.pt i) := fun hd => by
    rw [hg.gR, hg.gT]
    exact node2 h.on.R h.on.T (fun j hj i hi => v2_eq hd hj hi) hj hi'
  refine ⟨?_, ?_, ?_, ?_, fun ph => ?_⟩
  · simp only [query, interpRhoT, eR, eT]; exact tab hi.tP
  · simp only [query, interpRhoT, eR, eT]; exact tab hi.sie
  · simp only [query, interpRhoT, eR, eT]
    have e : (t.toFile.load c tr).dTdET (m.bR.grid.x j) (m.bT.grid.x i) = _ := tab hi.tdTdE
    rw [e, one_div_div]
  · have hmf := hi.mF
    show (t.mF.map fun p => (p.1.toNat, p.2.v3)).isSome = _
    cases ht : t.mF with
    | none =>
      rw [ht] at hmf
      have hn : (L m.matid).nph = none := hmf
      rw [hn]; rfl
    | some p =>
      rw [ht] at hmf
      obtain ⟨n, d⟩ := p
      obtain ⟨k, hk, -⟩ := hmf
      rw [hk]; rfl
  · have hmf := hi.mF
    cases ht : t.mF with
    | none =>
      rw [ht] at hmf
      refine Or.inl ⟨?_, hmf⟩
      unfold massT
      rw [if_neg]
      show ¬ (t.mF.map fun p => (p.1.toNat, p.2.v3)).isSome = true
      rw [ht]; simp
    | some p =>
      rw [ht] at hmf
      obtain ⟨n, d⟩ := p
      obtain ⟨k, hk, hkn, v, hv, hv'⟩ := hmf
      refine Or.inr ⟨k, hk, fun hph => ?_⟩
      have e0 : t.toFile.mf = some (k, v) := by
        show t.mF.map (fun p => (p.1.toNat, p.2.v3)) = _
        rw [ht, hv]
        simp [Dset.v3, hkn]
      unfold massT
      rw [if_pos (show (t.toFile.load c tr).hasMf = true by show t.toFile.mf.isSome = true; rw [e0]; rfl), eR, eT]
      have e1 : (t.toFile.load c tr).mf ph = t.toFile.gR.lin2 t.toFile.gT fun j i => v j i ph := by
        show (match t.toFile.mf with
          | none => fun _ _ => 0
          | some (_, d) => t.toFile.gR.lin2 t.toFile.gT fun j i => d j i ph) = _
        rw [e0]
      rw [e1, hg.gR, hg.gT]
      exact node2 h.on.R h.on.T (F := fun r T => (L m.matid).M ph r T) (fun j hj i hi => hv' ph hph j hj i hi) hj hi'

/-- The bulk modulus the class computes at a point from EOSPAC's values. -/
theorem bulk_eq {eps r pv px py ux uy tx ty : K} (r0 : 0 < r) (hu : 0 < uy) (hp : 0 < py) (h1 : ty = 1 / uy) (h2 : tx = -ux / uy)
    (h3 : eps ≤ 10 ^ 10 * (r * px + py / uy * (pv / r - r * ux))) :
    fixedBulk eps r (10 ^ 10 * pv) (10 ^ 10 * (px + tx * py)) (py * ty) (10 ^ 10 * ux) =
      10 ^ 10 * (r * px + py / uy * (pv / r - r * ux)) := by
  have hd : py * ty > 0 ∧ r > 0 := ⟨by rw [h1]; positivity, r0⟩
  unfold fixedBulk
  simp only
  rw [if_pos hd]
  have e : r * (10 ^ 10 * (px + tx * py)) + py * ty * (10 ^ 10 * pv / r) = 10 ^ 10 * (r * px + py / uy * (pv / r - r * ux)) := by
    rw [h1, h2]; field_simp; ring
  rw [e, max_eq_left h3]

/-- C151: the derivatives by density and temperature. Where EOSPAC's derivatives of the temperature are those of its energy
inverted, energy and pressure rise with temperature and the isentropic bulk modulus is not below the floor, the bulk modulus is
the isentropic one in cgs units, the Grüneisen coefficient is `dP/dT / (rho de/dT)` and the heat capacity `de/dT`. -/
theorem C151_derivatives {c : Consts K} (hc : c.Ok) (lt : Int) (L : Int → Lib K) {ms : List (Mat K (Mesh K))}
    {m : Mat K (Mesh K)} {k : Name} {s : Split} (h : WrittenE c ms m k s) : ∃ f, eosOfE (saveAll lt L ms) k s = some f ∧
    ∀ (tr : Spiner.Transform K) (j i : Nat), j < m.bR.n → i < m.bT.n → c.eps ≤ c.pw (m.bR.grid.x j) →
      c.eps ≤ c.pw (m.bT.grid.x i) →
      let r := m.bR.pt j
      let ask := fun q => query (f.load c tr) q (r - c.eps) (m.bT.pt i - c.eps)
      let p := (L m.matid).P s r (m.bT.pt i)
      let u := (L m.matid).U s r (m.bT.pt i)
      let t := (L m.matid).T s r u.v
      0 < r → 0 < u.dy → 0 < p.dy → t.dy = 1 / u.dy → t.dx = -u.dx / u.dy →
      c.eps ≤ 10 ^ 10 * (r * p.dx + p.dy / u.dy * (p.v / r - r * u.dx)) →
      ask .bRT = 10 ^ 10 * (r * p.dx + p.dy / u.dy * (p.v / r - r * u.dx)) ∧ ask .gRT = p.dy / u.dy / (r - c.eps) ∧
        ask .cvRT = 10 ^ 10 * u.dy := by
  obtain ⟨t, ht, hi, hg⟩ := eosE_reads lt L h
  refine ⟨_, ht, fun tr j i hj hi' hxR hxT => ?_⟩
  have eR := hg.lRho (tr := tr) hc h.on hj hxR
  have eT := hg.lT (tr := tr) hc h.on hi' hxT
  intro r ask p u τ h0 hu hp h1 h2 h3
  have tab : ∀ {d : Dset K (Mesh K)} {F : K → K → K}, IsTable2 d m.bR m.bT F →
      t.toFile.gR.lin2 t.toFile.gT d.v2 (m.bR.grid.x j) (m.bT.grid.x i) = F (m.bR.pt j) (m.bT.pt i) := fun hd => by
    rw [hg.gR, hg.gT]
    exact node2 h.on.R h.on.T (fun j hj i hi => v2_eq hd hj hi) hj hi'
  refine ⟨?_, ?_, ?_⟩
  · show query _ _ _ _ = _
    simp only [query, interpRhoT]
    rw [eR, eT]
    have e : (t.toFile.load c tr).bModT (m.bR.grid.x j) (m.bT.grid.x i) =
        fixedBulk c.eps r (10 ^ 10 * p.v) (10 ^ 10 * (p.dx + τ.dx * p.dy)) (p.dy * τ.dy) (10 ^ 10 * u.dx) := by
      show t.toFile.gR.lin2 t.toFile.gT (t.toFile.bulk c t.toFile.t) _ _ = _
      rw [hg.gR, hg.gT]
      refine node2 h.on.R h.on.T (F := fun r T => fixedBulk c.eps r (10 ^ 10 * ((L m.matid).P s r T).v)
        (10 ^ 10 * (((L m.matid).P s r T).dx + ((L m.matid).T s r ((L m.matid).U s r T).v).dx * ((L m.matid).P s r T).dy))
        (((L m.matid).P s r T).dy * ((L m.matid).T s r ((L m.matid).U s r T).v).dy) (10 ^ 10 * ((L m.matid).U s r T).dx))
        (fun j hj i hi' => ?_) hj hi'
      unfold FileE.bulk
      rw [hg.rho h.on hj]
      simp only [LoadedE.toFile]
      rw [v2_eq hi.tP hj hi', v2_eq hi.tdPdRho hj hi', v2_eq hi.tdPdE hj hi', v2_eq hi.tdEdRho hj hi']
    rw [e]
    exact bulk_eq h0 hu hp h1 h2 h3
  · show query _ _ _ _ = _
    simp only [query, interpRhoT]
    rw [eR, eT]
    have e : (t.toFile.load c tr).dPdET (m.bR.grid.x j) (m.bT.grid.x i) = p.dy * τ.dy := tab hi.tdPdE
    rw [e, h1, mul_one_div]
  · show query _ _ _ _ = _
    simp only [query, interpRhoT]
    rw [eR, eT]
    have e : (t.toFile.load c tr).dTdET (m.bR.grid.x j) (m.bT.grid.x i) = τ.dy / 10 ^ 10 := tab hi.tdTdE
    rw [e, h1]
    field_simp

/-- C151: by density and energy, with no energy transform (`SpinerEOSDependsRhoSie`), at the energies of the table: temperature
and pressure are EOSPAC's, in cgs units, and under the conditions of `C151_derivatives` at the temperature found so are heat
capacity, bulk modulus and Grüneisen coefficient. -/
theorem C151_by_energy {c : Consts K} (hc : c.Ok) (lt : Int) (L : Int → Lib K) {ms : List (Mat K (Mesh K))}
    {m : Mat K (Mesh K)} {k : Name} {s : Split} (h : WrittenE c ms m k s) : ∃ f, eosOfE (saveAll lt L ms) k s = some f ∧
    ∀ (j i : Nat), j < m.bR.n → i < m.bE.n → c.eps ≤ c.pw (m.bR.grid.x j) → c.eps ≤ c.pw (m.bE.grid.x i) →
      let r := m.bR.pt j
      let ask := fun q => query (f.load c nullT) q (r - c.eps) (m.bE.pt i - c.eps)
      let t := (L m.matid).T s r (m.bE.pt i / 10 ^ 10)
      let p := (L m.matid).P s r t.v
      let u := (L m.matid).U s r t.v
      ask .tRE = t.v ∧ ask .pRE = 10 ^ 10 * p.v ∧
      (0 < r → 0 < u.dy → 0 < p.dy → t.dy = 1 / u.dy → t.dx = -u.dx / u.dy →
        c.eps ≤ 10 ^ 10 * (r * p.dx + p.dy / u.dy * (p.v / r - r * u.dx)) →
        ask .bRE = 10 ^ 10 * (r * p.dx + p.dy / u.dy * (p.v / r - r * u.dx)) ∧ ask .gRE = p.dy / u.dy / (r - c.eps) ∧
          ask .cvRE = 10 ^ 10 * u.dy) := by
  obtain ⟨t, ht, hi, hg⟩ := eosE_reads lt L h
  refine ⟨_, ht, fun j i hj hi' hxR hxE => ?_⟩
  have eR := hg.lRho (tr := nullT) hc h.on hj hxR
  have eE := hg.lE (tr := nullT) hc h.E hi' hxE
  have eN : ∀ e r : K, (t.toFile.load c nullT).tr.fwd e r = e := fun _ _ => rfl
  intro r ask τ p u
  have tab : ∀ {d : Dset K (Mesh K)} {F : K → K → K}, IsTable2 d m.bR m.bE F →
      t.toFile.gR.lin2 t.toFile.gE d.v2 (m.bR.grid.x j) (m.bE.grid.x i) = F (m.bR.pt j) (m.bE.pt i) := fun hd => by
    rw [hg.gR, hg.gE]
    exact node2 h.on.R h.E (fun j hj i hi => v2_eq hd hj hi) hj hi'
  refine ⟨?_, ?_, fun h0 hu hp h1 h2 h3 => ⟨?_, ?_, ?_⟩⟩
  · show query _ _ _ _ = _
    simp only [query, interpRhoSie, eN]
    rw [eR, eE]; exact tab hi.T
  · show query _ _ _ _ = _
    simp only [query, interpRhoSie, eN]
    rw [eR, eE]; exact tab hi.eP
  · show query _ _ _ _ = _
    simp only [query, interpRhoSie, eN]
    rw [eR, eE]
    have e : (t.toFile.load c nullT).bModE (m.bR.grid.x j) (m.bE.grid.x i) =
        fixedBulk c.eps r (10 ^ 10 * p.v) (10 ^ 10 * (p.dx + τ.dx * p.dy)) (p.dy * τ.dy) (10 ^ 10 * u.dx) := by
      show t.toFile.gR.lin2 t.toFile.gE (t.toFile.bulk c t.toFile.e) _ _ = _
      rw [hg.gR, hg.gE]
      refine node2 h.on.R h.E (F := fun r e =>
        let t := (L m.matid).T s r (e / 10 ^ 10)
        let p := (L m.matid).P s r t.v
        fixedBulk c.eps r (10 ^ 10 * p.v) (10 ^ 10 * (p.dx + t.dx * p.dy)) (p.dy * t.dy) (10 ^ 10 * ((L m.matid).U s r t.v).dx))
        (fun j hj i hi' => ?_) hj hi'
      unfold FileE.bulk
      rw [hg.rho h.on hj]
      simp only [LoadedE.toFile]
      rw [v2_eq hi.eP hj hi', v2_eq hi.edPdRho hj hi', v2_eq hi.edPdE hj hi', v2_eq hi.edEdRho hj hi']
    rw [e]
    exact bulk_eq h0 hu hp h1 h2 h3
  · show query _ _ _ _ = _
    simp only [query]
    rw [eR, eE]
    have e : (t.toFile.load c nullT).dPdEE (m.bR.grid.x j) (m.bE.grid.x i) = p.dy * τ.dy := tab hi.edPdE
    rw [e, h1, mul_one_div]
  · show query _ _ _ _ = _
    simp only [query, interpRhoSie, eN]
    rw [eR, eE]
    have e : (t.toFile.load c nullT).dTdEE (m.bR.grid.x j) (m.bE.grid.x i) = τ.dy / 10 ^ 10 := tab hi.edTdE
    rw [e, h1]
    field_simp

/-- C151: the cold curve and the bounds. At the densities of the table the least energy is EOSPAC's cold energy; the bounds are
the first and last points. (Unlike `SpinerEOSDependsRhoT`, a first point below zero is reported as it is.) -/
theorem C151_cold {c : Consts K} (hc : c.Ok) (lt : Int) (L : Int → Lib K) {ms : List (Mat K (Mesh K))} {m : Mat K (Mesh K)}
    {k : Name} {s : Split} (h : WrittenE c ms m k s) : ∃ f, eosOfE (saveAll lt L ms) k s = some f ∧
    f.bounds c = (m.bR.pt 0, m.bR.pt (m.bR.n - 1), m.bT.pt 0) ∧
    ∀ (tr : Spiner.Transform K) (j : Nat), j < m.bR.n → c.eps ≤ c.pw (m.bR.grid.x j) →
      minE (f.load c tr) (m.bR.pt j - c.eps) = 10 ^ 10 * ((L m.matid).Uc (m.bR.pt j)).v := by
  obtain ⟨t, ht, hi, hg⟩ := eosE_reads lt L h
  have n0 : 0 < m.bR.n := by rw [h.on.R.n]; have := h.on.R.ok.two; omega
  have n1 : 0 < m.bT.n := by rw [h.on.T.n]; have := h.on.T.ok.two; omega
  refine ⟨_, ht, ?_, fun tr j hj hxR => ?_⟩
  · unfold FileE.bounds
    have e1 : fromLog c.pw t.toFile.gR.min |t.toFile.offR| = m.bR.pt 0 := hg.rho h.on n0
    have e2 : fromLog c.pw t.toFile.gR.max |t.toFile.offR| = m.bR.pt (m.bR.n - 1) := by
      have := hg.rho (c := c) h.on (j := m.bR.n - 1) (by omega)
      rw [← this, hg.gR, h.on.R.n]; rfl
    have e3 : fromLog c.pw t.toFile.gT.min |t.toFile.offT| = m.bT.pt 0 := by
      rw [hg.offT, hg.gT, h.on.T.pt 0 n1]; rfl
    rw [e1, e2, e3]
  · unfold minE
    rw [hg.lRho hc h.on hj hxR]
    show t.toFile.gR.lin t.sieCold.v1 _ = _
    rw [hg.gR]
    exact node1 h.on.R (F := fun r => 10 ^ 10 * ((L m.matid).Uc r).v) (fun j hj => v1_eq hi.cold.sie hj) hj

/-- Interpolation between two neighbouring points that both belong to a nondecreasing row stays between the values there. -/
theorem lin_between {g : Mesh K} (hg : g.Ok) {f : Nat → K} (hf : ∀ i, i + 1 < g.N → f i ≤ f (i + 1)) (ha : g.Agrees f) {i : Nat}
    (hi : i + 1 < g.N) {y : K} (h1 : g.x i ≤ y) (h2 : y ≤ g.x (i + 1)) : f i ≤ g.lin f y ∧ g.lin f y ≤ f (i + 1) := by
  have mono := g.lin_monotone hg hf
  rw [← g.lin_node hg ha (show i < g.N by omega), ← g.lin_node hg ha hi]
  exact ⟨mono h1, mono h2⟩

theorem pw_mono {c : Consts K} (hc : c.Ok) : Monotone c.pw := fun a b hab => by
  by_contra hn
  have := hc.mono (hc.pos b) (hc.pos a) (not_le.1 hn)
  rw [hc.inv', hc.inv'] at this
  exact absurd hab (not_le.2 this)

/-- C151: between the points. If EOSPAC's temperature does not fall with energy, then at a density of the table the temperature
reported for an energy between two neighbouring energies of the table is, like EOSPAC's own, between EOSPAC's temperatures at
these two. -/
theorem C151_cell {c : Consts K} (hc : c.Ok) (lt : Int) (L : Int → Lib K) {ms : List (Mat K (Mesh K))} {m : Mat K (Mesh K)}
    {k : Name} {s : Split} (h : WrittenE c ms m k s) (hT : ∀ j < m.bR.n, Monotone fun e => ((L m.matid).T s (m.bR.pt j) e).v) :
    ∃ f, eosOfE (saveAll lt L ms) k s = some f ∧
    ∀ (j i : Nat), j < m.bR.n → i + 1 < m.bE.n → c.eps ≤ c.pw (m.bR.grid.x j) → c.eps ≤ c.pw (m.bE.grid.x i) →
      ∀ e, m.bE.pt i - c.eps ≤ e → e ≤ m.bE.pt (i + 1) - c.eps →
      let r := m.bR.pt j
      let T := fun e => ((L m.matid).T s r (e / 10 ^ 10)).v
      let got := query (f.load c nullT) .tRE (r - c.eps) e
      T (m.bE.pt i) ≤ got ∧ got ≤ T (m.bE.pt (i + 1)) ∧
      T (m.bE.pt i) ≤ T (e + c.eps) ∧ T (e + c.eps) ≤ T (m.bE.pt (i + 1)) := by
  obtain ⟨t, ht, hi, hg⟩ := eosE_reads lt L h
  refine ⟨_, ht, fun j i hj hi' hxR hxE e he1 he2 => ?_⟩
  intro r T got
  have eR := hg.lRho (tr := nullT) hc h.on hj hxR
  have nR := h.on.R.n
  have nE := h.E.n
  have p1 := h.E.pt i (by omega)
  have p2 := h.E.pt (i + 1) hi'
  have hTm : ∀ {a b : K}, a ≤ b → T a ≤ T b := fun {a b} hab => hT j hj (by
    exact div_le_div_of_nonneg_right hab (by positivity))
  have hoff := h.E.off
  have heps := hc.eps
  -- the log of the energy is in the cell
  have lE : (t.toFile.load c nullT).lE e = c.lg (e + m.bE.offset + c.eps) := by
    show toLog c.lg c.eps e |t.toFile.offE| = _
    rw [hg.offE]
    unfold toLog
    rw [max_eq_left (by linarith), abs_of_nonneg (by linarith)]
  have lo : m.bE.grid.x i ≤ c.lg (e + m.bE.offset + c.eps) := by
    conv_lhs => rw [← hc.inv' (m.bE.grid.x i)]
    exact hc.mono.monotoneOn (hc.pos _) (show 0 < _ by have := hc.pos (m.bE.grid.x i); linarith) (by linarith)
  have hi'' : c.lg (e + m.bE.offset + c.eps) ≤ m.bE.grid.x (i + 1) := by
    conv_rhs => rw [← hc.inv' (m.bE.grid.x (i + 1))]
    exact hc.mono.monotoneOn (show 0 < _ by have := hc.pos (m.bE.grid.x i); linarith) (hc.pos _) (by linarith)
  have hv : ∀ j < m.bR.n, ∀ i < m.bE.n, t.T.v2 j i = ((L m.matid).T s (m.bR.pt j) (m.bE.pt i / 10 ^ 10)).v := fun j hj i hi' =>
    v2_eq hi.T hj hi'
  have row : ∀ j < m.bR.grid.N, m.bE.grid.Agrees (t.T.v2 j) := fun j hj i i' hi hi' hx => by
    rw [hv j (nR ▸ hj) i (nE ▸ hi), hv j (nR ▸ hj) i' (nE ▸ hi'), h.E.pt i (nE ▸ hi), h.E.pt i' (nE ▸ hi'), hx]
  have eg : got = m.bE.grid.lin (t.T.v2 j) (c.lg (e + m.bE.offset + c.eps)) := by
    show query _ _ _ _ = _
    simp only [query, interpRhoSie]
    rw [show (t.toFile.load c nullT).tr.fwd e (r - c.eps) = e from rfl, eR, lE]
    show t.toFile.gR.lin2 t.toFile.gE t.T.v2 _ _ = _
    rw [hg.gR, hg.gE]
    unfold Mesh.lin2
    exact m.bR.grid.lin_node h.on.R.ok (f := fun j => m.bE.grid.lin (t.T.v2 j) _) (fun j j' hj hj' hx =>
      m.bE.grid.lin_congr h.E.ok (fun i hi => by
        rw [hv j (nR ▸ hj) i (nE ▸ hi), hv j' (nR ▸ hj') i (nE ▸ hi), h.on.R.pt j (nR ▸ hj), h.on.R.pt j' (nR ▸ hj'), hx]) _)
      (nR ▸ hj)
  have b := lin_between h.E.ok (f := t.T.v2 j) (fun i hi => by
    rw [hv j hj i (by omega), hv j hj (i + 1) (by omega)]
    refine hTm ?_
    rw [h.E.pt i (by omega), h.E.pt (i + 1) (by omega)]
    have := pw_mono hc (h.E.ok.mono i (i + 1) (by omega) (by omega))
    linarith) (row j (nR ▸ hj)) (nE ▸ hi') lo hi''
  rw [hv j hj i (by omega), hv j hj (i + 1) hi'] at b
  rw [← eg] at b
  exact ⟨b.1, b.2, hTm (by linarith), hTm (by linarith)⟩

/-- C151: at the very points of the table, where the library's `eps` moves the logs: pressure and energy by temperature, pressure
and temperature by energy differ from EOSPAC's by at most the largest rates of the table per unit of the logs times those
shifts. -/
theorem C151_near_points {c : Consts K} (hc : c.Ok) (lt : Int) (L : Int → Lib K) {ms : List (Mat K (Mesh K))}
    {m : Mat K (Mesh K)} {k : Name} {s : Split} (h : WrittenE c ms m k s) {q : Mods.Q} {bX : Bnd K (Mesh K)} {F : K → K → K}
    (hq : (q = .pRT ∧ bX = m.bT ∧ F = fun r T => 10 ^ 10 * ((L m.matid).P s r T).v) ∨
      (q = .eRT ∧ bX = m.bT ∧ F = fun r T => 10 ^ 10 * ((L m.matid).U s r T).v) ∨
      (q = .pRE ∧ bX = m.bE ∧ F = fun r e => 10 ^ 10 * ((L m.matid).P s r ((L m.matid).T s r (e / 10 ^ 10)).v).v) ∨
      (q = .tRE ∧ bX = m.bE ∧ F = fun r e => ((L m.matid).T s r (e / 10 ^ 10)).v)) {A B : K}
    (hA : ∀ i < bX.n, ∀ j, j + 1 < m.bR.n → |F (m.bR.pt (j + 1)) (bX.pt i) - F (m.bR.pt j) (bX.pt i)| ≤
      A * (m.bR.grid.x (j + 1) - m.bR.grid.x j))
    (hB : ∀ j < m.bR.n, ∀ i, i + 1 < bX.n → |F (m.bR.pt j) (bX.pt (i + 1)) - F (m.bR.pt j) (bX.pt i)| ≤
      B * (bX.grid.x (i + 1) - bX.grid.x i)) : ∃ f, eosOfE (saveAll lt L ms) k s = some f ∧
    ∀ (j i : Nat), j < m.bR.n → i < bX.n → c.lg (c.pw (bX.grid.x i) + c.eps) ≤ bX.grid.max →
      |query (f.load c nullT) q (m.bR.pt j) (bX.pt i) - F (m.bR.pt j) (bX.pt i)| ≤
        A * (c.lg (c.pw (m.bR.grid.x j) + c.eps) - m.bR.grid.x j) + B * (c.lg (c.pw (bX.grid.x i) + c.eps) - bX.grid.x i) := by
  obtain ⟨t, ht, hi, hg⟩ := eosE_reads lt L h
  refine ⟨_, ht, fun j i hj hi' htop => ?_⟩
  have nR := h.on.R.n
  have eR : (t.toFile.load c nullT).lRho (m.bR.pt j) = c.lg (c.pw (m.bR.grid.x j) + c.eps) := by
    show toLog c.lg c.eps _ |t.toFile.offR| = _
    rw [hg.offR, h.on.R.pt j hj]; exact (toLog_pt' hc _ _).1
  have gR := (toLog_pt' hc (m.bR.grid.x j) 0).2
  have gX := (toLog_pt' hc (bX.grid.x i) 0).2
  have main : bX.On c → ∀ d : Dset K (Mesh K), IsTable2 d m.bR bX F →
      |m.bR.grid.lin2 bX.grid d.v2 (c.lg (c.pw (m.bR.grid.x j) + c.eps)) (c.lg (c.pw (bX.grid.x i) + c.eps)) -
        F (m.bR.pt j) (bX.pt i)| ≤
        A * (c.lg (c.pw (m.bR.grid.x j) + c.eps) - m.bR.grid.x j) +
          B * (c.lg (c.pw (bX.grid.x i) + c.eps) - bX.grid.x i) := fun hX d hd => by
    have nX := hX.n
    have hv : ∀ j < m.bR.n, ∀ i < bX.n, d.v2 j i = F (m.bR.pt j) (bX.pt i) := fun j hj i hi => v2_eq hd hj hi
    rw [← hv j hj i hi']
    refine Mesh.lin2_near h.on.R.ok hX.ok (fun j hj i i' hi hi' hx => ?_) (fun i hi j j' hj hj' hx => ?_) (fun i hi j hj => ?_)
      (fun j hj i hi => ?_) (nR ▸ hj) (nX ▸ hi') gR gX htop
    · rw [hv j (nR ▸ hj) i (nX ▸ hi), hv j (nR ▸ hj) i' (nX ▸ hi'), hX.pt i (nX ▸ hi), hX.pt i' (nX ▸ hi'), hx]
    · simp only
      rw [hv j (nR ▸ hj) i (nX ▸ hi), hv j' (nR ▸ hj') i (nX ▸ hi), h.on.R.pt j (nR ▸ hj), h.on.R.pt j' (nR ▸ hj'), hx]
    · rw [hv (j + 1) (nR ▸ hj) i (nX ▸ hi), hv j (by omega) i (nX ▸ hi)]
      exact hA i (nX ▸ hi) j (nR ▸ hj)
    · rw [hv j (nR ▸ hj) (i + 1) (nX ▸ hi), hv j (nR ▸ hj) i (by omega)]
      exact hB j (nR ▸ hj) i (nX ▸ hi)
  have eT : bX = m.bT → (t.toFile.load c nullT).lT (bX.pt i) = c.lg (c.pw (bX.grid.x i) + c.eps) := fun e => by
    subst e
    show toLog c.lg c.eps _ |t.toFile.offT| = _
    rw [hg.offT, h.on.T.pt i hi']; exact (toLog_pt' hc _ _).1
  have eE : bX = m.bE → (t.toFile.load c nullT).lE (bX.pt i) = c.lg (c.pw (bX.grid.x i) + c.eps) := fun e => by
    subst e
    show toLog c.lg c.eps _ |t.toFile.offE| = _
    rw [hg.offE, h.E.pt i hi']; exact (toLog_pt' hc _ _).1
  have eN : ∀ e r : K, (t.toFile.load c nullT).tr.fwd e r = e := fun _ _ => rfl
  rcases hq with ⟨rfl, hb, hF⟩ | ⟨rfl, hb, hF⟩ | ⟨rfl, hb, hF⟩ | ⟨rfl, hb, hF⟩
  · simp only [query, interpRhoT, eR, eT hb]
    have := main (hb ▸ h.on.T) t.tP (by rw [hF, hb]; exact hi.tP)
    rwa [show (t.toFile.load c nullT).PT = m.bR.grid.lin2 bX.grid t.tP.v2 by
      show t.toFile.gR.lin2 t.toFile.gT _ = _; rw [hg.gR, hg.gT, hb]; rfl]
  · simp only [query, interpRhoT, eR, eT hb]
    have := main (hb ▸ h.on.T) t.sie (by rw [hF, hb]; exact hi.sie)
    rwa [show (t.toFile.load c nullT).sie = m.bR.grid.lin2 bX.grid t.sie.v2 by
      show t.toFile.gR.lin2 t.toFile.gT _ = _; rw [hg.gR, hg.gT, hb]; rfl]
  · simp only [query, interpRhoSie, eR, eN, eE hb]
    have := main (hb ▸ h.E) t.eP (by rw [hF, hb]; exact hi.eP)
    rwa [show (t.toFile.load c nullT).PE = m.bR.grid.lin2 bX.grid t.eP.v2 by
      show t.toFile.gR.lin2 t.toFile.gE _ = _; rw [hg.gR, hg.gE, hb]; rfl]
  · simp only [query, interpRhoSie, eR, eN, eE hb]
    have := main (hb ▸ h.E) t.T (by rw [hF, hb]; exact hi.T)
    rwa [show (t.toFile.load c nullT).TE = m.bR.grid.lin2 bX.grid t.T.v2 by
      show t.toFile.gR.lin2 t.toFile.gE _ = _; rw [hg.gR, hg.gE, hb]; rfl]

/-- C151: density from pressure and temperature above the table. At a temperature of the table where the pressure of the highest
density rises with density at constant energy, a pressure above EOSPAC's at the highest density gives, with success reported, the
density of the linear extrapolation (more by the `eps` of the log) — along the slope at constant energy,
`dP/drho|_T + dT/drho|_e dP/dT`. -/
theorem C151_density_above {c : Consts K} (hc : c.Ok) (lt : Int) (L : Int → Lib K) {ms : List (Mat K (Mesh K))}
    {m : Mat K (Mesh K)} {k : Name} {s : Split} (h : WrittenE c ms m k s) : ∃ f, eosOfE (saveAll lt L ms) k s = some f ∧
    ∀ (tr : Spiner.Transform K) (cache : K) (i : Nat), i < m.bT.n → c.eps ≤ c.pw (m.bT.grid.x i) →
      let r := m.bR.pt (m.bR.n - 1)
      let p := (L m.matid).P s r (m.bT.pt i)
      let t := (L m.matid).T s r ((L m.matid).U s r (m.bT.pt i)).v
      let slope := 10 ^ 10 * (p.dx + t.dx * p.dy)
      0 < slope → ∀ P, 10 ^ 10 * p.v < P →
        10 ^ 10 * p.v + slope * ((dePT (f.load c tr) cache P (m.bT.pt i - c.eps)).1 - c.eps - r) = P ∧
        (lRhoOfPT (f.load c tr) cache P ((f.load c tr).lT (m.bT.pt i - c.eps))).2 = .success := by
  obtain ⟨t, ht, hi, hg⟩ := eosE_reads lt L h
  refine ⟨_, ht, fun tr cache i hi' hxT => ?_⟩
  intro r p τ slope hs P hP
  have nR := h.on.R.n
  have nT := h.on.T.n
  have n0 : m.bR.n - 1 < m.bR.n := by have := h.on.R.ok.two; omega
  have eT := hg.lT (tr := tr) hc h.on hi' hxT
  have row : ∀ {d : Dset K (Mesh K)} {F : K → K → K}, IsTable2 d m.bR m.bT F →
      t.toFile.gT.lin (d.v2 (t.toFile.gR.N - 1)) (m.bT.grid.x i) = F r (m.bT.pt i) := fun {d F} hd => by
    have e : t.toFile.gR.N - 1 = m.bR.n - 1 := by rw [hg.gR, nR]
    rw [e, hg.gT]
    exact node1 h.on.T (F := fun T => F r T) (fun i hi => v2_eq hd n0 hi) hi'
  have e1 : (t.toFile.load c tr).PMaxRho ((t.toFile.load c tr).lT (m.bT.pt i - c.eps)) = 10 ^ 10 * p.v := by
    rw [eT]; exact row hi.tP
  have e2 : (t.toFile.load c tr).dPdRhoMax ((t.toFile.load c tr).lT (m.bT.pt i - c.eps)) = slope := by
    rw [eT]; exact row hi.tdPdRho
  have e3 : (t.toFile.load c tr).rhoMax = r := by
    show fromLog c.pw t.toFile.gR.max |t.toFile.offR| = _
    show _ = m.bR.pt (m.bR.n - 1)
    rw [← hg.rho (c := c) h.on n0, hg.gR, nR]; rfl
  have hpos : 0 < c.pw (m.bR.grid.x (m.bR.n - 1)) := hc.pos _
  have hr : r = c.pw (m.bR.grid.x (m.bR.n - 1)) - m.bR.offset := h.on.R.pt _ n0
  have heps := hc.eps
  obtain ⟨a1, a2, -⟩ := C94_above (t.toFile.load c tr) (δ := c.eps) (P := P) (T := m.bT.pt i - c.eps) cache (by rw [e2]; exact hs)
    (by rw [e1]; exact hP) (fun x hx => by
      show fromLog c.pw (toLog c.lg c.eps x |t.toFile.offR|) |t.toFile.offR| = _
      rw [e3] at hx
      rw [hg.offR]
      unfold fromLog toLog
      rw [max_eq_left (by linarith), abs_of_nonneg (by linarith), hc.inv _ (by linarith)]
      ring)
  rw [e1, e2, e3] at a2
  exact ⟨a2, a1⟩

/-- C151 does not hold for the classes with an energy transform: the tables by energy that `sesame2spiner` writes are by energy,
but they are read at the transformed energy. With `ShiftTransform`, the temperature reported for EOSPAC's energy `e` above the
cold curve is EOSPAC's temperature at `e` less the cold energy: below EOSPAC's own, if the temperature rises with energy and the
cold energy is positive. -/
theorem C151_shift_violated {c : Consts K} (hc : c.Ok) (lt : Int) (L : Int → Lib K) {ms : List (Mat K (Mesh K))}
    {m : Mat K (Mesh K)} {k : Name} {s : Split} (h : WrittenE c ms m k s) : ∃ f, eosOfE (saveAll lt L ms) k s = some f ∧
    ∀ (T1 : K → K) (j i : Nat), j < m.bR.n → i < m.bE.n → c.eps ≤ c.pw (m.bR.grid.x j) → c.eps ≤ c.pw (m.bE.grid.x i) →
      let r := m.bR.pt j
      let cold := 10 ^ 10 * ((L m.matid).Uc r).v
      let e := m.bE.pt i + cold
      let T := fun e => ((L m.matid).T s r (e / 10 ^ 10)).v
      let got := query (f.load c (shiftT (f.tdata c T1))) .tRE (r - c.eps) (e - c.eps)
      got = T (e - cold) ∧ (0 < cold → StrictMono T → got < T e) := by
  obtain ⟨t, ht, hi, hg⟩ := eosE_reads lt L h
  refine ⟨_, ht, fun T1 j i hj hi' hxR hxE => ?_⟩
  intro r cold e T got
  have eR := hg.lRho (tr := shiftT (t.toFile.tdata c T1)) hc h.on hj hxR
  have eE := hg.lE (tr := shiftT (t.toFile.tdata c T1)) hc h.E hi' hxE
  have ec : eCold (t.toFile.tdata c T1) (r - c.eps) = cold := by
    have eR' : toLog c.lg c.eps (r - c.eps) |t.toFile.offR| = m.bR.grid.x j := eR
    show t.toFile.gR.lin t.sieCold.v1 (toLog c.lg c.eps (r - c.eps) |t.toFile.offR|) = _
    rw [eR', hg.gR]
    exact node1 h.on.R (F := fun r => 10 ^ 10 * ((L m.matid).Uc r).v) (fun j hj => v1_eq hi.cold.sie hj) hj
  have ef : (t.toFile.load c (shiftT (t.toFile.tdata c T1))).tr.fwd (e - c.eps) (r - c.eps) = m.bE.pt i - c.eps := by
    show e - c.eps - eCold _ _ = _
    rw [ec]; show m.bE.pt i + cold - c.eps - cold = _; ring
  have eg : got = T (m.bE.pt i) := by
    show query _ _ _ _ = _
    simp only [query, interpRhoSie]
    rw [ef, eR, eE]
    show t.toFile.gR.lin2 t.toFile.gE t.T.v2 _ _ = _
    rw [hg.gR, hg.gE]
    exact node2 h.on.R h.E (F := fun r e => ((L m.matid).T s r (e / 10 ^ 10)).v) (fun j hj i hi' => v2_eq hi.T hj hi') hj hi'
  have e0 : e - cold = m.bE.pt i := by show m.bE.pt i + cold - cold = _; ring
  rw [e0]
  exact ⟨eg, fun h0 hm => by rw [eg]; exact hm (by show m.bE.pt i < m.bE.pt i + cold; linarith)⟩

/-- C151: the reference state at a normal density and room temperature inside the table: density and temperature asked for, and
what the queries say there; the coefficient `dvdt` is `dPdE cv / (rho^2 dPdRho)` of the tables there. -/
theorem C151_reference (c : Consts K) (f : FileE K) (tr : Spiner.Transform K)
    (h1 : f.gR.min < (f.load c tr).lRho |f.rhoNormal|) (h2 : (f.load c tr).lRho |f.rhoNormal| < f.gR.max)
    (h3 : f.gT.min < (f.load c tr).lT c.room) (h4 : (f.load c tr).lT c.room < f.gT.max) :
    let o := f.ref c tr
    let ask := fun q => query (f.load c tr) q |f.rhoNormal| c.room
    let at' := fun d => f.gR.lin2 f.gT d ((f.load c tr).lRho |f.rhoNormal|) ((f.load c tr).lT c.room)
    o.rho = |f.rhoNormal| ∧ o.temp = c.room ∧ o.sie = ask .eRT ∧ o.press = ask .pRT ∧ o.cv = ask .cvRT ∧ o.bmod = ask .bRT ∧
      o.dpde = at' f.t.dPdE ∧ o.dvdt = at' f.t.dPdE * ask .cvRT / (|f.rhoNormal| ^ 2 * at' f.t.dPdRho) := by
  intro o ask at'
  have e1 : (f.load c tr).lRhoMin < (f.load c tr).lRho |f.rhoNormal| ∧ (f.load c tr).lRho |f.rhoNormal| < (f.load c tr).lRhoMax :=
    ⟨h1, h2⟩
  have e2 : (f.load c tr).lTMin < (f.load c tr).lT c.room ∧ (f.load c tr).lT c.room < (f.load c tr).lTMax := ⟨h3, h4⟩
  show (refState (f.load c tr) |f.rhoNormal| c.room).rho = _ ∧ _
  refine ⟨?_, ?_, ?_, ?_, ?_, ?_, ?_, ?_⟩
  all_goals
    try show (refState (f.load c tr) |f.rhoNormal| c.room).temp = _
    try show (refState (f.load c tr) |f.rhoNormal| c.room).sie = _
    try show (refState (f.load c tr) |f.rhoNormal| c.room).press = _
    try show (refState (f.load c tr) |f.rhoNormal| c.room).cv = _
    try show (refState (f.load c tr) |f.rhoNormal| c.room).bmod = _
    try show (refState (f.load c tr) |f.rhoNormal| c.room).dpde = _
    try show (refState (f.load c tr) |f.rhoNormal| c.room).dvdt = _
    simp only [refState, if_pos e1, if_pos e2]
    try rfl
  show _ = at' f.t.dPdE * ask .cvRT / (|f.rhoNormal| ^ 2 * at' f.t.dPdRho)
  rw [sq]; rfl

/-! ## A material -/

/-- `iron` of C150 (densities, temperatures and energies 1, √10, 10) meets the hypotheses. -/
theorem iron_writtenE : WrittenE RhoT.std [iron] iron (.byName ['i', 'r', 'o', 'n']) .total :=
  { iron_written with E := threeBnd_on }

example : 1 < iron.bR.n ∧ 1 < iron.bE.n ∧ RhoT.std.eps ≤ RhoT.std.pw (iron.bE.grid.x 1) := by
  have hx : iron.bE.grid.x 1 = 1 / 2 := by
    show threePt.x 1 = _
    norm_num [threePt, ofGrid, Grid.x, Grid.dx]
  refine ⟨by show 1 < 3; norm_num, by show 1 < 3; norm_num, ?_⟩
  rw [hx]
  show 1 / 10 ^ 15 ≤ (10 : ℝ) ^ ((1 : ℝ) / 2)
  have : (1 : ℝ) ≤ (10 : ℝ) ^ ((1 : ℝ) / 2) := Real.one_le_rpow (by norm_num) (by norm_num)
  linarith [show (1 : ℝ) / 10 ^ 15 ≤ 1 by norm_num]

/-- A file whose reference state is inside its table (normal density 3, `std`'s room temperature 5, table from 1 to 10). -/
example (d : Nat → Nat → ℝ) (b : Boxes ℝ) :
    let f : FileE ℝ := ⟨threePt, threePt, threePt, d, d, b, b, fun _ => 0, 0, 0, 0, 3, none⟩
    f.gR.min < (f.load RhoT.std nullT).lRho |f.rhoNormal| ∧ (f.load RhoT.std nullT).lRho |f.rhoNormal| < f.gR.max ∧
    f.gT.min < (f.load RhoT.std nullT).lT RhoT.std.room ∧ (f.load RhoT.std nullT).lT RhoT.std.room < f.gT.max := by
  intro f
  have e : (f.load RhoT.std nullT).lRho |f.rhoNormal| = Real.logb 10 (3 + 1 / 10 ^ 15) := by
    show Real.logb 10 (abs (max (abs (3 : ℝ)) (-abs (0 : ℝ)) + abs (0 : ℝ)) + 1 / 10 ^ 15) = _
    norm_num
  have e' : (f.load RhoT.std nullT).lT RhoT.std.room = Real.logb 10 (5 + 1 / 10 ^ 15) := by
    show Real.logb 10 (abs (max (5 : ℝ) (-abs (0 : ℝ)) + abs (0 : ℝ)) + 1 / 10 ^ 15) = _
    norm_num
  rw [e, e', show f.gR.min = 0 from threePt_min, show f.gR.max = 1 from threePt_max]
  refine ⟨Real.logb_pos (by norm_num) (by norm_num), ?_, Real.logb_pos (by norm_num) (by norm_num), ?_⟩
  all_goals rw [Real.logb_lt_iff_lt_rpow (by norm_num) (by norm_num)]; norm_num

/-- And what it then says: the temperature at the middle point is the library's. -/
example (L : Lib ℝ) : ∃ f, eosOfE (saveAll 1 (fun _ => L) [iron]) (.byName ['i', 'r', 'o', 'n']) .total = some f ∧
    query (f.load RhoT.std nullT) .tRE (iron.bR.pt 1 - RhoT.std.eps) (iron.bE.pt 1 - RhoT.std.eps) =
      (L.T .total (iron.bR.pt 1) (iron.bE.pt 1 / 10 ^ 10)).v := by
  obtain ⟨f, hf, h⟩ := C151_by_energy RhoT.std_ok 1 (fun _ => L) iron_writtenE
  have hx : iron.bE.grid.x 1 = 1 / 2 := by
    show threePt.x 1 = _
    norm_num [threePt, ofGrid, Grid.x, Grid.dx]
  have he : RhoT.std.eps ≤ RhoT.std.pw (iron.bE.grid.x 1) := by
    rw [hx]
    show 1 / 10 ^ 15 ≤ (10 : ℝ) ^ ((1 : ℝ) / 2)
    have : (1 : ℝ) ≤ (10 : ℝ) ^ ((1 : ℝ) / 2) := Real.one_le_rpow (by norm_num) (by norm_num)
    linarith [show (1 : ℝ) / 10 ^ 15 ≤ 1 by norm_num]
  exact ⟨f, hf, (h 1 1 (by show 1 < 3; norm_num) (by show 1 < 3; norm_num) he he).1⟩

end Verif.Sp5
