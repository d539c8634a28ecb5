import Verif.Model.Table.SpinerRhoTLoad
import Verif.Lemmas.Mesh
import Verif.Props.Table.Converge
import Verif.Props.Table.SpinerRhoSie

set_option linter.unusedSectionVars false

/-!
# C149: a `SpinerEOSDependsRhoT` read from a file

The tables of C85-C91 were arbitrary functions; here they are what the constructor makes of the numbers in a file.
-/

namespace Verif.RhoT

open Verif.RootFind Verif.Robust Verif.Mods Verif.Databox Verif.Spiner

variable {K : Type*} [Field K] [LinearOrder K] [IsStrictOrderedRing K]

/-- An exact logarithm and its inverse (C57 for the library's own), nonnegative thresholds. -/
structure Consts.Ok (m : Consts K) : Prop where
  eps : 0 < m.eps
  inv : ∀ x, 0 < x → m.pw (m.lg x) = x
  inv' : ∀ y, m.lg (m.pw y) = y
  pos : ∀ y, 0 < m.pw y
  mono : StrictMonoOn m.lg (Set.Ioi 0)
  soft : 0 ≤ m.soft
  thr : 0 ≤ m.thr

/-- A table of the file: a grid point that is stored twice (where two regular grids meet) has the same entry twice. -/
structure File.Fits (f : File K) (d : Nat → Nat → K) : Prop where
  row : ∀ j < f.gR.N, f.gT.Agrees (d j)
  col : ∀ i < f.gT.N, f.gR.Agrees fun j => d j i

/-- The grids are in order, and the top of the log temperature range is positive and clear of the bottom (the soft threshold
of the library is relative to the log). -/
structure File.Ok (m : Consts K) (f : File K) : Prop where
  R : f.gR.Ok
  T : f.gT.Ok
  top : 0 ≤ f.gT.max
  clear : (1 + m.soft) * f.gT.min < f.gT.max

theorem floorEps_max (t : Tab K) (x : K) : floorEps t x = max x t.eps := by
  unfold floorEps
  split_ifs with hgt
  · exact (max_eq_left hgt.le).symm
  · exact (max_eq_right (not_lt.1 hgt)).symm

theorem File.tscale {m : Consts K} (hm : m.Ok) {f : File K} (h : f.Ok m) : TScale (f.load m) m.eps :=
  tscale_of_logs (f.load m) m.lg m.pw hm.eps hm.inv hm.inv' hm.pos hm.mono rfl rfl rfl hm.soft h.top h.clear

theorem File.tab_top {f : File K} (hR : f.gR.Ok) (hT : f.gT.Ok) {d : Nat → Nat → K} (hd : f.Fits d) (x : K) :
    f.gR.lin (fun j => d j (f.gT.N - 1)) x = f.tab d x f.gT.max := by
  unfold File.tab Mesh.lin2
  refine f.gR.lin_congr hR (fun j hj => ?_) x
  exact (f.gT.lin_node hT (hd.row j hj) (by have := hT.two; omega)).symm

theorem File.tab_node {f : File K} (hR : f.gR.Ok) (hT : f.gT.Ok) {d : Nat → Nat → K} (hd : f.Fits d) {j i : Nat}
    (hj : j < f.gR.N) (hi : i < f.gT.N) : f.tab d (f.gR.x j) (f.gT.x i) = d j i := by
  unfold File.tab Mesh.lin2
  rw [f.gR.lin_congr hR (f' := fun j => d j i) (fun j hj => f.gT.lin_node hT (hd.row j hj) hi)]
  exact f.gR.lin_node hR (hd.col i hi) hj

theorem File.tab_ge {f : File K} (hR : f.gR.Ok) (hT : f.gT.Ok) {d : Nat → Nat → K} {lo x y : K}
    (hd : ∀ j < f.gR.N, ∀ i < f.gT.N, lo ≤ d j i) (x1 : f.gR.min ≤ x) (x2 : x ≤ f.gR.max) (y1 : f.gT.min ≤ y)
    (y2 : y ≤ f.gT.max) : lo ≤ f.tab d x y :=
  f.gR.lin_ge hR (fun j hj => f.gT.lin_ge hT (hd j hj) y1 y2) x1 x2

theorem File.tab_le {f : File K} (hR : f.gR.Ok) (hT : f.gT.Ok) {d : Nat → Nat → K} {hi x y : K}
    (hd : ∀ j < f.gR.N, ∀ i < f.gT.N, d j i ≤ hi) (x1 : f.gR.min ≤ x) (x2 : x ≤ f.gR.max) (y1 : f.gT.min ≤ y)
    (y2 : y ≤ f.gT.max) : f.tab d x y ≤ hi := by
  have := f.tab_ge hR hT (d := fun j i => -d j i) (lo := -hi) (fun j hj i h => neg_le_neg (hd j hj i h)) x1 x2 y1 y2
  have e : f.tab (fun j i => -d j i) x y = -f.tab d x y := by unfold File.tab Mesh.lin2 Mesh.lin; ring
  rw [e] at this
  linarith

theorem File.bulk_fits (m : Consts K) (f : File K) : f.Fits (f.bulk m) where
  row j _ i i' _ _ h := by simp only [File.bulk, h]
  col i _ j j' _ _ h := by simp only [File.bulk, h]

theorem File.bulk_ge (m : Consts K) (f : File K) (j i : Nat) : |m.eps| ≤ f.bulk m j i := le_max_right _ _

/-- C149: at and above the top of the table. The energy at the highest temperature is the file's (interpolated in density)
on its last isotherm, and from there rises linearly with the heat capacity of that isotherm, which is the heat capacity
reported (above the floor); the pressure above which the inversion of pressure reports the highest temperature is that of
the last isotherm. -/
theorem C149_top {m : Consts K} (hm : m.Ok) {f : File K} (h : f.Ok m) (hs : f.Fits f.sie) (hP : f.Fits f.P)
    (hc : f.Fits f.dEdT) (c rho : K) :
    let t := f.load m
    query t .eRT c rho t.TMax = f.tab f.sie (f.lRho m rho) f.gT.max ∧
    (∀ T, t.TMax ≤ T → query t .eRT c rho T =
      f.tab f.sie (f.lRho m rho) f.gT.max + f.tab f.dEdT (f.lRho m rho) f.gT.max * (T - t.TMax) ∧
      query t .cvRT c rho T = max (f.tab f.dEdT (f.lRho m rho) f.gT.max) m.eps) ∧
    ∀ press, f.tab f.P (f.lRho m rho) f.gT.max ≤ press → f.gR.lin f.PCold (f.lRho m rho) < press →
      (lTOfP t c (f.lRho m rho) press).x = f.gT.max := by
  intro t
  have hts : TScale t m.eps := f.tscale hm h
  have ht : ∀ T, t.TMax ≤ T → query t .eRT c rho T =
      f.tab f.sie (f.lRho m rho) f.gT.max + f.tab f.dEdT (f.lRho m rho) f.gT.max * (T - t.TMax) ∧
      query t .cvRT c rho T = max (f.tab f.dEdT (f.lRho m rho) f.gT.max) m.eps := fun T hT => by
    simp only [query, locT_above t hts hT, sieAt, cvAt]
    rw [← f.tab_top h.R h.T hs, ← f.tab_top h.R h.T hc]
    exact ⟨rfl, floorEps_max t _⟩
  refine ⟨?_, ht, fun press h1 h2 => ?_⟩
  · have := (ht t.TMax le_rfl).1
    rw [this]; ring
  · rw [← f.tab_top h.R h.T hP] at h1
    unfold lTOfP
    rw [if_neg (show ¬ press ≤ t.PCold (f.lRho m rho) from not_le.2 h2),
      if_pos (show press ≥ t.PMax (f.lRho m rho) from h1)]
    rfl

/-- C149: at the points of the file. For a density and temperature whose logs are a grid point (inside the soft margins of
the temperature range) pressure and energy are the file's entries, the heat capacity is the entry or the floor, and the bulk
modulus is `rho dP/drho|_e + (P / rho) dP/de` of the entries where `dP/de > 0` and that is at least `robust::EPS`. -/
theorem C149_points {m : Consts K} (hm : m.Ok) {f : File K} (h : f.Ok m) (hs : f.Fits f.sie) (hP : f.Fits f.P)
    (hc : f.Fits f.dEdT) (hr : f.Fits f.dPdRho) (he : f.Fits f.dPdE) (c : K) {rho T : K} {j i : Nat} (hj : j < f.gR.N)
    (hi : i < f.gT.N) (hx : f.lRho m rho = f.gR.x j) (hy : f.lT m T = f.gT.x i) (h1 : (1 + m.soft) * f.gT.min < f.gT.x i)
    (h2 : f.gT.x i < (1 - m.soft) * f.gT.max) :
    let t := f.load m
    query t .pRT c rho T = f.P j i ∧ query t .eRT c rho T = f.sie j i ∧
    query t .cvRT c rho T = max (f.dEdT j i) m.eps ∧
    (let r := f.rho m (f.gR.x j)
     0 < r → 0 < f.dPdE j i → m.eps ≤ r * f.dPdRho j i + f.dPdE j i * (f.P j i / r) →
     query t .bRT c rho T = r * f.dPdRho j i + f.dPdE j i * (f.P j i / r)) ∧
    m.eps ≤ query t .bRT c rho T := by
  intro t
  have hloc : locT t (t.lT T) = .onTable := by
    have e : t.lT T = f.gT.x i := hy
    unfold locT
    rw [e, if_neg (show ¬ f.gT.x i ≤ (1 + t.soft) * t.lTMin from not_le.2 h1),
      if_neg (show ¬ f.gT.x i ≥ (1 - t.soft) * t.lTMax from not_le.2 h2)]
  have hb : query t .bRT c rho T = f.bulk m j i := by
    have : t.bMod (t.lRho rho) (t.lT T) = f.bulk m j i := by
      show f.tab (f.bulk m) (f.lRho m rho) (f.lT m T) = _
      rw [hx, hy, f.tab_node h.R h.T (f.bulk_fits m) hj hi]
    simp only [query, hloc, bAt, floorEps_max]
    rw [this]
    have hge := f.bulk_ge m j i
    rw [abs_of_pos hm.eps] at hge
    exact max_eq_left hge
  refine ⟨?_, ?_, ?_, ?_, ?_⟩
  · simp only [query, hloc, pAt]
    show f.tab f.P (f.lRho m rho) (f.lT m T) = _
    rw [hx, hy, f.tab_node h.R h.T hP hj hi]
  · simp only [query, hloc, sieAt]
    show f.tab f.sie (f.lRho m rho) (f.lT m T) = _
    rw [hx, hy, f.tab_node h.R h.T hs hj hi]
  · simp only [query, hloc, cvAt, floorEps_max]
    show max (f.tab f.dEdT (f.lRho m rho) (f.lT m T)) m.eps = _
    rw [hx, hy, f.tab_node h.R h.T hc hj hi]
  · intro r hr0 hd hge
    rw [hb]
    unfold File.bulk
    simp only
    rw [f.tab_node h.R h.T hP hj hi, f.tab_node h.R h.T hr hj hi, f.tab_node h.R h.T he hj hi]
    unfold fixedBulk
    simp only
    rw [if_pos ⟨hd, hr0⟩, abs_of_pos hm.eps]
    exact max_eq_left hge
  · rw [hb]
    have := f.bulk_ge m j i
    rwa [abs_of_pos hm.eps] at this

/-- The energies of the file rise with the log temperature at least at rate `s`, at every density of the file. -/
def File.EnergyRises (f : File K) (s : K) : Prop :=
  ∀ j < f.gR.N, ∀ i, i + 1 < f.gT.N → s * (f.gT.x (i + 1) - f.gT.x i) ≤ f.sie j (i + 1) - f.sie j i

/-- At most at rate `S`. -/
def File.EnergyAtMost (f : File K) (S : K) : Prop :=
  ∀ j < f.gR.N, ∀ i, i + 1 < f.gT.N → f.sie j (i + 1) - f.sie j i ≤ S * (f.gT.x (i + 1) - f.gT.x i)

theorem File.sie_rises {f : File K} (hR : f.gR.Ok) (hT : f.gT.Ok) {s : K} (hs : f.EnergyRises s) {x : K} (x1 : f.gR.min ≤ x)
    (x2 : x ≤ f.gR.max) (a b : K) : Rises (f.tab f.sie x) s a b := fun u v _ huv _ =>
  f.gR.lin_rate_param hR (fun j hj => f.gT.lin_rate hT (hs j hj) huv) x1 x2

theorem File.sie_atMost {f : File K} (hR : f.gR.Ok) (hT : f.gT.Ok) {S : K} (hs : f.EnergyAtMost S) {x : K}
    (x1 : f.gR.min ≤ x) (x2 : x ≤ f.gR.max) (a b : K) : AtMost (f.tab f.sie x) S a b := fun u v _ huv _ => by
  have := f.gR.lin_rate_param hR (f := fun j => f.gT.lin (f.sie j) v) (f' := fun j => f.gT.lin (f.sie j) u)
    (d := -(S * (v - u))) (fun j hj => by linarith [f.gT.lin_rate_le hT (hs j hj) huv]) x1 x2
  unfold File.tab Mesh.lin2
  linarith

/-- C149: energy and temperature are inverse to each other on the table. If the energies in the file rise with temperature
at rates between `s` and `S` and the root finder's iterations suffice for `S / s`, then at every density of the file's range
and every temperature on the table, the temperature found from the energy has a log within `max thr (2 thr / s)` of the log
of the temperature, whatever the cache holds. -/
theorem C149_temperature_round_trip {m : Consts K} (hm : m.Ok) {f : File K} (h : f.Ok m) {s S : K} (hs : 0 < s) (hS : s ≤ S)
    (h1 : f.EnergyRises s) (h2 : f.EnergyAtMost S) (hen : Enough s S (f.gT.max - f.gT.min) m.thr) (c c' : K) {rho T : K}
    (x1 : f.gR.min ≤ f.lRho m rho) (x2 : f.lRho m rho ≤ f.gR.max)
    (hT : locT (f.load m) (f.lT m T) = .onTable)
    (hE : locE (f.load m) (f.lRho m rho) (query (f.load m) .eRT c' rho T) = .onTable)
    (hsoft : m.soft * f.gT.min ≥ 0 ∧ m.soft * f.gT.max ≥ 0) :
    ∃ x, query (f.load m) .tRE c rho (query (f.load m) .eRT c' rho T) = f.T m x ∧
      |x - f.lT m T| ≤ max m.thr (2 * m.thr / s) := by
  set t := f.load m with ht
  have hq : query t .eRT c' rho T = t.sie (t.lRho rho) (t.lT T) := by
    have : locT t (t.lT T) = .onTable := hT
    simp only [query, this, sieAt]
  have hin : t.lTMin ≤ t.lT T ∧ t.lT T ≤ t.lTMax := by
    have hT' : locT t (t.lT T) = .onTable := hT
    unfold locT at hT'
    split_ifs at hT' with a b
    have p1 : (1 + m.soft) * f.gT.min = f.gT.min + m.soft * f.gT.min := by ring
    have p2 : (1 - m.soft) * f.gT.max = f.gT.max - m.soft * f.gT.max := by ring
    have a' : ¬ t.lT T ≤ (1 + m.soft) * f.gT.min := a
    have b' : ¬ t.lT T ≥ (1 - m.soft) * f.gT.max := b
    push Not at a' b'
    constructor
    · show f.gT.min ≤ _; linarith [hsoft.1]
    · show _ ≤ f.gT.max; linarith [hsoft.2]
  rw [hq] at hE ⊢
  have r1 : Rises (t.sie (t.lRho rho)) s t.lTMin t.lTMax := f.sie_rises h.R h.T h1 x1 x2 _ _
  have r2 : AtMost (t.sie (t.lRho rho)) S t.lTMin t.lTMax := f.sie_atMost h.R h.T h2 x1 x2 _ _
  have hok := C85_succeeds t hm.thr (rho := rho) c hs hS hen r1 r2 hin.1 hin.2
  obtain ⟨e1, e2⟩ := C85_round_trip t hm.thr c hs r1 hin.1 hin.2 hE hok
  exact ⟨_, e1, e2⟩

/-- The pressures of the file rise with the log density at least at rate `s`, on every isotherm of the file. -/
def File.PressureRises (f : File K) (s : K) : Prop :=
  ∀ i < f.gT.N, ∀ j, j + 1 < f.gR.N → s * (f.gR.x (j + 1) - f.gR.x j) ≤ f.P (j + 1) i - f.P j i

/-- At most at rate `S`. -/
def File.PressureAtMost (f : File K) (S : K) : Prop :=
  ∀ i < f.gT.N, ∀ j, j + 1 < f.gR.N → f.P (j + 1) i - f.P j i ≤ S * (f.gR.x (j + 1) - f.gR.x j)

/-- C149: pressure and density are inverse to each other on the isotherms of the table. If the pressures in the file rise
with density at rates between `s` and `S` and the iterations suffice, then at every temperature inside the range and every
density between that of least pressure and the highest, the density found from pressure and temperature has a log within
`max thr (2 thr / s)` of the log of the density. -/
theorem C149_density_round_trip {m : Consts K} (hm : m.Ok) {f : File K} (h : f.Ok m) {s S : K} (hs : 0 < s) (hS : s ≤ S)
    (h1 : f.PressureRises s) (h2 : f.PressureAtMost S) (c c' : K) {rho T : K}
    (hen : Enough s S (f.gR.max - f.lRho m ((f.load m).rhoAtPmin (f.lT m T))) m.thr)
    (t1 : f.gT.min < f.lT m T) (t2 : f.lT m T < f.gT.max) (hT : locT (f.load m) (f.lT m T) = .onTable)
    (x1 : f.lRho m ((f.load m).rhoAtPmin (f.lT m T)) ≤ f.lRho m rho) (x2 : f.lRho m rho ≤ f.gR.max) :
    ∃ x, (dePT (f.load m) c (query (f.load m) .pRT c' rho T) T).1 = f.rho m x ∧
      |x - f.lRho m rho| ≤ max m.thr (2 * m.thr / s) := by
  set t := f.load m with ht
  have hq : query t .pRT c' rho T = t.P (t.lRho rho) (t.lT T) := by
    have : locT t (t.lT T) = .onTable := hT
    simp only [query, this, pAt]
  have swap : ∀ y, t.P y (t.lT T) = f.gT.lin (fun i => f.gR.lin (fun j => f.P j i) y) (t.lT T) := fun y =>
    Mesh.lin2_swap f.gR f.gT f.P y _
  have r1 : Rises (fun y => t.P y (t.lT T)) s (t.lRho (t.rhoAtPmin (t.lT T))) t.lRhoMax := fun u v _ huv _ => by
    simp only [swap]
    exact f.gT.lin_rate_param h.T (fun i hi => f.gR.lin_rate h.R (h1 i hi) huv) t1.le t2.le
  have r2 : AtMost (fun y => t.P y (t.lT T)) S (t.lRho (t.rhoAtPmin (t.lT T))) t.lRhoMax := fun u v _ huv _ => by
    simp only [swap]
    have := f.gT.lin_rate_param h.T (f := fun i => f.gR.lin (fun j => f.P j i) v)
      (f' := fun i => f.gR.lin (fun j => f.P j i) u) (d := -(S * (v - u)))
      (fun i hi => by linarith [f.gR.lin_rate_le h.R (f := fun j => f.P j i) (h2 i hi) huv]) t1.le t2.le
    have e : t.lT T = f.lT m T := rfl
    rw [e]
    linarith
  obtain ⟨e1, e2, e3⟩ := C86_round_trip t hm.thr (T := T) (x := t.lRho rho) c hs (fun y => t.P y (t.lT T))
    (Or.inr ⟨t1, t2, rfl⟩) r1 x1 x2
  rw [hq]
  exact ⟨_, e1, e2 (e3 S hS r2 hen)⟩

/-- C149: below the cold curve. In a file whose energies rise with temperature the constructor's search for the critical
temperature (see C89) ends at the lowest one, so that below the cold curve temperature is the lowest of the table, and heat
capacity, bulk modulus and Grüneisen coefficient are, at the densities of the file, those of the coldest isotherm. -/
theorem C149_cold {m : Consts K} (hm : m.Ok) {f : File K} (h : f.Ok m) {s : K} (hs : 0 < s) (h1 : f.EnergyRises s)
    (hc : f.Fits f.dEdT) (hd : f.Fits f.dPdE) (c : K) {rho e : K} {j : Nat} (hj : j < f.gR.N)
    (hx : f.lRho m rho = f.gR.x j) (hloc : locE (f.load m) (f.lRho m rho) e = .offBottom) :
    let t := f.load m
    query t .tRE c rho e = f.T m f.gT.min ∧ query t .cvRE c rho e = max (f.dEdT j 0) m.eps ∧
    query t .bRE c rho e = f.bulk m j 0 ∧ query t .gRE c rho e = ratio m.σ |f.dPdE j 0| |rho| := by
  intro t
  have hcrit : ∀ k < f.gR.N, f.crit m k = f.gT.min := fun k hk => by
    set y := f.gR.lin f.sieCold (f.gR.x k)
    set d : Nat → K := fun i => f.sie k i - y with hdd
    have up : ∀ i i', i ≤ i' → i' < f.gT.N → d i ≤ d i' := by
      intro i i' hii hi'
      induction i' with
      | zero => rw [Nat.le_zero.1 hii]
      | succ n ih =>
        rcases Nat.lt_or_ge i (n + 1) with hl | hl
        · refine (ih (by omega) (by omega)).trans ?_
          have h2 := h1 k hk n hi'
          have h3 := mul_nonneg hs.le (sub_nonneg.2 (h.T.mono n (n + 1) (by omega) hi'))
          simp only [hdd]; linarith
        · rw [Nat.le_antisymm hii hl]
    show coldCrit m.thr m.c f.gT.min _ _ d f.gT.N y = _
    by_cases hex : ∃ i, i < f.gT.N - 1 ∧ d i < 0 ∧ 0 < d (i + 1)
    · obtain ⟨i, hi, hu⟩ := hex
      refine C89_single_crossing_violated _ _ _ _ _ _ _ _ (i := i) (fun j' hj' hsc => ?_) hi hu
      rcases hsc with ⟨a, b⟩ | ⟨a, b⟩
      · rcases lt_trichotomy j' i with hl | hl | hl
        · have := up (j' + 1) i (by omega) (by omega); linarith [hu.1]
        · exact hl
        · have := up (i + 1) j' (by omega) (by omega); linarith [hu.2]
      · have := up j' (j' + 1) (by omega) (by omega); linarith
    · push Not at hex
      exact C89_no_crossing _ _ _ _ _ _ _ _ fun i hi hcon => absurd hcon.2 (not_lt.2 (hex i hi hcon.1))
  have hcold : ∀ d, f.Fits d → f.gR.lin (f.cold m d) (f.lRho m rho) = d j 0 := fun d hdf => by
    have e : ∀ k < f.gR.N, f.cold m d k = d k 0 := fun k hk => by
      unfold File.cold
      rw [hcrit k hk]
      exact f.tab_node h.R h.T hdf hk (by have := h.T.two; omega)
    rw [hx, f.gR.lin_congr h.R e, f.gR.lin_node h.R (hdf.col 0 (by have := h.T.two; omega)) hj]
  have hinv : lTOfE t c (t.lRho rho) e = ⟨t.lTMin, .offBottom, .success⟩ := by
    have : locE t (t.lRho rho) e = .offBottom := hloc
    unfold lTOfE; rw [this]
  refine ⟨?_, ?_, ?_, ?_⟩
  · simp only [query, hinv]; rfl
  · simp only [query, hinv, cvAt, floorEps_max]
    show max (f.gR.lin (f.cold m f.dEdT) (f.lRho m rho)) m.eps = _
    rw [hcold _ hc]
  · simp only [query, hinv]
    exact hcold _ (f.bulk_fits m)
  · simp only [query, hinv, gAt]
    show ratio m.σ |f.gR.lin (f.cold m f.dPdE) (f.lRho m rho)| |rho| = _
    rw [hcold _ hd]

/-- The inverted log temperature is on the table when the requested energy lies between the lowest isotherm and the
highest. -/
theorem lTOfE_mem {m : Consts K} (hm : m.Ok) {f : File K} (h : f.Ok m) (hs : f.Fits f.sie) (c : K) {x e : K}
    (hloc : locE (f.load m) x e = .onTable) (he : f.tab f.sie x f.gT.min ≤ e) :
    f.gT.min ≤ (lTOfE (f.load m) c x e).x ∧ (lTOfE (f.load m) c x e).x ≤ f.gT.max := by
  set t := f.load m with ht
  have hlt : f.gT.min ≤ f.gT.max := f.gT.min_le_max h.T
  have htop : e < t.sie x t.lTMax := by
    have h1 : t.sie x t.lTMax = t.sielTMax x := (f.tab_top h.R h.T hs x).symm
    rw [h1]
    have h2 := mul_nonneg hm.soft (abs_nonneg (t.sielTMax x))
    have h3 : t.soft * |t.sielTMax x| = m.soft * |t.sielTMax x| := rfl
    unfold locE at hloc
    split_ifs at hloc with a b
    push Not at a
    linarith
  rw [lTOfE_onTable t c x e hloc]
  set g := guessOf c t.lTMin t.lTMax (if t.repro then t.lTMin else 1 / 2 * (t.lTMin + t.lTMax)) with hg
  have hlt' : t.lTMin ≤ t.lTMax := hlt
  have hgm : t.lTMin ≤ g ∧ g ≤ t.lTMax := by
    refine guess_mem ?_ ?_ <;> split_ifs <;> linarith
  have hbr : (t.sie x t.lTMin - e) * (t.sie x t.lTMax - e) ≤ 0 :=
    mul_nonpos_of_nonpos_of_nonneg (sub_nonpos.2 he) (sub_nonneg.2 htop.le)
  obtain ⟨st, xr, s, e1, e2, e3⟩ := C09_bracketed_root_in_interval (t.sie x) e g t.lTMin t.lTMax t.thr t.thr hm.thr hm.thr
    hgm.1 hgm.2 (Or.inl hbr)
  dsimp only
  unfold invert
  rw [e1]
  cases st with
  | success => exact ⟨e2, e3⟩
  | fail =>
    dsimp only
    split_ifs
    · exact ⟨le_rfl, hlt⟩
    · exact hgm

/-- C149: on a loaded table the bulk modulus by density and energy is at least `robust::EPS` (positive), at every density of
the range and every energy from the lowest isotherm up to the last, although that query has no floor
(`C88_bulk_by_energy_violated`); and so below the cold curve, where the critical temperatures found at loading are on the
table. -/
theorem C149_bulk_positive {m : Consts K} (hm : m.Ok) {f : File K} (h : f.Ok m) (hs : f.Fits f.sie) (c : K) {rho e : K}
    (x1 : f.gR.min ≤ f.lRho m rho) (x2 : f.lRho m rho ≤ f.gR.max)
    (he : (locE (f.load m) (f.lRho m rho) e = .onTable ∧ f.tab f.sie (f.lRho m rho) f.gT.min ≤ e) ∨
      (locE (f.load m) (f.lRho m rho) e = .offBottom ∧ ∀ j < f.gR.N, f.crit m j ≤ f.gT.max)) :
    m.eps ≤ query (f.load m) .bRE c rho e := by
  set t := f.load m with ht
  have hge : ∀ j < f.gR.N, ∀ i < f.gT.N, m.eps ≤ f.bulk m j i := fun j _ i _ => by
    have := f.bulk_ge m j i
    rwa [abs_of_pos hm.eps] at this
  rcases he with ⟨hloc, he⟩ | ⟨hloc, hcr⟩
  · obtain ⟨a, b⟩ := lTOfE_mem hm h hs c hloc he
    have hq : query t .bRE c rho e = t.bMod (t.lRho rho) (lTOfE t c (t.lRho rho) e).x := by
      have : (lTOfE t c (t.lRho rho) e).loc = .onTable := by rw [lTOfE_onTable t c (t.lRho rho) e hloc]
      simp only [query, this]
    rw [hq]
    exact f.tab_ge h.R h.T hge x1 x2 a b
  · have hq : query t .bRE c rho e = t.bModCold (t.lRho rho) := by
      have : locE t (t.lRho rho) e = .offBottom := hloc
      have : (lTOfE t c (t.lRho rho) e).loc = .offBottom := by unfold lTOfE; rw [this]
      simp only [query, this]
    rw [hq]
    refine f.gR.lin_ge h.R (fun j hj => ?_) x1 x2
    exact f.tab_ge h.R h.T hge (h.R.mono _ _ (Nat.zero_le _) hj)
      (h.R.mono _ _ (by omega) (by have := h.R.two; omega)) (C89_on_table _ _ _ _ _ _ _ _) (hcr j hj)

/-- C149: no pressure of the table is below `MinimumPressure()`: by density and temperature, and by density and energy from
the lowest isotherm up. Without the vapour-dome option that minimum is not positive. -/
theorem C149_minimum_pressure {m : Consts K} (hm : m.Ok) {f : File K} (h : f.Ok m) (hs : f.Fits f.sie) (c : K) {rho : K}
    (x1 : f.gR.min ≤ f.lRho m rho) (x2 : f.lRho m rho ≤ f.gR.max) :
    (∀ T, locT (f.load m) (f.lT m T) = .onTable → f.gT.min ≤ f.lT m T → f.lT m T ≤ f.gT.max →
      f.pMin m ≤ query (f.load m) .pRT c rho T) ∧
    (∀ e, locE (f.load m) (f.lRho m rho) e = .onTable → f.tab f.sie (f.lRho m rho) f.gT.min ≤ e →
      f.pMin m ≤ query (f.load m) .pRE c rho e) ∧
    (m.dome = false → f.pMin m ≤ 0) := by
  set t := f.load m with ht
  obtain ⟨p1, p2⟩ := C82_pmin_is_lower_bound (ratio m.σ) m.dome m.vaporThresh m.big f.P
    (fun j => fromLog m.pw (f.gR.x j) |f.offR|) f.gT.N f.gR.N
  have hge : ∀ j < f.gR.N, ∀ i < f.gT.N, f.pMin m ≤ f.P j i := fun j hj i hi => p1 i hi j hj
  refine ⟨fun T hloc y1 y2 => ?_, fun e hloc he => ?_, fun hd => p2 hd (by have := h.T.two; omega)⟩
  · have hq : query t .pRT c rho T = t.P (t.lRho rho) (t.lT T) := by
      have : locT t (t.lT T) = .onTable := hloc
      simp only [query, this, pAt]
    rw [hq]
    exact f.tab_ge h.R h.T hge x1 x2 y1 y2
  · obtain ⟨a, b⟩ := lTOfE_mem hm h hs c hloc he
    have hq : query t .pRE c rho e = t.P (t.lRho rho) (lTOfE t c (t.lRho rho) e).x := by
      have : (lTOfE t c (t.lRho rho) e).loc = .onTable := by rw [lTOfE_onTable t c (t.lRho rho) e hloc]
      simp only [query, this]
    rw [hq]
    exact f.tab_ge h.R h.T hge x1 x2 a b

/-- C149: the reference state. Its density and temperature are the normal density of the file and room temperature if their
logs are inside the table, else those at the middle of the log range; and in the first case energy, pressure, heat capacity
(above the floor) and bulk modulus are what the queries by density and temperature return there, and `dP/de` is `rho` times
the Grüneisen coefficient. -/
theorem C149_reference {m : Consts K} (hm : m.Ok) (hσ : m.σ = 0) {f : File K} (h : f.Ok m) (c : K)
    (x1 : f.gR.min < f.lRho m |f.rhoNormal|) (x2 : f.lRho m |f.rhoNormal| < f.gR.max)
    (y1 : f.gT.min < f.lT m m.room) (y2 : f.lT m m.room < f.gT.max) (hloc : locT (f.load m) (f.lT m m.room) = .onTable) :
    let o := f.ref m
    let t := f.load m
    o.rho = |f.rhoNormal| ∧ o.temp = m.room ∧ o.sie = query t .eRT c o.rho o.temp ∧ o.press = query t .pRT c o.rho o.temp ∧
    (m.eps ≤ o.cv → o.cv = query t .cvRT c o.rho o.temp) ∧ o.bmod = query t .bRT c o.rho o.temp ∧
    (f.rhoNormal ≠ 0 → 0 ≤ o.dpde → o.dpde = o.rho * query t .gRT c o.rho o.temp) := by
  intro o t
  have hr : f.refRho m = (|f.rhoNormal|, f.lRho m |f.rhoNormal|) := by
    unfold File.refRho; simp only; rw [if_pos ⟨x1, x2⟩]
  have hT : f.refT m = (m.room, f.lT m m.room) := by unfold File.refT; simp only; rw [if_pos ⟨y1, y2⟩]
  have hl : locT t (t.lT m.room) = .onTable := hloc
  have e1 : o.rho = |f.rhoNormal| := by show (f.refRho m).1 = _; rw [hr]
  have e2 : o.temp = m.room := by show (f.refT m).1 = _; rw [hT]
  have eb : ∀ d, f.tab d (f.refRho m).2 (f.refT m).2 = f.tab d (f.lRho m |f.rhoNormal|) (f.lT m m.room) := fun d => by
    rw [hr, hT]
  refine ⟨e1, e2, ?_, ?_, ?_, ?_, ?_⟩
  · rw [e1, e2]; simp only [query, hl, sieAt]; exact eb _
  · rw [e1, e2]; simp only [query, hl, pAt]; exact eb _
  · intro hcv
    rw [e1, e2]; simp only [query, hl, cvAt, floorEps_max]
    have : o.cv = f.tab f.dEdT (f.lRho m |f.rhoNormal|) (f.lT m m.room) := eb _
    rw [this] at hcv ⊢
    exact (max_eq_left hcv).symm
  · rw [e1, e2]; simp only [query, hl, bAt, floorEps_max]
    have e3 : o.bmod = f.tab (f.bulk m) (f.lRho m |f.rhoNormal|) (f.lT m m.room) := eb _
    rw [e3]
    refine (max_eq_left ?_).symm
    refine f.tab_ge h.R h.T (fun j _ i _ => ?_) x1.le x2.le y1.le y2.le
    have := f.bulk_ge m j i
    rwa [abs_of_pos hm.eps] at this
  · intro h0 hd
    rw [e1, e2]; simp only [query, hl, gAt]
    have e3 : o.dpde = t.dPdE (t.lRho |f.rhoNormal|) (t.lT m.room) := eb _
    rw [show t.σ = 0 from hσ, ratio_exact, ← e3, abs_abs, abs_of_nonneg hd, mul_div_cancel₀ _ (abs_ne_zero.2 h0)]

/-- C149: otherwise the reference state is the middle of the log ranges, which is inside the table, and the values reported
are the table's there. -/
theorem C149_reference_middle {m : Consts K} (hm : m.Ok) {f : File K} (h : f.Ok m) :
    f.gR.min ≤ (f.refRho m).2 ∧ (f.refRho m).2 ≤ f.gR.max ∧ f.gT.min ≤ (f.refT m).2 ∧ (f.refT m).2 ≤ f.gT.max ∧
    (f.ref m).rho = (f.refRho m).1 ∧ (f.ref m).temp = (f.refT m).1 ∧
    (f.ref m).press = f.tab f.P (f.refRho m).2 (f.refT m).2 ∧ (f.ref m).sie = f.tab f.sie (f.refRho m).2 (f.refT m).2 ∧
    (¬ (f.gR.min < f.lRho m |f.rhoNormal| ∧ f.lRho m |f.rhoNormal| < f.gR.max) →
      (f.refRho m).2 = (f.gR.min + f.gR.max) / 2 ∧ (f.refRho m).1 = f.rho m ((f.gR.min + f.gR.max) / 2)) ∧
    (¬ (f.gT.min < f.lT m m.room ∧ f.lT m m.room < f.gT.max) →
      (f.refT m).2 = (f.gT.min + f.gT.max) / 2 ∧ (f.refT m).1 = f.T m ((f.gT.min + f.gT.max) / 2)) := by
  have a := f.gR.min_le_max h.R
  have b := f.gT.min_le_max h.T
  have e : ∀ x y : K, 1 / 2 * (x + y) = (x + y) / 2 := fun x y => by ring
  refine ⟨?_, ?_, ?_, ?_, rfl, rfl, rfl, rfl, fun hn => ?_, fun hn => ?_⟩
  · unfold File.refRho; simp only; split_ifs with hc
    · exact hc.1.le
    · dsimp only; linarith
  · unfold File.refRho; simp only; split_ifs with hc
    · exact hc.2.le
    · dsimp only; linarith
  · unfold File.refT; simp only; split_ifs with hc
    · exact hc.1.le
    · dsimp only; linarith
  · unfold File.refT; simp only; split_ifs with hc
    · exact hc.2.le
    · dsimp only; linarith
  · unfold File.refRho; simp only; rw [if_neg hn]; simp only [e, and_self]
  · unfold File.refT; simp only; rw [if_neg hn]; simp only [e, and_self]

/-- C149: the expansion coefficient of the reference state is `dP/de · cv / (rho² · slope)` with the file's slope of the
pressure at constant energy. The thermodynamic value has the slope at constant temperature, `dP/drho|_e + dP/de · de/drho|_T`;
the two agree exactly if `de/drho|_T` of the file is zero there. -/
theorem C149_expansion_iff (m : Consts K) (f : File K) :
    let o := f.ref m
    let at' := fun d => f.tab d (f.refRho m).2 (f.refT m).2
    o.dvdt = at' f.dPdE * at' f.dEdT / (o.rho ^ 2 * at' f.dPdRho) ∧
    (o.rho ≠ 0 → at' f.dPdRho ≠ 0 → at' f.dPdRho + at' f.dPdE * at' f.dEdRho ≠ 0 → at' f.dPdE * at' f.dEdT ≠ 0 →
      (o.dvdt = at' f.dPdE * at' f.dEdT / (o.rho ^ 2 * (at' f.dPdRho + at' f.dPdE * at' f.dEdRho)) ↔ at' f.dEdRho = 0)) := by
  intro o at'
  have e : o.dvdt = at' f.dPdE * at' f.dEdT / (o.rho * o.rho * at' f.dPdRho) := rfl
  refine ⟨by rw [e, sq], fun h0 h1 h2 h3 => ?_⟩
  rw [e, sq]
  exact RhoSie.C95_dvdt_iff h0 h1 h2 h3

/-- C149: the bounds reported. A density from `MinimumDensity` on is above the lower end of the table, one (above minus the
offset) is not above the upper end exactly if it is at most `MaximumDensity` less the `eps` of the log, and a temperature from
`MinimumTemperature` on is above the lower end. -/
theorem C149_bounds {m : Consts K} (hm : m.Ok) (f : File K) :
    0 ≤ (f.bounds m).1 ∧
    (∀ rho, (f.bounds m).1 ≤ rho → f.gR.min < f.lRho m rho) ∧
    (∀ rho, -|f.offR| ≤ rho → (f.lRho m rho ≤ f.gR.max ↔ rho ≤ (f.bounds m).2.1 - m.eps)) ∧
    (∀ T, (f.bounds m).2.2 ≤ T → f.gT.min < f.lT m T) := by
  have up : ∀ g x off : K, fromLog m.pw g |off| ≤ x → g < toLog m.lg m.eps x |off| := fun g x off h => by
    have hp := hm.pos g
    have h1 := hm.eps
    have h0 : -|off| ≤ x := by unfold fromLog at h; linarith
    unfold toLog
    rw [max_eq_left h0, abs_of_nonneg (by linarith)]
    conv_lhs => rw [← hm.inv' g]
    unfold fromLog at h
    exact hm.mono hp (by show 0 < x + |off| + m.eps; linarith) (by linarith)
  refine ⟨?_, fun rho h => up _ _ _ ?_, fun rho h => ?_, fun T h => up _ _ _ h⟩
  · show 0 ≤ f.rho m f.gR.min
    unfold File.rho
    split_ifs with hc
    · exact le_rfl
    · exact not_lt.1 hc
  · refine le_trans ?_ h
    show _ ≤ f.rho m f.gR.min
    unfold File.rho
    split_ifs with hc
    · exact hc.le
    · exact le_rfl
  · have hp := hm.pos f.gR.max
    have h1 := hm.eps
    show toLog m.lg m.eps rho |f.offR| ≤ f.gR.max ↔ rho ≤ fromLog m.pw f.gR.max |f.offR| - m.eps
    unfold toLog fromLog
    rw [max_eq_left h, abs_of_nonneg (by linarith)]
    conv_lhs => rw [← hm.inv' f.gR.max]
    rw [hm.mono.le_iff_le (show 0 < rho + |f.offR| + m.eps by linarith) hp]
    constructor <;> intro h <;> linarith

/-! ## Mass fractions -/

theorem File.tab_sum (f : File K) (d : Nat → Nat → Nat → K) (n : Nat) (x y : K) :
    ((List.range n).map fun k => f.tab (fun j i => d j i k) x y).sum =
      f.tab (fun j i => ((List.range n).map (d j i)).sum) x y := by
  induction n with
  | zero => simp [File.tab, Mesh.lin2, Mesh.lin_const]
  | succ n ih =>
    simp only [List.range_succ, List.map_append, List.sum_append, List.map_cons, List.map_nil, List.sum_cons, List.sum_nil,
      add_zero]
    rw [ih]
    unfold File.tab Mesh.lin2 Mesh.lin
    ring

theorem File.tab_one {f : File K} (hR : f.gR.Ok) (hT : f.gT.Ok) {d : Nat → Nat → K}
    (hd : ∀ j < f.gR.N, ∀ i < f.gT.N, d j i = 1) (x y : K) : f.tab d x y = 1 := by
  unfold File.tab Mesh.lin2
  rw [f.gR.lin_congr hR (f' := fun _ => 1) (fun j hj => ?_), Mesh.lin_const]
  rw [f.gT.lin_congr hT (f' := fun _ => 1) (hd j hj), Mesh.lin_const]

/-- The phase tables of a file: nonnegative, adding up to one at every point. -/
structure Fractions (f : File K) (n : Nat) (d : Nat → Nat → Nat → K) : Prop where
  sum : ∀ j < f.gR.N, ∀ i < f.gT.N, ((List.range n).map (d j i)).sum = 1
  nonneg : ∀ j < f.gR.N, ∀ i < f.gT.N, ∀ k < n, 0 ≤ d j i k

theorem Fractions.le_one {f : File K} {n : Nat} {d : Nat → Nat → Nat → K} (h : Fractions f n d) {j i k : Nat}
    (hj : j < f.gR.N) (hi : i < f.gT.N) (hk : k < n) : d j i k ≤ 1 := by
  rw [← h.sum j hj i hi]
  refine List.single_le_sum ?_ _ (List.mem_map.2 ⟨k, List.mem_range.2 hk, rfl⟩)
  intro y hy
  obtain ⟨k', hk', rfl⟩ := List.mem_map.1 hy
  exact h.nonneg j hj i hi k' (List.mem_range.1 hk')

/-- C149: mass fractions. There are as many as the file has phases, and they add up to one, by temperature and by energy, at
any density, temperature and energy, inside the table or not, whatever the cache holds. On the table (by temperature; by
energy from the lowest isotherm up, and below the cold curve) each lies between zero and one. Without phase data the answer
is one phase with fraction one. -/
theorem C149_mass_fractions {m : Consts K} (hm : m.Ok) {f : File K} (h : f.Ok m) (hs : f.Fits f.sie) {n : Nat}
    {d : Nat → Nat → Nat → K} (hmf : f.mf = some (n, d)) (hd : Fractions f n d) (c rho T e : K) :
    (f.massT m rho T).length = n ∧ (f.massE m c rho e).length = n ∧
    (f.massT m rho T).sum = 1 ∧ (f.massE m c rho e).sum = 1 ∧
    (f.gR.min ≤ f.lRho m rho → f.lRho m rho ≤ f.gR.max →
      (f.gT.min ≤ f.lT m T → f.lT m T ≤ f.gT.max → ∀ y ∈ f.massT m rho T, 0 ≤ y ∧ y ≤ 1) ∧
      ((locE (f.load m) (f.lRho m rho) e = .onTable ∧ f.tab f.sie (f.lRho m rho) f.gT.min ≤ e) ∨
        locE (f.load m) (f.lRho m rho) e = .offBottom → ∀ y ∈ f.massE m c rho e, 0 ≤ y ∧ y ≤ 1)) ∧
    ({ f with mf := none } : File K).massT m rho T = [1] ∧ ({ f with mf := none } : File K).massE m c rho e = [1] := by
  have eT : f.massT m rho T = (List.range n).map fun k => f.tab (fun j i => d j i k) (f.lRho m rho) (f.lT m T) := by
    unfold File.massT; rw [hmf]
  have eE : f.massE m c rho e = (List.range n).map fun k => f.tab (fun j i => d j i k) (f.lRho m rho)
      (lTOfE (f.load m) c (f.lRho m rho) e).x := by
    unfold File.massE; rw [hmf]
  have mem : ∀ x y, f.gR.min ≤ x → x ≤ f.gR.max → f.gT.min ≤ y → y ≤ f.gT.max →
      ∀ z ∈ (List.range n).map (fun k => f.tab (fun j i => d j i k) x y), 0 ≤ z ∧ z ≤ 1 := by
    intro x y x1 x2 y1 y2 z hz
    obtain ⟨k, hk, rfl⟩ := List.mem_map.1 hz
    have hk := List.mem_range.1 hk
    exact ⟨f.tab_ge h.R h.T (fun j hj i hi => hd.nonneg j hj i hi k hk) x1 x2 y1 y2,
      f.tab_le h.R h.T (fun j hj i hi => hd.le_one hj hi hk) x1 x2 y1 y2⟩
  refine ⟨by simp [eT], by simp [eE], ?_, ?_, fun x1 x2 => ⟨fun y1 y2 => ?_, fun hl => ?_⟩, rfl, rfl⟩
  · rw [eT, f.tab_sum]; exact f.tab_one h.R h.T hd.sum _ _
  · rw [eE, f.tab_sum]; exact f.tab_one h.R h.T hd.sum _ _
  · rw [eT]; exact mem _ _ x1 x2 y1 y2
  · rw [eE]
    rcases hl with ⟨hl, he⟩ | hl
    · obtain ⟨a, b⟩ := lTOfE_mem hm h hs c hl he
      exact mem _ _ x1 x2 a b
    · have : (lTOfE (f.load m) c (f.lRho m rho) e).x = f.gT.min := by unfold lTOfE; rw [hl]; rfl
      rw [this]
      exact mem _ _ x1 x2 le_rfl (f.gT.min_le_max h.T)

/-! ## A file -/

/-- Two points, 0 and 1, in log space. -/
def twoPt : Mesh ℝ := ⟨fun i => i, 2, fun _ => 0⟩

theorem twoPt_ok : twoPt.Ok where
  two := le_rfl
  mono i j hij _ := by simpa [twoPt] using hij
  lt y := by simp [twoPt]
  seg y := by simp [twoPt]
  mem y a b := by
    simp only [Mesh.min, Mesh.max, twoPt] at a b ⊢
    norm_num at a b ⊢
    exact ⟨a, b⟩
  low y _ := rfl
  high y _ := rfl

theorem twoPt_lin (f : Nat → ℝ) (y : ℝ) : twoPt.lin f y = (1 - y) * f 0 + y * f 1 := by
  simp [Mesh.lin, Mesh.w, twoPt]

theorem twoPt_agrees (f : Nat → ℝ) : twoPt.Agrees f := fun i j _ _ h => by
  simp only [twoPt, Nat.cast_inj] at h; rw [h]

/-- Base ten logarithms and the library's thresholds. -/
noncomputable def std : Consts ℝ where
  lg := Real.logb 10
  pw := fun y => 10 ^ y
  eps := 1 / 10 ^ 15
  thr := 1 / 10 ^ 14
  soft := 1 / 10 ^ 8
  σ := 0
  c := 1 / 10 ^ 14
  room := 5
  vaporThresh := 1 / 10 ^ 8
  big := 10 ^ 300
  repro := false
  dome := false

theorem std_ok : std.Ok where
  eps := by norm_num [std]
  inv x hx := Real.rpow_logb (by norm_num) (by norm_num) hx
  inv' y := Real.logb_rpow (by norm_num) (by norm_num)
  pos y := Real.rpow_pos_of_pos (by norm_num) _
  mono := fun x hx y hy hxy => Real.logb_lt_logb (by norm_num) hx hxy
  soft := by norm_num [std]
  thr := by norm_num [std]

/-- A file with densities and temperatures from 1 to 10, `e = 2 log T + 3`, `P = 2 log rho + 1`, and two phases whose
fractions vary linearly with the log temperature. -/
def demo : File ℝ where
  gR := twoPt
  gT := twoPt
  P := fun j _ => 2 * j + 1
  sie := fun _ i => 2 * i + 3
  dPdRho := fun _ _ => 1
  dPdE := fun _ _ => 1
  dEdRho := fun _ _ => 0
  dEdT := fun _ _ => 1
  PCold := fun j => 2 * j
  sieCold := fun _ => 2
  offR := 0
  offT := 0
  rhoNormal := 3
  mf := some (2, fun _ i k => if i = k then 1 else 0)

theorem demo_fits (d : Nat → Nat → ℝ) : demo.Fits d := ⟨fun j _ => twoPt_agrees _, fun i _ => twoPt_agrees _⟩

theorem demo_ok : demo.Ok std where
  R := twoPt_ok
  T := twoPt_ok
  top := by norm_num [demo, Mesh.max, twoPt]
  clear := by norm_num [demo, Mesh.max, Mesh.min, twoPt]

theorem demo_fractions : Fractions demo 2 (fun _ i k => if i = k then 1 else 0) where
  sum j _ i hi := by
    have : i < 2 := hi
    interval_cases i <;> simp [List.range_succ]
  nonneg j _ i _ k _ := by split_ifs <;> norm_num

/-- The hypotheses of the round trips are met by it. -/
example : demo.EnergyRises 2 ∧ demo.EnergyAtMost 2 ∧ demo.PressureRises 2 ∧ demo.PressureAtMost 2 ∧
    Enough 2 2 (demo.gT.max - demo.gT.min) std.thr := by
  refine ⟨fun j _ i _ => ?_, fun j _ i _ => ?_, fun i _ j _ => ?_, fun i _ j _ => ?_, 0, 50, ?_, ?_, ?_⟩
  all_goals first | (norm_num; done) | skip
  all_goals simp only [demo, twoPt, Mesh.max, Mesh.min, std]; push_cast; norm_num <;> linarith

/-- And the locations: the state at log temperature `1/2` (energy 4) is on the table, both by temperature and by energy, and
the energy of the lowest isotherm, 3, is not above it. -/
example (x : ℝ) : locT (demo.load std) (1 / 2) = .onTable ∧ locE (demo.load std) x 4 = .onTable ∧
    demo.tab demo.sie x demo.gT.min ≤ 4 ∧ locE (demo.load std) x 1 = .offBottom := by
  have h1 : (demo.load std).sielTMax x = 5 := by
    have : (demo.load std).sielTMax x = twoPt.lin (fun j => demo.sie j (demo.gT.N - 1)) x := rfl
    rw [this, twoPt_lin]; simp only [demo, twoPt]; push_cast; ring
  have h2 : (demo.load std).sieCold x = 2 := by
    have : (demo.load std).sieCold x = twoPt.lin demo.sieCold x := rfl
    rw [this, twoPt_lin]; simp only [demo]; ring
  have h3 : (demo.load std).soft = 1 / 10 ^ 8 := rfl
  have h4 : (demo.load std).lTMin = 0 := by show demo.gT.min = 0; simp [demo, Mesh.min, twoPt]
  have h5 : (demo.load std).lTMax = 1 := by show demo.gT.max = 1; simp [demo, Mesh.max, twoPt]
  refine ⟨?_, ?_, ?_, ?_⟩
  · unfold locT; rw [h3, h4, h5]; norm_num
  · unfold locE; rw [h1, h2, h3]; norm_num [abs_of_pos]
  · have : demo.tab demo.sie x demo.gT.min = twoPt.lin (fun j => twoPt.lin (demo.sie j) demo.gT.min) x := rfl
    rw [this, twoPt_lin, twoPt_lin, twoPt_lin, show demo.gT.min = 0 from h4]; simp only [demo]; push_cast; ring_nf; norm_num
  · unfold locE; rw [h1, h2, h3]; norm_num [abs_of_pos]

/-- The hypotheses of the second part of `C149_expansion_iff` are met by it, reference density 3. -/
example : (demo.ref std).rho ≠ 0 ∧ demo.tab demo.dPdRho (demo.refRho std).2 (demo.refT std).2 ≠ 0 := by
  have h3 : ∀ x y, demo.tab demo.dPdRho x y = 1 := fun x y => by
    show twoPt.lin (fun _ => twoPt.lin _ _) _ = 1
    simp only [Mesh.lin_const, twoPt_lin]; simp only [demo]; ring
  refine ⟨?_, by rw [h3]; norm_num⟩
  show (demo.refRho std).1 ≠ 0
  unfold File.refRho
  simp only
  split_ifs with hc
  · show |(3 : ℝ)| ≠ 0; norm_num
  · exfalso
    apply hc
    have e : demo.lRho std |demo.rhoNormal| = Real.logb 10 (3 + 1 / 10 ^ 15) := by
      show Real.logb 10 (abs (max (abs (3 : ℝ)) (-abs (0 : ℝ)) + abs (0 : ℝ)) + 1 / 10 ^ 15) = _
      norm_num
    have e0 : demo.gR.min = 0 := by simp [demo, Mesh.min, twoPt]
    have e1 : demo.gR.max = 1 := by simp [demo, Mesh.max, twoPt]
    rw [e, e0, e1]
    exact ⟨Real.logb_pos (by norm_num) (by norm_num), by
      rw [Real.logb_lt_iff_lt_rpow (by norm_num) (by norm_num)]; norm_num⟩

/-- C149 fails above the table: the fractions by energy are extrapolated with the temperature, so that (with any file whose
fractions vary along the isochore, here `demo`) at every energy above the last isotherm one fraction is negative and one
above one. -/
theorem C149_fractions_above_violated (c rho e : ℝ) (he : 5 < e) :
    ∃ y z, demo.massE std c rho e = [y, z] ∧ y < 0 ∧ 1 < z := by
  have hmax : (demo.load std).sielTMax (demo.lRho std rho) = 5 := by
    have : (demo.load std).sielTMax (demo.lRho std rho) = twoPt.lin (fun j => demo.sie j (demo.gT.N - 1)) (demo.lRho std rho) := rfl
    rw [this, twoPt_lin]; simp [demo, twoPt]; norm_num; ring
  have hts := demo.tscale std_ok demo_ok
  have hloc : locE (demo.load std) (demo.lRho std rho) e = .offTop :=
    locE_above _ std_ok.soft (by rw [hmax]; exact he.le)
  have hcv : (demo.load std).dEdTMax (demo.lRho std rho) = 1 := by
    have : (demo.load std).dEdTMax (demo.lRho std rho) = twoPt.lin (fun j => demo.dEdT j (demo.gT.N - 1)) (demo.lRho std rho) := rfl
    rw [this, twoPt_lin]; simp [demo]
  have hx : (lTOfE (demo.load std) c (demo.lRho std rho) e).x = demo.lT std ((demo.load std).TMax + (e - 5)) := by
    unfold lTOfE
    rw [hloc]
    show (demo.load std).lT _ = _
    rw [hmax, hcv, show (demo.load std).σ = 0 from rfl, ratio_exact, div_one]
    rfl
  have hgt : 1 < (lTOfE (demo.load std) c (demo.lRho std rho) e).x := by
    rw [hx]
    have h1 : demo.lT std (demo.load std).TMax < demo.lT std ((demo.load std).TMax + (e - 5)) := by
      have hp : 0 < (10 : ℝ) ^ (demo.gT.max) := Real.rpow_pos_of_pos (by norm_num) _
      have hT : 0 ≤ (demo.load std).TMax := by
        show 0 ≤ (10 : ℝ) ^ demo.gT.max - |(0 : ℝ)|
        rw [abs_zero, sub_zero]; exact hp.le
      refine (C59_log_monotone std.lg std_ok.mono std.eps |demo.offT| std_ok.eps).1 ?_ ?_ (by linarith)
      · simp only [demo, abs_zero, neg_zero, Set.mem_Ici]; exact hT
      · simp only [demo, abs_zero, neg_zero, Set.mem_Ici]
        have : (demo.load std).TMax + (e - 5) ≥ 0 := by linarith
        exact this
    have h2 : (demo.load std).lTMax ≤ (demo.load std).lT (demo.load std).TMax := hts.top
    have h3 : (demo.load std).lTMax = 1 := by show demo.gT.max = 1; simp [demo, Mesh.max, twoPt]
    rw [h3] at h2
    exact lt_of_le_of_lt h2 h1
  set x := (lTOfE (demo.load std) c (demo.lRho std rho) e).x with hxd
  refine ⟨1 - x, x, ?_, by linarith, hgt⟩
  show (List.range 2).map (fun k => demo.tab (fun _ i => if i = k then 1 else 0) (demo.lRho std rho) x) = _
  simp only [List.range_succ, List.range_zero, List.nil_append, List.cons_append, List.map_cons, List.map_nil, File.tab,
    Mesh.lin2]
  show [twoPt.lin (fun _ => twoPt.lin _ _) _, twoPt.lin (fun _ => twoPt.lin _ _) _] = _
  simp only [Mesh.lin_const, twoPt_lin]
  norm_num

/-- C149 fails for the variant that writes to `lambda`: phase `n` goes to cell `2 + n`, beyond the two cells that the class
asks for (`nlambda()`), and there is always at least one, so that an array of `nlambda()` cells is overrun. -/
theorem C149_lambda_cells_violated (m : Consts K) (f : File K) (c rho y : K) (hn : ∀ n d, f.mf = some (n, d) → 0 < n) :
    nlambda = 2 ∧
    (lambdaWrites (f.massT m rho y)).map (·.1) = (List.range (f.massT m rho y).length).map (2 + ·) ∧
    (lambdaWrites (f.massT m rho y)).map (·.2) = f.massT m rho y ∧ lambdaWrites (f.massT m rho y) ≠ [] ∧
    (lambdaWrites (f.massE m c rho y)).map (·.1) = (List.range (f.massE m c rho y).length).map (2 + ·) ∧
    (lambdaWrites (f.massE m c rho y)).map (·.2) = f.massE m c rho y ∧ lambdaWrites (f.massE m c rho y) ≠ [] := by
  have key : ∀ l : List K, ((lambdaWrites l).map (·.1) = (List.range l.length).map (2 + ·) ∧ (lambdaWrites l).map (·.2) = l) ∧
      (l ≠ [] → lambdaWrites l ≠ []) := fun l => by
    refine ⟨⟨?_, ?_⟩, fun hl => ?_⟩
    · simp [lambdaWrites, nlambda]
    · refine List.ext_getElem (by simp [lambdaWrites]) fun i h1 h2 => ?_
      simp [lambdaWrites, h2]
    · intro hcon
      have := congrArg List.length hcon
      simp [lambdaWrites] at this
      exact hl this
  have ne : ∀ l : List K, l.length ≠ 0 → l ≠ [] := fun l h h' => h (by rw [h']; rfl)
  refine ⟨rfl, (key _).1.1, (key _).1.2, (key _).2 (ne _ ?_), (key _).1.1, (key _).1.2, (key _).2 (ne _ ?_)⟩
  · unfold File.massT
    cases hmf : f.mf with
    | none => simp
    | some p => have := hn p.1 p.2 hmf; simp; omega
  · unfold File.massE
    cases hmf : f.mf with
    | none => simp
    | some p => have := hn p.1 p.2 hmf; simp; omega

end Verif.RhoT
