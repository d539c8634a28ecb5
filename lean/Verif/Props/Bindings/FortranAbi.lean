import Verif.Model.FortranAbi
import Verif.Props.CInterface

/-!
# C164: the two declarations of the C functions agree
-/

set_option linter.unusedSectionVars false
set_option linter.unusedVariables false

namespace Verif.Props.FortranAbi

open Verif.FAbi

/-! ## Specification -/

/-- A Fortran dummy type and a C parameter type that `iso_c_binding` makes interoperable. -/
inductive Interop : FTy → CTy → Prop where
  | int : Interop .int .int
  | split : Interop .int .split
  | dbl : Interop .dbl .dbl
  | bool : Interop .log .bool
  | ptr : Interop .ptr .ptr
  | ref : Interop .ptrRef .ref
  | str : Interop .chars .str

/-- What the Fortran user means by the C parameter `c` of function `f`: materials are numbered from 1; arrays are passed by
address; `lam`: stride and lambda array are both given. -/
def meant (lam : Bool) (f : Fn) (c : String) : Act :=
  if c = "matindex" then .pred "matindex"
  else if c = "eos" then .eosPtr
  else if c = "enabled" then .loc (if f = .carnahanStarling then "sg_mods_enabled" else "sg_mods_enabled_use")
  else if c = "vals" then .loc (if f = .carnahanStarling then "sg_mods_values" else "sg_mods_values_use")
  else if c = "filename" then .cstr "filename"
  else if c = "split" ∧ f ≠ .eospac then .var "split_use"
  else if c = "eospac_vals" then .loc "eospac_opts_values_use"
  else if c = "own_kokkos" then .lit 1
  else if c = "stride" then if lam then .var "stride" else .lit (-1)
  else if c = "lambda_data" then if lam then .loc "lambda_data" else .null
  else if c = "input_int" then .var "option"
  else if c = "frac_ie" then .loc "frac_sie"
  else if c = "frac_bmod" then .var "bmod_ptr"
  else if c = "frac_dpde" then .var "dpde_ptr"
  else if c = "frac_cv" then .var "cv_ptr"
  else if c = "mass_frac_cutoff" then .var "mass_frac_cutoff_used"
  else if c ∈ ["rhos", "sies", "entropies", "pressures", "bmods", "eos_offsets", "offsets", "press", "pmax", "vol", "spvol",
    "sie", "temp", "bmod", "dpde", "cv", "frac_mass", "frac_vol"] then .loc c
  else .var c

/-! ## The convention -/

/-- Slots handed out from some state on are not below it. -/
theorem place_ge (ks : List Rep) : ∀ (g x s : Nat) (l : Loc), l ∈ place ks g x s →
    (∀ n, l = .gp n → g ≤ n) ∧ (∀ n, l = .xmm n → x ≤ n) ∧ (∀ n, l = .stk n → s ≤ n) := by
  induction ks with
  | nil => intro g x s l h; simp [place] at h
  | cons k ks ih =>
    intro g x s l h
    cases k <;> simp only [place] at h <;> split at h <;> rcases List.mem_cons.1 h with e | e
    all_goals first
      | (subst e; refine ⟨?_, ?_, ?_⟩ <;> intro n hn <;> cases hn <;> exact le_rfl)
      | (obtain ⟨a, b, c⟩ := ih _ _ _ _ e
         refine ⟨fun n hn => ?_, fun n hn => ?_, fun n hn => ?_⟩
         · have := a n hn; omega
         · have := b n hn; omega
         · have := c n hn; omega)

/-- No two arguments share a slot. -/
theorem place_nodup (ks : List Rep) : ∀ g x s : Nat, (place ks g x s).Nodup := by
  induction ks with
  | nil => intro g x s; simp [place]
  | cons k ks ih =>
    intro g x s
    cases k <;> simp only [place] <;> split <;> refine List.nodup_cons.2 ⟨fun h => ?_, ih _ _ _⟩
    all_goals
      obtain ⟨a, b, c⟩ := place_ge ks _ _ _ _ h
      first
        | (have := a _ rfl; omega)
        | (have := b _ rfl; omega)
        | (have := c _ rfl; omega)

theorem place_length (ks : List Rep) : ∀ g x s : Nat, (place ks g x s).length = ks.length := by
  induction ks with
  | nil => intro g x s; rfl
  | cons k ks ih => intro g x s; cases k <;> simp only [place] <;> split <;> simp [ih]

theorem read_back {V : Type} : ∀ (ls : List Loc) (ks : List Rep) (vs : List V), ls.Nodup → ls.length = ks.length →
    vs.length = ks.length → ∀ m : Loc → Option (Rep × V), (∀ l ∈ ls, m l = store ls (ks.zip vs) l) →
    ((ls.zip ks).map fun lk =>
      match m lk.1 with
      | some (k, v) => if k = lk.2 then some v else none
      | none => none) = vs.map some
  | [], [], [], _, _, _, _, _ => rfl
  | l :: ls, k :: ks, v :: vs, hn, h1, h2, m, hm => by
    have hl := hm l (by simp)
    simp only [List.zip_cons_cons, store, if_true] at hl
    simp only [List.zip_cons_cons, List.map_cons, hl, if_true]
    congr 1
    refine read_back ls ks vs (List.nodup_cons.1 hn).2 (by simpa using h1) (by simpa using h2) m fun l' hl' => ?_
    rw [hm l' (List.mem_cons_of_mem _ hl')]
    have : l' ≠ l := fun e => (List.nodup_cons.1 hn).1 (e ▸ hl')
    simp [store, this]
  | [], [], _ :: _, _, _, h, _, _ => by simp at h
  | [], _ :: _, _, _, h, _, _, _ => by simp at h
  | _ :: _, [], _, _, h, _, _, _ => by simp at h
  | _ :: _, _ :: _, [], _, _, h, _, _ => by simp at h

/-- C164: whatever the number of arguments and the mixture of types, when the two declarations have the same
representations in the same order every parameter receives the argument at its position: nothing is lost or exchanged when the
registers run out and the rest goes on the stack. -/
theorem C164_convention {V : Type} (ks : List Rep) (vs : List V) (h : vs.length = ks.length) :
    fetch ks (store (place ks 0 0 0) (ks.zip vs)) = vs.map some :=
  read_back _ ks vs (place_nodup ks 0 0 0) (place_length ks 0 0 0) h _ fun _ _ => rfl

/-- Nine doubles and nine pointers alternating: registers and stack are both used. -/
example : fetch ((List.replicate 9 [Rep.f64, Rep.ptr]).flatten)
    (store (place ((List.replicate 9 [Rep.f64, Rep.ptr]).flatten) 0 0 0)
      (((List.replicate 9 [Rep.f64, Rep.ptr]).flatten).zip (List.range 18))) = (List.range 18).map some :=
  C164_convention _ _ rfl

/-- The two declarations must agree: if one of them has two doubles exchanged, the values are; if one has an integer where the
other has a double, the parameters after it receive other arguments or garbage. -/
example : fetch [.ptr, .f64, .i32, .i32] (store (place [.ptr, .i32, .f64, .i32] 0 0 0)
    ([Rep.ptr, .i32, .f64, .i32].zip [1, 2, 3, 4])) = [some 1, some 3, some 2, some 4] ∧
    fetch [.ptr, .i32, .i32] (store (place [.ptr, .f64, .i32] 0 0 0) ([Rep.ptr, .f64, .i32].zip [1, 2, 3])) =
      [some 1, some 3, none] := by
  constructor <;> rfl

/-! ## The functions of the interface -/

/-- C164: in every interface block the dummy arguments are as many as the parameters of the C function and each is of
a type interoperable with the parameter at its position: what C takes by value is passed by value, the pointer that C takes by
reference is passed by reference. -/
theorem C164_types (f : Fn) : List.Forall₂ (fun p q => Interop p.2 q.2) (iface f) (proto f) := by
  cases f <;> simp only [iface, proto, fHead, cHead, dbls, doubles, fMods, cMods, List.map_cons, List.map_nil,
    List.cons_append, List.nil_append] <;> repeat' constructor

/-- C164: for every function of the interface and all values: when the Fortran function is called, the C function receives
under the name of each parameter what the user gave under that name (`meant`), and nothing else. -/
theorem C164_arguments {V : Type} (lam : Bool) (f : Fn) (ev : Act → V) :
    received f ((call lam f).map ev) = (proto f).map fun p => (p.1, some (ev (meant lam f p.1))) := by
  cases lam <;> cases f <;> rfl

/-- C164: the parameter names of a function are distinct, so that `C164_arguments` says what each of them receives. -/
theorem C164_names (f : Fn) : ((proto f).map Prod.fst).Nodup ∧ ((iface f).map Prod.fst).Nodup := by
  cases f <;> decide

/-- The cutoff of the mixed call is the only double among 22 others; it arrives. -/
example : (received .mixed ((call true .mixed).map fun a => a)).getLast? =
    some ("mass_frac_cutoff", some (.var "mass_frac_cutoff_used")) := by
  rfl

/-- C164: optional arguments of the mixed call: an absent array is a null pointer in C, a present one its address; the cutoff
is the one given, or the default of the module. -/
theorem C164_optionals {A K : Type} (cut : K) (b d c : Option A) (x : Option K) :
    (optionals cut b d c x).1 = b ∧ (optionals cut b d c x).2.1 = d ∧ (optionals cut b d c x).2.2.1 = c ∧
    (x = none → (optionals cut b d c x).2.2.2 = cut) ∧ ∀ y, x = some y → (optionals cut b d c x).2.2.2 = y := by
  refine ⟨rfl, rfl, rfl, ?_, ?_⟩
  · rintro rfl; rfl
  · rintro y rfl; rfl

/-! ## Declared intents -/

/-- C164: with a compiler that passes the address of the handle itself, the handle is the new array after the initialisation
and null after finalising, whatever it was. -/
theorem C164_handle_partial {A : Type} (fresh : A) (h : Option A) :
    initEos .address fresh h = some fresh ∧ finalizeEos .address (initEos .address fresh h) = none := ⟨rfl, rfl⟩

/-- C164 is violated for compilers that pass a copy, which the declaration `intent(in)` of the handle allows: after
`init_sg_eos_f` the handle is still null, so the array is lost and every later call works on null; and after `finalize_sg_eos_f`
a handle still points to the deleted array. With every way of passing, an argument that is declared not to change does or should
have: no single value of the handle is right for both the declaration and the interface. -/
theorem C164_handle_violated {A : Type} (fresh : A) :
    initEos .copy fresh none = none ∧ finalizeEos .copy (some fresh) = some fresh ∧
    ∀ p, ¬ (initEos p fresh none = none ∧ initEos p fresh none = some fresh) := by
  refine ⟨rfl, rfl, fun p h => ?_⟩
  have := h.1.symm.trans h.2
  simp at this

/-- A material with pressure 1 and energy 2 at density 4 (all moduli 1). -/
def mat : CApi.Eos ℚ where
  pRT := fun _ _ _ => 1
  eRT := fun _ _ _ => 2
  tRE := fun _ _ _ => 3
  bRT := fun _ _ _ => 1
  cvRT := fun _ _ _ => 1
  gRT := fun _ _ _ => 1
  rePT := fun _ _ _ => (4, 2)

/-- A cell of mass 8 whose other entries are 0 but for pressure 1 and temperature 3. -/
def cell : CApi.Cell ℚ where
  press := 1
  pmax := 0
  vol := 0
  spvol := 0
  sie := 0
  temp := 3
  bmod := 0
  dpde := 0
  cv := 0
  fmass := fun _ => 8
  fvol := fun _ => 0
  fie := fun _ => 0
  fbmod := fun _ => 0
  fdpde := fun _ => 0
  fcv := fun _ => 0

/-- C164 is violated by the mixed call: `get_sg_eos_f` declares the per-cell arrays `intent(in)`, that is, as not
changed by the call, but the pressure-temperature call changes `pmax`, `vol`, `spvol`, `sie`, `bmod`, `dpde` and `cv` of a cell
(so a compiler that relies on the declaration may go on using the values from before the call). -/
theorem C164_intent_violated (r : CApi.Row ℚ) :
    let o := (CApi.kernelPT mat 1 1 (fun _ => 1) (false, false, false) cell r).1
    o.pmax ≠ cell.pmax ∧ o.vol ≠ cell.vol ∧ o.spvol ≠ cell.spvol ∧ o.sie ≠ cell.sie ∧ o.bmod ≠ cell.bmod ∧
    o.dpde ≠ cell.dpde ∧ o.cv ≠ cell.cv := by
  have e1 : ∀ {S : Type} (f : S → Nat → S) (s : S), forN 1 f s = f s 0 := fun _ _ => rfl
  have e2 : ∀ (f : Nat → ℚ) (a : Nat → ℚ), fill 1 f a = Function.update a 0 (f 0) := fun _ _ => rfl
  have e3 : ∀ (f : Nat → ℚ → ℚ) (a : Nat → ℚ), mapN 1 f a = Function.update a 0 (f 0 (a 0)) := fun _ _ => rfl
  have e4 : ∀ (f : Nat → Nat) (a : Nat → Nat), fill 1 f a = Function.update a 0 (f 0) := fun _ _ => rfl
  norm_num [CApi.kernelPT, CApi.finalFunctor, CApi.finalBody, CApi.setPmax, e1, e2, e3, e4, mat, cell]

end Verif.Props.FortranAbi
