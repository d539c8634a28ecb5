import Mathlib.Algebra.Order.Field.Basic
import Verif.Model.Table.Bounds

/-!
# `sesame2spiner`: command line, input decks, selection and naming of materials, grid parameters

`sesame2spiner/{parser,parse_cli,generate_files}.cpp`.  Strings are lists of characters (ASCII).  Not modelled: messages,
HDF5 calls, opening of files.
-/

namespace Verif.S2S

/-- `std::string` -/
abbrev Str := List Char

/-! ## `parser.cpp` -/

/-- `isspace` in the C locale. (used at parser.cpp:39, 116) -/
def isSpace (c : Char) : Bool := c ∈ [' ', '\t', '\n', Char.ofNat 11, Char.ofNat 12, '\r']

/-- The lines `getline` produces: split at newlines; a last piece without newline counts if it is not empty.
(parser.cpp:38, 115) -/
def getlines : Str → Str → List Str
  | acc, [] => if acc.isEmpty then [] else [acc.reverse]
  | acc, c :: cs => if c = '\n' then acc.reverse :: getlines [] cs else getlines (c :: acc) cs

/-- `std::unordered_map<std::string, std::string>`, as a list of pairs with distinct keys. (parser.hpp:47) -/
abbrev Params := List (Str × Str)

/-- `params_[key] = val`. (parser.hpp:43) -/
def Params.set : Params → Str → Str → Params
  | [], k, v => [(k, v)]
  | (k', v') :: t, k, v => if k' = k then (k', v) :: t else (k', v') :: Params.set t k v

/-- `params_.at(key)`, `params_.count(key)`. (parser.hpp:32, parser.cpp:60-62) -/
def Params.get? (p : Params) (k : Str) : Option Str := (p.find? (fun x => x.1 = k)).map (·.2)

/-- `line.erase(std::remove_if(.., isspace), ..)`. (parser.cpp:39, 116) -/
def strip (l : Str) : Str := l.filter (fun c => !isSpace c)

/-- `name`, `value` of a line, `parser.cpp:41-48`, `:136-143`: up to the first `=`, and what follows it (the whole line in
both cases if there is none, since `npos + 1` is 0), cut at the first `#`. -/
def keyValue (l : Str) : Str × Str :=
  let value := if '=' ∈ l then (l.dropWhile (· ≠ '=')).tail else l
  (l.takeWhile (· ≠ '='), value.takeWhile (· ≠ '#'))

/-- `line[0] == '#' || line.empty()`. (parser.cpp:40, 117) -/
def skipped (l : Str) : Bool := l.isEmpty || l.head? == some '#'

/-- `Params::Parse`, `parser.cpp:36-51`. -/
def parse (p : Params) (lines : List Str) : Params :=
  lines.foldl (fun p line =>
    let l := strip line
    if skipped l then p else p.set (keyValue l).1 (keyValue l).2) p

/-- The value of a string of digits. (`std::stoi`) -/
def digitsVal (ds : Str) : Nat := Nat.ofDigitChars 10 ds 0

/-- An optional sign: is it a minus, and what follows. (`std::stoi`) -/
def signOf : Str → Bool × Str
  | '-' :: u => (true, u)
  | '+' :: u => (false, u)
  | u => (false, u)

/-- `std::stoi`: leading white space and sign, then as many digits as there are; the rest of the string is ignored. An
exception (`none`) if there are no digits or the value is not an `int`. (parser.cpp:65-67) -/
def stoi (s : Str) : Option Int :=
  let r := signOf (s.dropWhile isSpace)
  let ds := r.2.takeWhile Char.isDigit
  let v : Int := if r.1 then -(digitsVal ds : Int) else digitsVal ds
  if ds.isEmpty || v < -2147483648 || 2147483647 < v then none else some v

/-- Why the program stops. (std::exit(1) at parser.cpp:95, 100, 126; std::invalid_argument / out_of_range of std::stoi) -/
inductive Err where
  | noMatid | noCloser | notANumber
deriving DecidableEq, Repr

/-- `"matid"` -/
def kMatid : Str := ['m', 'a', 't', 'i', 'd']
/-- `"name"` -/
def kName : Str := ['n', 'a', 'm', 'e']

/-- The two vectors `params`, `matids`. (parser.cpp:85, 108) -/
structure Mats where
  params : List Params
  ids : List Int

/-- `add_param`, `parser.cpp:85-106`. -/
def addParam (p : Params) (m : Mats) : Except Err Mats :=
  match p.get? kMatid with
  | none => .error .noMatid
  | some v =>
    match stoi v with
    | none => .error .notANumber
    | some i => .ok ⟨m.params ++ [p], m.ids ++ [i]⟩

/-- `if (!p.Empty()) add_param(..)`. (parser.cpp:130, 148) -/
def flush (p : Params) (m : Mats) : Except Err Mats := if p.isEmpty then .ok m else addParam p m

/-- One line of `parse_file`, `parser.cpp:115-147`; the state is the material being read and the two vectors. -/
def fileLine (s : Params × Mats) (line : Str) : Except Err (Params × Mats) :=
  let l := strip line
  if skipped l then .ok s
  else if l.head? == some '<' then
    if '>' ∈ l then
      (flush s.1 s.2).map fun m => ([(kName, (l.takeWhile (· ≠ '>')).tail)], m)
    else .error .noCloser
  else .ok (s.1.set (keyValue l).1 (keyValue l).2, s.2)

/-- `parse_file`, `parser.cpp:108-149`. -/
def parseFile (m : Mats) (text : Str) : Except Err Mats :=
  ((getlines [] text).foldlM fileLine ([], m)).bind fun s => flush s.1 s.2

/-- The loop over the input files, `generate_files.cpp:178-180`. -/
def addMaterials (files : List Str) : Except Err Mats := files.foldlM parseFile ⟨[], []⟩

/-! ## `parse_cli.cpp` -/

/-- `enum class Verbosity`. (eospac_wrapper.hpp) -/
inductive Verb where
  | quiet | verbose | debug
deriving DecidableEq, Repr

/-- What the tool is asked to do. (parse_cli.cpp:26-28) -/
structure Cli where
  savename : Str
  files : List Str
  print : Bool
  verb : Verb

/-- How the parsing of the command line ends; `nullDeref` is `savename = argv[argc]`, a null pointer. -/
inductive Ending where
  | help | usage | nullDeref | run (c : Cli)

/-- The loop over the arguments, `parse_cli.cpp:62-79`. -/
def cliLoop (c : Cli) : List Str → Ending
  | [] => .run c
  | a :: rest =>
    if a = ['-', 'h'] then .help
    else if a = ['-', 'p'] then cliLoop { c with print := true } rest
    else if (a = ['-', 'w'] ∨ a = ['-', 'v']) ∧ c.verb = .quiet then cliLoop { c with verb := .verbose } rest
    else if (a = ['-', 'd'] ∨ a = ['-', 'v', 'v']) ∧ c.verb ≠ .debug then cliLoop { c with verb := .debug } rest
    else if a = ['-', 's'] then
      match rest with
      | [] => .nullDeref
      | f :: rest => cliLoop { c with savename := f } rest
    else cliLoop { c with files := c.files ++ [a] } rest

/-- `DEFAULT_SAVENAME = "materials.sp5"`. (parse_cli.hpp:24) -/
def defaultSave : Str := "materials.sp5".toList

/-- `parseCLI`, `parse_cli.cpp:26-84`, from the arguments after the program name; `main` starts with `Quiet`, no printing
(main.cpp:42-43). -/
def parseCLI (args : List Str) : Ending :=
  if args.isEmpty then .usage
  else
    match cliLoop ⟨defaultSave, [], false, .quiet⟩ args with
    | .run c => if c.files.isEmpty then .usage else .run c
    | e => e

/-! ## `saveAllMaterials` -/

/-- `std::to_string` of a non-negative number. -/
def num (n : Nat) : Str := Nat.toDigits 10 n

/-- `used_names`: how often a requested name was seen. (generate_files.cpp:173) -/
abbrev Counts := List (Str × Nat)

/-- `used_names.count(name)`, `used_names[name]` (0 if absent). (generate_files.cpp:217-218) -/
def Counts.at (c : Counts) (k : Str) : Nat := ((c.find? (fun x => x.1 = k)).map (·.2)).getD 0

/-- `used_names[name] = v`. (generate_files.cpp:218, 225) -/
def Counts.set : Counts → Str → Nat → Counts
  | [], k, v => [(k, v)]
  | (k', v') :: t, k, v => if k' = k then (k', v) :: t else (k', v') :: Counts.set t k v

/-- One saved material: its number, the name it is linked under, the index of the parameters used. -/
structure Saved where
  matid : Int
  name : Str
  idx : Nat
deriving DecidableEq, Repr

/-- State of the loop: `used_matids`, `used_names`, what was saved so far. -/
structure SaveSt where
  ids : List Int
  names : Counts
  out : List Saved

/-- The name asked for, `generate_files.cpp:208-215`; `lib` is `metadata.name`. -/
def requestedName (p : Params) (lib : Str) (i : Nat) : Str :=
  let n := (p.get? kName).getD lib
  if n = ['-', '1'] ∨ n = [] then "material_".toList ++ num i else n

/-- The name used, `generate_files.cpp:216-226`. -/
def usedName (c : Counts) (n : Str) : Counts × Str :=
  if 0 < c.at n then
    let k := c.at n + 1
    (c.set n k, n ++ '_' :: num k)
  else (c.set n 1, n)

/-- One turn of the loop of `saveAllMaterials`, `generate_files.cpp:194-247`. `lib id` is the name in the data library. -/
def saveOne (lib : Int → Str) (s : SaveSt) (i : Nat) (x : Params × Int) : SaveSt :=
  if x.2 ∈ s.ids then s
  else
    let r := usedName s.names (requestedName x.1 (lib x.2) i)
    ⟨x.2 :: s.ids, r.1, s.out ++ [⟨x.2, r.2, i⟩]⟩

/-- The loop from index `i`. (generate_files.cpp:194-247) -/
def saveLoop (lib : Int → Str) : SaveSt → Nat → List (Params × Int) → SaveSt
  | s, _, [] => s
  | s, i, x :: xs => saveLoop lib (saveOne lib s i x) (i + 1) xs

/-- `saveAllMaterials`, `generate_files.cpp:167-255`: the materials written to the file. -/
def saveAll (lib : Int → Str) (m : Mats) : List Saved :=
  (saveLoop lib ⟨[], [], []⟩ 0 (m.params.zip m.ids)).out

/-! ## `getMatBounds` -/

variable {K : Type*} [Field K] [LinearOrder K]

/-- The bounds EOSPAC reports for a material, in cgs. (eospac_wrapper.cpp:66-71, 65) -/
structure Meta (K : Type*) where
  (rhoMin rhoMax TMin TMax sieMin sieMax normalDensity : K)

/-- `TinyShift(val, 1)`, `generate_files.cpp:301-305`; `ε` is `numeric_limits::epsilon`. -/
def tinyShift (ε val : K) : K := val + |min (10 * val * ε) ε|

/-- `params.Get<double>(key, default)`; `stod` is the library's conversion, `none` an exception.
(parser.hpp:36-38, parser.cpp:70-72) -/
def getD (stod : Str → Option K) (p : Params) (key : Str) (dflt : K) : Option K :=
  match p.get? key with
  | none => some dflt
  | some v => stod v

/-- `params.Get<int>(key, default)`. (parser.hpp:36-38, parser.cpp:65-67) -/
def getI (p : Params) (key : Str) (dflt : Int) : Option Int :=
  match p.get? key with
  | none => some dflt
  | some v => stoi v

/-- `params.Get<bool>(key, default)`. (parser.hpp:36-38, parser.cpp:80-90) -/
def getB (p : Params) (key : Str) (dflt : Bool) : Option Bool :=
  match p.get? key with
  | none => some dflt
  | some v =>
    if v = "true".toList ∨ v = ['1'] then some true
    else if v = "false".toList ∨ v = ['0'] then some false else none

/-- `std::min(1., std::max(x, 0.))`. (generate_files.cpp:325-327) -/
def clamp01 (x : K) : K := min 1 (max x 0)

/-- Lower and upper end and shrinking factor of one axis. -/
structure Axis (K : Type*) where
  (lo hi shrink : K)

/-- The density axis, `generate_files.cpp:307-308`, `:321`, `:325`, `:391`. -/
def rhoAxis (stod : Str → Option K) (ε : K) (p : Params) (m : Meta K) : Option (Axis K) := do
  let lo ← getD stod p "rhomin".toList (tinyShift ε m.rhoMin)
  let hi ← getD stod p "rhomax".toList m.rhoMax
  let s ← getD stod p "shrinklRhoBounds".toList 0
  return ⟨if lo < 1 / 10 ^ 8 then 1 / 10 ^ 8 else lo, hi, clamp01 s⟩

/-- The temperature axis, `generate_files.cpp:309-310`, `:322`, `:326`, `:392`. -/
def tAxis (stod : Str → Option K) (ε : K) (p : Params) (m : Meta K) : Option (Axis K) := do
  let lo ← getD stod p "Tmin".toList (tinyShift ε m.TMin)
  let hi ← getD stod p "Tmax".toList m.TMax
  let s ← getD stod p "shrinklTBounds".toList 0
  return ⟨if lo < 1 / 10 ^ 2 then 1 / 10 ^ 2 else lo, hi, clamp01 s⟩

/-- The energy axis, `generate_files.cpp:311-312`, `:323`, `:327`. -/
def eAxis (stod : Str → Option K) (ε : K) (p : Params) (m : Meta K) : Option (Axis K) := do
  let lo ← getD stod p "siemin".toList (tinyShift ε m.sieMin)
  let hi ← getD stod p "siemax".toList m.sieMax
  let s ← getD stod p "shrinkleBounds".toList 0
  return ⟨lo, hi, clamp01 s⟩

/-- `rhoAnchor`, `generate_files.cpp:355-362` (NaN excluded). -/
def rhoAnchor (stod : Str → Option K) (p : Params) (m : Meta K) : Option K := do
  let a ← getD stod p "rho_fine_center".toList m.normalDensity
  return if a ≤ 0 ∨ 10 ^ 8 < a then 1 else a

/-- `rho_fine_min`, `rho_fine_max`, `generate_files.cpp:376-386`, `:395`: read with the default `-1`, an `int`, so
`Get<int>` is called. `none` as a result: the fine region is given by its centre and diameter. -/
def fineRegion (p : Params) : Option (Option (Int × Int)) := do
  let a ← getI p "rhoFineMin".toList (-1)
  let b ← getI p "rhoFineMax".toList (-1)
  let r := if a * b < 0 then ((-1 : Int), (-1 : Int)) else (a, b)
  return if 0 < r.1 then some r else none

/-- The density grid, `generate_files.cpp:335`, `:366-373`, `:394-406`, piecewise case. -/
def rhoGrids [IsStrictOrderedRing K] [FloorRing K] (stod : Str → Option K) (lg : K → K) (ε : K) (p : Params) (m : Meta K) :
    Option (Bounds.Grid K × Bounds.Grid K × Bounds.Grid K) :=
  (getI p "numrho/decade".toList 350).bind fun ppd =>
  (fineRegion p).bind fun r => do
    let ax ← rhoAxis stod ε p m
    let c ← rhoAnchor stod p m
    let flo ← getD stod p "rhoCoarseFactorLo".toList 3
    let fhi ← getD stod p "rhoCoarseFactorHi".toList 5
    let d ← getD stod p "rhoFineDiameterDecades".toList (3 / 2)
    return match r with
      | some r => Bounds.threeGridsFine lg ε ax.lo ax.hi c r.1 r.2 ppd flo fhi true ax.shrink
      | none => Bounds.threeGrids lg ε ax.lo ax.hi c d ppd flo fhi true ax.shrink

/-- The temperature grid, `generate_files.cpp:338`, `:371`, `:374`, `:407-409`, piecewise case. -/
def tGrids [IsStrictOrderedRing K] [FloorRing K] (stod : Str → Option K) (lg : K → K) (ε : K) (p : Params) (m : Meta K) :
    Option (Bounds.Grid K × Bounds.Grid K) :=
  (getI p "numT/decade".toList 100).bind fun ppd => do
    let ax ← tAxis stod ε p m
    let f ← getD stod p "TCoarseFactor".toList (3 / 2)
    let sp ← getD stod p "TSplitPoint".toList (10 ^ 4)
    return Bounds.twoGrids lg ε ax.lo ax.hi (29815 / 100) sp ppd f true ax.shrink

/-- The anchor and the split point of the energy grid, `generate_files.cpp:416-439`: the energies in Sesame units
(`EofRT` of the library) at the anchor density and 298.15 K or the split temperature. -/
def energySplit (EofRT : K → K → K) (rhoA TSplit : K) : K × K := (EofRT rhoA (29815 / 100), EofRT rhoA TSplit)

/-- The energy grid, `generate_files.cpp:440-444`, piecewise case. -/
def energyGrids [IsStrictOrderedRing K] [FloorRing K] (lg : K → K) (eps : K) (ax : Axis K) (sp : K × K) (fine factor : K) :
    Bounds.Grid K × Bounds.Grid K :=
  Bounds.twoGrids lg eps ax.lo ax.hi sp.1 sp.2 fine factor true ax.shrink

end Verif.S2S
