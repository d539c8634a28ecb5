import Mathlib.Data.List.Basic
import Mathlib.Data.List.Nodup

/-!
# What an input deck, a command line, and a set of names for `sesame2spiner` mean

Written from the user's documentation (`doc/sphinx/src/sesame2spiner.rst` and the help text of the tool), without the code's
data structures.
-/

namespace Verif.Spec.S2S

/-- Text. -/
abbrev Text := List Char

/-- A line without its white space. -/
def unspaced (l : Text) : Text :=
  l.filter fun c => !(c ∈ [' ', '\t', '\n', Char.ofNat 11, Char.ofNat 12, '\r'])

/-- What a line of a deck says. -/
inductive Item where
  /-- blank line or comment -/
  | skip
  /-- `key = value` -/
  | assign (k v : Text)
  /-- `<name>`, the beginning of a material -/
  | header (n : Text)

/-- The well-formed lines of a deck and what they say; `#` begins a comment. -/
inductive LineIs : Text → Item → Prop
  | blank (l) : unspaced l = [] → LineIs l .skip
  | comment (l r) : unspaced l = '#' :: r → LineIs l .skip
  | assign (l k v c) : unspaced l = k ++ '=' :: (v ++ c) → '=' ∉ k → '#' ∉ k → k.head? ≠ some '<' → '#' ∉ v →
      (c = [] ∨ c.head? = some '#') → LineIs l (.assign k v)
  | header (l n r) : unspaced l = '<' :: (n ++ '>' :: r) → '>' ∉ n → LineIs l (.header n)

/-- A material: its assignments, in order. -/
abbrev Material := List (Text × Text)

/-- What comes before the first header, and the materials begun by the headers. A header assigns the name. -/
def sections : List Item → Material × List Material
  | [] => ([], [])
  | .skip :: r => sections r
  | .assign k v :: r => ((k, v) :: (sections r).1, (sections r).2)
  | .header n :: r => ([], (("name".toList, n) :: (sections r).1) :: (sections r).2)

/-- The materials of a deck; a deck may begin with one without header. -/
def materials (items : List Item) : List Material :=
  (if (sections items).1 = [] then [] else [(sections items).1]) ++ (sections items).2

/-- The value of a key: the last one assigned. -/
def valueOf (m : Material) (k : Text) : Option Text := (m.reverse.find? fun x => x.1 = k).map (·.2)

/-- A number written in decimal. -/
def decimal (n : Nat) : Text := Nat.toDigits 10 n

/-- An integer that fits into an `int`, written in decimal, negative ones with a minus sign. -/
def Writes (v : Text) (i : Int) : Prop :=
  -2147483648 ≤ i ∧ i ≤ 2147483647 ∧ ∃ n : Nat, (v = decimal n ∧ i = n) ∨ (v = '-' :: decimal n ∧ i = -(n : Int))

/-- A material with a number that fits into an `int`. -/
def HasId (m : Material) : Prop := ∃ v i, Writes v i ∧ valueOf m "matid".toList = some v

/-- `i` is the number given for the material. -/
def IsId (i : Int) (m : Material) : Prop := ∃ v, Writes v i ∧ valueOf m "matid".toList = some v

/-- A material without number: none is given, or what is given has no digit. -/
def NoId (m : Material) : Prop :=
  ∀ v, valueOf m "matid".toList = some v → ∀ c ∈ v, c.isDigit = false

/-- The text made of these lines. -/
def ofLines (lines : List Text) : Text := lines.flatMap (· ++ ['\n'])

/-- A file with these lines; the newline after the last one may be missing. -/
def FileOf (lines : List Text) (t : Text) : Prop :=
  (∀ l ∈ lines, '\n' ∉ l) ∧
    (t = ofLines lines ∨ ∃ ini last, lines = ini ++ [last] ∧ last ≠ [] ∧ t = ofLines ini ++ last)

/-! ## Command line -/

/-- One option, or one file, of the command line. -/
inductive Arg where
  | print
  | warn (long : Bool)
  | debug (long : Bool)
  | save (f : Text)
  | file (f : Text)

/-- How it is written. -/
def Arg.written : Arg → List Text
  | .print => ["-p".toList]
  | .warn b => [if b then "-w".toList else "-v".toList]
  | .debug b => [if b then "-d".toList else "-vv".toList]
  | .save f => ["-s".toList, f]
  | .file f => [f]

/-- A file name that cannot be confused with an option. -/
def Arg.plain : Arg → Prop
  | .file f => f.head? ≠ some '-'
  | _ => True

/-- The files, in order. -/
def filesOf : List Arg → List Text
  | [] => []
  | .file f :: r => f :: filesOf r
  | _ :: r => filesOf r

/-- The file to write: the last one given. -/
def saveOf : Text → List Arg → Text
  | d, [] => d
  | _, .save f :: r => saveOf f r
  | d, _ :: r => saveOf d r

/-- Was `-p` given? -/
def printOf : List Arg → Bool
  | [] => false
  | .print :: _ => true
  | _ :: r => printOf r

/-- The verbosity asked for by one argument. -/
def Arg.level : Arg → Nat
  | .warn _ => 1
  | .debug _ => 2
  | _ => 0

/-- The verbosity asked for: the largest. -/
def levelOf (as : List Arg) : Nat := as.foldl (fun n a => max n a.level) 0

/-! ## Names of materials in the file -/

/-- The name of a material which asks for `n`, when `k` materials before it asked for the same. -/
def nameFor : Nat → Text → Text
  | 0, n => n
  | k + 1, n => n ++ '_' :: decimal (k + 2)

end Verif.Spec.S2S
