import Verif.Model.Formats
/-!
# Names of NumPy flow files with digits of any script (`src/synthpix/scheduler/numpy.py` lines 59-77 and 102-117)

`Model/Formats.lean` knows ASCII digits only and takes `$` for the end of the name. Here `\d` and `int` know the decimal digits of Unicode, which are a parameter, and
`$` also matches before a final newline. Simplification: `int` refuses more than 4300 digits; no file system has such names.
-/

namespace Verif.Digits
open Verif Formats

/-- What is assumed of the decimal digits `\d` matches and of their values for `int`: a character has at most one value, below ten, and the ASCII characters are what they are
expected to be. -/
structure Unicode (digit : Char → Option Nat) : Prop where
  ascii : ∀ c, isDigit c = true → digit c = some (c.toNat - '0'.toNat)
  other : ∀ c, c.toNat < 128 → isDigit c = false → digit c = none
  small : ∀ c n, digit c = some n → n < 10

/-- `int(...)` of a string of digits (numpy.py lines 70 and 110). -/
def value (digit : Char → Option Nat) (l : List Char) : Nat := l.foldl (fun acc c => 10 * acc + (digit c).getD 0) 0

/-- `re.match(r"flow_(\d+)\.npy$", name)` followed by `int(group(1))` (numpy.py lines 67-70 and 107-110). The point is no digit, so that only the longest sequence of
digits can match. -/
def parse (digit : Char → Option Nat) (name : List Char) : Option Nat :=
  if "flow_".toList <+: name then
    let rest := name.drop 5
    let ds := rest.takeWhile (fun c => (digit c).isSome)
    let tail := rest.dropWhile (fun c => (digit c).isSome)
    if ds ≠ [] ∧ (tail = ".npy".toList ∨ tail = ".npy\n".toList) then some (value digit ds) else none
  else none

/-- The two image paths belonging to a flow file (numpy.py lines 70-73 and 110-115): `none` is "Bad filename". -/
def frames (digit : Char → Option Nat) (p : List Char) : Option (List Char × List Char) :=
  match parse digit (basename p) with
  | none => none
  | some t => some (imgPath (dirname p) ((t : Int) - 1), imgPath (dirname p) t)

/-- The loop of the constructor over the files when images are requested (numpy.py lines 65-77). -/
def checkImages (digit : Char → Option Nat) (isFile : List Char → Bool) : List (List Char) → Except Exc Unit
  | [] => .ok ()
  | p :: l =>
    match frames digit p with
    | none => .error .valueError
    | some (a, b) => if isFile a && isFile b then checkImages digit isFile l else .error .fileNotFound

/-- The checks of the constructor with images (numpy.py lines 59-77) on the expanded list of files. -/
def check (digit : Char → Option Nat) (isFile : List Char → Bool) (files : List (List Char)) : Except Exc Unit :=
  if files.all (fun p => ".npy".toList.isSuffixOf p) then checkImages digit isFile files else .error .valueError

end Verif.Digits
