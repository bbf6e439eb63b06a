import Verif.Model.Rounding
import Verif.Model.Exc
import Verif.Model.Formats
/-!
# The dataset scripts (`scripts/`) and the main loop (`src/main.py`)

Text is a list of characters. `ws` says which characters Python's `str.strip()` and `str.split()` treat as white space.
-/

namespace Verif.Scripts
open Verif

/-- Universal newlines, as done by `open(path)` when reading: `\r\n` and `\r` become `\n`. -/
def newlines : List Char → List Char
  | [] => []
  | '\r' :: '\n' :: l => '\n' :: newlines l
  | c :: l => (if c = '\r' then '\n' else c) :: newlines l

/-- `for line in f`, without the line ends. -/
def lines : List Char → List (List Char)
  | [] => []
  | c :: cs =>
    if c = '\n' then [] :: lines cs
    else
      match lines cs with
      | [] => [[c]]
      | l :: ls => (c :: l) :: ls

/-- `line.strip()`. -/
def strip (ws : Char → Bool) (l : List Char) : List Char := ((l.dropWhile ws).reverse.dropWhile ws).reverse

/-- `read_list` (scripts/utils.py lines 30-40). -/
def readList (ws : Char → Bool) (content : List Char) : List (List Char) :=
  ((lines (newlines content)).map (strip ws)).filter (fun l => l ≠ [])

/-- `write_list` (scripts/utils.py lines 43-52): the content of the file. -/
def writeList (items : List (List Char)) : List Char := items.flatMap (fun l => l ++ ['\n'])

/-- A slice bound as Python resolves it for a list of length `n`. -/
def sliceBound (n : Nat) (i : Int) : Nat := if i < 0 then (i + n).toNat else min i.toNat n

/-- `l[a:b]`. -/
def slice {α : Type} (l : List α) (a b : Int) : List α := (l.take (sliceBound l.length b)).drop (sliceBound l.length a)

/-- `l[a:]`. -/
def sliceFrom {α : Type} (l : List α) (a : Int) : List α := l.drop (sliceBound l.length a)

/-- The three lists that `fetch_splits` writes. -/
structure Splits (α : Type) where
  train : List α
  val : List α
  tune : List α
  deriving DecidableEq

/-- `int(total * ratio / 100)` (scripts/download_piv_1.py lines 114-115): the product is an integer, the quotient a float. -/
def share (fl : ℚ → ℚ) (total : Nat) (ratio : Int) : Int := trunc (fl ((total * ratio : Int) / 100))

/-- The splitting part of `fetch_splits` (scripts/download_piv_1.py lines 106-120) for the list after shuffling. The first ratio is not
used by the code. -/
def splits {α : Type} (fl : ℚ → ℚ) (valRatio tuneRatio : Int) (full : List α) : Splits α :=
  let total := full.length
  let nVal := share fl total valRatio
  let nTune := share fl total tuneRatio
  let nTrain : Int := total - nVal - nTune
  { train := slice full 0 nTrain, val := slice full nTrain (nTrain + nVal), tune := sliceFrom full (nTrain + nVal) }

/-- The check of the command line (scripts/download_piv_1.py lines 494-496). -/
def ratiosOk (ratios : List Int) : Bool := ratios.length = 3 ∧ ratios.sum = 100

/-- The part of `s` before the first occurrence of `pat`, if there is one: `pat in s` and `s.split(pat)[0]`
(scripts/download_piv_1.py lines 352-357). -/
def before (pat : List Char) : List Char → Option (List Char)
  | [] => if pat = [] then some [] else none
  | c :: l => if pat <+: c :: l then some [] else (before pat l).map (c :: ·)

/-- The first white-space separated word of a line: `line.split()[0]` (lines 346-347). -/
def firstWord (ws : Char → Bool) (l : List Char) : List Char := (l.dropWhile ws).takeWhile (fun c => ! ws c)

/-- `Path(token).name` (lines 349-350): what follows the last '/', trailing slashes and '.' components removed. Simplification: tokens without
trailing slash. -/
def pathName (l : List Char) : List Char := (l.reverse.takeWhile (· ≠ '/')).reverse

/-- `Path(token).stem` (line 360): the name without its last suffix; a dot in first or last position starts no suffix. -/
def pathStem (l : List Char) : List Char :=
  let name := pathName l
  let ext := name.reverse.takeWhile (· ≠ '.')
  if ext.length + 1 < name.length ∧ ext ≠ [] then name.take (name.length - ext.length - 1) else name

/-- The core of a line of a split file (scripts/download_piv_1.py lines 346-360). -/
def core (ws : Char → Bool) (line : List Char) : List Char :=
  let token := firstWord ws line
  let name := pathName token
  match before "_img1".toList name with
  | some c => c
  | none =>
    match before "_img2".toList name with
    | some c => c
    | none =>
      match before "_flow".toList name with
      | some c => c
      | none => pathStem token

/-- `load_split_file` (scripts/download_piv_1.py lines 329-363): the set of names, as a list in which order and repetition do not matter. -/
def splitNames (ws : Char → Bool) (content : List Char) : List (List Char) :=
  (readList ws content).map (fun line => core ws line ++ ".mat".toList)

/-- Which splits a packed file is copied to (scripts/download_piv_1.py lines 393-398), as indices into the list of split files. -/
def assigned (sets : List (List (List Char))) (fname : List Char) : List Nat :=
  (List.range sets.length).filter (fun i => (sets.getD i []).contains fname)

/-- `resize_flow` (scripts/download_piv_1.py lines 188-214), called by `pack_triplet` (line 232): statement for statement what the MAT scheduler
does when it loads a flow of another size. Simplification: target shapes with two entries. -/
def packFlow (io : Formats.MatIO) (targetH targetW : Nat) (flow : Arr Rat) : Except Exc (Arr Rat) :=
  Formats.matFit io ⟨false, targetH, targetW⟩ flow

/-- `flow_path.rsplit("_flow", 1)[0]` (scripts/download_piv_1.py line 256): what precedes the last "_flow". -/
def beforeLast (pat : List Char) (s : List Char) : Option (List Char) :=
  match (List.range (s.length + 1)).reverse.find? (fun i => decide (pat <+: s.drop i)) with
  | some i => some (s.take i)
  | none => none

/-- The name of the file a triplet is packed into (scripts/download_piv_1.py lines 256-266): `os.path.basename(prefix) + ".mat"`. -/
def packedName (flowPath : List Char) : List Char :=
  pathName ((beforeLast "_flow".toList flowPath).getD flowPath) ++ ".mat".toList

/-- A TFRecord example as `process_tfrecord` sees it (scripts/download_piv_2.py lines 50-96): either it is skipped (missing or wrongly sized
data, or an exception), or it yields a file. -/
inductive Record (α : Type) where
  | skip
  | file (content : α)
  deriving DecidableEq

/-- `process_tfrecord` (scripts/download_piv_2.py lines 35-106): the numbers used in the file names, with the contents. -/
def process {α : Type} : Nat → List (Record α) → List (Nat × α)
  | _, [] => []
  | count, .skip :: l => process count l
  | count, .file a :: l => (count, a) :: process (count + 1) l

/-- The directory a TFRecord is unpacked to (scripts/download_piv_2.py lines 148-159); `none` if it is passed over. -/
inductive Sub where
  | train | val | other
  deriving DecidableEq, Repr

/-- Whether `pat in s`. -/
def contains (pat s : List Char) : Bool := (before pat s).isSome

/-- The choice of the directory by the name of the TFRecord (scripts/download_piv_2.py lines 148-159). -/
def subdir (name : List Char) : Option Sub :=
  if contains "RAFT256".toList name then
    if contains "Training".toList name then some .train
    else if contains "Validation".toList name then some .val
    else some .other
  else none

/-- Writing files, a later one of the same name replacing an earlier one (`h5py.File(out_path, "w")`, scripts/download_piv_2.py
line 93). -/
def write {α : Type} (fs : List ((Sub × Nat) × α)) (d : Sub) (files : List (Nat × α)) : List ((Sub × Nat) × α) :=
  files.foldl (fun fs f => fs.filter (fun g => g.1 ≠ (d, f.1)) ++ [((d, f.1), f.2)]) fs

/-- The loop of `main` over the TFRecords found (scripts/download_piv_2.py lines 144-161), the packed directory being empty at first. -/
def unpack {α : Type} (tfrecords : List (List Char × List (Record α))) : List ((Sub × Nat) × α) :=
  tfrecords.foldl (fun fs t =>
    match subdir t.1 with
    | none => fs
    | some d => write fs d (process 0 t.2)) []

/-- What happens in a run of `main` (src/main.py). -/
inductive Ev where
  /-- `visualize_and_save` of sample `j` of batch `i` -/
  | save (i j : Nat)
  /-- `sampler.shutdown()` -/
  | shutdown
  deriving DecidableEq, Repr

/-- The inner loop (src/main.py lines 87-98) over the samples `j, ..., n - 1` of batch `i`; `visualize i j` may raise. -/
def saveAll (visualize : Nat → Nat → Option Exc) (i : Nat) : Nat → Nat → List Ev × Option Exc
  | _, 0 => ([], none)
  | j, n + 1 =>
    match visualize i j with
    | some e => ([.save i j], some e)
    | none => (.save i j :: (saveAll visualize i (j + 1) n).1, (saveAll visualize i (j + 1) n).2)

/-- The outcome of one `next(sampler)`: a batch of the given size, or an exception (`StopIteration` ends the loop). -/
abbrev NextRes := Except Exc Nat

/-- The loop over the batches (src/main.py lines 85-105): `next i` is the outcome of the `i`-th `next(sampler)`, `answer i` whether the user
answers "y" after batch `i`; at most `fuel` batches. `none`: not finished yet. -/
def mainLoop (next : Nat → NextRes) (visualize : Nat → Nat → Option Exc) (answer : Nat → Bool) (num : Int) :
    Nat → Nat → Option (List Ev × Option Exc)
  | 0, _ => none
  | fuel + 1, i =>
    match next i with
    | .error .stopIteration => some ([], none)
    | .error e => some ([], some e)
    | .ok size =>
      match saveAll visualize i 0 (min num size).toNat with
      | (evs, some e) => some (evs, some e)
      | (evs, none) =>
        if 0 < num ∧ answer i = false then some (evs, none)
        else (mainLoop next visualize answer num fuel (i + 1)).map (fun r => (evs ++ r.1, r.2))

/-- `main` after the sampler has been built (src/main.py lines 82-107): the loop, then in any case `shutdown`. -/
def mainRun (next : Nat → NextRes) (visualize : Nat → Nat → Option Exc) (answer : Nat → Bool) (num : Int) (fuel : Nat) :
    Option (List Ev × Option Exc) :=
  (mainLoop next visualize answer num fuel 0).map (fun r => (r.1 ++ [.shutdown], r.2))

end Verif.Scripts
