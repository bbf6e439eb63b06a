import Verif.Model.Scripts
/-!
# Interrupted runs of the dataset scripts (`scripts/download_piv_1.py`, `scripts/download_piv_2.py`)

A run is a sequence of writes to the disk. A crash (killed process, lost connection, full disk, Ctrl-C) ends it after any number of them.
A file that is being written is first there with incomplete content.
-/

namespace Verif.Crash
open Verif Scripts

/-- The files on the disk that the scripts deal with. -/
abbrev Disk (K V : Type) := K → Option V

/-- One write: an existing file is replaced. -/
def put {K V : Type} [DecidableEq K] (d : Disk K V) (w : K × V) : Disk K V := fun k => if k = w.1 then some w.2 else d k

/-- Several writes, one after the other. -/
def apply {K V : Type} [DecidableEq K] (d : Disk K V) (ws : List (K × V)) : Disk K V := ws.foldl put d

/-! ## The script for class 2 -/

/-- The downloaded archive, the files extracted from it (`raw_class2/<name>`), the packed samples
(`packed_class2/<sub>/sample_<number>.mat`). -/
inductive Key where
  | zip
  | raw (name : List Char)
  | packed (sub : Sub) (number : Nat)
  deriving DecidableEq

/-- The content of a file: incomplete, or that of a complete archive, TFRecord, packed sample. -/
inductive Content (α : Type) where
  | cut
  | archive
  | records (l : List (Record α))
  | sample (a : α)

/-- The members of the archive, in order: the TFRecords with their names. -/
abbrev Archive (α : Type) := List (List Char × List (Record α))

/-- The download (scripts/download_piv_2.py lines 122-129, `urlretrieve` in scripts/utils.py line 22 writes to the final place): nothing if the
file exists. A download that fails on the way leaves an incomplete file; the script then stops (lines 125-127), which is one of the crashes. -/
def download {α : Type} (d : Disk Key (Content α)) : List (Key × Content α) :=
  match d .zip with
  | none => [(.zip, .cut), (.zip, .archive)]
  | some _ => []

/-- `z.extractall(raw_dir)` (lines 134-135) of a complete archive: one member after the other, existing files being replaced. -/
def extract {α : Type} (archive : Archive α) : List (Key × Content α) :=
  archive.flatMap (fun m => [(.raw m.1, .cut), (.raw m.1, .records m.2)])

/-- `process_tfrecord` for one TFRecord (lines 147-161 and 35-106): the writes for each usable record. -/
def packOne {α : Type} (name : List Char) (l : List (Record α)) : List (Key × Content α) :=
  match subdir name with
  | none => []
  | some s => (process 0 l).flatMap (fun f => [(.packed s f.1, .cut), (.packed s f.1, .sample f.2)])

/-- The loop over the TFRecords found in the raw directory (lines 144-161). Simplification: the directory is listed in the order of the archive
in every run, and holds nothing but the members of the archive (their names having ".tfrecord" in them). -/
def pack {α : Type} (archive : Archive α) (d : Disk Key (Content α)) : List (Key × Content α) :=
  archive.flatMap (fun m =>
    match d (.raw m.1) with
    | some (.records l) => packOne m.1 l
    | _ => [])

/-- `main` (scripts/download_piv_2.py lines 109-161) on a given disk: what it writes, in order, if it is not interrupted. An incomplete archive
raises `BadZipFile` and ends the run (lines 136-138). -/
def writes {α : Type} (archive : Archive α) (d : Disk Key (Content α)) : List (Key × Content α) :=
  match apply d (download d) .zip with
  | some .archive => download d ++ (extract archive ++ pack archive (apply (apply d (download d)) (extract archive)))
  | _ => download d

/-- A run that is interrupted after `n` writes, or ends before that. -/
def crashed {α : Type} (archive : Archive α) (d : Disk Key (Content α)) (n : Nat) : Disk Key (Content α) :=
  apply d ((writes archive d).take n)

/-- A run that is not interrupted. -/
def complete {α : Type} (archive : Archive α) (d : Disk Key (Content α)) : Disk Key (Content α) := apply d (writes archive d)

/-- The disk after interrupted runs, the first starting with nothing. -/
def after {α : Type} (archive : Archive α) (history : List Nat) : Disk Key (Content α) :=
  history.foldl (crashed archive) (fun _ => none)

/-! ## The lists of the script for class 1 -/

/-- The four lists (`splits/*.txt`). -/
inductive Split where
  | train | val | test | tune
  deriving DecidableEq

/-- What becomes of the download of a list (scripts/utils.py lines 10-27): it succeeds, it fails before the file is opened, or it breaks off
after some lines (`ContentTooShortError`), the file being there with those. -/
inductive Net where
  | ok
  | unreachable
  | broken (lines : Nat)

/-- The writes of a file of lines, from the empty file on. Simplification: content reaches the disk line by line. -/
def fill {α : Type} (s : Split) (l : List α) : List (Split × List α) := (List.range (l.length + 1)).map (fun k => (s, l.take k))

/-- The writes of `download_file`. -/
def fetchOne {α : Type} (s : Split) (net : Net) (official : List α) : List (Split × List α) :=
  match net with
  | .ok => fill s official
  | .unreachable => []
  | .broken k => fill s (official.take k)

/-- `fetch_splits` (scripts/download_piv_1.py lines 81-134): what it writes. `shuffle` is `random.shuffle` after `random.seed(split_seed)`. -/
def fetch {α : Type} (fl : ℚ → ℚ) (shuffle : List α → List α) (valRatio tuneRatio : Int) (netTrain netTest : Net)
    (train test : List α) : List (Split × List α) :=
  match netTrain with
  | .ok =>
    let s := splits fl valRatio tuneRatio (shuffle train)
    fetchOne .train .ok train ++ (fetchOne .test netTest test ++ (fill .train s.train ++ (fill .val s.val ++ fill .tune s.tune)))
  | net => fetchOne .train net train

/-- The lists that `perform_split` reads (lines 376-386), in its order; a missing one raises. -/
def load {α : Type} (d : Disk Split (List α)) : Except Exc (List (List α)) :=
  match d .train, d .val, d .test, d .tune with
  | some a, some b, some c, some e => .ok [a, b, c, e]
  | _, _, _, _ => .error .fileNotFound

/-! ## Download, extraction and packing of the script for class 1 -/

/-- The directory of a downloaded folder, an archive in it, an extracted sample (flow and images), a packed sample. -/
inductive Key1 (N : Type) where
  | folder (i : Nat)
  | zip (i : Nat) (name : N)
  | raw (name : N)
  | packed (name : N)
  deriving DecidableEq

/-- Whether a file is below the raw directory. -/
def Key1.isRaw {N : Type} : Key1 N → Bool
  | .packed _ => false
  | _ => true

/-- The content: a directory, an incomplete file, a complete archive with its samples, a sample. -/
inductive Content1 (N α : Type) where
  | directory
  | cut
  | archive (l : List (N × α))
  | sample (a : α)

/-- The archives in the folders, as published. -/
abbrev Folders (N α : Type) := List (Nat × List (N × List (N × α)))

/-- The loop over the folders (scripts/download_piv_1.py lines 287-306): the directory is made first, then filled. -/
def download1 {N α : Type} (folders : Folders N α) : List (Key1 N × Content1 N α) :=
  folders.flatMap (fun f => (.folder f.1, .directory) :: f.2.flatMap (fun z => [(.zip f.1 z.1, .cut), (.zip f.1 z.1, .archive z.2)]))

/-- The extraction of all archives that are there (lines 312-321), incomplete ones being passed over. Simplification: a sample is extracted as
a whole. -/
def extract1 {N α : Type} (folders : Folders N α) (d : Disk (Key1 N) (Content1 N α)) : List (Key1 N × Content1 N α) :=
  folders.flatMap (fun f => f.2.flatMap (fun z =>
    match d (.zip f.1 z.1) with
    | some (.archive l) => l.flatMap (fun x => [(.raw x.1, .cut), (.raw x.1, .sample x.2)])
    | _ => []))

/-- `convert` (line 456), sample by sample: incompletely extracted ones fail and are passed over. `conv` is `pack_triplet`, see `Verif.Convert`. -/
def pack1 {N α : Type} (conv : α → Option α) (folders : Folders N α) (d : Disk (Key1 N) (Content1 N α)) : List (Key1 N × Content1 N α) :=
  folders.flatMap (fun f => f.2.flatMap (fun z => z.2.flatMap (fun x =>
    match d (.raw x.1) with
    | some (.sample a) =>
      match conv a with
      | some b => [(.packed x.1, .cut), (.packed x.1, .sample b)]
      | none => []
    | _ => [])))

/-- The download and extraction as written when the loop over the folders ends, by Ctrl-C or an error (lines 299-308), after `m` writes. -/
def obtain1 {N α : Type} [DecidableEq N] (folders : Folders N α) (m : Nat) (d : Disk (Key1 N) (Content1 N α)) : List (Key1 N × Content1 N α) :=
  (download1 folders).take m ++ extract1 folders (apply d ((download1 folders).take m))

/-- `main` (lines 445-456) up to the splitting: what it writes on a given disk; `empty` says whether `any(raw_dir_path.iterdir())` is false
(line 449). -/
def writes1 {N α : Type} [DecidableEq N] (conv : α → Option α) (folders : Folders N α) (m : Nat) (empty : Bool) (d : Disk (Key1 N) (Content1 N α)) :
    List (Key1 N × Content1 N α) :=
  if empty then obtain1 folders m d ++ pack1 conv folders (apply d (obtain1 folders m d))
  else pack1 conv folders d

end Verif.Crash
