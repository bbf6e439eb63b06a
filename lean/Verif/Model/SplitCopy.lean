import Verif.Model.Scripts
/-!
# Copying the packed files into the splits (`perform_split`, `scripts/download_piv_1.py` lines 366-424)

Below the split root every file is identified by the number of its split, the directories on the way to it and its name.
-/

namespace Verif.SplitCopy
open Verif

/-- A file or directory name. -/
abbrev Name := List Char

/-- A packed file: its directory relative to the packed root, its name, its content (`rel`, `fname`, lines 388-389 and 407). -/
structure Packed (α : Type) where
  dir : List Name
  name : Name
  content : α

/-- A match of `_(Re\d+)_` at the beginning of the text, the group being returned. Digits are followed by something else, so
that taking fewer digits never helps. `digit` says which characters `\d` matches. -/
def reAt (digit : Char → Bool) : List Char → Option Name
  | '_' :: 'R' :: 'e' :: r =>
    if r.takeWhile digit ≠ [] ∧ (r.dropWhile digit).head? = some '_' then some ('R' :: 'e' :: r.takeWhile digit) else none
  | _ => none

/-- `re.search(r"_(Re\d+)_", fname)` and `group(1)` (lines 410-412): the leftmost match. -/
def reFolder (digit : Char → Bool) : List Char → Option Name
  | [] => none
  | c :: l =>
    match reAt digit (c :: l) with
    | some r => some r
    | none => reFolder digit l

/-- The directory a file is copied to, below that of the split (lines 410-415). -/
def targetDir (digit : Char → Bool) (dir : List Name) (fname : Name) : List Name :=
  match reFolder digit fname with
  | some r => dir ++ [r]
  | none => dir

/-- The files below the split root. -/
abbrev Files (α : Type) := Nat × List Name × Name → Option α

/-- `shutil.copy` (line 419): an existing file is replaced. -/
def put {α : Type} (fs : Files α) (p : Nat × List Name × Name) (x : α) : Files α := fun q => if q = p then some x else fs q

/-- The body of the loop over the packed files (lines 387-420); `sets` are the four lists of names (lines 377-383). -/
def copyOne {α : Type} (digit : Char → Bool) (sets : List (List Name)) (fs : Files α) (q : Packed α) : Files α :=
  (Scripts.assigned sets q.name).foldl (fun fs s => put fs (s, targetDir digit q.dir q.name, q.name) q.content) fs

/-- `perform_split` (lines 366-424), the files found by `rglob` being `packed`, in any order. -/
def perform {α : Type} (digit : Char → Bool) (sets : List (List Name)) (packed : List (Packed α)) (fs : Files α) : Files α :=
  packed.foldl (copyOne digit sets) fs

end Verif.SplitCopy
