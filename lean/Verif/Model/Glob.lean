import Verif.Model.FormatInit
/-!
# What a directory in `file_list` stands for (`src/synthpix/scheduler/base.py` lines 73-81)

`Model/BaseInit.lean` takes the result of `glob.glob` as given. Here a directory is given as the tree below it, and the
result is computed from the tree, following `Lib/glob.py` of CPython for the patterns the schedulers use.
-/

namespace Verif.Glob
open Verif

/-- An entry of a directory, as `os.scandir` and `os.path.isfile` see it after following links: a file, or a directory
with its entries in the order in which the system lists them. Link cycles and entries that are neither are left out. -/
inductive Node where
  | file
  | dir (items : List (String × Node))

/-- A `_file_pattern` (base.py line 29, hdf5.py line 22, mat.py line 34, numpy.py line 30): `pre*suf`, preceded by `**/`
if `deep`. -/
structure Pat where
  deep : Bool
  pre : String
  suf : String

/-- `"**/*.mat"` (mat.py line 34). -/
def matPat : Pat := ⟨true, "", ".mat"⟩

/-- `"**/*.h5"` (hdf5.py line 22). -/
def h5Pat : Pat := ⟨true, "", ".h5"⟩

/-- `"flow_*.npy"` (numpy.py line 30). -/
def npPat : Pat := ⟨false, "flow_", ".npy"⟩

/-- `"*"` (base.py line 29). -/
def anyPat : Pat := ⟨false, "", ""⟩

/-- `os.path.join(d, n)` for a non-empty `d` and a relative `n` (base.py line 76, and inside `glob`). -/
def join (d n : String) : String :=
  if d.toList.getLast? = some '/' then d ++ n else d ++ "/" ++ n

/-- `_ishidden` of `glob.py`, called for every name (base.py line 77). -/
def hidden (n : String) : Bool := n.toList.head? == some '.'

/-- `fnmatch` of a name with `pre*suf` (base.py line 77). -/
def fnmatch (p : Pat) (n : String) : Bool :=
  p.pre.toList.isPrefixOf n.toList && p.suf.toList.isSuffixOf (n.toList.drop p.pre.toList.length)

/-- `_glob1` of `glob.py` in the directory `d` (base.py line 77): the visible entries that match. -/
def glob1 (p : Pat) (d : String) (items : List (String × Node)) : List String :=
  ((items.filter (fun q => !hidden q.1)).filter (fun q => fnmatch p q.1)).map (fun q => join d q.1)

mutual
/-- The body of the loop of `_rlistdir` of `glob.py` with `dironly=True`, for the pattern `**` (base.py line 77), followed
by `_glob1` in every directory found. -/
def rglobItem (p : Pat) (d : String) : Node → List String
  | .file => []
  | .dir l => glob1 p d l ++ rglobItems p d l

/-- The loop of `_rlistdir` (base.py line 77): hidden directories are skipped. -/
def rglobItems (p : Pat) (d : String) : List (String × Node) → List String
  | [] => []
  | (n, x) :: r => (if hidden n then [] else rglobItem p (join d n) x) ++ rglobItems p d r
end

/-- `glob.glob(os.path.join(d, pattern), recursive=True)` (base.py lines 76-77) for a directory path without the
characters `*`, `?`, `[`, which `glob` would take as part of the pattern. -/
def glob (p : Pat) (d : String) (items : List (String × Node)) : List String :=
  glob1 p d items ++ (if p.deep then rglobItems p d items else [])

mutual
/-- Every path below an entry, with what is there (used for `os.path.isfile`, base.py line 89). -/
def pathsItem (d : String) : Node → List (String × Node)
  | .file => []
  | .dir l => pathsItems d l

/-- Every path below a directory (used for `os.path.isfile`, base.py line 89). -/
def pathsItems (d : String) : List (String × Node) → List (String × Node)
  | [] => []
  | (n, x) :: r => (join d n, x) :: (pathsItem (join d n) x ++ pathsItems d r)
end

/-- Whether an entry is a file. -/
def Node.isFile : Node → Bool
  | .file => true
  | .dir _ => false

/-- The file system with the directory `d` and nothing outside of it, as the constructor sees it (base.py lines 73-90);
directories below `d` are not offered as arguments. -/
def treeFS (p : Pat) (d : String) (items : List (String × Node)) : BaseInit.FS where
  isDir q := decide (q = d)
  isFile q := (pathsItems d items).any (fun r => decide (r.1 = q) && r.2.isFile)
  glob q := if q = d then glob p d items else []

end Verif.Glob
