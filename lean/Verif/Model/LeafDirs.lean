import Verif.Model.Exc
/-!
# `discover_leaf_dirs` (`src/synthpix/utils.py` lines 451-477)
-/

namespace Verif.LeafDirs
open Verif

/-- A directory entry, as far as `entry.is_dir(follow_symlinks=...)` can tell (utils.py line 470). -/
inductive Entry where
  | file
  | dir
  | linkToDir
  deriving DecidableEq, Repr

/-- `entry.is_dir(follow_symlinks=follow)` (utils.py line 470). -/
def Entry.isDir (follow : Bool) : Entry → Bool
  | .file => false
  | .dir => true
  | .linkToDir => follow

/-- Result of `os.scandir(d)` (utils.py line 468): the entries, one of the three caught exceptions of line 473, or
another exception. Simplification: exceptions while iterating over the entries are not distinguished from
exceptions of the call. -/
inductive Scan where
  | entries (l : List Entry)
  | skipped
  | raised (e : Exc)
  deriving DecidableEq, Repr

/-- What the function calls out to: `os.path.normpath(os.path.dirname(p))`, `os.scandir`, and the order in which
Python iterates over a set of strings, which depends on the hash seed (utils.py lines 463-468). -/
structure OS where
  parent : String → String
  scan : String → Scan
  iterSet : List String → List String

/-- The loop of `discover_leaf_dirs` (utils.py lines 466-477). -/
def leaves (os : OS) (follow : Bool) : List String → Except Exc (List String)
  | [] => .ok []
  | d :: l =>
    match os.scan d with
    | .raised e => .error e
    | .skipped => leaves os follow l
    | .entries es => if es.any (Entry.isDir follow) then leaves os follow l else (leaves os follow l).map (d :: ·)

/-- `discover_leaf_dirs` (utils.py lines 451-477). -/
def discover (os : OS) (follow : Bool) (paths : List String) : Except Exc (List String) :=
  leaves os follow (os.iterSet (paths.map os.parent))

end Verif.LeafDirs
