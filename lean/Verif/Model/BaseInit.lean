import Verif.Model.Exc
import Mathlib.Data.String.Basic
/-!
# Argument checks of `BaseFlowFieldScheduler.__init__` (`src/synthpix/scheduler/base.py` lines 50-105)
-/

namespace Verif.BaseInit
open Verif

/-- A value passed for an argument, as far as the `isinstance` checks can tell: `None`, a list whose items
are strings or something else (`none`), a boolean, or anything else. -/
inductive Val where
  | none
  | list (items : List (Option String))
  | bool (b : Bool)
  | other
  deriving DecidableEq, Repr

/-- What the constructor asks the file system: `os.path.isdir`, `os.path.isfile` and the (unsorted) result of
`glob.glob(os.path.join(d, pattern), recursive=True)`. -/
structure FS where
  isDir : String → Bool
  isFile : String → Bool
  glob : String → List String

/-- The expansion loop (base.py lines 73-81): a directory is replaced by its sorted matches, anything else is
kept. -/
def expand (fs : FS) : List String → List String
  | [] => []
  | p :: l => if fs.isDir p then (fs.glob p).mergeSort (· ≤ ·) ++ expand fs l else p :: expand fs l

/-- The check that all paths are files (base.py lines 86-90). -/
def checkFiles (fs : FS) : List String → Except Exc Unit
  | [] => .ok ()
  | p :: l => if fs.isFile p then checkFiles fs l else .error .valueError

/-- `all(isinstance(f, str) for f in file_list)` and the list of these strings (base.py line 70). -/
def strings : List (Option String) → Option (List String)
  | [] => some []
  | some s :: l => (strings l).map (s :: ·)
  | none :: _ => none

/-- `__init__` up to the flags (base.py lines 66-105). Returns the expanded list and the two flags. The key
argument is not checked by the code. -/
def init (fs : FS) (fileList randomize loop : Val) : Except Exc (List String × Bool × Bool) :=
  match fileList with
  | .list items =>
    match strings items with
    | none => .error .valueError
    | some l =>
      let fl := expand fs l
      if fl.isEmpty then .error .valueError
      else
        match checkFiles fs fl with
        | .error e => .error e
        | .ok () =>
          match randomize with
          | .bool r =>
            match loop with
            | .bool lp => .ok (fl, r, lp)
            | _ => .error .valueError
          | _ => .error .valueError
  | _ => .error .valueError

end Verif.BaseInit
