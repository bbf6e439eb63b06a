import Verif.Model.Episodic
import Verif.Model.Stack
/-!
# Assigning `file_list` (`scheduler/protocol.py` lines 42-58)

Every scheduler has a `file_list` that can be assigned. The histories of the other modules do not contain assignments;
here they do.
-/

namespace Verif.FileList
open Verif

/-- A call on a scheduler, or an assignment of its `file_list`. -/
inductive Op where
  | batch (n : Nat)
  | reset
  | assign (l : List String)
  deriving DecidableEq, Repr

/-- A history on a plain scheduler: the outcomes of the `get_batch` calls and the final state (base.py lines 41-48, 140-152
and 210-289). The setter checks nothing. -/
def run {S B : Type} (sch : Sched S B) : List Op → S → Option (List (Except Exc B) × S)
  | [], s => some ([], s)
  | .batch n :: ops, s =>
    match sch.getBatch n s with
    | none => none
    | some (r, s') =>
      match run sch ops s' with
      | none => none
      | some (rs, s'') => some (r :: rs, s'')
  | .reset :: ops, s => run sch ops (sch.reset s)
  | .assign l :: ops, s => run sch ops (sch.setFileList l s)

/-- The setter of the episodic scheduler (episodic.py lines 128-135): it passes the list on and does nothing else. -/
def assignEpisodic {S B Key : Type} (sch : Sched S B) (l : List String) (e : Episodic.St S Key) : Episodic.St S Key :=
  { e with inner := sch.setFileList l e.inner }

/-- The setter of the prefetching scheduler (prefetch.py lines 328-335): it passes the list on, while the worker thread may
be anywhere in its loop. (The worker's call of the wrapped scheduler is atomic here; an assignment in the middle of that
call is not modelled.) -/
def assignPrefetch {S B B' : Type} (sch : Sched S B) (l : List String) (s : Prefetch.St S B') : Prefetch.St S B' :=
  { s with src := sch.setFileList l s.src }

end Verif.FileList
