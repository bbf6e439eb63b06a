import Verif.Model.Base
/-!
# Calls of the base scheduler that are interrupted (`src/synthpix/scheduler/base.py`)

`KeyboardInterrupt` can be raised between any two instructions, and is caught nowhere in the scheduler (`except Exception` does not catch it). Here
`_get_next` and `reset` are executed assignment by assignment, so that a call can be stopped after any of them. Python stores an attribute in one
instruction, so there is no finer interruption of the state.
-/

namespace Verif.Interrupt
open Verif Base

variable {V D Key : Type}

/-- The mutable attributes (base.py lines 94-118), with `_cached_file` and `_cached_data` apart: between two assignments only one of them may be set. -/
structure Raw (D Key : Type) where
  fileList : List String
  index : Nat
  cachedFile : Option String
  cachedData : Option D
  sliceIdx : Nat
  key : Key
  deriving DecidableEq, Repr

/-- The state of the model without interruptions as such a state. -/
def Raw.of (s : Base.St D Key) : Raw D Key :=
  { fileList := s.fileList, index := s.index, cachedFile := s.cached.map Prod.fst, cachedData := s.cached.map Prod.snd, sliceIdx := s.sliceIdx, key := s.key }

/-- The next thing to do. -/
inductive Pc (V D : Type) where
  /-- the test of the `while` loop and, if need be, the one below it (lines 165-167) -/
  | head
  /-- `reset`, called in the loop (`true`) or by the user (`false`): `self.index = 0` (line 143) -/
  | resetIndex (inner : Bool)
  /-- `self._slice_idx = 0` (line 144) -/
  | resetSlice (inner : Bool)
  /-- `self._cached_data = None` (line 145) -/
  | resetData (inner : Bool)
  /-- `self._cached_file = None` (line 146), and the test of `randomize` (line 147) -/
  | resetFile (inner : Bool)
  /-- `self.key, shuffle_key = jax.random.split(self.key)` (line 148) -/
  | resetKey (inner : Bool)
  /-- the permutation of `self.file_list` (lines 149-152), with the indices -/
  | resetList (inner : Bool) (idx : List Nat)
  /-- `path = self.file_list[self.index]` and the comparison with the cached file (lines 171-174) -/
  | path
  /-- `self._cached_file = None` (line 175) -/
  | dropFile (path : String)
  /-- `self._cached_data = None` (line 176) -/
  | dropData (path : String)
  /-- `self._cached_data = self.load_file(path)` (line 178) -/
  | load (path : String)
  /-- `self._cached_file = path` (line 179) -/
  | setFile (path : String)
  /-- `self._slice_idx = 0` (line 180) -/
  | setSlice
  /-- `sample = self.get_next_slice()` (line 187) -/
  | slice
  /-- `self._slice_idx += 1` (line 188) -/
  | bump (x : Sample V)
  /-- `self.index += 1` (lines 183 and 191) -/
  | skip
  /-- the call of `_get_next` is over -/
  | done (r : Next V)
  /-- the call of `reset` is over -/
  | wasReset

/-- What follows `reset` (line 169, or the end). -/
def afterReset (inner : Bool) : Pc V D := if inner then .path else .wasReset

/-- One assignment. `get_next_slice` without cached data raises `RuntimeError` (hdf5.py line 74, mat.py line 196, numpy.py line 98); the file name does not
matter then. -/
def step (w : World V D Key) (c : Cfg) : Pc V D × Raw D Key → Pc V D × Raw D Key
  | (.head, s) =>
    if s.index < s.fileList.length then (.path, s)
    else if c.loop then (.resetIndex true, s)
    else (.done .stop, s)
  | (.resetIndex b, s) => (.resetSlice b, { s with index := 0 })
  | (.resetSlice b, s) => (.resetData b, { s with sliceIdx := 0 })
  | (.resetData b, s) => (.resetFile b, { s with cachedData := none })
  | (.resetFile b, s) => (if c.randomize then .resetKey b else afterReset b, { s with cachedFile := none })
  | (.resetKey b, s) => (.resetList b (w.perm (w.split s.key).2 s.fileList.length), { s with key := (w.split s.key).1 })
  | (.resetList b idx, s) => (afterReset b, { s with fileList := pick s.fileList idx })
  | (.path, s) =>
    match s.fileList[s.index]? with
    | none => (.done (.raise .indexError), s)
    | some path => if s.cachedFile = some path then (.slice, s) else (.dropFile path, s)
  | (.dropFile path, s) => (.dropData path, { s with cachedFile := none })
  | (.dropData path, s) => (.load path, { s with cachedData := none })
  | (.load path, s) =>
    match w.load path with
    | .ok d => (.setFile path, { s with cachedData := some d })
    | .error _ => (.skip, s)
  | (.setFile path, s) => (.setSlice, { s with cachedFile := some path })
  | (.setSlice, s) => (.slice, { s with sliceIdx := 0 })
  | (.slice, s) =>
    match s.cachedFile, s.cachedData with
    | some p, some d =>
      match w.slice p d s.sliceIdx with
      | .ok x => (.bump x, s)
      | .ended => (.skip, s)
      | .fail e => (.done (.raise e), s)
    | _, _ => (.done (.raise .runtimeError), s)
  | (.bump x, s) => (.done (.ret x), { s with sliceIdx := s.sliceIdx + 1 })
  | (.skip, s) => (.head, { s with index := s.index + 1 })
  | (.done r, s) => (.done r, s)
  | (.wasReset, s) => (.wasReset, s)

/-- `n` assignments. -/
def steps (w : World V D Key) (c : Cfg) : Nat → Pc V D × Raw D Key → Pc V D × Raw D Key
  | 0, x => x
  | n + 1, x => steps w c n (step w c x)

end Verif.Interrupt
