import Verif.Model.Base
/-!
# `BaseFlowFieldScheduler` on files that change (`src/synthpix/scheduler/base.py` lines 141-289)

As `Verif.Model.Base`, but the outcome of opening a file may be another one every time, and the openings are recorded. What is extracted from a loaded
file is still a function of the loaded data, as in the HDF5 and MAT schedulers and in the NumPy scheduler without images (hdf5.py lines 63-82, mat.py lines
187-203, numpy.py lines 94-97): the NumPy scheduler with images opens them in `get_next_slice`, which is not modelled here.
-/

namespace Verif.Changing
open Verif Base
variable {V D Key : Type}

/-- `load t p` is the outcome of `load_file(p)` if it is the `t`-th call of `load_file` (counted from 0): a file may be changed, removed or
repaired between two calls. The rest as in `Base.World`. -/
structure World (V D Key : Type) where
  load : Nat → String → Except Exc D
  slice : String → D → Nat → SliceRes V
  split : Key → Key × Key
  perm : Key → Nat → List Nat

/-- The files as they are at the `t`-th call of `load_file`. -/
def World.now (w : World V D Key) (t : Nat) : Base.World V D Key := ⟨w.load t, w.slice, w.split, w.perm⟩

/-- The file that the loop body opens (base.py lines 170-179): the current one, unless it is the cached one. -/
def opens (s : St D Key) : Option String :=
  match s.fileList[s.index]? with
  | none => none
  | some path =>
    match s.cached with
    | some (q, _) => if q = path then none else some path
    | none => some path

/-- The file that a pass of the `while` loop of `_get_next` opens (base.py lines 165-179). -/
def opensIn (w : World V D Key) (c : Cfg) (s : St D Key) : Option String :=
  if s.index < s.fileList.length then opens s else if c.loop then opens (Base.reset (w.now 0) c s) else none

/-- `_get_next` (base.py lines 154-194), `log` being the files opened so far. One pass opens at most one file. -/
def getNext (w : World V D Key) (c : Cfg) : Nat → St D Key → List String → Option (Next V × St D Key × List String)
  | 0, _, _ => none
  | fuel + 1, s, log =>
    let log' := log ++ (opensIn w c s).toList
    match iter (w.now log.length) c s with
    | .cont s' => getNext w c fuel s' log'
    | .ret x s' => some (.ret x, s', log')
    | .stop s' => some (.stop, s', log')
    | .raise e s' => some (.raise e, s', log')

/-- The `for` loop of `get_batch` (base.py lines 214-219). -/
def collect (w : World V D Key) (c : Cfg) (fuel : Nat) : Nat → St D Key → List String → Option (Except Exc (List (Sample V)) × St D Key × List String)
  | 0, s, log => some (.ok [], s, log)
  | n + 1, s, log =>
    match getNext w c fuel s log with
    | none => none
    | some (.stop, s', log') => some (.ok [], s', log')
    | some (.raise e, s', log') => if e = .stopIteration then some (.ok [], s', log') else some (.error e, s', log')
    | some (.ret x, s', log') =>
      match collect w c fuel n s' log' with
      | none => none
      | some (.ok xs, r) => some (.ok (x :: xs), r)
      | some (.error e, r) => some (.error e, r)

/-- `get_batch` (base.py lines 196-289). -/
def getBatch (zero : V) (w : World V D Key) (c : Cfg) (fuel n : Nat) (s : St D Key) (log : List String) :
    Option (Except Exc (Batch V) × St D Key × List String) :=
  match collect w c fuel n s log with
  | none => none
  | some (.error e, r) => some (.error e, r)
  | some (.ok batch, s', log') =>
    if batch.isEmpty then
      if c.loop then some (assemble zero c batch n, Base.reset (w.now 0) c s', log')
      else some (.error .stopIteration, s', log')
    else some (assemble zero c batch n, s', log')

/-- A sequence of `get_batch` calls with the given sizes. -/
def runBatches (zero : V) (w : World V D Key) (c : Cfg) (fuel : Nat) : List Nat → St D Key → List String →
    Option (List (Except Exc (Batch V)) × St D Key × List String)
  | [], s, log => some ([], s, log)
  | n :: ns, s, log =>
    match getBatch zero w c fuel n s log with
    | none => none
    | some (r, s', log') =>
      match runBatches zero w c fuel ns s' log' with
      | none => none
      | some (rs, r') => some (r :: rs, r')

/-- A sequence of `get_batch` calls (with the given sizes) and `reset` calls (base.py lines 141-152), outcomes dropped. -/
def runCalls (zero : V) (w : World V D Key) (c : Cfg) (fuel : Nat) : List (Option Nat) → St D Key → List String → Option (St D Key × List String)
  | [], s, log => some (s, log)
  | none :: ops, s, log => runCalls zero w c fuel ops (Base.reset (w.now 0) c s) log
  | some n :: ops, s, log =>
    match getBatch zero w c fuel n s log with
    | none => none
    | some (_, s', log') => runCalls zero w c fuel ops s' log'

end Verif.Changing
