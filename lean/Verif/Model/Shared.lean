import Verif.Model.Prefetch
/-!
# Several threads calling `get_batch` of one prefetching scheduler (`src/synthpix/scheduler/prefetch.py`)

`Model/Prefetch.lean` has one consumer, whose `get_batch` is a step up to `queue.get` and a step from there on. Here any
number of threads, numbered by natural numbers, call `get_batch`; the method takes no lock, so that it is divided into its
reads and writes of shared attributes, between which every other thread may move. Simplification: `startup`, which only
selects a timeout, is left out, as time is; the other methods are not called.
-/

namespace Verif.Prefetch
open Verif
variable {S B : Type}

/-- Where a thread is in `get_batch` (prefetch.py lines 92-121). -/
inductive GPc (B : Type) where
  /-- not in `get_batch` -/
  | out
  /-- before reading `self._started`, line 133 -/
  | started
  /-- before `self._started = True`, line 134 -/
  | mark
  /-- before `self._thread.start()`, line 135 -/
  | start
  /-- before reading `self._t`, line 100 -/
  | episode
  /-- at `queue.get`, lines 106-109 -/
  | wait
  /-- before `self._t += 1` reads, line 114, with the item taken -/
  | read (x : Option B)
  /-- before `self._t += 1` writes, with the value read -/
  | write (x : Option B) (t : Nat)
  deriving DecidableEq, Repr

/-- The shared state (prefetch.py lines 49-75) and the place of every thread. In `main`, `started` tells whether the
thread has been started and `c` is not used; `flag` is the attribute `_started`. -/
structure GSt (S B : Type) where
  main : St S B
  flag : Bool
  pcs : Nat → GPc B

/-- A thread's place changes. -/
def GSt.at (s : GSt S B) (i : Nat) (pc : GPc B) : GSt S B := { s with pcs := fun j => if j = i then pc else s.pcs j }

/-- What a step shows. -/
inductive GOut (B : Type) where
  | tau
  /-- thread `i` takes an item from the queue -/
  | took (i : Nat) (x : Option B)
  /-- `get_batch` returns in thread `i` -/
  | ret (i : Nat) (b : B)
  /-- `get_batch` raises `StopIteration` in thread `i`, because of the end-of-stream signal or an empty queue -/
  | stop (i : Nat) (timedOut : Bool)
  | episodeEnd (i : Nat)
  | valueError (i : Nat)
  /-- `threads can only be started once` -/
  | runtimeError (i : Nat)
  deriving DecidableEq, Repr

/-- The atomic steps: those of the worker, a call in thread `i`, the next step of thread `i`, and the end of its wait. -/
inductive GAction where
  | worker (a : Action)
  | call (i n : Nat)
  | step (i : Nat)
  | timeout (i : Nat)
  deriving DecidableEq, Repr

/-- After the constructor (prefetch.py lines 49-75), every thread outside. -/
def ginit (src : S) : GSt S B := ⟨init src, false, fun _ => .out⟩

/-- The next step of thread `i` in `get_batch` (prefetch.py lines 97-118 and 131-136). -/
def gstep (p : Src S B) (i : Nat) (s : GSt S B) : Option (GSt S B × GOut B) :=
  match s.pcs i with
  | .out => none
  | .started => some (if s.flag then s.at i .episode else s.at i .mark, .tau)
  | .mark => some ({ s with flag := true }.at i .start, .tau)
  -- `Thread.start` raises `RuntimeError` the second time
  | .start =>
    if s.main.started then some (s.at i .out, .runtimeError i)
    else some ({ s with main := startWorker s.main }.at i .episode, .tau)
  | .episode =>
    match p.episodeLength with
    | some L => if L ≤ s.main.t then some (s.at i .out, .episodeEnd i) else some (s.at i .wait, .tau)
    | none => some (s.at i .wait, .tau)
  | .wait =>
    match s.main.queue with
    | [] => none
    | x :: q => some ({ s with main := { s.main with queue := q } }.at i (.read x), .took i x)
  | .read x => some (s.at i (.write x s.main.t), .tau)
  | .write x t =>
    let s' := { s with main := { s.main with t := t + 1 } }.at i .out
    match x with
    | some b => some (s', .ret i b)
    | none => some (s', .stop i false)

/-- One atomic step (prefetch.py lines 77-186); `none` if it is not enabled. -/
def gact (p : Src S B) (cfg : Cfg) (a : GAction) (s : GSt S B) : Option (GSt S B × GOut B) :=
  match a with
  | .worker a => if a.isWorker then (act p cfg a s.main).map fun r => ({ s with main := r.1 }, .tau) else none
  -- lines 92-96
  | .call i n =>
    match s.pcs i with
    | .out => some (if n ≠ cfg.batchSize then (s, .valueError i) else (s.at i .started, .tau))
    | _ => none
  | .step i => gstep p i s
  -- `queue.get` raises `queue.Empty` (lines 119-121)
  | .timeout i =>
    match s.pcs i, s.main.queue with
    | .wait, [] => some (s.at i .out, .stop i true)
    | _, _ => none

/-- A schedule of all threads. -/
def grun (p : Src S B) (cfg : Cfg) : List GAction → GSt S B → Option (GSt S B × List (GOut B))
  | [], s => some (s, [])
  | a :: as, s =>
    match gact p cfg a s with
    | none => none
    | some (s', o) =>
      match grun p cfg as s' with
      | none => none
      | some (s'', os) => some (s'', o :: os)

end Verif.Prefetch
