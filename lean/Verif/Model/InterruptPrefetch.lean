import Verif.Model.Prefetch
/-!
# Calls of the prefetching scheduler that are interrupted (`src/synthpix/scheduler/prefetch.py`)

`KeyboardInterrupt` is raised in the thread that calls the methods, between any two instructions or while it waits, and is caught nowhere. The worker thread is not
interrupted. Here the methods are divided at every access to an attribute, the queue, the stop flag or the threads, and a call can be given up at every one of these
places. An item that `queue.get` has removed is lost if the interruption comes before it is returned, as if it came just afterwards. Simplifications: `startup`, which only
selects a timeout, is left out, as time is; `self.scheduler.reset()` is one step (its interruptions: `Model/Interrupt.lean`).
-/

namespace Verif.Prefetch
open Verif
variable {S B : Type}

/-- Where the calling thread is. In `_start_worker`, the flag tells whether it was called by `next_episode`. -/
inductive IPc (B : Type) where
  /-- between calls -/
  | out
  /-- before reading `self._started`, line 133 -/
  | started (next : Bool)
  /-- before `self._started = True`, line 134 -/
  | mark (next : Bool)
  /-- before `self._thread.start()`, line 135 -/
  | start (next : Bool)
  /-- `get_batch`, before reading `self._t`, line 100 -/
  | episode
  /-- `get_batch`, at `queue.get`, lines 106-109 -/
  | wait
  /-- `get_batch`, before `self._t += 1`, line 114, with the item taken -/
  | count (x : Option B)
  /-- `get_batch`, before it returns or raises `StopIteration`, lines 115-118 -/
  | answer (x : Option B)
  /-- `reset`, before `get_nowait`, line 196 -/
  | drain
  /-- `reset`, before or in the join, lines 201-202 -/
  | join
  /-- `reset`, before `self._queue.queue.clear()`, line 206 -/
  | clear
  /-- `reset`, before `self.scheduler.reset()`, line 211 -/
  | source
  /-- `reset`, before `self._t = 0`, line 212 -/
  | counter
  /-- `reset`, before `self._started = False`, line 213 -/
  | unmark
  /-- `reset`, before `self._stop_event.clear()`, line 214 -/
  | unstop
  /-- `reset`, before `self._queue = queue.Queue(…)`, line 215 -/
  | queue
  /-- `reset`, before `self._thread = threading.Thread(…)`, line 216 -/
  | thread
  /-- `next_episode`, with `k > 0` items still to discard, lines 292-302 -/
  | discard (k : Nat)
  /-- `next_episode`, before `self._t = 0`, line 306 -/
  | zero
  /-- `shutdown`, before `get_nowait`, line 235 -/
  | shutDrain
  /-- `shutdown`, before the `put`, line 241 -/
  | shutPut
  /-- `shutdown`, in the join with timeout, lines 246-247 -/
  | shutJoin
  deriving DecidableEq, Repr

/-- The state (prefetch.py lines 49-75). In `main`, `w` is the thread in `self._thread`, `started` tells whether that has been started, and `c` is not used; `flag` is the
attribute `_started`. -/
structure ISt (S B : Type) where
  main : St S B
  flag : Bool
  pc : IPc B

/-- What a step shows. -/
inductive IOut (B : Type) where
  | tau
  /-- `get_batch` takes an item from the queue -/
  | took (x : Option B)
  /-- `get_batch` returns -/
  | ret (b : B)
  /-- `get_batch` raises `StopIteration`, because of the end-of-stream signal or an empty queue -/
  | stop (timedOut : Bool)
  | episodeEnd
  | valueError
  /-- `threads can only be started once` -/
  | runtimeError
  /-- another method removes an item from the queue -/
  | removed (x : Option B)
  /-- the call is interrupted -/
  | interrupted
  deriving DecidableEq, Repr

/-- The atomic steps: those of the worker, the calls, the next step of the call, the end of its wait, and the interruption. -/
inductive IAction where
  | worker (a : Action)
  | get (n : Nat)
  | reset
  | nextEpisode
  | shutdown
  | step
  | timeout
  | interrupt
  deriving DecidableEq, Repr

/-- After the constructor (prefetch.py lines 49-75). -/
def iinit (src : S) : ISt S B := ⟨init src, false, .out⟩

/-- What follows `_start_worker` (prefetch.py lines 99 and 306). -/
def afterStart (next : Bool) : IPc B := if next then .zero else .episode

/-- The next step of the call (prefetch.py lines 97-118, 131-136, 195-217, 234-247 and 288-306). -/
def istep (p : Src S B) (cfg : Cfg) (s : ISt S B) : Option (ISt S B × IOut B) :=
  match s.pc with
  | .out => none
  | .started n => some ({ s with pc := if s.flag then afterStart n else .mark n }, .tau)
  | .mark n => some ({ s with flag := true, pc := .start n }, .tau)
  -- `Thread.start` raises `RuntimeError` the second time
  | .start n =>
    if s.main.started then some ({ s with pc := .out }, .runtimeError)
    else some ({ s with main := startWorker s.main, pc := afterStart n }, .tau)
  | .episode =>
    match p.episodeLength with
    | some L => if L ≤ s.main.t then some ({ s with pc := .out }, .episodeEnd) else some ({ s with pc := .wait }, .tau)
    | none => some ({ s with pc := .wait }, .tau)
  | .wait =>
    match s.main.queue with
    | [] => none
    | x :: q => some ({ s with main := { s.main with queue := q }, pc := .count x }, .took x)
  | .count x => some ({ s with main := { s.main with t := s.main.t + 1 }, pc := .answer x }, .tau)
  | .answer x =>
    match x with
    | some b => some ({ s with pc := .out }, .ret b)
    | none => some ({ s with pc := .out }, .stop false)
  | .drain =>
    match s.main.queue with
    | [] => some ({ s with pc := .join }, .tau)
    | x :: q => some ({ s with main := { s.main with queue := q }, pc := .join }, .removed x)
  | .join => if s.main.w.ended then some ({ s with pc := .clear }, .tau) else none
  | .clear => some ({ s with main := { s.main with queue := [] }, pc := .source }, .tau)
  | .source => some ({ s with main := { s.main with src := p.reset s.main.src }, pc := .counter }, .tau)
  | .counter => some ({ s with main := { s.main with t := 0 }, pc := .unmark }, .tau)
  | .unmark => some ({ s with flag := false, pc := .unstop }, .tau)
  | .unstop => some ({ s with main := { s.main with stop := false }, pc := .queue }, .tau)
  | .queue => some ({ s with main := { s.main with queue := [] }, pc := .thread }, .tau)
  | .thread => some ({ s with main := { s.main with w := .idle, started := false }, pc := .out }, .tau)
  | .discard k =>
    match s.main.queue with
    | [] => none
    | none :: q => some ({ s with main := { s.main with queue := q }, pc := .zero }, .removed none)
    | some b :: q => some ({ s with main := { s.main with queue := q }, pc := if k ≤ 1 then .zero else .discard (k - 1) }, .removed (some b))
  | .zero => some ({ s with main := { s.main with t := 0 }, pc := .out }, .tau)
  | .shutDrain =>
    match s.main.queue with
    | [] => some ({ s with pc := .shutPut }, .tau)
    | x :: q => some ({ s with main := { s.main with queue := q }, pc := .shutPut }, .removed x)
  | .shutPut =>
    some ({ s with main := { s.main with queue := if s.main.queue.length < cfg.bufferSize then s.main.queue ++ [none] else s.main.queue }, pc := .shutJoin }, .tau)
  | .shutJoin => some ({ s with pc := .out }, .tau)

/-- One atomic step (prefetch.py lines 77-306); `none` if it is not enabled. -/
def iact (p : Src S B) (cfg : Cfg) (a : IAction) (s : ISt S B) : Option (ISt S B × IOut B) :=
  match a with
  | .worker a => if a.isWorker then (act p cfg a s.main).map fun r => ({ s with main := r.1 }, .tau) else none
  -- lines 92-96
  | .get n =>
    match s.pc with
    | .out => some (if n ≠ cfg.batchSize then (s, .valueError) else ({ s with pc := .started false }, .tau))
    | _ => none
  -- line 191
  | .reset =>
    match s.pc with
    | .out => some ({ s with main := { s.main with stop := true }, pc := .drain }, .tau)
    | _ => none
  -- lines 284-290
  | .nextEpisode =>
    match s.pc with
    | .out =>
      match p.episodeLength with
      | none => some (s, .tau)
      | some L => some ({ s with pc := if s.flag ∧ s.main.t < L then .discard (L - s.main.t) else .started true }, .tau)
    | _ => none
  -- line 228
  | .shutdown =>
    match s.pc with
    | .out => some ({ s with main := { s.main with stop := true }, pc := .shutDrain }, .tau)
    | _ => none
  | .step => istep p cfg s
  -- `queue.get` raises `queue.Empty` (lines 119-121); the deadline of `next_episode` has passed (lines 293-295)
  | .timeout =>
    match s.pc, s.main.queue with
    | .wait, [] => some ({ s with pc := .out }, .stop true)
    | .discard _, _ => some ({ s with pc := .zero }, .tau)
    | _, _ => none
  | .interrupt =>
    match s.pc with
    | .out => none
    | _ => some ({ s with pc := .out }, .interrupted)

/-- A schedule. -/
def irun (p : Src S B) (cfg : Cfg) : List IAction → ISt S B → Option (ISt S B × List (IOut B))
  | [], s => some (s, [])
  | a :: as, s =>
    match iact p cfg a s with
    | none => none
    | some (s', o) =>
      match irun p cfg as s' with
      | none => none
      | some (s'', os) => some (s'', o :: os)

end Verif.Prefetch
