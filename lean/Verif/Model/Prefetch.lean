import Verif.Model.Exc
/-!
# `PrefetchingFlowFieldScheduler` (`src/synthpix/scheduler/prefetch.py`)

Two threads share a bounded queue and a stop flag: the worker (lines 138-186) and the consumer, i.e. the thread that
calls the public methods. The model is a transition system whose actions are the atomic steps of the two threads
(`queue.Queue` operations are atomic, being protected by the queue's mutex). A list of actions is a schedule. Time is not
modelled: an operation with a timeout may time out whenever `queue.Queue` allows it, i.e. a `get` only while the queue is
empty, a `put` only while it is full. Simplifications: one consumer thread; a call of the wrapped scheduler is one atomic
step (between joins only the worker calls it) and returns.
-/

namespace Verif.Prefetch
open Verif

/-- The wrapped scheduler, for the fixed batch size (prefetch.py lines 147, 150, 211, 99-100): `episodeLength` is
`some L` iff it implements `EpisodicSchedulerProtocol`. -/
structure Src (S B : Type) where
  getBatch : S → Except Exc B × S
  nextEpisode : S → S
  reset : S → S
  episodeLength : Option Nat

/-- The constructor's arguments (prefetch.py lines 28-35 and 51-56). -/
structure Cfg where
  batchSize : Nat
  bufferSize : Nat
  deriving DecidableEq, Repr

/-- Where the worker thread is (prefetch.py lines 138-186). -/
inductive WPc (B : Type) where
  /-- the thread has not been started -/
  | idle
  /-- at the loop condition, line 145 -/
  | loop
  /-- at `scheduler.get_batch`, line 147 -/
  | fetch
  /-- at the blocking `put` of a batch, line 186 -/
  | put (b : B)
  /-- at the `put` of the end-of-stream signal, line 162 -/
  | eos
  /-- before the `with` block after that `put` timed out, line 168 -/
  | eosForce
  /-- before `_stop_event.set()`, line 180 -/
  | eosStop
  /-- the thread has returned -/
  | exited
  /-- the thread was ended by an exception of the wrapped scheduler -/
  | died (e : Exc)
  deriving DecidableEq, Repr

/-- Where the consumer thread is. -/
inductive CPc where
  /-- between calls -/
  | idle
  /-- in `get_batch`, at the `queue.get` of lines 106-109 -/
  | getWait
  /-- in `reset`, before `get_nowait`, line 196 -/
  | resetDrain
  /-- in `reset`, before or in the join, line 201 -/
  | resetJoin
  /-- in `shutdown`, before `get_nowait`, line 235 -/
  | shutDrain
  /-- in `shutdown`, before the `put`, line 241 -/
  | shutPut
  /-- in `shutdown`, in the join with timeout, lines 246-247 -/
  | shutJoin
  /-- in `next_episode`, with `k > 0` items still to discard, lines 292-302 -/
  | discard (k : Nat)
  deriving DecidableEq, Repr

/-- The shared and private state (prefetch.py lines 49-75). `startup` only selects a timeout. -/
structure St (S B : Type) where
  src : S
  queue : List (Option B)
  stop : Bool
  started : Bool
  startup : Bool
  t : Nat
  w : WPc B
  c : CPc
  deriving DecidableEq, Repr

/-- What a step shows to the user, or tells about the queue and the wrapped scheduler. -/
inductive Out (B : Type) where
  /-- a silent step -/
  | tau
  /-- the wrapped scheduler handed a batch to the worker -/
  | fetched (b : B)
  /-- `get_batch` returns `b`; the step counter was `t` before -/
  | ret (t : Nat) (b : B)
  /-- `get_batch` raises `StopIteration`, because of the end-of-stream signal or (`timedOut`) an empty queue -/
  | stop (timedOut : Bool)
  /-- `get_batch` raises `EpisodeEnd` -/
  | episodeEnd
  /-- `get_batch` raises `ValueError` -/
  | valueError
  /-- `next_episode`, `reset` or `shutdown` removes an item from the queue without delivering it -/
  | removed (x : Option B)
  deriving DecidableEq, Repr

/-- The atomic steps. -/
inductive Action where
  -- worker
  | check | fetch | put | eosPut | eosTimeout | eosForce | eosStop
  -- consumer: `get_batch(n)`
  | get (n : Nat) | take | timeout
  -- consumer: `reset()`
  | reset | resetDrain | join
  -- consumer: `shutdown()`
  | shutdown | shutDrain | shutPut | shutJoin
  -- consumer: `next_episode()`
  | nextEpisode | discard | discardTimeout
  deriving DecidableEq, Repr

/-- The steps of the worker thread. -/
def Action.isWorker : Action → Bool
  | .check | .fetch | .put | .eosPut | .eosTimeout | .eosForce | .eosStop => true
  | _ => false

variable {S B : Type}

/-- State after the constructor (prefetch.py lines 49-75). -/
def init (src : S) : St S B :=
  { src := src, queue := [], stop := false, started := false, startup := true, t := 0, w := .idle, c := .idle }

/-- The thread is not alive (`Thread.is_alive()` is false). -/
def WPc.ended : WPc B → Bool
  | .idle | .exited | .died _ => true
  | _ => false

/-- `_start_worker` (prefetch.py lines 131-136). -/
def startWorker (s : St S B) : St S B :=
  if s.started then s else { s with started := true, w := .loop }

/-- The result of a call of the wrapped scheduler by the worker (prefetch.py lines 146-181): a batch goes on to the `put`;
`EpisodeEnd` moves to the next episode (for a scheduler that is not episodic the `assert` fails); `StopIteration` goes on
to the end-of-stream signal; anything else ends the thread. -/
def fetchStep (p : Src S B) (s : St S B) : St S B × Out B :=
  match p.getBatch s.src with
  | (.ok b, src) => ({ s with src := src, w := .put b }, .fetched b)
  | (.error .stopIteration, src) => ({ s with src := src, w := .eos }, .tau)
  | (.error .episodeEnd, src) =>
    match p.episodeLength with
    | some _ => ({ s with src := p.nextEpisode src, w := .loop }, .tau)
    | none => ({ s with src := src, w := .died .assertionError }, .tau)
  | (.error e, src) => ({ s with src := src, w := .died e }, .tau)

/-- One atomic step; `none` if it is not enabled. -/
def act (p : Src S B) (cfg : Cfg) (a : Action) (s : St S B) : Option (St S B × Out B) :=
  match a with
  -- `while not self._stop_event.is_set()` (line 145)
  | .check =>
    match s.w with
    | .loop => some (if s.stop then ({ s with w := .exited }, .tau) else ({ s with w := .fetch }, .tau))
    | _ => none
  -- lines 146-181
  | .fetch =>
    match s.w with
    | .fetch => some (fetchStep p s)
    | _ => none
  -- `self._queue.put(batch, block=True)` (line 186)
  | .put =>
    match s.w with
    | .put b => if s.queue.length < cfg.bufferSize then some ({ s with queue := s.queue ++ [some b], w := .loop }, .tau) else none
    | _ => none
  -- `self._queue.put(None, block=True, timeout=eos_timeout)` succeeds (line 162)
  | .eosPut =>
    match s.w with
    | .eos => if s.queue.length < cfg.bufferSize then some ({ s with queue := s.queue ++ [none], w := .eosStop }, .tau) else none
    | _ => none
  -- it raises `queue.Full` (line 163)
  | .eosTimeout =>
    match s.w with
    | .eos => if s.queue.length < cfg.bufferSize then none else some ({ s with w := .eosForce }, .tau)
    | _ => none
  -- the `with self._queue.mutex` block (lines 168-177)
  | .eosForce =>
    match s.w with
    | .eosForce => some ({ s with queue := s.queue.tail ++ [none], w := .eosStop }, .tau)
    | _ => none
  -- `self._stop_event.set(); return` (lines 180-181)
  | .eosStop =>
    match s.w with
    | .eosStop => some ({ s with stop := true, w := .exited }, .tau)
    | _ => none
  -- `get_batch` up to `queue.get` (lines 92-104)
  | .get n =>
    match s.c with
    | .idle =>
      if n ≠ cfg.batchSize then some (s, .valueError)
      else
        match p.episodeLength with
        | some L => if L ≤ s.t then some (startWorker s, .episodeEnd) else some ({ startWorker s with c := .getWait }, .tau)
        | none => some ({ startWorker s with c := .getWait }, .tau)
    | _ => none
  -- `queue.get` returns an item (lines 105-118)
  | .take =>
    match s.c, s.queue with
    | .getWait, x :: q =>
      let s' := { s with queue := q, startup := false, t := s.t + 1, c := .idle }
      match x with
      | some b => some (s', .ret s.t b)
      | none => some (s', .stop false)
    | _, _ => none
  -- `queue.get` raises `queue.Empty` (lines 119-121)
  | .timeout =>
    match s.c, s.queue with
    | .getWait, [] => some ({ s with c := .idle }, .stop true)
    | _, _ => none
  -- `reset`: `_stop_event.set()` (line 191)
  | .reset =>
    match s.c with
    | .idle => some ({ s with stop := true, c := .resetDrain }, .tau)
    | _ => none
  -- `reset`: `get_nowait` (lines 195-198)
  | .resetDrain =>
    match s.c with
    | .resetDrain =>
      match s.queue with
      | [] => some ({ s with c := .resetJoin }, .tau)
      | x :: q => some ({ s with queue := q, c := .resetJoin }, .removed x)
    | _ => none
  -- `reset`: the join returns and everything is reinitialised (lines 201-217)
  | .join =>
    match s.c with
    | .resetJoin => if s.w.ended then some (init (p.reset s.src), .tau) else none
    | _ => none
  -- `shutdown`: `_stop_event.set()` (line 228)
  | .shutdown =>
    match s.c with
    | .idle => some ({ s with stop := true, c := .shutDrain }, .tau)
    | _ => none
  -- `shutdown`: `get_nowait` (lines 234-237)
  | .shutDrain =>
    match s.c with
    | .shutDrain =>
      match s.queue with
      | [] => some ({ s with c := .shutPut }, .tau)
      | x :: q => some ({ s with queue := q, c := .shutPut }, .removed x)
    | _ => none
  -- `shutdown`: `put(None, block=False)` (lines 240-243)
  | .shutPut =>
    match s.c with
    | .shutPut =>
      some ({ s with queue := if s.queue.length < cfg.bufferSize then s.queue ++ [none] else s.queue, c := .shutJoin }, .tau)
    | _ => none
  -- `shutdown`: the join returns or times out (lines 246-247)
  | .shutJoin =>
    match s.c with
    | .shutJoin => some ({ s with c := .idle }, .tau)
    | _ => none
  -- `next_episode` up to the discarding loop (lines 284-304)
  | .nextEpisode =>
    match s.c with
    | .idle =>
      match p.episodeLength with
      | none => some (s, .tau)
      | some L =>
        if s.started ∧ s.t < L then some ({ s with c := .discard (L - s.t) }, .tau)
        else some ({ startWorker s with t := 0 }, .tau)
    | _ => none
  -- one item is discarded (lines 296-302); after the last one, or the end-of-stream signal, the loop ends (line 306)
  | .discard =>
    match s.c, s.queue with
    | .discard k, x :: q =>
      match x with
      | none => some ({ s with queue := q, t := 0, c := .idle }, .removed none)
      | some b =>
        if k ≤ 1 then some ({ s with queue := q, t := 0, c := .idle }, .removed (some b))
        else some ({ s with queue := q, c := .discard (k - 1) }, .removed (some b))
    | _, _ => none
  -- the deadline has passed (lines 293-295)
  | .discardTimeout =>
    match s.c with
    | .discard _ => some ({ s with t := 0, c := .idle }, .tau)
    | _ => none

/-- `steps_remaining` (prefetch.py lines 262-271). -/
def stepsRemaining (p : Src S B) (s : St S B) : Int :=
  match p.episodeLength with
  | some L => L - s.t
  | none => 1

/-- A schedule: the actions in order, with what each shows; `none` if some action is not enabled when its turn comes. -/
def run (p : Src S B) (cfg : Cfg) : List Action → St S B → Option (St S B × List (Out B))
  | [], s => some (s, [])
  | a :: as, s =>
    match act p cfg a s with
    | none => none
    | some (s', o) =>
      match run p cfg as s' with
      | none => none
      | some (s'', os) => some (s'', o :: os)

end Verif.Prefetch
