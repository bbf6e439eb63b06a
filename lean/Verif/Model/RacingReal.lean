import Verif.Model.Sampler
/-!
# Threads that share a sampler of real images (`src/synthpix/sampler/base.py`, `real.py`, `scheduler/episodic.py`)

Any number of threads call `next(sampler)`. The sampler has no attributes of its own that change, but an episodic scheduler below it counts its steps in `_t`: every read and
every write of `_t` is a step of its own. The calls of the base scheduler are one step each (as for a scheduler with a lock): what threads do to one without is in `Model/Racing`.
-/

namespace Verif.RacingReal
open Verif Sampler

variable {S V Key : Type}

/-- The conversion of a batch of the scheduler (`real.py` lines 48-58). Conversion of the entries to `float32` is left out. -/
def realOf (b : Base.Batch V) : RealBatch V :=
  { flow := b.flow, images1 := b.images1, images2 := b.images2, mask := b.mask, files := b.files, params := none, done := none }

/-- The next thing a thread does. -/
inductive EPc (V : Type) where
  /-- no call -/
  | idle
  /-- `self.scheduler.steps_remaining() == 0` (base.py lines 79-82) -/
  | head
  /-- the tests of the size and of `self._t >= self.episode_length` (episodic.py lines 150-161) -/
  | test
  /-- `self._t += 1` (episodic.py line 163): read, write -/
  | readT
  | storeT (n : Nat)
  /-- `self.scheduler.get_batch(batch_size)` (episodic.py line 165, real.py line 49) -/
  | fetch
  /-- `self._make_done()` (base.py lines 90-92 and 127) -/
  | flags (b : RealBatch V)
  /-- the call is over -/
  | done (r : Except Exc (RealBatch V))

/-- One step of a thread. `ep` is the configuration of the episodic scheduler, `none` if there is none; then `t` is not used. -/
def estep (sch : Sched S (Base.Batch V)) (ep : Option Episodic.Cfg) (batchSize : Nat) :
    EPc V × Episodic.St S Key → EPc V × Episodic.St S Key
  | (.idle, s) => (.idle, s)
  | (.head, s) =>
    match ep with
    | none => (.fetch, s)
    | some c => (if Episodic.stepsRemaining c s = 0 then .done (.error .episodeEnd) else .test, s)
  | (.test, s) =>
    match ep with
    | none => (.fetch, s)
    | some c =>
      (if batchSize ≠ c.batchSize then .done (.error .valueError)
       else if c.episodeLength ≤ s.t then .done (.error .episodeEnd) else .readT, s)
  | (.readT, s) => (.storeT s.t, s)
  | (.storeT n, s) => (.fetch, { s with t := n + 1 })
  | (.fetch, s) =>
    match sch.getBatch batchSize s.inner with
    | none => (.fetch, s)
    | some (.error e, w) => (.done (.error e), { s with inner := w })
    | some (.ok b, w) => (.flags (realOf b), { s with inner := w })
  | (.flags b, s) =>
    (.done (.ok { b with done := ep.map (fun c => List.replicate batchSize (decide (Episodic.stepsRemaining c s = 0))) }), s)
  | (.done r, s) => (.done r, s)

/-- All threads, what they share, and how their calls have ended so far. -/
structure ESt (S V Key : Type) where
  shared : Episodic.St S Key
  pc : Nat → EPc V
  out : List (Nat × Except Exc (RealBatch V))

/-- What the threads can do: begin a call, go on with it, take its result. -/
inductive Act where
  | call (i : Nat)
  | step (i : Nat)
  | take (i : Nat)
  deriving DecidableEq, Repr

/-- The place of one thread is changed. -/
def setPc (pc : Nat → EPc V) (i : Nat) (x : EPc V) : Nat → EPc V := fun j => if j = i then x else pc j

/-- One action; nothing happens if it is not possible. -/
def eact (sch : Sched S (Base.Batch V)) (ep : Option Episodic.Cfg) (batchSize : Nat) (s : ESt S V Key) : Act → ESt S V Key
  | .call i =>
    match s.pc i with
    | .idle => { s with pc := setPc s.pc i .head }
    | _ => s
  | .step i =>
    { s with shared := (estep sch ep batchSize (s.pc i, s.shared)).2, pc := setPc s.pc i (estep sch ep batchSize (s.pc i, s.shared)).1 }
  | .take i =>
    match s.pc i with
    | .done r => { s with pc := setPc s.pc i .idle, out := s.out ++ [(i, r)] }
    | _ => s

/-- A schedule. -/
def erun (sch : Sched S (Base.Batch V)) (ep : Option Episodic.Cfg) (batchSize : Nat) : List Act → ESt S V Key → ESt S V Key
  | [], s => s
  | a :: as, s => erun sch ep batchSize as (eact sch ep batchSize s a)

/-- Before any call. -/
def einit (e : Episodic.St S Key) : ESt S V Key := { shared := e, pc := fun _ => .idle, out := [] }

end Verif.RacingReal
