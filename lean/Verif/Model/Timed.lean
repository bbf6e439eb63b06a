import Verif.Model.Prefetch
import Mathlib.Data.Rat.Defs
import Mathlib.Algebra.Order.Ring.Rat
/-!
# Time in `PrefetchingFlowFieldScheduler` (`src/synthpix/scheduler/prefetch.py`)

The transition system of `Model/Prefetch.lean` with a clock: every step has a time, and the steps that stand for the end of a timeout
are possible only when it has passed. How long the other steps take is not part of the code: see `Spec/Timed.lean`. Simplification: the
time is rational, and a step takes place at one moment.
-/

namespace Verif.Timed
open Verif Verif.Prefetch

/-- The timeouts in seconds: `startup_timeout` and `steady_state_timeout` of the constructor (prefetch.py lines 33-34), `eos_timeout` of the
worker (line 138) and `join_timeout` of `shutdown` and `next_episode` (lines 221 and 273). -/
structure Times where
  startup : ℚ
  steady : ℚ
  eos : ℚ
  join : ℚ

/-- The values that are used if none are given (prefetch.py lines 33, 34, 138, 221, 273). -/
def Times.default : Times := ⟨30, 2, 2, 2⟩

/-- The state with the clock and the moments on which timeouts and delays depend. -/
structure TSt (S B : Type) where
  s : St S B
  /-- the moment of the last step -/
  now : ℚ
  /-- when the worker came to where it is (of no importance while the thread is not alive) -/
  wSince : ℚ
  /-- when the consumer came to where it is -/
  cSince : ℚ
  /-- when the last public method was called -/
  call : ℚ
  /-- when there last was room in the queue again after it had been full -/
  room : ℚ
  /-- when there last was something in the queue again after it had been empty -/
  item : ℚ
  /-- when the consumer last took something from the queue or, before that, started the worker -/
  served : ℚ

variable {S B : Type}

/-- The timeout of the `queue.get` in `get_batch` (prefetch.py lines 105-109). -/
def getTimeout (T : Times) (s : St S B) : ℚ := if s.startup then T.startup else T.steady

/-- What the timeouts demand of a step at time `t`: a `queue.get` gives up after its timeout (prefetch.py lines 105-109), the `put` of the
end-of-stream signal likewise (line 162); `next_episode` stops discarding at its deadline and does not wait for another item after it (lines
291-297); the join of `shutdown` returns when the thread has ended or after the timeout (lines 246-247). -/
def due (T : Times) (x : TSt S B) (t : ℚ) : Action → Bool
  | .timeout => x.cSince + getTimeout T x.s ≤ t
  | .eosTimeout => x.wSince + T.eos ≤ t
  | .discard => x.cSince < x.call + T.join
  | .discardTimeout => x.call + T.join ≤ t
  | .shutJoin => x.s.w.ended || x.cSince + T.join ≤ t
  | _ => true

/-- The moments after a step at time `t`. -/
def stamp (cfg : Cfg) (t : ℚ) (a : Action) (x : TSt S B) (s' : St S B) : TSt S B where
  s := s'
  now := t
  wSince := if a.isWorker || x.s.w.ended then t else x.wSince
  cSince := if a.isWorker then x.cSince else t
  call := if a.isWorker || x.s.c != .idle then x.call else t
  room := if cfg.bufferSize ≤ x.s.queue.length ∧ s'.queue.length < cfg.bufferSize then t else x.room
  item := if x.s.queue.isEmpty && !s'.queue.isEmpty then t else x.item
  served := if a = .take ∨ a = .discard ∨ (x.s.started = false ∧ s'.started = true) then t else x.served

/-- One step at time `t`; `none` if it is not possible then. -/
def tact (p : Src S B) (cfg : Cfg) (T : Times) (t : ℚ) (a : Action) (x : TSt S B) : Option (TSt S B × Out B) :=
  if x.now ≤ t ∧ due T x t a = true then (act p cfg a x.s).map (fun q => (stamp cfg t a x q.1, q.2)) else none

/-- The state after the constructor, at time `t`. -/
def tinit (t : ℚ) (src : S) : TSt S B :=
  { s := init src, now := t, wSince := t, cSince := t, call := t, room := t, item := t, served := t }

end Verif.Timed
