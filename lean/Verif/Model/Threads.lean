import Verif.Model.Prefetch
/-!
# The threads of `PrefetchingFlowFieldScheduler` one by one (`src/synthpix/scheduler/prefetch.py`)

`Model/Prefetch.lean` has one worker and lets `reset` finish in one step. Here every `threading.Thread` that `reset` has
replaced (line 216) is kept, with the place where it is, and may go on whenever its next step is possible: it has the
wrapped scheduler, the stop flag and the attribute `self._queue` in common with the current worker. The body of `reset`
after the join (lines 205-217) is a sequence of separate steps between which every thread may move.
-/

namespace Verif.Prefetch
open Verif
variable {S B : Type}

/-- Where `reset` is after its join. -/
inductive RPc where
  /-- not between the join and the end of `reset` -/
  | no
  /-- before `self._queue.queue.clear()`, line 206 -/
  | clear
  /-- before `self.scheduler.reset()`, line 211 -/
  | source
  /-- before `self._t = 0`, line 212 -/
  | counter
  /-- before `self._started = False`, line 213 -/
  | started
  /-- before `self._stop_event.clear()`, line 214 -/
  | flag
  /-- before `self._queue = queue.Queue(…)`, line 215 -/
  | queue
  /-- before `self._thread = threading.Thread(…)`, line 216 -/
  | thread
  /-- before `self.startup = True`, line 217 -/
  | startup
  deriving DecidableEq, Repr

/-- Everything of `St`, where `w` is the thread in `self._thread` (prefetch.py line 60 or 216), the place in `reset`, and
the threads that were in `self._thread` before. -/
structure TSt (S B : Type) where
  main : St S B
  pc : RPc
  old : List (WPc B)

/-- The atomic steps: those of `Model/Prefetch.lean`, a step of a replaced thread, and the next line of `reset`. -/
inductive TAction where
  | main (a : Action)
  | old (i : Nat) (a : Action)
  | line
  deriving DecidableEq, Repr

/-- After the constructor (prefetch.py lines 49-75). -/
def tinit (src : S) : TSt S B := ⟨init src, .no, []⟩

/-- One line of `reset` after the join (prefetch.py lines 205-217). -/
def resetLine (p : Src S B) (s : TSt S B) : Option (TSt S B) :=
  match s.pc with
  | .no => none
  | .clear => some { s with main := { s.main with queue := [] }, pc := .source }
  | .source => some { s with main := { s.main with src := p.reset s.main.src }, pc := .counter }
  | .counter => some { s with main := { s.main with t := 0 }, pc := .started }
  | .started => some { s with main := { s.main with started := false }, pc := .flag }
  | .flag => some { s with main := { s.main with stop := false }, pc := .queue }
  | .queue => some { s with main := { s.main with queue := [] }, pc := .thread }
  | .thread => some { main := { s.main with w := .idle }, pc := .startup, old := s.main.w :: s.old }
  | .startup => some { s with main := { s.main with startup := true, c := .idle }, pc := .no }

/-- One atomic step (prefetch.py lines 77-306). The join of line 202 waits for the current thread; while the consumer is
in the lines after it, only threads move. -/
def tact (p : Src S B) (cfg : Cfg) (a : TAction) (s : TSt S B) : Option (TSt S B × Out B) :=
  match a with
  | .line => (resetLine p s).map fun s' => (s', .tau)
  | .old i a =>
    if a.isWorker then
      match s.old[i]? with
      | none => none
      | some w => (act p cfg a { s.main with w := w }).map fun r =>
          ({ s with main := { r.1 with w := s.main.w }, old := s.old.set i r.1.w }, r.2)
    else none
  | .main .join =>
    match s.pc, s.main.c with
    | .no, .resetJoin => if s.main.w.ended then some ({ s with pc := .clear }, .tau) else none
    | _, _ => none
  | .main a =>
    if a.isWorker ∨ s.pc = .no then (act p cfg a s.main).map fun r => ({ s with main := r.1 }, r.2) else none

/-- A schedule of all threads. -/
def trun (p : Src S B) (cfg : Cfg) : List TAction → TSt S B → Option (TSt S B × List (Out B))
  | [], s => some (s, [])
  | a :: as, s =>
    match tact p cfg a s with
    | none => none
    | some (s', o) =>
      match trun p cfg as s' with
      | none => none
      | some (s'', os) => some (s'', o :: os)

/-- `is_running()` (prefetch.py lines 253-260): the thread in `self._thread` is alive. -/
def isRunning (s : St S B) : Bool := !s.w.ended

end Verif.Prefetch
