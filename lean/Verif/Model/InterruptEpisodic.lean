import Verif.Model.Interrupt
import Verif.Model.Episodic
/-!
# Calls of the episodic scheduler that are interrupted (`src/synthpix/scheduler/episodic.py`)

`get_batch` and `next_episode` of an episodic scheduler over a base scheduler, executed assignment by assignment as in `Verif.Model.Interrupt`.
-/

namespace Verif.InterruptEpisodic
open Verif Base Interrupt

variable {V D K Key : Type}

/-- The mutable attributes of both schedulers (episodic.py lines 103-108, base.py lines 94-118). -/
structure ERaw (D K Key : Type) where
  inner : Raw D K
  t : Nat
  key : Key
  deriving DecidableEq, Repr

/-- The state of the model without interruptions as such a state. -/
def ERaw.of (e : Episodic.St (Base.St D K) Key) : ERaw D K Key :=
  { inner := Raw.of e.inner, t := e.t, key := e.key }

/-- The next thing to do. -/
inductive EPc (V D : Type) where
  /-- the tests of `get_batch` (episodic.py lines 149-162) -/
  | test
  /-- `self._t += 1` (line 164) -/
  | count
  /-- the loop of the wrapped `get_batch` (base.py lines 214-219), with the samples so far and the place in `_get_next` -/
  | draw (xs : List (Sample V)) (pc : Pc V D)
  /-- the rest of the wrapped `get_batch` (base.py lines 220-289), with the samples -/
  | made (xs : List (Sample V))
  /-- the `reset` of a looping scheduler without samples (base.py lines 220-222) -/
  | again (pc : Pc V D)
  /-- the call of `get_batch` is over -/
  | got (r : Except Exc (Batch V))
  /-- `next_episode`: the key is split (episodic.py line 260) -/
  | newKey
  /-- `self.scheduler.file_list = interleaved` (line 289) -/
  | newList (order : List String)
  /-- `self.scheduler.reset()` (line 290) -/
  | newReset (pc : Pc V D)
  /-- `self._t = 0` (line 217) -/
  | zero
  /-- the call of `next_episode` is over; `false` if `jax.random.choice` refused an empty array -/
  | restarted (ok : Bool)

/-- How a call of `_get_next` has ended, if it has. -/
def over : Pc V D → Option (Next V)
  | .done r => some r
  | _ => none

/-- Whether a call of the wrapped `reset` has ended. -/
def wasReset : Pc V D → Bool
  | .wasReset => true
  | _ => false

/-- The loop goes on or ends (base.py line 214). -/
def proceed (n : Nat) (xs : List (Sample V)) : EPc V D := if xs.length < n then .draw xs .head else .made xs

/-- One assignment of a call with `batch_size = n`. The key is stored before `jax.random.choice` is called (episodic.py lines 260-263). -/
def estep (z : V) (w : World V D K) (c : Base.Cfg) (rng : Episodic.Rng Key) (cfg : Episodic.Cfg) (n : Nat) : EPc V D × ERaw D K Key → EPc V D × ERaw D K Key
  | (.test, s) =>
    if n ≠ cfg.batchSize then (.got (.error .valueError), s)
    else if cfg.episodeLength ≤ s.t then (.got (.error .episodeEnd), s)
    else (.count, s)
  | (.count, s) => (proceed n [], { s with t := s.t + 1 })
  | (.draw xs pc, s) =>
    match over pc with
    | none => (.draw xs (step w c (pc, s.inner)).1, { s with inner := (step w c (pc, s.inner)).2 })
    | some (.ret x) => (proceed n (xs ++ [x]), s)
    | some .stop => (.made xs, s)
    | some (.raise e) => (if e = .stopIteration then .made xs else .got (.error e), s)
  | (.made xs, s) =>
    if xs.isEmpty then
      if c.loop then (.again (.resetIndex false), s) else (.got (.error .stopIteration), s)
    else (.got (assemble z c xs n), s)
  | (.again pc, s) =>
    if wasReset pc then (.got (assemble z c [] n), s)
    else (.again (step w c (pc, s.inner)).1, { s with inner := (step w c (pc, s.inner)).2 })
  | (.got r, s) => (.got r, s)
  | (.newKey, s) =>
    (if cfg.starts.isEmpty then .restarted false
      else .newList (Episodic.interleave cfg.episodeLength cfg.batchSize
        (((rng.choice (rng.split s.key).2 cfg.starts.length cfg.batchSize).map (fun i => cfg.starts.getD i ("", 0))).map (Episodic.window cfg))),
      { s with key := (rng.split s.key).1 })
  | (.newList order, s) => (.newReset (.resetIndex false), { s with inner := { s.inner with fileList := order } })
  | (.newReset pc, s) =>
    if wasReset pc then (.zero, s)
    else (.newReset (step w c (pc, s.inner)).1, { s with inner := (step w c (pc, s.inner)).2 })
  | (.zero, s) => (.restarted true, { s with t := 0 })
  | (.restarted b, s) => (.restarted b, s)

/-- `m` assignments. -/
def esteps (z : V) (w : World V D K) (c : Base.Cfg) (rng : Episodic.Rng Key) (cfg : Episodic.Cfg) (n : Nat) : Nat → EPc V D × ERaw D K Key → EPc V D × ERaw D K Key
  | 0, x => x
  | m + 1, x => esteps z w c rng cfg n m (estep z w c rng cfg n x)

end Verif.InterruptEpisodic
