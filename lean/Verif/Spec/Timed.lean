import Verif.Model.Timed
import Verif.Spec.Prefetch
/-!
# Specification vocabulary: speed of the threads, of the wrapped scheduler and of the user
-/

namespace Verif.Timed
open Verif Verif.Prefetch
variable {S B : Type}

/-- How fast things go: a call of the wrapped scheduler (with the `next_episode` that follows if it reports the end of an episode) takes at
most `load`; everything else that a thread can do is done after at most `step`. -/
structure Speed where
  load : ℚ
  step : ℚ

/-- The latest moment of the worker's next step. There is none while the thread is not alive, or waits to put a batch into a full queue. -/
def workerBy (cfg : Cfg) (T : Times) (v : Speed) (x : TSt S B) : Option ℚ :=
  match x.s.w with
  | .idle | .exited | .died _ => none
  | .loop | .eosForce | .eosStop => some (x.wSince + v.step)
  | .fetch => some (x.wSince + v.load)
  | .put _ => if x.s.queue.length < cfg.bufferSize then some (max x.wSince x.room + v.step) else none
  | .eos => if x.s.queue.length < cfg.bufferSize then some (max x.wSince x.room + v.step) else some (max (x.wSince + T.eos) x.room + v.step)

/-- The latest moment of the next step of the thread that calls the methods. Between calls there is none; and there is none for `reset`
while it waits for the worker to end. -/
def consumerBy (T : Times) (v : Speed) (x : TSt S B) : Option ℚ :=
  match x.s.c with
  | .idle => none
  | .getWait => if x.s.queue.isEmpty then some (x.cSince + getTimeout T x.s + v.step) else some (max x.cSince x.item + v.step)
  | .discard _ => if x.s.queue.isEmpty then some (max x.cSince (x.call + T.join) + v.step) else some (max x.cSince x.item + v.step)
  | .resetDrain | .shutDrain | .shutPut => some (x.cSince + v.step)
  | .resetJoin => if x.s.w.ended then some (max x.cSince x.wSince + v.step) else none
  | .shutJoin => some (x.cSince + T.join + v.step)

/-- Nothing happens at `t` if the worker should have made its step before. -/
def WorkerPrompt (cfg : Cfg) (T : Times) (v : Speed) (x : TSt S B) (t : ℚ) : Prop := ∀ u, workerBy cfg T v x = some u → t ≤ u

/-- Nothing happens at `t` if the consumer should have made its step before. -/
def ConsumerPrompt (T : Times) (v : Speed) (x : TSt S B) (t : ℚ) : Prop := ∀ u, consumerBy T v x = some u → t ≤ u

/-- While the worker is alive, never more than `g` passes before the user has taken the next item. -/
def Asks (g : ℚ) (x : TSt S B) (t : ℚ) : Prop := x.s.w.ended = false → t ≤ x.served + g

/-- What can happen, step by step with its moments, and what it shows, if every moment is as `ok` has it. -/
inductive Runs (p : Src S B) (cfg : Cfg) (T : Times) (ok : TSt S B → ℚ → Prop) : TSt S B → List (ℚ × Action) → List (Out B) → TSt S B → Prop
  | nil (x) : Runs p cfg T ok x [] [] x
  | cons {x x' x'' t a o as os} (hok : ok x t) (h : tact p cfg T t a x = some (x', o)) (rest : Runs p cfg T ok x' as os x'') :
      Runs p cfg T ok x ((t, a) :: as) (o :: os) x''

/-- From this state, the wrapped scheduler reports the end of an episode at most `n` times in a row. -/
def EndsInARow (p : Src S B) : Nat → S → Prop
  | 0, s => p.episodeLength.isSome → (p.getBatch s).1 ≠ .error .episodeEnd
  | n + 1, s => ∀ s1, p.episodeLength.isSome → p.getBatch s = (.error .episodeEnd, s1) → EndsInARow p n (p.nextEpisode s1)

/-- The longest time until the worker, wherever it is, has put something into an empty queue. -/
def delay (v : Speed) (n : Nat) : ℚ := (n + 1) * v.load + (n + 2) * v.step

/-- Used directly, the wrapped scheduler returns the batches `bs` and after them raises `e` (the end of an episode does not count: then the
next one is begun). -/
def EndsAfter (p : Src S B) (src0 : S) (bs : List B) (e : Exc) : Prop :=
  ∃ qs src k, Produces p src0 0 qs src k ∧ qs.map Prod.snd = bs ∧ (p.getBatch src).1 = .error e ∧ (e = .episodeEnd → p.episodeLength = none)

/-- The user only calls `get_batch`. -/
def OnlyGets (a : Action) : Prop := a.isWorker = true ∨ a = .take ∨ a = .timeout ∨ ∃ n, a = .get n

end Verif.Timed
