import Verif.Model.Stack
import Verif.Spec.Prefetch
/-!
# Specification vocabulary for stacked schedulers

A sampler sees a prefetching scheduler only through calls. `GetCall`, `NextCall` and `ResetCall` say which outcomes a
call can have, over all interleavings of the two threads in which no timeout strikes while the worker is alive.
-/

namespace Verif.Stack
open Verif Prefetch

variable {S B Key : Type}

/-- Steps of the worker thread, among which its `put` of the end-of-stream signal does not time out. -/
def Background (as : List Action) : Prop := ∀ a ∈ as, a.isWorker = true ∧ a ≠ .eosTimeout

/-- What `get_batch` shows to its caller. -/
def answer : Prefetch.Out B → Option (Except Exc B)
  | .ret _ b => some (.ok b)
  | .stop _ => some (.error .stopIteration)
  | .episodeEnd => some (.error .episodeEnd)
  | .valueError => some (.error .valueError)
  | _ => none

/-- `get_batch(n)` called in state `s` can give `r` and leave state `s'`: the worker does something, the call is made;
it raises at once, or the worker does something more and the wait on the queue ends, with an item or, if the worker has
ended, with a timeout. -/
def GetCall (p : Src S B) (cfg : Prefetch.Cfg) (n : Nat) (s : Prefetch.St S B) (r : Except Exc B) (s' : Prefetch.St S B) : Prop :=
  ∃ w1 w2 s1 o1, Background w1 ∧ Background w2 ∧ Prefetch.run p cfg w1 s = some (s1, o1) ∧
    ((∃ o, act p cfg (.get n) s1 = some (s', o) ∧ answer o = some r) ∨
     (∃ s2 s3 o2 o last, act p cfg (.get n) s1 = some (s2, .tau) ∧ Prefetch.run p cfg w2 s2 = some (s3, o2) ∧
        (last = .take ∨ last = .timeout ∧ s3.w.ended = true) ∧ act p cfg last s3 = some (s', o) ∧ answer o = some r))

/-- `next_episode()` called in state `s` can leave state `s'`: the worker does something, the call is made, and then
items are discarded while the worker goes on; the deadline does not pass. -/
def NextCall (p : Src S B) (cfg : Prefetch.Cfg) (s s' : Prefetch.St S B) : Prop :=
  ∃ w1 as outs, Background w1 ∧ (∀ a ∈ as, a.isWorker = true ∧ a ≠ .eosTimeout ∨ a = .discard) ∧
    Prefetch.run p cfg (w1 ++ .nextEpisode :: as) s = some (s', outs) ∧ s'.c = .idle

/-- `reset()` called in state `s` can leave state `s'`. -/
def ResetCall (p : Src S B) (cfg : Prefetch.Cfg) (s s' : Prefetch.St S B) : Prop :=
  ∃ w1 w2 w3 outs, Background w1 ∧ Background w2 ∧ Background w3 ∧
    Prefetch.run p cfg (w1 ++ .reset :: (w2 ++ .resetDrain :: (w3 ++ [.join]))) s = some (s', outs)

/-- A prefetching scheduler as one call of a sampler meets it: every outcome is a possible one. (Which one happens is
up to the thread scheduler; different calls may meet different such `ISched`s.) `reset` and `next_episode` never raise;
`.error` stands for a call that has not returned (see `returns`). Whether it counts as an `EpisodicSchedulerProtocol`
depends on what it wraps and on the version of Python. -/
structure Meets (modern : Bool) (p : Src S B) (cfg : Prefetch.Cfg) (A : Sampler.ISched (Prefetch.St S B) B) : Prop where
  getBatch : ∀ n s r s', A.getBatch n s = some (r, s') → GetCall p cfg n s r s'
  reset : ∀ s s', A.reset s = .ok s' → ResetCall p cfg s s'
  episodic : seenEpisodic modern p = true →
    ∃ ne, A.episodic = some (stepsRemaining p, ne) ∧ ∀ s s', ne s = .ok s' → NextCall p cfg s s'
  plain : seenEpisodic modern p = false → A.episodic = none

/-- The scheduler's part of the call `op` returns. -/
def returns (A : Sampler.ISched S B) (s : S) : Sampler.Op → Bool
  | .reset true => match A.reset s with | .ok _ => true | .error _ => false
  | .nextEpisode => match A.episodic with | some e => (match e.2 s with | .ok _ => true | .error _ => false) | none => true
  | _ => true

/-- A history of calls on a synthetic sampler, each meeting its own outcome of the scheduler; `none` if one of them does
not return. -/
def runVia {F O I : Type} (g : Sampler.Gen F O I) (cfg : Sampler.Cfg) :
    List (Sampler.ISched S (Sampler.FlowBatch F) × Sampler.Op) → Sampler.St S F O →
    Option (List (Sampler.Out (Sampler.OutBatch O I)) × Sampler.St S F O)
  | [], s => some ([], s)
  | q :: qs, s =>
    if returns q.1 s.sched q.2 then
      match Sampler.step q.1 g cfg s q.2 with
      | none => none
      | some (o, s') =>
        match runVia g cfg qs s' with
        | none => none
        | some (os, s'') => some (o :: os, s'')
    else none

/-- A history of calls on a real-image sampler, each meeting its own outcome of the scheduler; `none` if one of them does
not return. -/
def realVia {V : Type} (batchSize : Nat) : List (Sampler.ISched S (Base.Batch V) × Sampler.Op) → S →
    Option (List (Sampler.Out (Sampler.RealBatch V)) × S)
  | [], s => some ([], s)
  | q :: qs, s =>
    if returns q.1 s q.2 then
      match Sampler.realStep q.1 batchSize s q.2 with
      | none => none
      | some (o, s') =>
        match realVia batchSize qs s' with
        | none => none
        | some (os, s'') => some (o :: os, s'')
    else none

/-- The same outcome, except that the `done` flags `d` of a batch are `φ d`. -/
def withDoneReal {V : Type} (φ : Option (List Bool) → Option (List Bool)) :
    Sampler.Out (Sampler.RealBatch V) → Sampler.Out (Sampler.RealBatch V)
  | .batch b => .batch { b with done := φ b.done }
  | .raised e => .raised e
  | .done => .done

/-- The same outcome, except that the `done` flags `d` of a batch are `φ d`. -/
def withDone {O I : Type} (φ : Option (List Bool) → Option (List Bool)) :
    Sampler.Out (Sampler.OutBatch O I) → Sampler.Out (Sampler.OutBatch O I)
  | .batch b => .batch { b with done := φ b.done }
  | .raised e => .raised e
  | .done => .done

/-- The `done` flags over a prefetching scheduler, from those without it: since Python 3.12 they are present and never raised, before
they are the same. -/
def flags (modern : Bool) (n : Nat) (d : Option (List Bool)) : Option (List Bool) :=
  if modern then some (List.replicate n false) else d

/-- The states a plain scheduler reaches from `s0` through `get_batch(n)` and `reset()`. -/
inductive PlainReached (sch : Sched S B) (n : Nat) (s0 : S) : S → Prop
  | start : PlainReached sch n s0 s0
  | getBatch {s r s'} (h : PlainReached sch n s0 s) (hb : sch.getBatch n s = some (r, s')) : PlainReached sch n s0 s'
  | reset {s} (h : PlainReached sch n s0 s) : PlainReached sch n s0 (sch.reset s)

/-- The states an episodic scheduler reaches from `e0` through `get_batch`, `next_episode` and `reset`. -/
def Reached (sch : Sched S B) (rng : Episodic.Rng Key) (ecfg : Episodic.Cfg) (e0 e : Episodic.St S Key) : Prop :=
  ∃ ops outs, Episodic.run sch rng ecfg ops e0 = some (outs, e) ∧ Episodic.Op.iter ∉ ops

/-- One particular scheduling of the threads during a call: the worker makes the steps `w1` before the call takes effect
and `w2` (in `reset`: `w2`, then `w3`) while it waits; `next_episode` goes on with `ds`. -/
def scripted (modern : Bool) (p : Src S B) (cfg : Prefetch.Cfg) (w1 w2 w3 ds : List Action) : Sampler.ISched (Prefetch.St S B) B where
  getBatch n s :=
    match Prefetch.run p cfg w1 s with
    | none => none
    | some (s1, _) =>
      match act p cfg (.get n) s1 with
      | some (s2, .tau) =>
        match Prefetch.run p cfg w2 s2 with
        | none => none
        | some (s3, _) =>
          match act p cfg (if s3.w.ended && s3.queue.isEmpty then .timeout else .take) s3 with
          | some (s', o) => (answer o).map (fun r => (r, s'))
          | none => none
      | some (s2, o) => (answer o).map (fun r => (r, s2))
      | none => none
  reset s :=
    match Prefetch.run p cfg (w1 ++ .reset :: (w2 ++ .resetDrain :: (w3 ++ [.join]))) s with
    | some (s', _) => .ok s'
    | none => .error .runtimeError
  episodic := if seenEpisodic modern p then some (stepsRemaining p, fun s =>
    match Prefetch.run p cfg (w1 ++ .nextEpisode :: ds) s with
    | some (s', _) => if s'.c = .idle then .ok s' else .error .runtimeError
    | none => .error .runtimeError) else none

end Verif.Stack
