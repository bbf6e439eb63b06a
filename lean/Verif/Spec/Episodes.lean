import Verif.Spec.Episodic
import Verif.Spec.Sampler
/-!
# What a user of a sampler with episodes sees

An abstract player: it knows which episode is being played, how many of its steps have been served and how many batches have been made since the
last `reset`.
-/

namespace Verif.Episodes
open Verif

/-- `Plays L Batch k t n ops outs`: from step `t` of episode `k`, with `n` batches made since the last `reset`, the calls `ops` show `outs`:
* `next` shows a batch for that step of that episode, or raises `EpisodeEnd` after `L` steps;
* `next_episode` begins the next episode;
* `reset` starts counting batches from zero again, and begins the next episode unless the scheduler is left alone. -/
def Plays {A : Type} (L : Nat) (Batch : Nat → Nat → Nat → A → Prop) :
    Nat → Nat → Nat → List Sampler.Op → List (Sampler.Out A) → Prop
  | _, _, _, [], outs => outs = []
  | k, t, n, .next :: ops, outs =>
    if t < L then ∃ x rest, outs = .batch x :: rest ∧ Batch k t n x ∧ Plays L Batch k (t + 1) (n + 1) ops rest
    else ∃ rest, outs = .raised .episodeEnd :: rest ∧ Plays L Batch k t n ops rest
  | k, _, n, .nextEpisode :: ops, outs => ∃ rest, outs = .done :: rest ∧ Plays L Batch (k + 1) 0 n ops rest
  | k, t, _, .reset false :: ops, outs => ∃ rest, outs = .done :: rest ∧ Plays L Batch k t 0 ops rest
  | k, _, _, .reset true :: ops, outs => ∃ rest, outs = .done :: rest ∧ Plays L Batch (k + 1) 0 0 ops rest

/-- How many episodes the calls begin. -/
def begun : List Sampler.Op → Nat
  | [] => 0
  | .nextEpisode :: ops | .reset true :: ops => begun ops + 1
  | .next :: ops | .reset false :: ops => begun ops

/-- Played side by side, no file comes directly after itself. -/
def NoRepeat (L : Nat) (eps : List (List String)) : Prop :=
  ∀ queue, Episodic.SideBySide L eps queue → List.IsChain (· ≠ ·) queue

/-- The done flags of a batch of `b` for step `t`: set at the last step. -/
def doneFlags (L b t : Nat) : Option (List Bool) := some (List.replicate b (decide (t + 1 = L)))

end Verif.Episodes
