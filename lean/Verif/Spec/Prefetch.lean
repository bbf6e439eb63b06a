import Verif.Model.Prefetch
/-!
# Specification vocabulary for the prefetching scheduler
-/

namespace Verif.Prefetch
open Verif
variable {S B : Type}

/-- `Produces p s k bs s' k'`: used directly, the wrapped scheduler, starting in state `s` at time step `k` of an episode,
returns the batches `bs` (each stamped with its time step) and is then in state `s'` at time step `k'`; whenever it
reports the end of an episode it is moved to the next one. -/
inductive Produces (p : Src S B) : S → Nat → List (Nat × B) → S → Nat → Prop
  | nil (s k) : Produces p s k [] s k
  | batch {s k b s1 bs s' k'} (h : p.getBatch s = (.ok b, s1)) (t : Produces p s1 (k + 1) bs s' k') :
      Produces p s k ((k, b) :: bs) s' k'
  | episode {s k s1 bs s' k'} (he : p.episodeLength.isSome) (h : p.getBatch s = (.error .episodeEnd, s1))
      (t : Produces p (p.nextEpisode s1) 0 bs s' k') : Produces p s k bs s' k'

/-- The batches that `get_batch` returned, in order. -/
def returned (outs : List (Out B)) : List B :=
  outs.filterMap (fun o => match o with | .ret _ b => some b | _ => none)

/-- The items that left the queue through the consumer, in order. -/
def leftQueue (outs : List (Out B)) : List (Option B) :=
  outs.filterMap (fun o => match o with | .ret _ b => some (some b) | .stop false => some none | .removed x => some x | _ => none)

/-- The same items, the ones returned by `get_batch` together with the time step at which they were returned. -/
def stamped (outs : List (Out B)) : List (Option Nat × Option B) :=
  outs.filterMap (fun o => match o with
    | .ret t b => some (some t, some b) | .stop false => some (none, none) | .removed x => some (none, x) | _ => none)

/-- The number of batches the wrapped scheduler handed over. -/
def fetchedCount (outs : List (Out B)) : Nat :=
  outs.countP (fun o => match o with | .fetched _ => true | _ => false)

/-- The wrapped scheduler has episodes of exactly `L` steps: at time step `k` it reports the end of the episode iff
`k = L` (compare C23). -/
def EpisodesOf (p : Src S B) (s0 : S) (L : Nat) : Prop :=
  p.episodeLength = some L ∧ ∀ bs s k, Produces p s0 0 bs s k → ((p.getBatch s).1 = .error .episodeEnd ↔ k = L)

end Verif.Prefetch
