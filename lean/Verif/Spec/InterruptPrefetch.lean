import Verif.Spec.Prefetch
import Verif.Model.InterruptPrefetch
/-!
# Specification vocabulary for calls of the prefetching scheduler that are interrupted
-/

namespace Verif.Prefetch
open Verif
variable {S B : Type}

/-- The items that have left the queue, in order. -/
def departed (outs : List (IOut B)) : List (Option B) :=
  outs.filterMap (fun o => match o with | .took x => some x | .removed x => some x | _ => none)

/-- How many items `get_batch` has taken from the queue. -/
def tookCount (outs : List (IOut B)) : Nat := outs.countP (fun o => match o with | .took _ => true | _ => false)

/-- What `get_batch` has answered because of an item: a batch, or `none` for a `StopIteration` at the end of the stream. -/
def answered (outs : List (IOut B)) : List (Option B) :=
  outs.filterMap (fun o => match o with
    | .ret b => some (some b)
    | .stop false => some none
    | _ => none)

/-- How many calls have been interrupted. -/
def interruptions (outs : List (IOut B)) : Nat := outs.countP (fun o => match o with | .interrupted => true | _ => false)

/-- The item that the call has taken and not yet answered. -/
def holding : IPc B → List (Option B)
  | .count x => [x]
  | .answer x => [x]
  | _ => []

/-- Steps of the worker and of the call that is under way, which is not interrupted. -/
def Undisturbed1 : IAction → Bool
  | .worker _ => true
  | .step => true
  | _ => false

/-- What the user sees of a step in the model without interruptions, apart from the count of steps. -/
def Out.seen : Out B → Option (IOut B)
  | .tau | .fetched _ => none
  | .ret _ b => some (.ret b)
  | .stop x => some (.stop x)
  | .episodeEnd => some .episodeEnd
  | .valueError => some .valueError
  | .removed x => some (.removed x)

/-- What the user sees of a step. -/
def IOut.seen : IOut B → Option (IOut B)
  | .tau | .took _ => none
  | o => some o

end Verif.Prefetch
