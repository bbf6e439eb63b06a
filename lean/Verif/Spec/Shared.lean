import Verif.Spec.Prefetch
import Verif.Model.Shared
/-!
# Specification vocabulary for a prefetching scheduler that several threads share
-/

namespace Verif.Prefetch
open Verif
variable {S B : Type}

/-- The items taken from the queue, in order, by whatever thread. -/
def taken (outs : List (GOut B)) : List (Option B) :=
  outs.filterMap (fun o => match o with | .took _ x => some x | _ => none)

/-- The items taken from the queue by thread `i`. -/
def takenBy (i : Nat) (outs : List (GOut B)) : List (Option B) :=
  outs.filterMap (fun o => match o with | .took j x => if j = i then some x else none | _ => none)

/-- What `get_batch` has answered in thread `i` because of an item: a batch, or `none` for a `StopIteration` at the end
of the stream. -/
def answers (i : Nat) (outs : List (GOut B)) : List (Option B) :=
  outs.filterMap (fun o => match o with
    | .ret j b => if j = i then some (some b) else none
    | .stop j false => if j = i then some none else none
    | _ => none)

/-- The item that a thread has taken and not yet answered. -/
def inHand : GPc B → List (Option B)
  | .read x => [x]
  | .write x _ => [x]
  | _ => []

/-- Steps of thread `i` and of the worker. -/
def OnlyThread (i : Nat) : GAction → Prop
  | .worker _ => True
  | .call j _ => j = i
  | .step j => j = i
  | .timeout j => j = i

/-- `get_batch` has returned, or raised anything but `ValueError`. -/
def GOut.isAnswer : GOut B → Bool
  | .ret _ _ | .stop _ _ | .episodeEnd _ | .runtimeError _ => true
  | _ => false

/-- A thread runs, or is told that the batches are ready: no call begins and no wait runs out. -/
def GAction.moves : GAction → Bool
  | .worker a => a != .eosTimeout
  | .step _ => true
  | _ => false

/-- No call of `get_batch` begins before the others have ended, as if the threads held a lock around it. -/
def OneAtATime (p : Src S B) (cfg : Cfg) : List GAction → GSt S B → Prop
  | [], _ => True
  | a :: as, s => ((∃ i n, a = .call i n) → ∀ j, s.pcs j = .out) ∧ ∀ s' o, gact p cfg a s = some (s', o) → OneAtATime p cfg as s'

end Verif.Prefetch
