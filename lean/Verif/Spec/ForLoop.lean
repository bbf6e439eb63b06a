import Verif.Model.ForLoop
/-!
# What a `for` statement over a sampler does, in terms of the calls of `next`
-/

namespace Verif.ForLoop
open Verif

/-- The call after `xs` raises `e`: what a `for` statement without `break` sees whose body runs for exactly `xs`. It ends normally if and only if
`e` is `StopIteration`. `outcomes k` are the outcomes of the first `k` calls of `next`. -/
def Loops {B : Type} (outcomes : Nat → Option (List (Except Exc B))) (xs : List B) (e : Exc) : Prop :=
  outcomes (xs.length + 1) = some (xs.map .ok ++ [.error e])

/-- The outcomes of the first `k` calls of `next`, of the outcomes of a list of calls. -/
def nexts {B : Type} (run : List Sampler.Op → Option (List (Sampler.Out B))) (k : Nat) : Option (List (Except Exc B)) :=
  (run (List.replicate k .next)).bind (fun outs => outs.mapM (fun o =>
    match o with
    | .batch b => some (.ok b)
    | .raised e => some (.error e)
    | .done => none))

end Verif.ForLoop
