import Verif.Spec.Base
/-!
# Specification: what another thread has added to the list
-/

namespace Verif.Concurrent
open Verif

/-- The list after `t` reads, if the other thread appends `more i` before the read number `i`. -/
def listAt (fl : List String) (more : Nat → List String) (t : Nat) : List String := fl ++ (List.range t).flatMap more

/-- What a request shows when the samples `l` are handed out: `StopIteration` if there are none, otherwise a batch whose
flagged rows are those samples. -/
def Hands {V : Type} (l : List (Base.Sample V)) (r : Except Exc (Base.Batch V)) : Prop :=
  (l = [] → r = .error .stopIteration) ∧ (l ≠ [] → ∃ b, r = .ok b) ∧ Base.delivered r = l.map Base.Sample.row

end Verif.Concurrent
