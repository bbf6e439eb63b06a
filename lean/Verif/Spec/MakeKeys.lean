import Verif.Model.MakeKeys
/-!
# Independence of random choices

JAX's contract: a key may be consumed once. Two draws from one key are not independent, nor is a draw from a key and
anything drawn from keys split off it. (Splitting a key twice in the same way only gives the same keys again, and matters when those are
consumed twice.)
-/

namespace Verif.MakeKeys.Spec
open Verif Verif.MakeKeys

/-- The keys something was drawn from. -/
def draws (l : List (Use × KeyTerm)) : List KeyTerm := (l.filter (fun x => decide (x.1 ≠ .split))).map (·.2)

/-- The keys that were split. -/
def splits (l : List (Use × KeyTerm)) : List KeyTerm := (l.filter (fun x => decide (x.1 = .split))).map (·.2)

/-- No key is drawn from twice, and none is both drawn from and split. -/
def Independent (l : List (Use × KeyTerm)) : Prop := (draws l).Nodup ∧ ∀ k ∈ draws l, k ∉ splits l

instance (l : List (Use × KeyTerm)) : Decidable (Independent l) := by unfold Independent; infer_instance

end Verif.MakeKeys.Spec
