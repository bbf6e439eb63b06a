import Verif.Model.Scatter
/-!
# What is assumed of a machine that renders particles (C166)
-/

namespace Verif.Render

variable {K : Type*} [Field K] [LinearOrder K]

/-- The updates that a machine computes: at the right pixels, with relative errors of at most `δ`. -/
def Accurate (δ : K) (us us' : List (Int × Int × K)) : Prop :=
  List.Forall₂ (fun u u' => u'.1 = u.1 ∧ u'.2.1 = u.2.1 ∧ |u'.2.2 - u.2.2| ≤ δ * u.2.2) us us'

/-- Every operation is rounded with a relative error of at most `u`. -/
def RoundsTo (u : K) (r : Nat → K → K) : Prop := ∀ k x, |r k x - x| ≤ u * |x|

end Verif.Render
