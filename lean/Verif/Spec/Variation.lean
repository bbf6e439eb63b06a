import Mathlib.Algebra.Order.Field.Basic
import Mathlib.Algebra.Order.Group.Abs
import Mathlib.Tactic.Linarith
/-!
# How a property of a particle changes from the first to the second image

The README: "Each *_var parameter controls how much the property of each particle can change between the first and second image of a pair. The change is applied as
Gaussian noise with zero mean and variance given by the corresponding *_var value."
-/

namespace Verif.Variation

variable {K : Type*} [Field K] [LinearOrder K]

/-- The change of a property from `v` to `v'`, as the README has it: a draw `n` from the standard normal distribution times the standard deviation, the square of which is `var`. -/
def Documented (v n var v' : K) : Prop := ∃ s, 0 ≤ s ∧ s * s = var ∧ v' = v + n * s

/-- The same, but for the clipping: `v'` is the value between `lo` and `hi` that is closest to `v` plus the draw times the standard deviation. -/
def Clipped (lo hi v n var v' : K) : Prop :=
  ∃ s, 0 ≤ s ∧ s * s = var ∧ lo ≤ v' ∧ v' ≤ hi ∧ ∀ w, lo ≤ w → w ≤ hi → |v' - (v + n * s)| ≤ |w - (v + n * s)|

end Verif.Variation
