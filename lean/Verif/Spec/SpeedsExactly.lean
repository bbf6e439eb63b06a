import Verif.Spec.Sanity
/-!
# Which velocities count for the speed summary
-/

namespace Verif.Spec
open Verif Sanity

/-- `x` is the component `c` of a velocity of a file of which no velocity has a NaN in that component. -/
def Counts (read : Reader) (files : List String) (c : Num × Num → Num) (x : Num) : Prop :=
  ∃ f ∈ files, (∀ v, Velocity read f v → c v ≠ .nan) ∧ ∃ v, Velocity read f v ∧ c v = x

/-- `lo` and `hi` are the least and the greatest of the numbers `X`, or infinity and minus infinity if there are none. -/
def Extremes (X : Num → Prop) (lo hi : Num) : Prop :=
  (∀ x, X x → lo.le x = true ∧ x.le hi = true) ∧ ((X lo ∧ X hi) ∨ ((∀ x, ¬ X x) ∧ lo = .inf ∧ hi = .neginf))

end Verif.Spec
