import Mathlib.Algebra.BigOperators.Group.Finset.Basic
import Mathlib.Algebra.Order.Field.Basic
/-!
# What warping means

Written without reference to the code.
-/

namespace Verif.Apply.Spec
open Finset

variable {K : Type*} [Field K] [LinearOrder K]

/-- The share of a unit of intensity at distance `t` that a pixel receives, on one axis: linear from 1 at distance 0 to 0 at
distance 1. -/
def hat (t : K) : K := max 0 (1 - |t|)

/-- Every source pixel `(y, x)` is moved to the point with column `tx y x` and row `ty y x`, and its intensity is shared
bilinearly among the pixels around that point. -/
def splat (H W : Nat) (image tx ty : Nat → Nat → K) (j i : Nat) : K :=
  ∑ y ∈ range H, ∑ x ∈ range W, image y x * hat (tx y x - i) * hat (ty y x - j)

/-- The total intensity of an image. -/
def total (H W : Nat) (image : Nat → Nat → K) : K := ∑ y ∈ range H, ∑ x ∈ range W, image y x

/-- The nearest index in `0 .. n - 1`. -/
def nearest (n : Nat) (i : Int) : Nat := if i < 0 then 0 else if (n : Int) ≤ i then n - 1 else i.toNat

end Verif.Apply.Spec
