import Verif.Model.Rounding
import Mathlib.Algebra.Order.Ring.Abs
/-!
# What is assumed of the arithmetic of the device
-/

namespace Verif.Single
open Verif

/-- Every operation is exact up to a relative error of `2 ^ -24`, as it is if the result is rounded to single precision, or not rounded at all because
the operation is fused with the next one. -/
def Rounds (r : Nat → ℚ → ℚ) : Prop := ∀ i x, |r i x - x| ≤ |x| / 2 ^ 24

/-- Every operation is rounded to single precision, or fused with the next one. -/
def Hardware (r : Nat → ℚ → ℚ) : Prop := ∀ i, r i = binary32 ∨ r i = id

/-- Every operation of Python on floats is exact up to a relative error of `2 ^ -53`, as it is if the result is rounded to double precision. -/
def Rounds64 (fl64 : ℚ → ℚ) : Prop := ∀ x, |fl64 x - x| ≤ |x| / 2 ^ 53

end Verif.Single
