import Mathlib.Algebra.Order.Floor.Ring
import Mathlib.Algebra.Field.Defs
/-!
# What interpolation means

Written without reference to the code.
-/

namespace Verif.Interp.Spec

variable {K : Type*} [Field K] [LinearOrder K]

/-- The point that divides the segment from `a` to `b` in the ratio `t : 1 - t`. -/
def between (a b t : K) : K := a + t * (b - a)

/-- Bilinear interpolation in a cell with corner values `p00` (top left), `p10` (top right), `p01` (bottom left) and
`p11`. -/
def cell (p00 p10 p01 p11 s t : K) : K := between (between p00 p10 s) (between p01 p11 s) t

/-- The nearest coordinate inside `0 .. n - 1`. -/
def clamp (n : Nat) (x : K) : K := if x < 0 then 0 else if (n : K) - 1 < x then (n : K) - 1 else x

end Verif.Interp.Spec
