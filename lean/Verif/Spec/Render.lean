import Mathlib.Algebra.Order.Floor.Ring
import Mathlib.Algebra.Order.Field.Basic
/-!
# What a rendered particle image should be

The specification does not refer to the model.
-/

namespace Verif.RenderSpec

variable {K : Type*} [Field K] [LinearOrder K] [FloorRing K]

/-- What the theorems assume about the exponential function. -/
structure ExpLike (exp : K → K) : Prop where
  pos : ∀ t, 0 < exp t
  zero : exp 0 = 1
  strictMono : ∀ s t, s < t → exp s < exp t

/-- The light at a point `(y, x)` of a particle at `(cy, cx)` with the given diameters, correlation and peak intensity:
a Gaussian bell whose standard deviations are half the diameters. -/
def light (exp : K → K) (cy cx dy dx rho peak y x : K) : K :=
  let a := (x - cx) / (dx / 2)
  let b := (y - cy) / (dy / 2)
  peak * exp (-(a ^ 2 - 2 * rho * a * b + b ^ 2) / (2 * (1 - rho ^ 2)))

/-- Pixel index `j` is at most `r` pixels from the pixel that contains the coordinate `c`. -/
def near (r : Nat) (c : K) (j : Nat) : Prop := ⌊c⌋ - r ≤ (j : Int) ∧ (j : Int) ≤ ⌊c⌋ + r

instance (r : Nat) (c : K) (j : Nat) : Decidable (near r c j) := inferInstanceAs (Decidable (_ ∧ _))

end Verif.RenderSpec
