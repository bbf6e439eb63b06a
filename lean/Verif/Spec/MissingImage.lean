import Verif.Model.MissingImage
import Verif.Spec.Missing
/-!
# Specification vocabulary for images from flow fields with missing vectors (C169)
-/

namespace Verif.Missing
open Verif Adapter

variable {K : Type*} [Field K] [LinearOrder K] [FloorRing K]

/-- A component is missing next to the pixel `(y, x)` of the particle region: the pixel belongs to a place of the flow field, which covers the region, and
the component is missing at a grid point with a row in `(Y - 1, Y + 1]` and a column in `(X - 1, X + 1]`. -/
def MissingNear (bounds : Nat × Nat) (flow : FieldN K) (second : Bool) (y x : K) : Prop :=
  let Y := min (max (y * (flow.H / bounds.1)) 0) ((flow.H : K) - 1)
  let X := min (max (x * (flow.W / bounds.2)) 0) ((flow.W : K) - 1)
  ∃ r c : Nat, r < flow.H ∧ c < flow.W ∧ comp second (flow.at_ r c) = none ∧ Y - 1 < r ∧ (r : K) ≤ Y + 1 ∧ X - 1 < c ∧ (c : K) ≤ X + 1

/-- The particle at pixel `(y, x)` cannot be moved. -/
def Lost (bounds : Nat × Nat) (flow : FieldN K) (y x : K) : Prop := MissingNear bounds flow false y x ∨ MissingNear bounds flow true y x

/-- The patch of `2 r + 1` pixels a side whose upper left pixel is `(top, left)` holds pixel `(j, i)` of an image of shape `(H, W)`; pixels above and to
the left of the image are counted from the other end. -/
def Covers (r H W : Nat) (top left : Int) (j i : Nat) : Prop :=
  ∃ a b : Nat, a ≤ 2 * r ∧ b ≤ 2 * r ∧ j < H ∧ i < W ∧ ((j : Int) = a + top ∨ (a + top < 0 ∧ (j : Int) = a + top + H)) ∧
    ((i : Int) = b + left ∨ (b + left < 0 ∧ (i : Int) = b + left + W))

end Verif.Missing
