import Verif.Spec.Units
/-!
# The part of a flow field that can matter for an image
-/

namespace Verif.Unseen
open Verif

/-- By how much the region of the particles may be extended on account of particles that appear or disappear: not at all if no particle is ever
hidden and the density is fixed, and by the size of a particle otherwise. -/
def Extension (a : Synthetic.Args) (e : ℚ) : Prop :=
  0 ≤ e ∧ ((0 < a.spec.pHide1 ∨ 0 < a.spec.pHide2 ∨ a.spec.densityRange.1 ≠ a.spec.densityRange.2) →
    ∃ d, (∀ r ∈ a.spec.diameterRanges, r.2 ≤ d) ∧ (3 * d + 1) / a.resolution ≤ e)

/-- A grid point `j` of one axis at which the flow may matter: it lies less than two grid steps before the point from which the fastest particle reaches the
start of the window, or the extension before that, and less than one grid step after the point from which the fastest particle of the other direction
reaches its end. `grid` is the number of grid steps per length. -/
def Near (offset length maxSpeed minSpeed dt e grid : ℚ) (j : Nat) : Prop :=
  (offset - max 0 maxSpeed * dt - e) * grid - 2 < j ∧ j < (offset + length - min 0 minSpeed * dt) * grid + 1

/-- A grid point of the flow field at which the flow may matter. -/
def Matters (a : Synthetic.Args) (e : ℚ) (j i : Nat) : Prop :=
  Near a.imgOffset.1 (a.spec.imageShape.1 / a.resolution) a.maxSpeedY a.minSpeedY a.spec.dt e (a.flowShape.1 / a.flowFieldSize.1) j ∧
  Near a.imgOffset.2 (a.spec.imageShape.2 / a.resolution) a.maxSpeedX a.minSpeedX a.spec.dt e (a.flowShape.2 / a.flowFieldSize.2) i

/-- The velocities of a flow field, row by row. -/
def rows (f : Adapter.Field2 ℚ) : List (List (ℚ × ℚ)) := (List.range f.H).map (fun j => (List.range f.W).map (fun i => f.at_ j i))

end Verif.Unseen
