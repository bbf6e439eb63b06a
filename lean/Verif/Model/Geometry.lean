import Verif.Model.Exc
import Verif.Model.Rounding
/-!
# The geometry computed by `SyntheticImageSampler.__init__` (`src/synthpix/sampler/synthetic.py` lines 184-360)

Lengths are in measure units, positions in pixels. Axis 0 is `y` and axis 1 is `x`. All arithmetic is rounded by `fl`
(see `Model/Rounding.lean`), as Python rounds the result of every operation.
-/

namespace Verif.Geometry
open Verif

/-- The arguments that enter the geometry, after the type checks. `hidden` is the condition of lines 308-313 on the
specification: some particle may be hidden or the density varies. -/
structure Args where
  imageShape : Nat × Nat
  imgOffset : ℚ × ℚ
  dt : ℚ
  flowFieldSize : ℚ × ℚ
  flowShape : Nat × Nat
  resolution : ℚ
  maxSpeedX : ℚ
  maxSpeedY : ℚ
  minSpeedX : ℚ
  minSpeedY : ℚ
  maxDiameter : ℚ
  hidden : Bool

/-- What the constructor stores (lines 338-354, 334-336, 270-271): the offset of the particle region in the flow field
(measure units), the offset of the image in the region and the size of the region (pixels), the padding (grid steps) and
the resolution of the flow field (grid steps per measure unit). -/
structure Geo where
  boundsOffset : ℚ × ℚ
  imgOffset : Int × Int
  bounds : Int × Int
  padding : Int × Int
  res : ℚ × ℚ
  deriving DecidableEq, Repr

/-- Offset of the region before any extension, one axis (lines 274-277). -/
def offset0 (fl : ℚ → ℚ) (imgOffset maxSpeed dt : ℚ) : ℚ := fl (imgOffset - fl (maxSpeed * dt))

/-- Size of the region before any extension, one axis (lines 280-283). -/
def bounds0 (fl : ℚ → ℚ) (size : Nat) (resolution maxSpeed minSpeed dt : ℚ) : ℚ :=
  fl (fl (fl (size / resolution) + fl (maxSpeed * dt)) - fl (minSpeed * dt))

/-- `int(3 * max_diameter / 2)` (line 304). -/
def patchRadius (fl : ℚ → ℚ) (maxDiameter : ℚ) : Int := trunc (fl (fl (3 * maxDiameter) / 2))

/-- The size of a particle in measure units (line 305). -/
def particleSize (fl : ℚ → ℚ) (maxDiameter resolution : ℚ) : ℚ :=
  fl ((2 * patchRadius fl maxDiameter + 1 : Int) / resolution)

/-- The condition for extending the region (lines 308-313). -/
def extended (fl : ℚ → ℚ) (a : Args) (maxX maxY : ℚ) : Bool :=
  a.hidden && (decide (fl (maxX * a.dt) < particleSize fl a.maxDiameter a.resolution) ||
    decide (fl (maxY * a.dt) < particleSize fl a.maxDiameter a.resolution))

/-- The extension, one axis (lines 315-316), 0 if there is none. -/
def extra (fl : ℚ → ℚ) (a : Args) (maxX maxY maxSpeed : ℚ) : ℚ :=
  if extended fl a maxX maxY then max 0 (fl (particleSize fl a.maxDiameter a.resolution - fl (maxSpeed * a.dt))) else 0

/-- `position_bounds_offset[i] - extra_length` (lines 319-322); without extension nothing is computed. -/
def offset1 (fl : ℚ → ℚ) (a : Args) (maxX maxY maxSpeed imgOffset : ℚ) : ℚ :=
  if extended fl a maxX maxY then fl (offset0 fl imgOffset maxSpeed a.dt - extra fl a maxX maxY maxSpeed)
  else offset0 fl imgOffset maxSpeed a.dt

/-- `position_bounds[i] + extra_length` (lines 325-328). -/
def bounds1 (fl : ℚ → ℚ) (a : Args) (maxX maxY maxSpeed minSpeed : ℚ) (size : Nat) : ℚ :=
  if extended fl a maxX maxY then
    fl (bounds0 fl size a.resolution maxSpeed minSpeed a.dt + extra fl a maxX maxY maxSpeed)
  else bounds0 fl size a.resolution maxSpeed minSpeed a.dt

/-- The stored values (lines 330-354), for clipped speeds. `jnp.ceil` works in binary32, which is the rounding `fl32`. -/
def store (fl fl32 : ℚ → ℚ) (a : Args) (maxX maxY minX minY : ℚ) : Geo :=
  let offY := offset1 fl a maxX maxY maxY a.imgOffset.1
  let offX := offset1 fl a maxX maxY maxX a.imgOffset.2
  let resY := fl (a.flowShape.1 / a.flowFieldSize.1)
  let resX := fl (a.flowShape.2 / a.flowFieldSize.2)
  { boundsOffset := (max 0 offY, max 0 offX)
    imgOffset := (trunc (fl (fl (a.imgOffset.1 - offY) * a.resolution)), trunc (fl (fl (a.imgOffset.2 - offX) * a.resolution)))
    bounds := (trunc (fl (bounds1 fl a maxX maxY maxY minY a.imageShape.1 * a.resolution)),
               trunc (fl (bounds1 fl a maxX maxY maxX minX a.imageShape.2 * a.resolution)))
    padding := (⌈fl32 (fl (max 0 (-offY) * resY))⌉, ⌈fl32 (fl (max 0 (-offX) * resX))⌉)
    res := (resY, resX) }

/-- The constructor from the check of `flow_field_size` on (lines 184-360), without the checks of types, seed and units and
of `velocities_per_pixel`. -/
def build (fl fl32 : ℚ → ℚ) (a : Args) : Except Exc Geo :=
  if ¬ (0 < a.flowFieldSize.1 ∧ 0 < a.flowFieldSize.2) then .error .valueError
  else if ¬ (0 < a.flowShape.1 ∧ 0 < a.flowShape.2) then .error .valueError
  else if a.resolution ≤ 0 then .error .valueError
  else if a.maxSpeedX < a.minSpeedX then .error .valueError
  else if a.maxSpeedY < a.minSpeedY then .error .valueError
  else
    -- lines 258-261
    let maxX := max 0 a.maxSpeedX
    let maxY := max 0 a.maxSpeedY
    let minX := min 0 a.minSpeedX
    let minY := min 0 a.minSpeedY
    let offY := offset0 fl a.imgOffset.1 maxY a.dt
    let offX := offset0 fl a.imgOffset.2 maxX a.dt
    let bY := bounds0 fl a.imageShape.1 a.resolution maxY minY a.dt
    let bX := bounds0 fl a.imageShape.2 a.resolution maxX minX a.dt
    if offY < 0 ∨ offX < 0 then .error .valueError
    else if a.flowFieldSize.1 < fl (bY + offY) ∨ a.flowFieldSize.2 < fl (bX + offX) then .error .valueError
    else .ok (store fl fl32 a maxX maxY minX minY)

end Verif.Geometry
