import Verif.Model.Geometry
import Verif.Model.Sanity
/-!
# The geometry with infinite numbers and NaN (`src/synthpix/sampler/synthetic.py` lines 184-354)

YAML has `.inf` and `.nan`, and Python computes with them without complaint. The same constructor as in `Model/Geometry.lean`, for
such arguments. Simplification: finite numbers do not overflow.
-/

namespace Verif.NonFinite
open Verif Sanity

/-- The sign of a number that is not NaN, for products with infinities. -/
def sign : Num → Int
  | .fin q => if 0 < q then 1 else if q < 0 then -1 else 0
  | .inf => 1
  | .neginf => -1
  | .nan => 0

/-- An infinity of the given sign, NaN for `0 * inf`. -/
def infinity (s : Int) : Num := if 0 < s then .inf else if s < 0 then .neginf else .nan

/-- `-x`. -/
def neg : Num → Num
  | .fin q => .fin (-q)
  | .inf => .neginf
  | .neginf => .inf
  | .nan => .nan

/-- `x + y`. -/
def add (fl : ℚ → ℚ) : Num → Num → Num
  | .fin a, .fin b => .fin (fl (a + b))
  | .nan, _ => .nan
  | _, .nan => .nan
  | .inf, .neginf => .nan
  | .neginf, .inf => .nan
  | .inf, _ => .inf
  | .neginf, _ => .neginf
  | _, y => y

/-- `x - y`. -/
def sub (fl : ℚ → ℚ) (x y : Num) : Num :=
  match x, y with
  | .fin a, .fin b => .fin (fl (a - b))
  | x, y => add fl x (neg y)

/-- `x * y`. -/
def mul (fl : ℚ → ℚ) : Num → Num → Num
  | .fin a, .fin b => .fin (fl (a * b))
  | .nan, _ => .nan
  | _, .nan => .nan
  | x, y => infinity (sign x * sign y)

/-- `x / y` for a `y` that is not 0; the code divides by numbers that are greater than 0, or NaN. -/
def div (fl : ℚ → ℚ) : Num → Num → Num
  | .fin a, .fin b => .fin (fl (a / b))
  | .nan, _ => .nan
  | _, .nan => .nan
  | .fin _, _ => .fin 0
  | x, .fin b => infinity (sign x * sign (.fin b))
  | _, _ => .nan

/-- `OverflowError`. -/
def overflow : Exc := .other 34

/-- `int(x)`: `OverflowError` for an infinity, `ValueError` for NaN. -/
def toInt : Num → Except Exc Int
  | .fin q => .ok (trunc q)
  | .nan => .error .valueError
  | _ => .error overflow

/-- `int(jnp.ceil(x))` (lines 334-335). -/
def ceilInt (fl32 : ℚ → ℚ) : Num → Except Exc Int
  | .fin q => .ok ⌈fl32 q⌉
  | .nan => .error .valueError
  | _ => .error overflow

/-- The arguments that enter the geometry, as in `Geometry.Args`, and `velocities_per_pixel`. -/
structure Args where
  imageShape : Nat × Nat
  imgOffset : Num × Num
  dt : Num
  flowFieldSize : Num × Num
  flowShape : Nat × Nat
  resolution : Num
  velocitiesPerPixel : Num
  maxSpeedX : Num
  maxSpeedY : Num
  minSpeedX : Num
  minSpeedY : Num
  maxDiameter : Num
  hidden : Bool

/-- What the constructor stores, as in `Geometry.Geo`, and the shape of the reported flow fields (lines 215-218). -/
structure Geo where
  outShape : Int × Int
  boundsOffset : Num × Num
  imgOffset : Int × Int
  bounds : Int × Int
  padding : Int × Int
  res : Num × Num
  deriving DecidableEq

/-- A natural number as a Python number. -/
def nat (n : Nat) : Num := .fin n

/-- Lines 274-277, one axis. -/
def offset0 (fl : ℚ → ℚ) (imgOffset maxSpeed dt : Num) : Num := sub fl imgOffset (mul fl maxSpeed dt)

/-- Lines 280-283, one axis. -/
def bounds0 (fl : ℚ → ℚ) (size : Nat) (resolution maxSpeed minSpeed dt : Num) : Num :=
  sub fl (add fl (div fl (nat size) resolution) (mul fl maxSpeed dt)) (mul fl minSpeed dt)

/-- Lines 330-354, from the offset and the size of the region on. -/
def store (fl fl32 : ℚ → ℚ) (a : Args) (outShape : Int × Int) (offY offX bY bX : Num) : Except Exc Geo := do
  let resY := div fl (nat a.flowShape.1) a.flowFieldSize.1
  let resX := div fl (nat a.flowShape.2) a.flowFieldSize.2
  let padY ← ceilInt fl32 (mul fl (pyMax (.fin 0) (neg offY)) resY)
  let padX ← ceilInt fl32 (mul fl (pyMax (.fin 0) (neg offX)) resX)
  let iY ← toInt (mul fl (sub fl a.imgOffset.1 offY) a.resolution)
  let iX ← toInt (mul fl (sub fl a.imgOffset.2 offX) a.resolution)
  let pY ← toInt (mul fl bY a.resolution)
  let pX ← toInt (mul fl bX a.resolution)
  .ok { outShape, boundsOffset := (pyMax (.fin 0) offY, pyMax (.fin 0) offX), imgOffset := (iY, iX), bounds := (pY, pX)
        padding := (padY, padX), res := (resY, resX) }

/-- Lines 303-354, for clipped speeds, from the size of a particle on. -/
def extend (fl fl32 : ℚ → ℚ) (a : Args) (outShape : Int × Int) (maxX maxY offY offX bY bX : Num) : Except Exc Geo := do
  let radius ← toInt (div fl (mul fl (.fin 3) a.maxDiameter) (.fin 2))
  let size := div fl (.fin (2 * radius + 1 : Int)) a.resolution
  if a.hidden && ((mul fl maxX a.dt).lt size || (mul fl maxY a.dt).lt size) then
    let extraX := pyMax (.fin 0) (sub fl size (mul fl maxX a.dt))
    let extraY := pyMax (.fin 0) (sub fl size (mul fl maxY a.dt))
    store fl fl32 a outShape (sub fl offY extraY) (sub fl offX extraX) (add fl bY extraY) (add fl bX extraX)
  else store fl fl32 a outShape offY offX bY bX

/-- The constructor (lines 184-354), without the checks of types, seed and units. -/
def build (fl fl32 : ℚ → ℚ) (a : Args) : Except Exc Geo :=
  if !((Num.fin 0).lt a.flowFieldSize.1 && (Num.fin 0).lt a.flowFieldSize.2) then .error .valueError else
  if ¬ (0 < a.flowShape.1 ∧ 0 < a.flowShape.2) then .error .valueError else
  if a.resolution.le (.fin 0) then .error .valueError else
  if a.velocitiesPerPixel.le (.fin 0) then .error .valueError else
  do
  let oY ← toInt (mul fl (nat a.imageShape.1) a.velocitiesPerPixel)
  let oX ← toInt (mul fl (nat a.imageShape.2) a.velocitiesPerPixel)
  if a.maxSpeedX.lt a.minSpeedX then .error .valueError else
  if a.maxSpeedY.lt a.minSpeedY then .error .valueError else
  let maxX := pyMax (.fin 0) a.maxSpeedX
  let maxY := pyMax (.fin 0) a.maxSpeedY
  let minX := pyMin (.fin 0) a.minSpeedX
  let minY := pyMin (.fin 0) a.minSpeedY
  let offY := offset0 fl a.imgOffset.1 maxY a.dt
  let offX := offset0 fl a.imgOffset.2 maxX a.dt
  let bY := bounds0 fl a.imageShape.1 a.resolution maxY minY a.dt
  let bX := bounds0 fl a.imageShape.2 a.resolution maxX minX a.dt
  if offY.lt (.fin 0) || offX.lt (.fin 0) then .error .valueError else
  if a.flowFieldSize.1.lt (add fl bY offY) || a.flowFieldSize.2.lt (add fl bX offX) then .error .valueError else
  extend fl fl32 a (oY, oX) maxX maxY offY offX bY bX

end Verif.NonFinite
