import Verif.Model.Interp
import Verif.Model.PyVal
/-!
# Applying flow fields to images and particles (`src/synthpix/apply.py`, `src/synthpix/utils.py` lines 172-198)

Exact arithmetic over any ordered field with a floor, as in `Model/Interp.lean`. A flow field of shape `(H, W, 2)` is a
function from row and column to the pair `(u, v)`.
-/

namespace Verif.Apply
open Verif Interp

variable {K : Type*} [Field K] [LinearOrder K] [FloorRing K]

/-- `img.at[yi, xi].add(a)` for indices in range (apply.py line 61). -/
def addAt (img : Nat → Nat → K) (yi xi : Nat) (a : K) : Nat → Nat → K :=
  fun j i => if j = yi ∧ i = xi then img j i + a else img j i

/-- `deposit_pixel` (apply.py lines 42-65): the four neighbours one after the other, each only if it is in the image. -/
def deposit (H W : Nat) (img : Nat → Nat → K) (x y val : K) : Nat → Nat → K :=
  let x0 : Int := ⌊x⌋
  let y0 : Int := ⌊y⌋
  let wx := x - (x0 : K)
  let wy := y - (y0 : K)
  [((0 : Int), (0 : Int), (1 - wx) * (1 - wy)), (1, 0, wx * (1 - wy)), (0, 1, (1 - wx) * wy), (1, 1, wx * wy)].foldl
    (fun img (dx, dy, weight) =>
      let xi := x0 + dx
      let yi := y0 + dy
      if 0 ≤ xi ∧ xi < W ∧ 0 ≤ yi ∧ yi < H then addAt img yi.toNat xi.toNat (val * weight) else img) img

/-- `apply_flow_to_image_forward(image, flow_field, dt)` (apply.py lines 11-74): the loop over the pixels in row-major
order. -/
def forward (H W : Nat) (image : Nat → Nat → K) (flow : Nat → Nat → K × K) (dt : K) : Nat → Nat → K :=
  (List.range (H * W)).foldl (fun img i =>
    let y := i / W
    let x := i % W
    deposit H W img ((x : K) + (flow y x).1 * dt) ((y : K) + (flow y x).2 * dt) (image y x)) (fun _ _ => 0)

/-- `apply_flow_to_image_backward(image, flow_field, dt)` (apply.py lines 77-112). -/
def backward (H W : Nat) (image : Nat → Nat → K) (flow : Nat → Nat → K × K) (dt : K) : Nat → Nat → K :=
  fun y x => bilinear image H W ((x : K) - (flow y x).1 * dt) ((y : K) - (flow y x).2 * dt)

/-- `apply_flow_to_image_callable(image, flow_field, t, dt, forward)` (apply.py lines 115-156): the callable gets `(t, x, y)`
(line 149) with the integer coordinates of the pixel. -/
def warpCallable (H W : Nat) (image : Nat → Nat → K) (flow : K → K → K → K × K) (t dt : K) (fwd : Bool) : Nat → Nat → K :=
  let uv : Nat → Nat → K × K := fun y x => flow t (x : K) (y : K)
  if fwd then forward H W image uv dt else backward H W image uv dt

/-- `generate_array_flow_field(flow_f, grid_shape)` (utils.py lines 172-198): entry `[i, j]` is `flow_f(1, i, j)` with `i` the
row and `j` the column. Simplification: the time is the number 1; the code passes an array of shape `(1,)`. -/
def arrayOf (flow : K → K → K → K × K) : Nat → Nat → K × K := fun i j => flow 1 (i : K) (j : K)

/-- A flow field array: shape `(H, W, C)` or `(D, H, W, C)`. -/
inductive Flow (K : Type*) where
  | plane (H W C : Nat) (f : Nat → Nat → Nat → K)
  | space (D H W C : Nat) (f : Nat → Nat → Nat → Nat → K)

/-- The shape of the array. -/
def Flow.shape : Flow K → List Nat
  | .plane H W C _ => [H, W, C]
  | .space D H W C _ => [D, H, W, C]

/-- An array of particle positions of shape `(N, cols)`: every row has length `cols`. -/
structure Positions (K : Type*) where
  cols : Nat
  rows : List (List K)

/-- `_update_position_2d` (apply.py lines 252-266) on a row `[y, x]`. -/
def step2 (H W : Nat) (f : Nat → Nat → Nat → K) (dt resX resY : K) : List K → List K
  | [y, x] =>
    let u := bilinear (fun j i => f j i 0) H W x y * resX
    let v := bilinear (fun j i => f j i 1) H W x y * resY
    [y + v * dt, x + u * dt]
  | r => r

/-- `_update_position_3d` (apply.py lines 272-285) on a row `[z, y, x]`. -/
def step3 (D H W : Nat) (f : Nat → Nat → Nat → Nat → K) (dt resX resY resZ : K) : List K → List K
  | [z, y, x] =>
    let u := trilinear (fun k j i => f k j i 0) D H W x y z * resX
    let v := trilinear (fun k j i => f k j i 1) D H W x y z * resY
    let w := trilinear (fun k j i => f k j i 2) D H W x y z * resZ
    [z + w * dt, y + v * dt, x + u * dt]
  | r => r

/-- `apply_flow_to_particles` (apply.py lines 218-290). The errors come from unpacking: `H, W = image.shape` (utils.py line 79)
for a flow with four axes, `D, H, W = volume.shape` (utils.py line 124) for one with three, `z, y, x = zyx` (apply.py line
275) for rows of another length. -/
def particles (p : Positions K) (flow : Flow K) (dt resX resY resZ : K) : Except Exc (List (List K)) :=
  if p.cols = 2 then
    match flow with
    | .plane H W _ f => .ok (p.rows.map (step2 H W f dt resX resY))
    | .space .. => .error .valueError
  else
    match flow with
    | .plane .. => .error .valueError
    | .space D H W _ f => if p.cols = 3 then .ok (p.rows.map (step3 D H W f dt resX resY resZ)) else .error .valueError

/-- `isinstance(v, (int, float))` and not `v <= 0` (apply.py lines 210-215). -/
def positive (v : Val) : Bool :=
  match v.asNum with
  | some x => ! x.le (.fin 0)
  | none => false

/-- `input_check_apply_flow` (apply.py lines 159-215), for arrays: only shapes matter. -/
def inputCheck (posShape flowShape : List Nat) (dt resX resY resZ : Val) : Except Exc Unit :=
  if ¬ (posShape.length = 2 ∧ (posShape[1]? = some 2 ∨ posShape[1]? = some 3)) then .error .valueError
  else if ¬ (flowShape.length = 3 ∧ (flowShape[2]? = some 2 ∨ flowShape[2]? = some 3)) then .error .valueError
  else if posShape[1]? = some 2 ∧ flowShape[2]? ≠ some 2 then .error .valueError
  else if posShape[1]? = some 3 ∧ flowShape[2]? ≠ some 3 then .error .valueError
  else if dt.asNum.isNone then .error .valueError
  else if ! positive resX then .error .valueError
  else if ! positive resY then .error .valueError
  else if ! positive resZ then .error .valueError
  else .ok ()

end Verif.Apply
