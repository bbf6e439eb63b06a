import Verif.Model.Adapter
/-!
# Flow fields with missing vectors (`src/synthpix/utils.py` lines 66-107 and 201-331)

The same functions as in `Model/Interp.lean` and `Model/Adapter.lean`, on flow fields some of whose values are NaN, as in PIV
files with masked regions. `none` is NaN. A NaN makes every product and sum in which it occurs NaN, also a product with 0.
The coordinates are numbers. Simplification: infinities are not modelled, and the arithmetic is exact.
-/

namespace Verif.Missing
open Verif Interp Adapter

variable {K : Type*} [Field K] [LinearOrder K] [FloorRing K]

/-- `w * v` for a weight `w` (utils.py lines 103-106, 320-321). -/
def times (w : K) : Option K → Option K
  | some v => some (w * v)
  | none => none

/-- `a + b` (utils.py lines 103-106). -/
def plus : Option K → Option K → Option K
  | some a, some b => some (a + b)
  | _, _ => none

/-- `bilinear_interpolate(image, x, y)` (lines 66-107) for an image of shape `(H, W)`. -/
def bilinear (image : Nat → Nat → Option K) (H W : Nat) (x y : K) : Option K :=
  let x0 := clipIx W ⌊x⌋
  let x1 := clipIx W (x0 + 1)
  let y0 := clipIx H ⌊y⌋
  let y1 := clipIx H (y0 + 1)
  let wx := clipCo W x - (x0 : K)
  let wy := clipCo H y - (y0 : K)
  let I00 := image y0.toNat x0.toNat
  let I10 := image y0.toNat x1.toNat
  let I01 := image y1.toNat x0.toNat
  let I11 := image y1.toNat x1.toNat
  plus (plus (plus (times ((1 - wx) * (1 - wy)) I00) (times (wx * (1 - wy)) I10)) (times ((1 - wx) * wy) I01)) (times (wx * wy) I11)

/-- A flow field of shape `(H, W, 2)`. -/
structure FieldN (K : Type*) where
  H : Nat
  W : Nat
  at_ : Nat → Nat → Option K × Option K

/-- `jnp.pad(flow, …, mode="edge")` (lines 246-252). -/
def padEdge (p : Nat × Nat) (f : FieldN K) : FieldN K :=
  { H := f.H + p.1, W := f.W + p.2, at_ := fun j i => f.at_ (j - p.1) (i - p.2) }

/-- Sampling a flow field at the points of a grid (lines 272-284, 306-317). -/
def sample (f : FieldN K) (h w : Nat) (ys xs : Nat → K) : FieldN K :=
  { H := h, W := w
    at_ := fun j i => (bilinear (fun j i => (f.at_ j i).1) f.H f.W (xs i) (ys j),
                       bilinear (fun j i => (f.at_ j i).2) f.H f.W (xs i) (ys j)) }

/-- The resized flow before the change of units (lines 254-284). -/
def resized (a : Args K) (f : FieldN K) : FieldN K :=
  let sy := imageStart a.boundsOffset.1 a.resY a.imgOffset.1 a.resolution
  let sx := imageStart a.boundsOffset.2 a.resX a.imgOffset.2 a.resolution
  let ey := sy + (a.imageShape.1 : K) / a.resolution * a.resY - 1
  let ex := sx + (a.imageShape.2 : K) / a.resolution * a.resX - 1
  sample f a.newShape.1 a.newShape.2 (linspace sy ey a.newShape.1) (linspace sx ex a.newShape.2)

/-- The flow on the particle region (lines 286-317). -/
def region (fl : K → K) (a : Args K) (f : FieldN K) : FieldN K :=
  let sy := a.boundsOffset.1 * a.resY
  let sx := a.boundsOffset.2 * a.resX
  let ey := sy + (a.bounds.1 : K) / a.resolution * a.resY - 1
  let ex := sx + (a.bounds.2 : K) / a.resolution * a.resX - 1
  let ky := count fl a.bounds.1 a.resolution a.resY
  let kx := count fl a.bounds.2 a.resolution a.resX
  sample f ky kx (linspace sy ey ky) (linspace sx ex kx)

/-- The change of units (lines 319-321). -/
def units (a : Args K) (f : FieldN K) : FieldN K :=
  if a.pixels then
    { f with at_ := fun j i => (times (a.resolution * a.dt) (f.at_ j i).1, times (a.resolution * a.dt) (f.at_ j i).2) }
  else f

/-- `process_single` (lines 245-323). -/
def processSingle (fl : K → K) (a : Args K) (f : FieldN K) : FieldN K × FieldN K :=
  let g := padEdge a.padding f
  (units a (resized a g), region fl a g)

/-- `flow_field_adapter` (lines 201-331). -/
def adapter (fl : K → K) (a : Args K) (flows : List (FieldN K)) : Except Exc (List (FieldN K) × List (FieldN K)) :=
  if flows.length = 0 then .error .valueError
  else
    let processed := flows.map (processSingle fl a)
    let adapted := processed.map Prod.fst
    let repeats := (a.batchSize + flows.length - 1) / flows.length
    let tiled := (List.replicate repeats adapted).flatten
    .ok (tiled.take a.batchSize, processed.map Prod.snd)

end Verif.Missing
