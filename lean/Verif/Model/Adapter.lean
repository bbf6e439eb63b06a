import Verif.Model.Exc
import Verif.Model.Apply
import Verif.Model.Geometry
/-!
# Adapting flow fields, and the motion of particles (`src/synthpix/utils.py` lines 201-331, `src/synthpix/data_generate.py` lines 75-79 and 232-257)

Exact arithmetic over any ordered field with a floor. Only the number of grid points of the cropped flow field, which Python
computes in floats before truncating it, takes a rounding `fl`; `id` is exact arithmetic.
-/

namespace Verif.Adapter
open Verif Interp Apply

variable {K : Type*} [Field K] [LinearOrder K] [FloorRing K]

/-- A flow field of shape `(H, W, 2)`. -/
structure Field2 (K : Type*) where
  H : Nat
  W : Nat
  at_ : Nat → Nat → K × K

/-- The static arguments of `flow_field_adapter` (utils.py lines 203-214). `pixels` says whether `output_units` is
`"pixels"`. -/
structure Args (K : Type*) where
  newShape : Nat × Nat
  imageShape : Nat × Nat
  imgOffset : Nat × Nat
  resolution : K
  resX : K
  resY : K
  bounds : Nat × Nat
  boundsOffset : K × K
  batchSize : Nat
  pixels : Bool
  dt : K
  padding : Nat × Nat

/-- `jnp.pad(flow, ((pad_y, 0), (pad_x, 0), (0, 0)), mode="edge")` (lines 246-252): subtraction of natural numbers stops
at 0, which repeats the first row and column. -/
def padEdge (p : Nat × Nat) (f : Field2 K) : Field2 K :=
  { H := f.H + p.1, W := f.W + p.2, at_ := fun j i => f.at_ (j - p.1) (i - p.2) }

/-- Entry `i` of `jnp.linspace(start, stop, n)` (lines 265-270, 296-305). -/
def linspace (start stop : K) (n i : Nat) : K := if n ≤ 1 then start else start + i * ((stop - start) / (n - 1 : K))

/-- Sampling a flow field at the points of a grid (lines 272-284, 306-317). -/
def sample (f : Field2 K) (h w : Nat) (ys xs : Nat → K) : Field2 K :=
  { H := h, W := w
    at_ := fun j i => (bilinear (fun j i => (f.at_ j i).1) f.H f.W (xs i) (ys j),
                       bilinear (fun j i => (f.at_ j i).2) f.H f.W (xs i) (ys j)) }

/-- `flow_resized_start` on one axis (lines 256-259). -/
def imageStart (boundsOffset res : K) (imgOffset : Nat) (resolution : K) : K :=
  boundsOffset * res + (imgOffset : K) / resolution * res

/-- The resized flow before the change of units (lines 254-284). -/
def resized (a : Args K) (f : Field2 K) : Field2 K :=
  let sy := imageStart a.boundsOffset.1 a.resY a.imgOffset.1 a.resolution
  let sx := imageStart a.boundsOffset.2 a.resX a.imgOffset.2 a.resolution
  let ey := sy + (a.imageShape.1 : K) / a.resolution * a.resY - 1
  let ex := sx + (a.imageShape.2 : K) / a.resolution * a.resX - 1
  sample f a.newShape.1 a.newShape.2 (linspace sy ey a.newShape.1) (linspace sx ex a.newShape.2)

/-- `max(1, int(position_bounds / resolution * res))` (lines 299, 304). -/
def count (fl : K → K) (bounds : Nat) (resolution res : K) : Nat :=
  max 1 ⌊fl (fl ((bounds : K) / resolution) * res)⌋.toNat

/-- The flow on the particle region (lines 286-317). -/
def region (fl : K → K) (a : Args K) (f : Field2 K) : Field2 K :=
  let sy := a.boundsOffset.1 * a.resY
  let sx := a.boundsOffset.2 * a.resX
  let ey := sy + (a.bounds.1 : K) / a.resolution * a.resY - 1
  let ex := sx + (a.bounds.2 : K) / a.resolution * a.resX - 1
  let ky := count fl a.bounds.1 a.resolution a.resY
  let kx := count fl a.bounds.2 a.resolution a.resX
  sample f ky kx (linspace sy ey ky) (linspace sx ex kx)

/-- The change of units (lines 319-321). -/
def units (a : Args K) (f : Field2 K) : Field2 K :=
  if a.pixels then
    { f with at_ := fun j i => ((f.at_ j i).1 * (a.resolution * a.dt), (f.at_ j i).2 * (a.resolution * a.dt)) }
  else f

/-- `process_single` (lines 245-323). -/
def processSingle (fl : K → K) (a : Args K) (f : Field2 K) : Field2 K × Field2 K :=
  let g := padEdge a.padding f
  (units a (resized a g), region fl a g)

/-- `flow_field_adapter` (lines 201-331). An empty batch of flow fields cannot be mapped over. -/
def adapter (fl : K → K) (a : Args K) (flows : List (Field2 K)) : Except Exc (List (Field2 K) × List (Field2 K)) :=
  if flows.length = 0 then .error .valueError
  else
    let processed := flows.map (processSingle fl a)
    let adapted := processed.map Prod.fst
    let repeats := (a.batchSize + flows.length - 1) / flows.length
    let tiled := (List.replicate repeats adapted).flatten
    .ok (tiled.take a.batchSize, processed.map Prod.snd)

/-- Motion of a particle at `(y, x)` (pixels in the region) between the two images (data_generate.py lines 75-79, 232-257):
to grid steps of the region's flow field, along the flow, and back. -/
def move (bounds : Nat × Nat) (flow : Field2 K) (dt resX resY : K) (y x : K) : K × K :=
  let alpha1 := (flow.H : K) / bounds.1
  let alpha2 := (flow.W : K) / bounds.2
  match step2 flow.H flow.W (fun j i c => if c = 0 then (flow.at_ j i).1 else (flow.at_ j i).2) dt resX resY
      [y * alpha1, x * alpha2] with
  | [y', x'] => (y' / alpha1, x' / alpha2)
  | _ => (y, x)

/-- The arguments with which the sampler calls the adapter (synthetic.py lines 400-414), for a constructed geometry. -/
def ofGeo (a : Geometry.Args) (g : Geometry.Geo) (newShape : Nat × Nat) (batchSize : Nat) (pixels : Bool) : Args ℚ :=
  { newShape := newShape, imageShape := a.imageShape, imgOffset := (g.imgOffset.1.toNat, g.imgOffset.2.toNat)
    resolution := a.resolution, resX := g.res.2, resY := g.res.1, bounds := (g.bounds.1.toNat, g.bounds.2.toNat)
    boundsOffset := g.boundsOffset, batchSize := batchSize, pixels := pixels, dt := a.dt
    padding := (g.padding.1.toNat, g.padding.2.toNat) }

end Verif.Adapter
