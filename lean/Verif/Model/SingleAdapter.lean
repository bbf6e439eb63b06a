import Verif.Model.Single
/-!
# Adapting flow fields in the arithmetic of the machine (`src/synthpix/utils.py` lines 201-331)

The function of `Model/Adapter.lean` again. What Python computes from the static arguments is rounded by `fl64` (`binary64`), what the device computes
by `r`, as in `Model/Single.lean`.
-/

namespace Verif.Single
open Verif Interp Adapter

/-- Entry `i` of `jnp.linspace(start, stop, n)` (utils.py lines 265-270, 296-305). The end points are converted to the precision of the device; the last
entry is the converted end point, the others are weighted sums (the implementation in `jax.numpy`, an assumption on the library). -/
def linspace (r : Nat → ℚ → ℚ) (start stop : ℚ) (n i : Nat) : ℚ :=
  let a := r 0 start
  let b := r 1 stop
  if n ≤ 1 then a
  else if i + 1 = n then b
  else
    let s := r 2 ((i : ℚ) / ((n : ℚ) - 1))
    r 6 (r 4 (a * r 3 (1 - s)) + r 5 (b * s))

/-- Sampling a flow field at the points of a grid (utils.py lines 272-284, 306-317). -/
def sample (r : Nat → ℚ → ℚ) (f : Field2 ℚ) (h w : Nat) (ys xs : Nat → ℚ) : Field2 ℚ :=
  { H := h, W := w
    at_ := fun j i => (bilinear r (fun j i => (f.at_ j i).1) f.H f.W (xs i) (ys j),
                       bilinear (fun k => r (k + 20)) (fun j i => (f.at_ j i).2) f.H f.W (xs i) (ys j)) }

/-- `position_bounds_offset * res + img_offset / resolution * res` (utils.py lines 256-259). -/
def imageStart (fl64 : ℚ → ℚ) (boundsOffset res : ℚ) (imgOffset : Nat) (resolution : ℚ) : ℚ :=
  fl64 (fl64 (boundsOffset * res) + fl64 (fl64 ((imgOffset : ℚ) / resolution) * res))

/-- `start + size / resolution * res - 1` (utils.py lines 260-263, 292-295). -/
def gridEnd (fl64 : ℚ → ℚ) (start : ℚ) (size : Nat) (resolution res : ℚ) : ℚ :=
  fl64 (fl64 (start + fl64 (fl64 ((size : ℚ) / resolution) * res)) - 1)

/-- The resized flow before the change of units (utils.py lines 254-284). -/
def resized (fl64 : ℚ → ℚ) (r : Nat → ℚ → ℚ) (a : Args ℚ) (f : Field2 ℚ) : Field2 ℚ :=
  let sy := imageStart fl64 a.boundsOffset.1 a.resY a.imgOffset.1 a.resolution
  let sx := imageStart fl64 a.boundsOffset.2 a.resX a.imgOffset.2 a.resolution
  let ey := gridEnd fl64 sy a.imageShape.1 a.resolution a.resY
  let ex := gridEnd fl64 sx a.imageShape.2 a.resolution a.resX
  sample r f a.newShape.1 a.newShape.2 (linspace (fun k => r (k + 40)) sy ey a.newShape.1) (linspace (fun k => r (k + 50)) sx ex a.newShape.2)

/-- The flow on the particle region (utils.py lines 286-317). -/
def region (fl64 : ℚ → ℚ) (r : Nat → ℚ → ℚ) (a : Args ℚ) (f : Field2 ℚ) : Field2 ℚ :=
  let sy := fl64 (a.boundsOffset.1 * a.resY)
  let sx := fl64 (a.boundsOffset.2 * a.resX)
  let ey := gridEnd fl64 sy a.bounds.1 a.resolution a.resY
  let ex := gridEnd fl64 sx a.bounds.2 a.resolution a.resX
  let ky := count fl64 a.bounds.1 a.resolution a.resY
  let kx := count fl64 a.bounds.2 a.resolution a.resX
  sample r f ky kx (linspace (fun k => r (k + 40)) sy ey ky) (linspace (fun k => r (k + 50)) sx ex kx)

/-- The change of units (utils.py lines 319-321): the factor is computed by Python and converted. -/
def units (fl64 : ℚ → ℚ) (r : Nat → ℚ → ℚ) (a : Args ℚ) (f : Field2 ℚ) : Field2 ℚ :=
  if a.pixels then
    let c := r 0 (fl64 (a.resolution * a.dt))
    { f with at_ := fun j i => (r 1 ((f.at_ j i).1 * c), r 2 ((f.at_ j i).2 * c)) }
  else f

/-- `process_single` (utils.py lines 245-323): the reported flow and the flow on the particle region. -/
def processSingle (fl64 : ℚ → ℚ) (r : Nat → ℚ → ℚ) (a : Args ℚ) (f : Field2 ℚ) : Field2 ℚ × Field2 ℚ :=
  let g := padEdge a.padding f
  (units fl64 (fun k => r (k + 160)) a (resized fl64 (fun k => r (k + 100)) a g), region fl64 (fun k => r (k + 200)) a g)

end Verif.Single
