import Verif.Model.Rounding
import Verif.Model.Adapter
import Verif.Model.Render
/-!
# Interpolation and the motion of particles in single precision (`src/synthpix/utils.py` lines 66-169, `src/synthpix/apply.py` lines 252-290, `src/synthpix/data_generate.py` lines 75-79 and 232-257)

The functions of `Model/Interp.lean`, `Model/Apply.lean` and `Model/Adapter.lean` again, with the result of every operation rounded. Operation number
`i` is rounded by `r i`: `binary32` if the operation stands for itself, and the identity if the compiler fuses it with the next one (as it does with
a product and a sum). Floors, clips, selections of entries and the conversion of indices are exact. Overflow and numbers below the normal range are
not modelled, nor is a compiler that reorders sums.
-/

namespace Verif.Single
open Verif Interp Adapter

/-- `bilinear_interpolate(image, x_f, y_f)` (utils.py lines 66-107). -/
def bilinear (r : Nat → ℚ → ℚ) (image : Nat → Nat → ℚ) (H W : Nat) (x y : ℚ) : ℚ :=
  let x0 := clipIx W ⌊x⌋
  let x1 := clipIx W (x0 + 1)
  let y0 := clipIx H ⌊y⌋
  let y1 := clipIx H (y0 + 1)
  let wx := r 0 (clipCo W x - (x0 : ℚ))
  let wy := r 1 (clipCo H y - (y0 : ℚ))
  let cx := r 2 (1 - wx)
  let cy := r 3 (1 - wy)
  let t00 := r 5 (r 4 (cx * cy) * image y0.toNat x0.toNat)
  let t10 := r 7 (r 6 (wx * cy) * image y0.toNat x1.toNat)
  let t01 := r 9 (r 8 (cx * wy) * image y1.toNat x0.toNat)
  let t11 := r 11 (r 10 (wx * wy) * image y1.toNat x1.toNat)
  r 14 (r 13 (r 12 (t00 + t10) + t01) + t11)

/-- `trilinear_interpolate(volume, x, y, z)` (utils.py lines 110-169). -/
def trilinear (r : Nat → ℚ → ℚ) (volume : Nat → Nat → Nat → ℚ) (D H W : Nat) (x y z : ℚ) : ℚ :=
  let x0 := (clipIx W ⌊x⌋).toNat
  let x1 := (clipIx W ⌈x⌉).toNat
  let y0 := (clipIx H ⌊y⌋).toNat
  let y1 := (clipIx H ⌈y⌉).toNat
  let z0 := (clipIx D ⌊z⌋).toNat
  let z1 := (clipIx D ⌈z⌉).toNat
  let ax := r 0 (x - (⌊x⌋ : ℚ))
  let ay := r 1 (y - (⌊y⌋ : ℚ))
  let az := r 2 (z - (⌊z⌋ : ℚ))
  let cx := r 3 (1 - ax)
  let cy := r 4 (1 - ay)
  let cz := r 5 (1 - az)
  let ta := r 8 (volume z0 y0 x0 * r 7 (r 6 (cx * cy) * cz))
  let tb := r 11 (volume z0 y0 x1 * r 10 (r 9 (ax * cy) * cz))
  let tc := r 14 (volume z0 y1 x0 * r 13 (r 12 (cx * ay) * cz))
  let td := r 17 (volume z0 y1 x1 * r 16 (r 15 (ax * ay) * cz))
  let te := r 20 (volume z1 y0 x0 * r 19 (r 18 (cx * cy) * az))
  let tf := r 23 (volume z1 y0 x1 * r 22 (r 21 (ax * cy) * az))
  let tg := r 26 (volume z1 y1 x0 * r 25 (r 24 (cx * ay) * az))
  let th := r 29 (volume z1 y1 x1 * r 28 (r 27 (ax * ay) * az))
  r 36 (r 35 (r 34 (r 33 (r 32 (r 31 (r 30 (ta + tb) + tc) + td) + te) + tf) + tg) + th)

/-- `_update_position_2d` (apply.py lines 252-266): the new `(y, x)`. The Python floats `dt`, `flow_field_res_x` and `flow_field_res_y` are converted to
the precision of the arrays. -/
def step2 (r : Nat → ℚ → ℚ) (flow : Field2 ℚ) (dt resX resY : ℚ) (y x : ℚ) : ℚ × ℚ :=
  let dt := r 0 dt
  let u := r 2 (bilinear (fun i => r (i + 20)) (fun j i => (flow.at_ j i).1) flow.H flow.W x y * r 1 resX)
  let v := r 4 (bilinear (fun i => r (i + 40)) (fun j i => (flow.at_ j i).2) flow.H flow.W x y * r 3 resY)
  (r 6 (y + r 5 (v * dt)), r 8 (x + r 7 (u * dt)))

/-- The division by a scale factor (data_generate.py lines 254-259). Under `jax.jit` the factor is a constant and the compiler may multiply with its
reciprocal instead, which is `recip`; `r` and `r'` round the reciprocal and the result. -/
def back (recip : Bool) (r r' : ℚ → ℚ) (q alpha : ℚ) : ℚ := if recip then r' (q * r (1 / alpha)) else r' (q / alpha)

/-- Motion of a particle at `(y, x)` (pixels in the region) between the two images (data_generate.py lines 75-79, 232-257). The scale factors are
computed by Python (`fl64`) and converted. -/
def move (fl64 : ℚ → ℚ) (r : Nat → ℚ → ℚ) (recip : Bool) (bounds : Nat × Nat) (flow : Field2 ℚ) (dt resX resY : ℚ) (y x : ℚ) : ℚ × ℚ :=
  let alpha1 := r 9 (fl64 ((flow.H : ℚ) / bounds.1))
  let alpha2 := r 10 (fl64 ((flow.W : ℚ) / bounds.2))
  let q := step2 r flow dt resX resY (r 11 (y * alpha1)) (r 12 (x * alpha2))
  (back recip (r 13) (r 14) q.1 alpha1, back recip (r 15) (r 16) q.2 alpha2)

/-- A particle of the second image, if its properties do not vary (data_generate.py lines 236-259): the one of the first image at its new position. -/
def moved (fl64 : ℚ → ℚ) (r : Nat → ℚ → ℚ) (recip : Bool) (bounds : Nat × Nat) (flow : Field2 ℚ) (dt resX resY : ℚ) (p : Render.Particle ℚ) :
    Render.Particle ℚ :=
  let q := move fl64 r recip bounds flow dt resX resY p.y p.x
  { p with y := q.1, x := q.2 }

/-- `jax.random.uniform(key, shape, minval=lo, maxval=hi)` from a draw `u` in `[0, 1)` (data_generate.py lines 168-196), the bounds being
single-precision numbers: `max(minval, u * (maxval - minval) + minval)`. -/
def between (r : Nat → ℚ → ℚ) (lo hi u : ℚ) : ℚ := max lo (r 2 (r 1 (u * r 0 (hi - lo)) + lo))

end Verif.Single
