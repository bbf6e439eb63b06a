import Mathlib.Algebra.Order.Floor.Ring
import Mathlib.Algebra.Field.Defs
import Mathlib.Algebra.Order.Ring.Defs
/-!
# Interpolation (`src/synthpix/utils.py` lines 66-169)

Arrays are functions of their indices together with their sizes; vectorised calls are modelled for one coordinate. The
arithmetic is exact, over any ordered field with a floor (`ℚ` in the examples, `ℝ` for real coordinates): float32 rounding,
NaN, infinities and the saturation of the int32 conversion are not modelled.
-/

namespace Verif.Interp

variable {K : Type*} [Field K] [LinearOrder K] [FloorRing K]

/-- `jnp.clip(i, 0, n - 1)` on indices (used in lines 87-90, 137-142). -/
def clipIx (n : Nat) (i : Int) : Int := min (max i 0) ((n : Int) - 1)

/-- `jnp.clip(x, 0.0, n - 1.0)` on coordinates (lines 83-84). -/
def clipCo (n : Nat) (x : K) : K := min (max x 0) ((n : K) - 1)

/-- `bilinear_interpolate(image, x, y)` (lines 66-107) for an image of shape `(H, W)`. -/
def bilinear (image : Nat → Nat → K) (H W : Nat) (x y : K) : K :=
  let x0 := clipIx W ⌊x⌋
  let x1 := clipIx W (x0 + 1)
  let y0 := clipIx H ⌊y⌋
  let y1 := clipIx H (y0 + 1)
  let wx := clipCo W x - (x0 : K)
  let wy := clipCo H y - (y0 : K)
  let I00 := image y0.toNat x0.toNat
  let I10 := image y0.toNat x1.toNat
  let I01 := image y1.toNat x0.toNat
  let I11 := image y1.toNat x1.toNat
  (1 - wx) * (1 - wy) * I00 + wx * (1 - wy) * I10 + (1 - wx) * wy * I01 + wx * wy * I11

/-- `trilinear_interpolate(volume, x, y, z)` (lines 110-169) for a volume of shape `(D, H, W)`. -/
def trilinear (volume : Nat → Nat → Nat → K) (D H W : Nat) (x y z : K) : K :=
  let x0 := (clipIx W ⌊x⌋).toNat
  let x1 := (clipIx W ⌈x⌉).toNat
  let y0 := (clipIx H ⌊y⌋).toNat
  let y1 := (clipIx H ⌈y⌉).toNat
  let z0 := (clipIx D ⌊z⌋).toNat
  let z1 := (clipIx D ⌈z⌉).toNat
  let ax := x - (⌊x⌋ : K)
  let ay := y - (⌊y⌋ : K)
  let az := z - (⌊z⌋ : K)
  let Ia := volume z0 y0 x0
  let Ib := volume z0 y0 x1
  let Ic := volume z0 y1 x0
  let Id := volume z0 y1 x1
  let Ie := volume z1 y0 x0
  let If := volume z1 y0 x1
  let Ig := volume z1 y1 x0
  let Ih := volume z1 y1 x1
  let wa := (1 - ax) * (1 - ay) * (1 - az)
  let wb := ax * (1 - ay) * (1 - az)
  let wc := (1 - ax) * ay * (1 - az)
  let wd := ax * ay * (1 - az)
  let we := (1 - ax) * (1 - ay) * az
  let wf := ax * (1 - ay) * az
  let wg := (1 - ax) * ay * az
  let wh := ax * ay * az
  Ia * wa + Ib * wb + Ic * wc + Id * wd + Ie * we + If * wf + Ig * wg + Ih * wh

end Verif.Interp
