import Verif.Model.Pillow
/-!
# Pillow's nearest-neighbour resampling (called in `src/synthpix/scheduler/mat.py` lines 149-151)

`Image.fromarray(img).resize(self.output_shape)` without a filter takes the nearest pixel for arrays of 16-bit integers (modes `I;16`), after Pillow's `Image.resize` and
`ImagingScaleAffine` in `libImaging/Geometry.c`. Pillow is not part of the repository: this is a model of a library. Simplification: the positions are exact (Pillow adds them up in binary64).
-/

namespace Verif.Nearest
open Verif

/-- The input pixel for output pixel `i`, of `n` and `m` pixels: the one in which the centre of the output pixel lies. -/
def source (n m i : Nat) : Nat := ⌊Pillow.center n m i⌋.toNat

/-- `resize((w, h))`: sides that are not positive raise `ValueError`. Simplification: an array that is not two-dimensional is not treated. -/
def resize (a : Arr ℚ) (w h : Nat) : Except Exc (Arr ℚ) :=
  match a.shape with
  | [h0, w0] =>
    if w = 0 ∨ h = 0 then .error .valueError
    else
      .ok (Arr.build [h, w] (fun idx =>
        match idx with
        | [y, x] => a.data.getD (source h0 h y * w0 + source w0 w x) 0
        | _ => 0))
  | _ => .error .typeError

end Verif.Nearest
