import Verif.Model.Pillow
/-!
# Pillow's bicubic resampling (called in `src/synthpix/scheduler/mat.py` lines 149-151)

`Image.fromarray(img).resize(self.output_shape)` without a filter is bicubic for arrays of 8-bit integers (mode `L`) and of floats (mode `F`), after Pillow's `Image.resize` and
`libImaging/Resample.c` (`bicubic_filter`, `precompute_coeffs`, `ImagingResampleHorizontal_8bpc` and so on). Pillow is not part of the repository: this is a model of a library.
Simplification: the weights and sums are exact (Pillow computes them in binary64, and rounds the weights to 22 bits for 8-bit images). What is stored after each of the two passes is a
parameter.
-/

namespace Verif.Bicubic
open Verif

/-- `bicubic_filter` with `a = -0.5`, of support 2. -/
def cubic (x : ℚ) : ℚ :=
  if |x| < 1 then (3 / 2 * |x| - 5 / 2) * |x| ^ 2 + 1
  else if |x| < 2 then (((|x| - 5) * |x| + 8) * |x| - 4) * (-1 / 2)
  else 0

/-- `xmin`: the first input pixel that is looked at (`precompute_coeffs`). -/
def first (n m i : Nat) : Nat := (trunc (Pillow.center n m i - 2 * Pillow.filterScale n m + 1 / 2)).toNat

/-- `xmax`: one past the last input pixel that is looked at. -/
def last (n m i : Nat) : Nat := min n (trunc (Pillow.center n m i + 2 * Pillow.filterScale n m + 1 / 2)).toNat

/-- The weight of input pixel `x` before normalisation. -/
def weight (n m i x : Nat) : ℚ := cubic (((x : ℚ) - Pillow.center n m i + 1 / 2) * (1 / Pillow.filterScale n m))

/-- `ww`: the sum of the weights. -/
def total (n m i : Nat) : ℚ := ((List.range' (first n m i) (last n m i - first n m i)).map (fun x : Nat => weight n m i x)).sum

/-- One pass: `n` input pixels to `m` output pixels; the sum over the window of pixel times normalised weight, as it is stored. -/
def pass (store : ℚ → ℚ) (n m : Nat) (f : Nat → ℚ) (i : Nat) : ℚ :=
  store ((List.range' (first n m i) (last n m i - first n m i)).map (fun x : Nat =>
    f x * (if total n m i = 0 then weight n m i x else weight n m i x / total n m i))).sum

/-- What is stored of a value in an 8-bit image (`clip8`): the nearest whole number, from 0 to 255. -/
def store8 (q : ℚ) : ℚ := min 255 (max 0 (⌊q + 1 / 2⌋ : ℚ))

/-- `resize((w, h))`: sides that are not positive raise `ValueError`; the horizontal pass first, then the vertical one. (Pillow leaves out a pass that does not change the size, which would
change nothing.) Simplification: an array that is not two-dimensional is not treated. -/
def resize (store : ℚ → ℚ) (a : Arr ℚ) (w h : Nat) : Except Exc (Arr ℚ) :=
  match a.shape with
  | [h0, w0] =>
    if w = 0 ∨ h = 0 then .error .valueError
    else
      .ok (Arr.build [h, w] (fun idx =>
        match idx with
        | [y, x] => pass store h0 h (fun j => pass store w0 w (fun i => a.data.getD (j * w0 + i) 0) x) y
        | _ => 0))
  | _ => .error .typeError

end Verif.Bicubic
