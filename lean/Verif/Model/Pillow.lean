import Verif.Model.Formats
import Verif.Model.Rounding
/-!
# Pillow's bilinear resampling (called in `src/synthpix/scheduler/mat.py` lines 171-175 and `scripts/download_piv_1.py` lines 204-209)

`Image.fromarray(a).resize((w, h), Image.Resampling.BILINEAR)` for an array of floats (mode `F`), after Pillow's
`libImaging/Resample.c` (`precompute_coeffs`, `ImagingResampleHorizontal_32bpc`, `ImagingResampleVertical_32bpc`). Pillow is
not part of the repository: this is a model of a library, in exact arithmetic (Pillow computes in binary64 and stores
binary32). Everywhere else the resampling is a parameter.
-/

namespace Verif.Pillow
open Verif

/-- `bilinear_filter`: the triangle, of support 1. -/
def triangle (x : ℚ) : ℚ := if |x| < 1 then 1 - |x| else 0

/-- `filterscale`: the number of input pixels per output pixel, at least 1. -/
def filterScale (n m : Nat) : ℚ := max 1 ((n : ℚ) / m)

/-- `center` for output pixel `i`. -/
def center (n m i : Nat) : ℚ := ((i : ℚ) + 1 / 2) * ((n : ℚ) / m)

/-- `xmin`: the first input pixel that is looked at. -/
def first (n m i : Nat) : Nat := (trunc (center n m i - filterScale n m + 1 / 2)).toNat

/-- `xmax`: one past the last input pixel that is looked at. -/
def last (n m i : Nat) : Nat := min n (trunc (center n m i + filterScale n m + 1 / 2)).toNat

/-- The weight of input pixel `x` before normalisation. -/
def weight (n m i x : Nat) : ℚ := triangle (((x : ℚ) - center n m i + 1 / 2) * (1 / filterScale n m))

/-- `ww`: the sum of the weights. -/
def total (n m i : Nat) : ℚ := ((List.range' (first n m i) (last n m i - first n m i)).map (fun x : Nat => weight n m i x)).sum

/-- One pass: `n` input pixels to `m` output pixels; the sum over the window of pixel times normalised weight. -/
def pass (n m : Nat) (f : Nat → ℚ) (i : Nat) : ℚ :=
  ((List.range' (first n m i) (last n m i - first n m i)).map (fun x : Nat =>
    f x * (if total n m i = 0 then weight n m i x else weight n m i x / total n m i))).sum

/-- `resize((w, h), BILINEAR)`: sides that are not positive raise `ValueError`; the horizontal pass first, then the vertical
one. (Pillow leaves out a pass that does not change the size, which would change nothing, see `pass_same`.) An array that is
not two-dimensional is no image of mode `F`. -/
def resize (a : Arr ℚ) (w h : Nat) : Except Exc (Arr ℚ) :=
  match a.shape with
  | [h0, w0] =>
    if w = 0 ∨ h = 0 then .error .valueError
    else
      .ok (Arr.build [h, w] (fun idx =>
        match idx with
        | [y, x] => pass h0 h (fun j => pass w0 w (fun i => a.data.getD (j * w0 + i) 0) x) y
        | _ => 0))
  | _ => .error .typeError

end Verif.Pillow
