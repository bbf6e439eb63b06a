import Verif.Model.Synthetic
/-!
# Specification vocabulary for the synthetic sampler as a whole
-/

namespace Verif.Synthetic
open Verif

/-- An image of `h` rows and `w` columns with intensities between 0 and 255. -/
def ImageOK (h w : Nat) (img : Generate.Img ℚ) : Prop :=
  img.H = h ∧ img.W = w ∧ ∀ y x, y < h → x < w → 0 ≤ img.at_ y x ∧ img.at_ y x ≤ 255

/-- A batch as documented: `n` image pairs of the requested shape, `n` flow fields with `velocities_per_pixel` velocities per
pixel and axis (rounded down), and, for every pair, a density and ranges that are among the requested ones; and `n` done
flags if there are any. -/
structure WellFormed (a : Args) (n : Nat) (x : Sampler.OutBatch (Adapter.Field2 ℚ) Pair) : Prop where
  images : x.images.length = n
  flows : x.flows.length = n
  image : ∀ p ∈ x.images, ImageOK a.spec.imageShape.1 a.spec.imageShape.2 p.first ∧ ImageOK a.spec.imageShape.1 a.spec.imageShape.2 p.second
  flow : ∀ f ∈ x.flows, (f.H : Int) = ⌊(a.spec.imageShape.1 : ℚ) * a.velocitiesPerPixel⌋ ∧
    (f.W : Int) = ⌊(a.spec.imageShape.2 : ℚ) * a.velocitiesPerPixel⌋
  param : ∀ p ∈ x.images, (a.spec.densityRange.1 ≤ p.density ∧ p.density ≤ a.spec.densityRange.2) ∧ p.diameterRange ∈ a.spec.diameterRanges ∧
    p.intensityRange ∈ a.spec.intensityRanges ∧ p.rhoRange ∈ a.spec.rhoRanges
  done : ∀ d, x.done = some d → d.length = n

/-- The same for images that may be one row and one column short. -/
def ImageNearlyOK (h w : Nat) (img : Generate.Img ℚ) : Prop :=
  (img.H ≤ h ∧ h ≤ img.H + 1) ∧ (img.W ≤ w ∧ w ≤ img.W + 1) ∧ ∀ y x, 0 ≤ img.at_ y x ∧ img.at_ y x ≤ 255

/-- The values of the mask, if there is one, are between 0 and 1. (The documentation asks for 0 and 1.) -/
def MaskValues (a : Args) : Prop := ∀ m, a.mask = some m → ∀ j i, 0 ≤ m.2 j i ∧ m.2 j i ≤ 1

end Verif.Synthetic
