import Verif.Model.MissingImage
/-!
# Histogram matching of images with NaN (`src/synthpix/utils.py` lines 17-63, `src/synthpix/data_generate.py` lines 304-307)

The same functions as in `Model/Histogram.lean` for images some of whose pixels are NaN (`none`). Assumption about JAX: `searchsorted`, with which `histogram` and
`digitize` find the bins, puts NaN after all numbers, so that NaN is beyond the last edge; an index beyond the end of the array of counts is dropped.
-/

namespace Verif.Missing
open Verif Render Generate Histogram

variable {K : Type*} [Field K] [LinearOrder K] [FloorRing K]

/-- `jnp.clip(jnp.digitize(flat, bins) - 1, 0, 255)` (utils.py lines 48-49): `digitize` gives 257 for NaN. -/
def levelN : Option K → Nat
  | some v => level v
  | none => min (257 - 1) 255

/-- Whether a pixel is counted in bin `i` of `jnp.histogram(flat, bins)` (utils.py line 35): NaN is in none. -/
def inBinN (i : Nat) : Option K → Bool
  | some v => inBin i v
  | none => false

/-- `jnp.histogram(flat, bins)[0]` (utils.py line 35). -/
def countsN (src : List (Option K)) (i : Nat) : K := ((src.filter (inBinN i)).length : K)

/-- `s_cdf[idx]` (utils.py lines 38-39, 52): if nothing is counted, zero is divided by zero. -/
def quantileN (fl : K → K) (src : List (Option K)) (v : Option K) : Option K :=
  if cumsum (countsN src) 255 = 0 then none else some (cdf fl (countsN src) (levelN v))

/-- `jnp.clip(jnp.searchsorted(t_cdf, q, side="left"), 0, 255)` (utils.py lines 55-56): 256, and then 255, for NaN. -/
def searchN (t : Nat → K) : Option K → Nat
  | some q => search t q
  | none => min 256 255

/-- `match_histogram(source, template_hist)` (utils.py lines 17-63), flattened. -/
def matchN (fl : K → K) (template : Nat → K) (src : List (Option K)) : List (Option K) :=
  src.map (fun v => some (searchN (cdf fl template) (quantileN fl src v) : K))

/-- The pixels of an image in row-major order. -/
def flatN (img : Img (Option K)) : List (Option K) := (List.range (img.H * img.W)).map (fun n => img.at_ (n / img.W) (n % img.W))

/-- Histogram matching of an image (data_generate.py lines 304-307). -/
def matchedN (fl32 : K → K) (template : Nat → K) (img : Img (Option K)) : Img (Option K) :=
  { img with at_ := fun j i => (matchN fl32 template (flatN img)).getD (j * img.W + i) (some 0) }

/-- `scan_body` (data_generate.py lines 102-311) with a histogram, without the selected ranges. -/
def pairHN (fl64 fl32 : K → K) (junk : Int) (R : Rand K) (p : Params K) (bounds : Nat × Nat) (flows : List (FieldN K)) (resX resY : K)
    (mask : Option (Nat → Nat → K)) (template : Nat → K) (key : KeyTerm) (i : Nat) : Img K × Img (Option K) :=
  let o := pairN fl64 fl32 junk R p bounds flows resX resY mask key i
  (matched fl32 (some template) o.1, matchedN fl32 template o.2)

end Verif.Missing
