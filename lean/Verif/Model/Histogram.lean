import Verif.Model.Rounding
/-!
# Histogram matching (`src/synthpix/utils.py` lines 17-63)

Images are flattened lists of pixel values in any ordered field. The normalised cumulative sums are rounded by `fl` (`id` is exact); the
counts themselves are exact, as they are in float32 up to 2^24 pixels. A histogram without any count makes the code divide zero by
zero; the model then gives zero where the code gives NaN, and no theorem about values covers that case.
-/

namespace Verif.Histogram

variable {K : Type*} [Field K] [LinearOrder K]

/-- `jnp.digitize(v, bins)` for the bins `0, 1, ..., 256` (line 48): the number of edges not above `v`. -/
def digitize (v : K) : Nat := ((List.range 257).filter (fun b : Nat => decide ((b : K) ≤ v))).length

/-- `jnp.clip(jnp.digitize(flat, bins) - 1, 0, 255)` (lines 48-49). -/
def level (v : K) : Nat := min (digitize v - 1) 255

/-- Bin `i` of `jnp.histogram(flat, bins)` (line 35): half-open except for the last, which is closed. -/
def inBin (i : Nat) (v : K) : Bool :=
  decide ((i : K) ≤ v) && (decide (v < (i : K) + 1) || (decide (i = 255) && decide (v ≤ 256)))

/-- `jnp.histogram(flat, bins)[0]` (line 35). -/
def counts (src : List K) (i : Nat) : K := ((src.filter (inBin i)).length : K)

/-- Entry `k` of `jnp.cumsum(h)` (lines 38, 42). -/
def cumsum (h : Nat → K) (k : Nat) : K := ((List.range (k + 1)).map h).sum

/-- Entry `k` of the normalised cumulative histogram (lines 38-39, 42-43). -/
def cdf (fl : K → K) (h : Nat → K) (k : Nat) : K := fl (cumsum h k / cumsum h 255)

/-- `jnp.clip(jnp.searchsorted(t_cdf, q, side="left"), 0, 255)` (lines 55-56) for a sorted array: the first index whose entry
is not below `q`. -/
def search (t : Nat → K) (q : K) : Nat := min ((List.range 256).findIdx (fun k => decide (q ≤ t k))) 255

/-- The new value of a pixel (lines 48-61). The conversion to the dtype of the image is not modelled. -/
def matchPixel (fl : K → K) (src : List K) (template : Nat → K) (v : K) : K :=
  (search (cdf fl template) (cdf fl (counts src) (level v)) : K)

/-- `match_histogram(source, template_hist)` (lines 17-63). -/
def matchHistogram (fl : K → K) (template : Nat → K) (src : List K) : List K := src.map (matchPixel fl src template)

end Verif.Histogram
