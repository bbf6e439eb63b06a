import Verif.Model.Histogram
/-!
# Histogram matching in single precision (`src/synthpix/utils.py` lines 17-63)

Here the counts, too, are float32, as `jnp.histogram` of a float32 array returns them: it adds 1 for every pixel to an array of zeros.
The order in which the device carries out the additions of a bin and of a cumulative sum is a parameter. The values of the pixels
are taken as they are: they are float32 already.
-/

namespace Verif.HistogramSingle
open Verif.Histogram

variable {K : Type*} [Field K] [LinearOrder K]

/-- A bracketing of a sum: which additions are made. -/
inductive Shape where
  | leaf
  | add (a b : Shape)
  deriving DecidableEq, Repr

/-- The number of summands. -/
def Shape.leaves : Shape → Nat
  | .leaf => 1
  | .add a b => a.leaves + b.leaves

/-- The sum of a list with this bracketing, each addition rounded. -/
def Shape.sum (fl : K → K) : Shape → List K → K
  | .leaf, l => l.headD 0
  | .add a b, l => fl (a.sum fl (l.take a.leaves) + b.sum fl (l.drop a.leaves))

/-- How the device adds: the `n` ones of bin `i` to the initial zero (the scatter of `jnp.histogram`, line 35), and the entries up to
`k` of a cumulative sum (lines 38 and 42). -/
structure Order where
  bin : Nat → Nat → Shape
  upTo : Nat → Shape

/-- `jnp.histogram(flat, bins)[0]` (line 35). -/
def counts (fl : K → K) (o : Order) (src : List K) (i : Nat) : K :=
  (o.bin i (src.filter (inBin i)).length).sum fl (0 :: List.replicate (src.filter (inBin i)).length 1)

/-- Entry `k` of `jnp.cumsum(h, dtype=jnp.float32)` (lines 38, 42). -/
def cumsum (fl : K → K) (o : Order) (h : Nat → K) (k : Nat) : K := (o.upTo k).sum fl ((List.range (k + 1)).map h)

/-- Entry `k` of the normalised cumulative histogram (lines 38-39, 42-43). -/
def cdf (fl : K → K) (o : Order) (h : Nat → K) (k : Nat) : K := fl (cumsum fl o h k / cumsum fl o h 255)

/-- The new value of a pixel (lines 38-61). The template is converted to float32 first (line 42). -/
def matchPixel (fl : K → K) (o : Order) (src : List K) (template : Nat → K) (v : K) : K :=
  (search (cdf fl o (fun i => fl (template i))) (cdf fl o (counts fl o src) (level v)) : K)

/-- `match_histogram(source, template_hist)` (lines 17-63). -/
def matchHistogram (fl : K → K) (o : Order) (template : Nat → K) (src : List K) : List K := src.map (matchPixel fl o src template)

end Verif.HistogramSingle
