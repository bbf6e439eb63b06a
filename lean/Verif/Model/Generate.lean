import Verif.Model.Render
import Verif.Model.Histogram
import Verif.Model.Adapter
import Verif.Model.Key
/-!
# Generating image pairs (`src/synthpix/data_generate.py` lines 19-340)

Exact arithmetic over any ordered field with a floor, with roundings where truncation makes them matter: `fl64` for Python's floats
and `fl32` for JAX's. The generator of random numbers, `exp` and `sqrt` are parameters.
-/

namespace Verif.Generate
open Verif Render

variable {K : Type*} [Field K] [LinearOrder K] [FloorRing K]

/-- `jax.random` and `jax.numpy` functions. `uniform key n` and `normal key n` are the `n`-th entries (row-major) of the arrays drawn with
`key` from the uniform distribution on `[0, 1)` and the standard normal distribution; `randint key n` is
`jax.random.randint(key, (), 0, n)`. Simplification: entry `n` of an array does not depend on the shape of the array. -/
structure Rand (K : Type*) where
  uniform : KeyTerm → Nat → K
  normal : KeyTerm → Nat → K
  randint : KeyTerm → Nat → Nat
  exp : K → K
  sqrt : K → K

/-- The fields of `ImageGenerationSpecification` (types.py lines 184-214) that enter, `imgOffset` being in pixels by now (synthetic.py
lines 357-360). -/
structure Params (K : Type*) where
  batchSize : Nat
  imageShape : Nat × Nat
  imgOffset : Nat × Nat
  densityRange : K × K
  pHide1 : K
  pHide2 : K
  diameterRanges : List (K × K)
  diameterVar : K
  intensityRanges : List (K × K)
  intensityVar : K
  rhoRanges : List (K × K)
  rhoVar : K
  dt : K
  noiseUniform : K
  noiseMean : K
  noiseStd : K

/-- `jax.random.uniform(key, ..., minval=lo, maxval=hi)`, from a draw in `[0, 1)`. -/
def between (lo hi u : K) : K := max lo (u * (hi - lo) + lo)

/-- `jnp.clip(v, lo, hi)`. -/
def clip (v lo hi : K) : K := min (max v lo) hi

/-- `jax.random.bernoulli(key, p)`, which is `uniform(key) < p`. -/
def bernoulli (p u : K) : Bool := decide (u < p)

/-- `max(d[1] for d in parameters.diameter_ranges)` (line 70); the ranges are not empty. -/
def maxDiameter (p : Params K) : K := (p.diameterRanges.map Prod.snd).foldl max ((p.diameterRanges.map Prod.snd).headD 0)

/-- `num_particles` (line 84). -/
def numParticles (fl64 : K → K) (bounds : Nat × Nat) (p : Params K) : Nat :=
  ⌊fl64 (((bounds.1 * bounds.2 : Nat) : K) * p.densityRange.2)⌋.toNat

/-- The density drawn for image pair `i` (lines 90-97), `key` being the (first) key handed in. -/
def density (fl32 : K → K) (R : Rand K) (p : Params K) (key : KeyTerm) (i : Nat) : K :=
  clip (between (fl32 p.densityRange.1) (fl32 p.densityRange.2) (R.uniform (.sub key 2 1) i)) 0 (fl32 p.densityRange.2)

/-- `current_num_particles` (lines 131-133). -/
def currentNum (fl32 : K → K) (bounds : Nat × Nat) (density : K) : Int := ⌊fl32 (((bounds.1 * bounds.2 : Nat) : K) * density)⌋

/-- `mixed` (line 136): which of the allocated particles take part. -/
def mixed (fl32 : K → K) (bounds : Nat × Nat) (density : K) (k : Nat) : Bool := decide ((k : Int) < currentNum fl32 bounds density)

/-- The keys of image pair `i` (lines 89, 107-118), `subkey1`, ..., `subkey9` being number 0 to 8. -/
def subkey (key : KeyTerm) (i n : Nat) : KeyTerm := .sub (.fold (.sub key 2 0) i) 9 n

/-- The keys of the particle properties (lines 155-164). -/
def propKey (key : KeyTerm) (i n : Nat) : KeyTerm := .sub (subkey key i 3) 8 n

/-- The ranges selected for image pair `i` (lines 118-124): diameter, intensity, rho. -/
def rangeIdx (R : Rand K) (p : Params K) (key : KeyTerm) (i : Nat) : Nat × Nat × Nat :=
  (R.randint (subkey key i 6) p.diameterRanges.length, R.randint (subkey key i 7) p.intensityRanges.length,
   R.randint (subkey key i 8) p.rhoRanges.length)

/-- Row `n` of an array of ranges; JAX clamps an index that is too large. -/
def row (l : List (K × K)) (n : Nat) : K × K := l.getD (min n (l.length - 1)) (0, 0)

/-- Initial position of particle `k` (lines 149-152). -/
def position1 (R : Rand K) (bounds : Nat × Nat) (key : KeyTerm) (i k : Nat) : K × K :=
  (R.uniform (subkey key i 2) (2 * k) * bounds.1, R.uniform (subkey key i 2) (2 * k + 1) * bounds.2)

/-- Particle `k` in the first image (lines 142-144, 166-200, 225-235). -/
def particle1 (fl32 : K → K) (R : Rand K) (p : Params K) (bounds : Nat × Nat) (key : KeyTerm) (i k : Nat) : Particle K :=
  let idx := rangeIdx R p key i
  let d := row p.diameterRanges idx.1
  let int := row p.intensityRanges idx.2.1
  let rho := row p.rhoRanges idx.2.2
  let dx := between d.1 d.2 (R.uniform (propKey key i 0) k)
  let dy := clip (dx + between (-1) 1 (R.uniform (propKey key i 1) k)) d.1 d.2
  let shown := bernoulli (1 - p.pHide1) (R.uniform (subkey key i 0) k) && mixed fl32 bounds (density fl32 R p key i) k
  let pos := position1 R bounds key i k
  { y := pos.1, x := pos.2, dx := dx, dy := dy
    rho := between rho.1 rho.2 (R.uniform (propKey key i 2) k)
    amp := between int.1 int.2 (R.uniform (propKey key i 3) k) * (if shown then 1 else 0) }

/-- Particle `k` in the second image (lines 145-147, 202-223, 237-267). -/
def particle2 (fl32 : K → K) (R : Rand K) (p : Params K) (bounds : Nat × Nat) (flow : Adapter.Field2 K) (resX resY : K)
    (key : KeyTerm) (i k : Nat) : Particle K :=
  let idx := rangeIdx R p key i
  let d := row p.diameterRanges idx.1
  let int := row p.intensityRanges idx.2.1
  let rho := row p.rhoRanges idx.2.2
  let q := particle1 fl32 R p bounds key i k
  let amp1 := between int.1 int.2 (R.uniform (propKey key i 3) k)
  let shown := bernoulli (1 - p.pHide2) (R.uniform (subkey key i 1) k) && mixed fl32 bounds (density fl32 R p key i) k
  let pos := Adapter.move bounds flow p.dt resX resY q.y q.x
  { y := pos.1, x := pos.2
    dx := clip (q.dx + R.normal (propKey key i 4) k * R.sqrt p.diameterVar) d.1 d.2
    dy := clip (q.dy + R.normal (propKey key i 5) k * R.sqrt p.diameterVar) d.1 d.2
    rho := clip (q.rho + R.normal (propKey key i 6) k * R.sqrt p.rhoVar) rho.1 rho.2
    amp := clip (amp1 + R.normal (propKey key i 7) k * R.sqrt p.intensityVar) int.1 int.2 * (if shown then 1 else 0) }

/-- An image with its shape. -/
structure Img (K : Type*) where
  H : Nat
  W : Nat
  at_ : Nat → Nat → K

/-- The slice `img[o : s + o]` on one axis of length `n` has this many entries. -/
def sliceLen (n o s : Nat) : Nat := min (s + o) n - o

/-- Cropping (lines 273-281). -/
def crop (H W : Nat) (img : Nat → Nat → K) (offset shape : Nat × Nat) : Img K :=
  { H := sliceLen H offset.1 shape.1, W := sliceLen W offset.2 shape.2, at_ := fun j i => img (j + offset.1) (i + offset.2) }

/-- `add_noise_to_image` (generate.py lines 50-80) on an image. -/
def noisy (R : Rand K) (p : Params K) (key : KeyTerm) (img : Img K) : Img K :=
  { H := img.H
    W := img.W
    at_ := fun j i =>
      addNoise (R.uniform (.sub key 2 0) (j * img.W + i)) (R.normal (.sub key 2 1) (j * img.W + i)) p.noiseUniform p.noiseMean p.noiseStd
        (img.at_ j i) }

/-- Multiplication with the mask (lines 299-302). The sampler checks that the mask has the shape of the image. -/
def masked (mask : Option (Nat → Nat → K)) (img : Img K) : Img K :=
  match mask with
  | none => img
  | some m => { img with at_ := fun j i => img.at_ j i * m j i }

/-- The pixels in row-major order. -/
def Img.flat (img : Img K) : List K := (List.range (img.H * img.W)).map (fun n => img.at_ (n / img.W) (n % img.W))

/-- Histogram matching (lines 304-307; utils.py lines 17-63). -/
def matched (fl32 : K → K) (histogram : Option (Nat → K)) (img : Img K) : Img K :=
  match histogram with
  | none => img
  | some t => { img with at_ := fun j i => (Histogram.matchHistogram fl32 t img.flat).getD (j * img.W + i) 0 }

/-- From the particles to the finished image (lines 225-307). -/
def finish (fl32 : K → K) (R : Rand K) (p : Params K) (bounds : Nat × Nat) (mask : Option (Nat → Nat → K)) (histogram : Option (Nat → K))
    (noiseKey : KeyTerm) (ps : List (Particle K)) : Img K :=
  let img := imgGen R.exp fl32 bounds.1 bounds.2 (maxDiameter p) ps false
  matched fl32 histogram (masked mask (noisy R p noiseKey (crop bounds.1 bounds.2 img p.imgOffset p.imageShape)))

/-- `scan_body` (lines 102-311): both images and the selected ranges. `flows` are the flow fields on the particle region. -/
def pair (fl64 fl32 : K → K) (R : Rand K) (p : Params K) (bounds : Nat × Nat) (flows : List (Adapter.Field2 K)) (resX resY : K)
    (mask : Option (Nat → Nat → K)) (histogram : Option (Nat → K)) (key : KeyTerm) (i : Nat) : Img K × Img K × (Nat × Nat × Nat) :=
  let n := numParticles fl64 bounds p
  let flow := flows.getD (i % flows.length) ⟨0, 0, fun _ _ => (0, 0)⟩
  (finish fl32 R p bounds mask histogram (subkey key i 4) ((List.range n).map (particle1 fl32 R p bounds key i)),
   finish fl32 R p bounds mask histogram (subkey key i 5) ((List.range n).map (particle2 fl32 R p bounds flow resX resY key i)),
   rangeIdx R p key i)

/-- What is returned (lines 315-340): the images and `ImageGenerationParameters`, one entry per image pair. -/
structure Output (K : Type*) where
  images1 : List (Img K)
  images2 : List (Img K)
  densities : List K
  diameterRanges : List (K × K)
  intensityRanges : List (K × K)
  rhoRanges : List (K × K)

/-- `generate_images_from_flow` (lines 19-340); the flow fields are not empty. -/
def generate (fl64 fl32 : K → K) (R : Rand K) (p : Params K) (bounds : Nat × Nat) (flows : List (Adapter.Field2 K)) (resX resY : K)
    (mask : Option (Nat → Nat → K)) (histogram : Option (Nat → K)) (key : KeyTerm) : Output K :=
  let outs := (List.range p.batchSize).map (pair fl64 fl32 R p bounds flows resX resY mask histogram key)
  { images1 := outs.map (fun o => o.1)
    images2 := outs.map (fun o => o.2.1)
    densities := (List.range p.batchSize).map (density fl32 R p key)
    diameterRanges := outs.map (fun o => row p.diameterRanges o.2.2.1)
    intensityRanges := outs.map (fun o => row p.intensityRanges o.2.2.2.1)
    rhoRanges := outs.map (fun o => row p.rhoRanges o.2.2.2.2) }

end Verif.Generate
