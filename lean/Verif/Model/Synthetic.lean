import Verif.Model.Sampler
import Verif.Model.Generate
import Verif.Model.Stack
/-!
# The synthetic sampler as a whole (`src/synthpix/sampler/synthetic.py`)

The constructor with all its numeric checks, and the sampler of `Model/Sampler.lean` with the image generation and the
adaptation of flow fields that it really uses put in.
-/

namespace Verif.Synthetic
open Verif

/-- The arguments of `SyntheticImageSampler.__init__` (synthetic.py lines 50-68), of the right types. `spec` is the
specification (types.py lines 158-208), whose `img_offset`, in measure units here, is kept apart as `imgOffset`.
`ndevices` is the number of selected devices, `isEpisodic` says whether the scheduler is an `EpisodicFlowFieldScheduler`,
`flowShape` and `channels` are the scheduler's `get_flow_fields_shape()`, `pixels` is `None` unless `output_units` is one of
the two known strings. A mask is a shape with entries. -/
structure Args where
  spec : Generate.Params ℚ
  imgOffset : ℚ × ℚ
  ndevices : Nat
  isEpisodic : Bool
  bpfb : Int
  ffpb : Int
  seed : Int
  flowFieldSize : ℚ × ℚ
  flowShape : Nat × Nat
  channels : Nat
  resolution : ℚ
  velocitiesPerPixel : ℚ
  maxSpeedX : ℚ
  maxSpeedY : ℚ
  minSpeedX : ℚ
  minSpeedY : ℚ
  pixels : Option Bool
  mask : Option ((Nat × Nat) × (Nat → Nat → ℚ))
  histogram : Option (List ℚ)

/-- The checks on numbers of `ImageGenerationSpecification.__post_init__` (types.py lines 209-306), without those of types. -/
def specOK (p : Generate.Params ℚ) (imgOffset : ℚ × ℚ) : Bool :=
  decide (0 < p.batchSize) && decide (0 < p.imageShape.1 ∧ 0 < p.imageShape.2) &&
  decide (0 ≤ p.pHide1 ∧ p.pHide1 ≤ 1) && decide (0 ≤ p.pHide2 ∧ p.pHide2 ≤ 1) && decide (0 ≤ imgOffset.1 ∧ 0 ≤ imgOffset.2) &&
  decide (0 ≤ p.densityRange.1 ∧ 0 ≤ p.densityRange.2) && decide (p.densityRange.1 ≤ p.densityRange.2) &&
  decide (0 < p.diameterRanges.length) && p.diameterRanges.all (fun r => decide (0 < r.1 ∧ r.1 ≤ r.2)) &&
  decide (0 < p.intensityRanges.length) && p.intensityRanges.all (fun r => decide (0 < r.1 ∧ r.1 ≤ r.2)) &&
  decide (0 < p.rhoRanges.length) && p.rhoRanges.all (fun r => decide (-1 < r.1 ∧ r.1 ≤ r.2 ∧ r.2 < 1)) &&
  decide (0 ≤ p.diameterVar ∧ 0 ≤ p.intensityVar ∧ 0 ≤ p.rhoVar) &&
  decide (0 ≤ p.noiseUniform ∧ 0 ≤ p.noiseMean ∧ 0 ≤ p.noiseStd) && decide (0 < p.dt)

/-- The check of the mask (synthetic.py lines 111-116). -/
def maskOK (a : Args) : Bool :=
  match a.mask with
  | none => true
  | some m => decide (m.1 = a.spec.imageShape)

/-- `jnp.isclose(x, y)` in exact arithmetic: the default tolerances are `1e-5` relative to `y` and `1e-8`. -/
def isClose (x y : ℚ) : Bool := decide (|x - y| ≤ 1 / 10 ^ 8 + 1 / 10 ^ 5 * |y|)

/-- The check of the histogram (synthetic.py lines 118-126). -/
def histogramOK (a : Args) : Bool :=
  match a.histogram with
  | none => true
  | some h => decide (h.length = 256) && isClose h.sum (a.spec.imageShape.1 * a.spec.imageShape.2 : Nat)

/-- The condition under which the region may be extended, as far as it depends on the specification (synthetic.py lines
308-312). -/
def hidden (p : Generate.Params ℚ) : Bool :=
  decide (0 < p.pHide1) || decide (0 < p.pHide2) || decide (p.densityRange.1 ≠ p.densityRange.2)

/-- What enters the geometry. -/
def Args.geometry (a : Args) : Geometry.Args :=
  { imageShape := a.spec.imageShape, imgOffset := a.imgOffset, dt := a.spec.dt, flowFieldSize := a.flowFieldSize, flowShape := a.flowShape
    resolution := a.resolution, maxSpeedX := a.maxSpeedX, maxSpeedY := a.maxSpeedY, minSpeedX := a.minSpeedX, minSpeedY := a.minSpeedY
    maxDiameter := Generate.maxDiameter a.spec, hidden := hidden a.spec }

/-- What the constructor stores: the numbers of the state machine, the geometry, the shape of the reported flow fields
(synthetic.py lines 215-218) and the units. -/
structure Made where
  cfg : Sampler.Cfg
  geo : Geometry.Geo
  outShape : Nat × Nat
  pixels : Bool
  deriving DecidableEq

/-- `int(n * velocities_per_pixel)` (synthetic.py lines 216-217), the factor being positive. -/
def outLen (fl : ℚ → ℚ) (n : Nat) (v : ℚ) : Nat := (trunc (fl (n * v))).toNat

/-- `SyntheticImageSampler.__init__` (synthetic.py lines 102-447), outside the debug mode; the specification is checked when
it is built, before the call. All failures are `ValueError`s. -/
def make (fl fl32 : ℚ → ℚ) (a : Args) : Except Exc Made :=
  if ¬ specOK a.spec a.imgOffset then .error .valueError
  else if ¬ maskOK a then .error .valueError
  else if ¬ histogramOK a then .error .valueError
  else
    match Sampler.Cfg.make a.spec.batchSize a.ndevices a.isEpisodic a.bpfb a.ffpb a.seed with
    | .error e => .error e
    | .ok cfg =>
      if a.channels ≠ 2 ∧ a.channels ≠ 3 then .error .valueError
      else if a.velocitiesPerPixel ≤ 0 then .error .valueError
      else
        match a.pixels with
        | none => .error .valueError
        | some px =>
          match Geometry.build fl fl32 a.geometry with
          | .error e => .error e
          | .ok g =>
            .ok { cfg := cfg, geo := g, pixels := px
                  outShape := (outLen fl a.spec.imageShape.1 a.velocitiesPerPixel, outLen fl a.spec.imageShape.2 a.velocitiesPerPixel) }

/-- The specification with batch size and offset adjusted (synthetic.py lines 356-360). -/
def params (a : Args) (m : Made) : Generate.Params ℚ :=
  { a.spec with batchSize := m.cfg.batchSize / m.cfg.ndevices, imgOffset := (m.geo.imgOffset.1.toNat, m.geo.imgOffset.2.toNat) }

/-- An image pair with its entries of the generation parameters (data_generate.py lines 315-340). -/
structure Pair where
  first : Generate.Img ℚ
  second : Generate.Img ℚ
  density : ℚ
  diameterRange : ℚ × ℚ
  intensityRange : ℚ × ℚ
  rhoRange : ℚ × ℚ

/-- The template histogram as a function of the bin. -/
def histogramOf (a : Args) : Option (Nat → ℚ) := a.histogram.map (fun h i => h.getD i 0)

/-- Iteration `i` of the loop of `generate_images_from_flow` with the sampler's arguments (synthetic.py lines 393-402). -/
def render (fl fl32 : ℚ → ℚ) (R : Generate.Rand ℚ) (a : Args) (m : Made) (k : KeyTerm) (n i : Nat) (f : Adapter.Field2 ℚ) : Pair :=
  let p := { params a m with batchSize := n }
  let o := Generate.pair fl fl32 R p (m.geo.bounds.1.toNat, m.geo.bounds.2.toNat) [f] m.geo.res.2 m.geo.res.1
    (a.mask.map Prod.snd) (histogramOf a) k i
  { first := o.1, second := o.2.1, density := Generate.density fl32 R p k i, diameterRange := Generate.row p.diameterRanges o.2.2.1
    intensityRange := Generate.row p.intensityRanges o.2.2.2.1, rhoRange := Generate.row p.rhoRanges o.2.2.2.2 }

/-- The two functions of the sampler (synthetic.py lines 393-418). -/
def gen (fl fl32 : ℚ → ℚ) (R : Generate.Rand ℚ) (a : Args) (m : Made) : Sampler.Gen (Adapter.Field2 ℚ) (Adapter.Field2 ℚ) Pair where
  adapt := Adapter.processSingle fl
    (Adapter.ofGeo a.geometry m.geo m.outShape (m.cfg.batchSize / m.cfg.ndevices) m.pixels)
  render := render fl fl32 R a m

/-- A flow field delivered by a scheduler, of shape `(H, W, C)`: the first two channels are used (utils.py lines 276-311). -/
def fieldOf (x : Arr ℚ) : Adapter.Field2 ℚ :=
  match x.shape with
  | [h, w, c] => ⟨h, w, fun j i => (x.data.getD ((j * w + i) * c) 0, x.data.getD ((j * w + i) * c + 1) 0)⟩
  | _ => ⟨0, 0, fun _ _ => (0, 0)⟩

/-- A base scheduler as the synthetic sampler uses it (synthetic.py lines 468-478). -/
def fieldSched {D Key : Type} (w : Base.World ℚ D Key) (c : Base.Cfg) (fuel : Nat) :
    Sched (Base.St D Key) (Sampler.FlowBatch (Adapter.Field2 ℚ)) :=
  Stack.viewSched (fun b => ⟨(Stack.flowBatch b).flows.map fieldOf, (Stack.flowBatch b).mask, (Stack.flowBatch b).files⟩) 0 w c fuel

end Verif.Synthetic
