import Verif.Model.Types
import Verif.Model.Key
/-!
# `make` (`src/synthpix/make.py`) and the `from_config` methods it calls

Components are built by their constructors, which read files and check many more arguments; whether they succeed is part
of the `World`. What `make` decides itself, and the arguments it passes on, is modelled. Printing the banner and logging
are left out.
-/

namespace Verif.Make
open Verif

/-- A configuration dictionary. -/
abbrev Dict := List (String × Val)

/-- The argument of `make`. -/
inductive Arg where
  | path (s : String)
  | dict (d : Dict)
  | other

/-- The classes of `SCHEDULERS` (make.py lines 23-27). -/
inductive Kind where
  | h5 | mat | npy
  deriving DecidableEq, Repr

/-- What a base scheduler's constructor is called with. `key = none` means that the argument was not passed;
likewise `includeImages` and `outputShape`, which not all classes have. -/
structure BaseArgs where
  kind : Kind
  fileList : Val
  randomize : Val
  loop : Val
  key : Option KeyTerm
  includeImages : Option Val
  outputShape : Option Val

/-- A scheduler as built by `make`. -/
inductive Pipe where
  | base (a : BaseArgs)
  | episodic (inner : Pipe) (batchSize episodeLength : Int) (key : KeyTerm)
  | prefetch (inner : Pipe) (batchSize bufferSize : Int)

/-- What the constructor of the synthetic sampler is called with, apart from the scheduler (synthetic.py lines 584-601).
`mask` and `histogram` say whether one was loaded. -/
structure SynthArgs where
  spec : Types.Spec
  batchesPerFlowBatch : Val
  flowFieldsPerBatch : Val
  flowFieldSize : Val
  resolution : Val
  velocitiesPerPixel : Val
  seed : Val
  maxSpeedX : Val
  maxSpeedY : Val
  minSpeedX : Val
  minSpeedY : Val
  outputUnits : Val
  deviceIds : Val
  mask : Option String
  histogram : Option String

/-- A sampler as built by `make`. -/
inductive Smp where
  | real (p : Pipe) (batchSize : Int)
  | synthetic (p : Pipe) (a : SynthArgs)

/-- What `make` asks the outside: the file system, the YAML loader (`none` if the file holds something else than a mapping),
`jax.random.PRNGKey`, and whether the constructors succeed. -/
structure World where
  pathExists : String → Bool
  isFile : String → Bool
  load : String → Except Exc (Option Dict)
  prngKey : Val → Except Exc KeyTerm
  baseInit : BaseArgs → Except Exc Unit
  episodicInit : Pipe → Int → Int → KeyTerm → Except Exc Unit
  realInit : Pipe → Int → Except Exc Unit
  /-- loading the mask and checking that it holds only 0 and 1 (synthetic.py lines 543-546) -/
  loadMask : String → Except Exc Unit
  loadHistogram : String → Except Exc Unit
  synthInit : Pipe → SynthArgs → Except Exc Unit

/-- `a` and then `f`: an exception ends the function. -/
def andThen {α β : Type} (a : Except Exc α) (f : α → Except Exc β) : Except Exc β :=
  match a with
  | .ok x => f x
  | .error e => .error e

/-- `if cond: raise e`. -/
def raiseIf {β : Type} (c : Bool) (e : Exc) (r : Except Exc β) : Except Exc β := if c then .error e else r

/-- `get_base_scheduler` (make.py lines 30-47): the lookup hashes the value, so one without hash raises `TypeError`. -/
def getBaseScheduler : Val → Except Exc Kind
  | .str ".h5" => .ok .h5
  | .str ".mat" => .ok .mat
  | .str ".npy" => .ok .npy
  | v => .error (if v.hashable then .valueError else .typeError)

/-- `tuple(v)`: the items of a list or tuple, the characters of a string, the keys of a dictionary. Other iterables are not
modelled. -/
def toTuple : Val → Except Exc Val
  | .tuple l => .ok (.tuple l)
  | .list l => .ok (.tuple l)
  | .str s => .ok (.tuple (s.toList.map (fun c => .str (String.singleton c))))
  | .dict ks => .ok (.tuple (ks.map .str))
  | _ => .error .typeError

/-- `v[0]`, ... of an iterable: the items `for t in v` runs over. -/
def items : Val → Except Exc (List Val)
  | .tuple l => .ok l
  | .list l => .ok l
  | .str s => .ok (s.toList.map (fun c => .str (String.singleton c)))
  | .dict ks => .ok (ks.map .str)
  | _ => .error .typeError

/-- `tuple(t)` for every item, stopping at the first that raises. -/
def tuples : List Val → Except Exc (List Val)
  | [] => .ok []
  | v :: l => andThen (toTuple v) fun t => andThen (tuples l) fun r => .ok (t :: r)

/-- `[tuple(t) for t in v]` (synthetic.py lines 573-577). -/
def tupleList (v : Val) : Except Exc Val := andThen (items v) fun l => andThen (tuples l) fun r => .ok (.list r)

/-- `config[key]`. -/
def item (d : Dict) (k : String) : Except Exc Val :=
  match d.lookup k with
  | some v => .ok v
  | none => .error .keyError

/-- `config.get(key, default)`. -/
def getD (d : Dict) (k : String) (dflt : Val) : Val := (d.lookup k).getD dflt

/-- The keyword arguments collected by `make` (make.py lines 164-181). -/
structure Kw where
  fileList : Val
  randomize : Val
  loop : Val
  key : KeyTerm
  includeImages : Bool
  outputShape : Option Val

/-- The three `from_config` methods (hdf5.py lines 105-119, mat.py lines 213-229, numpy.py lines 128-143): none of them
passes `key` on, only some pass `include_images` and `output_shape`. All values are present in the dictionary
`make` passes, so that the defaults do not matter, except for `output_shape`. -/
def baseFromConfig (k : Kind) (kw : Kw) : BaseArgs :=
  match k with
  | .h5 => { kind := .h5, fileList := kw.fileList, randomize := kw.randomize, loop := kw.loop, key := none,
             includeImages := none, outputShape := none }
  | .mat => { kind := .mat, fileList := kw.fileList, randomize := kw.randomize, loop := kw.loop, key := none,
              includeImages := some (.bool kw.includeImages),
              outputShape := some (kw.outputShape.getD (.tuple [.int 256, .int 256])) }
  | .npy => { kind := .npy, fileList := kw.fileList, randomize := kw.randomize, loop := kw.loop, key := none,
              includeImages := some (.bool kw.includeImages), outputShape := none }

/-- The key a base scheduler works with (base.py lines 94-99). -/
def BaseArgs.usedKey (a : BaseArgs) : KeyTerm := a.key.getD (.seed 0)

/-- The optional path of a mask or histogram (synthetic.py lines 537-548 and 551-563). -/
def optionalFile (w : World) (load : String → Except Exc Unit) (v : Val) : Except Exc (Option String) :=
  match v with
  | .none => .ok none
  | .str s => if w.isFile s then andThen (load s) fun _ => .ok (some s) else .error .valueError
  | _ => .error .valueError

/-- `SyntheticImageSampler.from_config` (synthetic.py lines 515-606). A `KeyError` is replaced by another one. -/
def synthFromConfig (w : World) (p : Pipe) (d : Dict) : Except Exc Smp :=
  andThen (optionalFile w w.loadMask (getD d "mask" .none)) fun mask =>
  andThen (optionalFile w w.loadHistogram (getD d "histogram" .none)) fun histogram =>
  andThen (item d "batch_size") fun batchSize =>
  andThen (andThen (item d "image_shape") toTuple) fun imageShape =>
  andThen (andThen (item d "img_offset") toTuple) fun imgOffset =>
  andThen (andThen (item d "seeding_density_range") toTuple) fun density =>
  andThen (item d "p_hide_img1") fun pHide1 =>
  andThen (item d "p_hide_img2") fun pHide2 =>
  andThen (andThen (item d "diameter_ranges") tupleList) fun diameterRanges =>
  andThen (item d "diameter_var") fun diameterVar =>
  andThen (andThen (item d "intensity_ranges") tupleList) fun intensityRanges =>
  andThen (item d "intensity_var") fun intensityVar =>
  andThen (andThen (item d "rho_ranges") tupleList) fun rhoRanges =>
  andThen (item d "rho_var") fun rhoVar =>
  andThen (item d "dt") fun dt =>
  andThen (item d "noise_uniform") fun noiseUniform =>
  andThen (item d "noise_gaussian_mean") fun noiseGaussianMean =>
  andThen (item d "noise_gaussian_std") fun noiseGaussianStd =>
  andThen (Types.Spec.construct {
    batchSize := batchSize, imageShape := imageShape, imgOffset := imgOffset,
    seedingDensityRange := density, pHide1 := pHide1, pHide2 := pHide2, diameterRanges := diameterRanges,
    diameterVar := diameterVar, intensityRanges := intensityRanges, intensityVar := intensityVar,
    rhoRanges := rhoRanges, rhoVar := rhoVar, dt := dt, noiseUniform := noiseUniform,
    noiseGaussianMean := noiseGaussianMean, noiseGaussianStd := noiseGaussianStd }) fun spec =>
  andThen (item d "batches_per_flow_batch") fun bpfb =>
  andThen (item d "flow_fields_per_batch") fun ffpb =>
  andThen (andThen (item d "flow_field_size") toTuple) fun ffSize =>
  andThen (item d "resolution") fun resolution =>
  andThen (item d "velocities_per_pixel") fun vpp =>
  andThen (item d "seed") fun seed =>
  andThen (item d "max_speed_x") fun maxX =>
  andThen (item d "max_speed_y") fun maxY =>
  andThen (item d "min_speed_x") fun minX =>
  andThen (item d "min_speed_y") fun minY =>
  andThen (item d "output_units") fun units =>
  let a : SynthArgs := {
    spec := spec, batchesPerFlowBatch := bpfb, flowFieldsPerBatch := ffpb, flowFieldSize := ffSize,
    resolution := resolution, velocitiesPerPixel := vpp, seed := seed, maxSpeedX := maxX, maxSpeedY := maxY,
    minSpeedX := minX, minSpeedY := minY, outputUnits := units, deviceIds := getD d "device_ids" .none, mask := mask,
    histogram := histogram }
  andThen (w.synthInit p a) fun _ => .ok (.synthetic p a)

/-- A sampler on the finished scheduler (make.py lines 204-227). -/
def finish (w : World) (d : Dict) (includeImages : Bool) (batchSize episodeLength : Int) (p : Pipe) : Except Exc Smp :=
  if includeImages then andThen (w.realInit p batchSize) fun _ => .ok (.real p batchSize)
  else
    match getD d "batches_per_flow_batch" .none with
    | .none => .error .valueError
    | bpfb =>
      -- the comparison only decides about a warning, but it is evaluated
      andThen (if 0 < episodeLength then Val.ltNum (.fin 1) bpfb else .ok false) fun _ => synthFromConfig w p d

/-- The prefetching layer (make.py lines 197-202). Its constructor cannot fail: both sizes are positive. -/
def withPrefetch (batchSize bufferSize : Int) (p : Pipe) : Pipe :=
  if 0 < bufferSize then .prefetch p batchSize bufferSize else p

/-- The episodic layer (make.py lines 187-194). -/
def withEpisodes (w : World) (batchSize episodeLength : Int) (key : KeyTerm) (p : Pipe) : Except Exc Pipe :=
  if 0 < episodeLength then
    andThen (w.episodicInit p batchSize episodeLength key.split2.2) fun _ =>
      .ok (.episodic p batchSize episodeLength key.split2.2)
  else .ok p

/-- A non-negative integer option with default 0 (make.py lines 145-150). -/
def sizeOption (d : Dict) (k : String) : Except Exc Int :=
  match (getD d k (.int 0)).asInt with
  | some z => if z < 0 then .error .valueError else .ok z
  | none => .error .valueError

/-- `make` for a dictionary (make.py lines 131-229). -/
def fromDict (w : World) (d : Dict) : Except Exc Smp :=
  match d.lookup "scheduler_class" with
  | none => .error .valueError
  | some cls =>
    andThen (getBaseScheduler cls) fun kind =>
    match d.lookup "batch_size" with
    | none => .error .valueError
    | some bs =>
      match bs.asInt with
      | none => .error .valueError
      | some batchSize =>
        raiseIf (decide (batchSize ≤ 0)) .valueError <|
        match getD d "include_images" (.bool false) with
        | .bool includeImages =>
          andThen (sizeOption d "buffer_size") fun bufferSize =>
          andThen (sizeOption d "episode_length") fun episodeLength =>
          raiseIf (d.lookup "flow_fields_per_batch").isNone .valueError <|
          andThen (w.prngKey (getD d "seed" (.int 0))) fun root =>
          raiseIf (includeImages && decide (kind ≠ .mat)) .valueError <|
          andThen (if includeImages then
              andThen (toTuple (getD d "image_shape" (.tuple [.int 256, .int 256]))) fun t => .ok (some t)
            else .ok none) fun outputShape =>
          let a := baseFromConfig kind
            { fileList := getD d "file_list" (.list []), randomize := getD d "randomize" (.bool false),
              loop := getD d "loop" (.bool true), key := root.split2.2, includeImages := includeImages,
              outputShape := outputShape }
          andThen (w.baseInit a) fun _ =>
          andThen (withEpisodes w batchSize episodeLength root.split2.1 (.base a)) fun p =>
          finish w d includeImages batchSize episodeLength (withPrefetch batchSize bufferSize p)
        | _ => .error .typeError

/-- `make` (make.py lines 50-229). -/
def make (w : World) : Arg → Except Exc Smp
  | .other => .error .typeError
  | .dict d => fromDict w d
  | .path s =>
    if !s.endsWith ".yaml" then .error .valueError
    else if !w.pathExists s then .error .fileNotFound
    else if !w.isFile s then .error .valueError
    else
      match w.load s with
      | .error e => .error e
      | .ok none => .error .typeError
      | .ok (some d) => fromDict w d

end Verif.Make
