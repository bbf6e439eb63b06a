import Verif.Model.Episodic
import Verif.Model.Key
/-!
# The samplers (`src/synthpix/sampler/base.py`, `synthetic.py`, `real.py`)

The sampler is a state machine over a scheduler. Image generation and the adaptation of a single flow field are
parameters here (`Gen`); they are modelled in `Model/Generate.lean` and `Model/Adapter.lean`.
-/

namespace Verif.Sampler
open Verif

/-- What the samplers call on a scheduler (`src/synthpix/scheduler/protocol.py` lines 7-88). `episodic` is present
iff the scheduler is an instance of `EpisodicSchedulerProtocol`; `getBatch` is `none` when the call never
returns. -/
structure ISched (S B : Type) where
  getBatch : Nat → S → Option (Except Exc B × S)
  reset : S → Except Exc S
  /-- `steps_remaining` and `next_episode` -/
  episodic : Option ((S → Int) × (S → Except Exc S))

/-- An `EpisodicFlowFieldScheduler` through this interface (`episodic.py` lines 137-217). -/
def ofEpisodic {S B Key : Type} (sch : Sched S B) (rng : Episodic.Rng Key) (cfg : Episodic.Cfg) :
    ISched (Episodic.St S Key) B where
  getBatch n e := Episodic.getBatch sch cfg n e
  reset e := Episodic.nextEpisode sch rng cfg e
  episodic := some (Episodic.stepsRemaining cfg, Episodic.nextEpisode sch rng cfg)

/-- A plain scheduler through this interface. -/
def ofPlain {S B : Type} (sch : Sched S B) : ISched S B where
  getBatch := sch.getBatch
  reset s := .ok (sch.reset s)
  episodic := none

/-- The part of `SchedulerData` the synthetic sampler uses (`types.py` lines 130-138). -/
structure FlowBatch (F : Type) where
  flows : List F
  mask : Option (List Bool)
  files : Option (List String)
  deriving DecidableEq, Repr

/-- `SynthpixBatch` (`types.py` lines 65-84): the images of a pair and its generation parameters are kept
together as one `I`. -/
structure OutBatch (O I : Type) where
  images : List I
  flows : List O
  mask : Option (List Bool)
  files : Option (List String)
  done : Option (List Bool)
  deriving DecidableEq, Repr

/-- The two jitted functions, per flow field and per image. `adapt` is `process_single` of `flow_field_adapter`
(`utils.py` lines 245-321): the flow field to be reported and the one used for rendering. `render k B i f` is
iteration `i` of the loop of `generate_images_from_flow` (`data_generate.py` lines 99-320) with key `k`, batch
size `B` and `flow_field[i % n] = f`. -/
structure Gen (F O I : Type) where
  adapt : F → O × F
  render : KeyTerm → Nat → Nat → F → I

/-- The attributes the constructor of `SyntheticImageSampler` fixes and the state machine reads. `batchSize` is the
rounded one. -/
structure Cfg where
  batchSize : Nat
  ndevices : Nat
  bpfb : Nat
  ffpb : Nat
  seed : Nat
  deriving DecidableEq, Repr

/-- The rounding of the batch size (`synthetic.py` lines 176-182). -/
def roundUp (b d : Nat) : Nat := if b % d ≠ 0 then (b / d + 1) * d else b

/-- The checks of `SyntheticImageSampler.__init__` concerning batch sizes and devices (`base.py` lines 42-43,
`synthetic.py` lines 133-182 and 229-231): the requested batch size, the number of valid device ids, whether the
scheduler is an `EpisodicFlowFieldScheduler` itself, `batches_per_flow_batch`, `flow_fields_per_batch`, `seed`.
Integers only. -/
def Cfg.make (b : Int) (ndevices : Nat) (isEpisodic : Bool) (bpfb ffpb seed : Int) : Except Exc Cfg :=
  if b ≤ 0 then .error .valueError
  else if ndevices = 0 then .error .valueError
  else if bpfb ≤ 0 then .error .valueError
  else if ffpb ≤ 0 then .error .valueError
  else if b < ffpb then .error .valueError
  else if seed < 0 then .error .valueError
  else .ok { batchSize := roundUp b.toNat ndevices, ndevices := ndevices,
             bpfb := if isEpisodic && bpfb != 1 then 1 else bpfb.toNat, ffpb := ffpb.toNat, seed := seed.toNat }

/-- The mutable attributes of the synthetic sampler (`synthetic.py` lines 449-484). `outFlows`, `mask` and `files`
do not exist before the first fetch; here they start empty. -/
structure St (S F O : Type) where
  sched : S
  rng : KeyTerm
  cur : Option (List F)
  outFlows : List O
  mask : Option (List Bool)
  files : Option (List String)
  generated : Nat
  deriving DecidableEq, Repr

variable {S B F O I : Type}

/-- State after the constructor (`synthetic.py` line 447). -/
def init (cfg : Cfg) (s : S) : St S F O :=
  { sched := s, rng := .seed cfg.seed, cur := none, outFlows := [], mask := none, files := none, generated := 0 }

/-- The blocks in which an array is laid out over `d` devices: `PartitionSpec("fields")`
(`synthetic.py` lines 153-158, 419-445). The leading axis must be divisible by `d`. -/
def shards (d : Nat) {α : Type} (l : List α) : List (List α) :=
  (List.range d).map (fun j => (l.drop (j * (l.length / d))).take (l.length / d))

/-- `jnp.tile(x, repeats)[:batch_size]` with `repeats = (batch_size + n - 1) // n` (`utils.py` lines 325-331). -/
def tiled {α : Type} (b : Nat) (l : List α) : List α :=
  ((List.replicate ((b + l.length - 1) / l.length) l).flatten).take b

/-- The loop of `generate_images_from_flow` on one device (`data_generate.py` lines 99-140): image `i` is made with
`flow_field[i % n]`. -/
def deviceImages (g : Gen F O I) (b : Nat) (k : KeyTerm) (flows : List F) : List I :=
  (List.range b).filterMap (fun i => (flows[i % flows.length]?).map (g.render k b i))

/-- The sharded `img_gen_fn_jit` (`synthetic.py` lines 393-431). -/
def images (g : Gen F O I) (cfg : Cfg) (k : KeyTerm) (flows : List F) : List I :=
  (((List.range cfg.ndevices).map (fun j => KeyTerm.sub k cfg.ndevices j)).zip (shards cfg.ndevices flows)).flatMap
    (fun q => deviceImages g (cfg.batchSize / cfg.ndevices) q.1 q.2)

/-- The sharded `flow_field_adapter_jit` (`synthetic.py` lines 404-445; `utils.py` lines 323-331): reported flow
fields (tiled on each device) and flow fields for rendering. -/
def adaptAll (g : Gen F O I) (cfg : Cfg) (flows : List F) : List O × List F :=
  ((shards cfg.ndevices flows).flatMap
      (fun fs => tiled (cfg.batchSize / cfg.ndevices) (fs.map (fun f => (g.adapt f).1))),
   flows.map (fun f => (g.adapt f).2))

/-- `SyntheticImageSampler._reset` (`synthetic.py` lines 449-453). -/
def resetSelf (cfg : Cfg) (s : St S F O) : St S F O :=
  { s with rng := .seed cfg.seed, cur := none, generated := 0 }

/-- The second half of `_get_next` (`synthetic.py` lines 490-512). A leading axis that cannot be laid out over the
devices makes the sharded function raise `ValueError`. -/
def produce (g : Gen F O I) (cfg : Cfg) (flows : List F) (s : St S F O) : Except Exc (OutBatch O I) × St S F O :=
  let rng' := s.rng.split2.1
  let subkey := s.rng.split2.2
  if flows.length % cfg.ndevices ≠ 0 then (.error .valueError, { s with rng := rng' })
  else (.ok { images := images g cfg subkey flows, flows := s.outFlows, mask := s.mask, files := s.files, done := none },
        { s with rng := rng', generated := s.generated + 1 })

/-- `SyntheticImageSampler._get_next` (`synthetic.py` lines 455-512). The flow fields, mask and files of the new
flow batch are stored before the adapter runs. -/
def getNext (sch : ISched S (FlowBatch F)) (g : Gen F O I) (cfg : Cfg) (s : St S F O) :
    Option (Except Exc (OutBatch O I) × St S F O) :=
  match s.cur with
  | some flows =>
    if s.generated < cfg.bpfb then some (produce g cfg flows s)
    else fetch
  | none => fetch
where
  /-- Lines 468-484. -/
  fetch : Option (Except Exc (OutBatch O I) × St S F O) :=
    match sch.getBatch cfg.ffpb s.sched with
    | none => none
    | some (.error e, sc) => some (.error e, { s with generated := 0, sched := sc })
    | some (.ok b, sc) =>
      let s1 : St S F O :=
        { s with generated := 0, sched := sc, cur := some b.flows, mask := b.mask, files := b.files }
      if b.flows.length % cfg.ndevices ≠ 0 then some (.error .valueError, s1)
      else
        let a := adaptAll g cfg b.flows
        some (produce g cfg a.2 { s1 with outFlows := a.1, cur := some a.2 })

/-- `Sampler._make_done` (`base.py` lines 118-128). -/
def makeDone (sch : ISched S B) (batchSize : Nat) (s : S) : Option (List Bool) :=
  sch.episodic.map (fun e => List.replicate batchSize (decide (e.1 s = 0)))

/-- The first test of `Sampler.__next__` (`base.py` lines 79-86). -/
def episodeOver (sch : ISched S B) (s : S) : Bool :=
  match sch.episodic with
  | some e => decide (e.1 s = 0)
  | none => false

/-- `Sampler.__next__` of the synthetic sampler (`base.py` lines 73-94). -/
def next (sch : ISched S (FlowBatch F)) (g : Gen F O I) (cfg : Cfg) (s : St S F O) :
    Option (Except Exc (OutBatch O I) × St S F O) :=
  if episodeOver sch s.sched then some (.error .episodeEnd, s)
  else
    match getNext sch g cfg s with
    | none => none
    | some (.error e, s') => some (.error e, s')
    | some (.ok b, s') => some (.ok { b with done := makeDone sch cfg.batchSize s'.sched }, s')

/-- `Sampler.reset` (`base.py` lines 96-104). -/
def reset (sch : ISched S (FlowBatch F)) (cfg : Cfg) (schedulerReset : Bool) (s : St S F O) :
    Except Exc Unit × St S F O :=
  let s := resetSelf cfg s
  if schedulerReset then
    match sch.reset s.sched with
    | .ok sc => (.ok (), { s with sched := sc })
    | .error e => (.error e, s)
  else (.ok (), s)

/-- `Sampler.next_episode` (`base.py` lines 106-116). The synthetic sampler does not drop its current flows. -/
def nextEpisode (sch : ISched S (FlowBatch F)) (s : St S F O) : Except Exc Unit × St S F O :=
  match sch.episodic with
  | none => (.error .attributeError, s)
  | some e =>
    match e.2 s.sched with
    | .ok sc => (.ok (), { s with sched := sc })
    | .error x => (.error x, s)

/-- The calls a user can make on a sampler. -/
inductive Op where
  | next
  | reset (schedulerReset : Bool)
  | nextEpisode
  deriving DecidableEq, Repr

/-- What a call shows. -/
inductive Out (A : Type) where
  | batch (b : A)
  | raised (e : Exc)
  | done
  deriving DecidableEq, Repr

/-- The outcome of a call without a result. -/
def unitOut {A : Type} : Except Exc Unit → Out A
  | .ok _ => .done
  | .error e => .raised e

/-- The outcome of `next`. -/
def batchOut {A : Type} : Except Exc A → Out A
  | .ok b => .batch b
  | .error e => .raised e

/-- One call on the synthetic sampler; `none` if it never returns. -/
def step (sch : ISched S (FlowBatch F)) (g : Gen F O I) (cfg : Cfg) (s : St S F O) :
    Op → Option (Out (OutBatch O I) × St S F O)
  | .next => (next sch g cfg s).map (fun q => (batchOut q.1, q.2))
  | .reset b => some (unitOut (reset sch cfg b s).1, (reset sch cfg b s).2)
  | .nextEpisode => some (unitOut (nextEpisode sch s).1, (nextEpisode sch s).2)

/-- A history of calls on the synthetic sampler. -/
def run (sch : ISched S (FlowBatch F)) (g : Gen F O I) (cfg : Cfg) :
    List Op → St S F O → Option (List (Out (OutBatch O I)) × St S F O)
  | [], s => some ([], s)
  | op :: ops, s =>
    match step sch g cfg s op with
    | none => none
    | some (o, s') =>
      match run sch g cfg ops s' with
      | none => none
      | some (os, s'') => some (o :: os, s'')

/-! ## The real-image sampler -/

/-- The schedulers `RealImageSampler` distinguishes: `include_images` is an attribute of some base schedulers only
(`mat.py` line 58, `numpy.py` line 57) and of neither wrapper. -/
inductive Nest where
  /-- a base scheduler; `none` if it has no attribute `include_images` -/
  | base (includeImages : Option Bool)
  | episodic (inner : Nest)
  | prefetching (inner : Nest)
  deriving DecidableEq, Repr

/-- `RealImageSampler.__init__` (`real.py` lines 20-40): the loop that unwraps the scheduler. The check that the
scheduler implements the protocol is left out. -/
def unwrap : Nest → Except Exc Unit
  | .base inc => if inc.getD false then .ok () else .error .valueError
  | .episodic n => unwrap n
  | .prefetching n => unwrap n

/-- `RealImageSampler.__init__` (`base.py` lines 42-43, `real.py` lines 20-40). -/
def realInit (n : Nest) (batchSize : Int) : Except Exc Nat :=
  if batchSize ≤ 0 then .error .valueError
  else
    match unwrap n with
    | .ok _ => .ok batchSize.toNat
    | .error e => .error e

/-- A batch of `RealImageSampler` without its done flags (`real.py` lines 48-59): flow, first images, second images,
mask, files. Conversion of the entries to `float32` is left out. -/
structure RealBatch (V : Type) where
  flow : Arr V
  images1 : Option (Arr V)
  images2 : Option (Arr V)
  mask : List Bool
  files : Option (List String)
  params : Option Unit
  done : Option (List Bool)
  deriving DecidableEq, Repr

/-- `RealImageSampler._get_next` (`real.py` lines 42-59). -/
def realGetNext {V : Type} (sch : ISched S (Base.Batch V)) (batchSize : Nat) (s : S) :
    Option (Except Exc (RealBatch V) × S) :=
  match sch.getBatch batchSize s with
  | none => none
  | some (.error e, s') => some (.error e, s')
  | some (.ok b, s') =>
    some (.ok { flow := b.flow, images1 := b.images1, images2 := b.images2, mask := b.mask, files := b.files,
                params := none, done := none }, s')

/-- `Sampler.__next__` of the real-image sampler (`base.py` lines 73-94). -/
def realNext {V : Type} (sch : ISched S (Base.Batch V)) (batchSize : Nat) (s : S) :
    Option (Except Exc (RealBatch V) × S) :=
  if episodeOver sch s then some (.error .episodeEnd, s)
  else
    match realGetNext sch batchSize s with
    | none => none
    | some (.error e, s') => some (.error e, s')
    | some (.ok b, s') => some (.ok { b with done := makeDone sch batchSize s' }, s')

/-- Repeated `next` on the real-image sampler. -/
def realRun {V : Type} (sch : ISched S (Base.Batch V)) (batchSize : Nat) :
    Nat → S → Option (List (Except Exc (RealBatch V)) × S)
  | 0, s => some ([], s)
  | n + 1, s =>
    match realNext sch batchSize s with
    | none => none
    | some (r, s') =>
      match realRun sch batchSize n s' with
      | none => none
      | some (rs, s'') => some (r :: rs, s'')

/-- One call on the real-image sampler (`base.py` lines 73-116; it has no state of its own, so that `_reset` does
nothing); `none` if it never returns. -/
def realStep {V : Type} (sch : ISched S (Base.Batch V)) (batchSize : Nat) (s : S) : Op → Option (Out (RealBatch V) × S)
  | .next => (realNext sch batchSize s).map (fun q => (batchOut q.1, q.2))
  | .reset true =>
    match sch.reset s with
    | .ok s' => some (.done, s')
    | .error e => some (.raised e, s)
  | .reset false => some (.done, s)
  | .nextEpisode =>
    match sch.episodic with
    | none => some (.raised .attributeError, s)
    | some e =>
      match e.2 s with
      | .ok s' => some (.done, s')
      | .error x => some (.raised x, s)

/-- A history of calls on the real-image sampler. -/
def realHistory {V : Type} (sch : ISched S (Base.Batch V)) (batchSize : Nat) :
    List Op → S → Option (List (Out (RealBatch V)) × S)
  | [], s => some ([], s)
  | op :: ops, s =>
    match realStep sch batchSize s op with
    | none => none
    | some (o, s') =>
      match realHistory sch batchSize ops s' with
      | none => none
      | some (os, s'') => some (o :: os, s'')

/-! ## Which keys a run consumes -/

/-- What a key is used for: a draw, or one of the `split`s. The `fold_in`s are not listed: `fold_in(key, i)` is meant
to be called on the same key with different `i`. -/
inductive Use where
  | density | mask1 | mask2 | position | dx | dy | rho | intensity | noiseDx | noiseDy | noiseRho | noiseInt
  | noise1Uniform | noise1Gauss | noise2Uniform | noise2Gauss | rangeDiameter | rangeIntensity | rangeRho
  | split
  deriving DecidableEq, Repr

/-- `add_noise_to_image` (`generate.py` lines 69-77). -/
def noiseUses (k : KeyTerm) (u g : Use) : List (Use × KeyTerm) :=
  [(.split, k), (u, .sub k 2 0), (g, .sub k 2 1)]

/-- Iteration `i` of the loop (`data_generate.py` lines 107-127, 155-164, 284-297): `key` is the loop key. -/
def imageUses (key : KeyTerm) (i : Nat) : List (Use × KeyTerm) :=
  let ki := KeyTerm.fold key i
  let k (j : Nat) := KeyTerm.sub ki 9 j
  let p (j : Nat) := KeyTerm.sub (k 3) 8 j
  [(.split, ki), (.mask1, k 0), (.mask2, k 1), (.position, k 2), (.split, k 3),
   (.dx, p 0), (.dy, p 1), (.rho, p 2), (.intensity, p 3), (.noiseDx, p 4), (.noiseDy, p 5), (.noiseRho, p 6), (.noiseInt, p 7)]
  ++ noiseUses (k 4) .noise1Uniform .noise1Gauss ++ noiseUses (k 5) .noise2Uniform .noise2Gauss
  ++ [(.rangeDiameter, k 6), (.rangeIntensity, k 7), (.rangeRho, k 8)]

/-- `generate_images_from_flow` on one device (`data_generate.py` lines 89-128). -/
def deviceUses (k : KeyTerm) (b : Nat) : List (Use × KeyTerm) :=
  [(.split, k), (.density, k.split2.2)] ++ (List.range b).flatMap (imageUses k.split2.1)

/-- One image batch from the sampler's key `rng` (`synthetic.py` lines 490-492): the two splits, then all devices. -/
def batchUses (rng : KeyTerm) (d b : Nat) : List (Use × KeyTerm) :=
  [(.split, rng), (.split, rng.split2.2)] ++ (List.range d).flatMap (fun j => deviceUses (.sub rng.split2.2 d j) b)

/-- `n` image batches in a row: the sampler keeps the first half of the split (`synthetic.py` line 487). -/
def runUses (d b : Nat) : Nat → KeyTerm → List (Use × KeyTerm)
  | 0, _ => []
  | n + 1, rng => batchUses rng d b ++ runUses d b n rng.split2.1

end Verif.Sampler
