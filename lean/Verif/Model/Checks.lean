import Verif.Model.Synthetic
/-!
# The debug mode (`DEBUG_JIT`, `src/synthpix/utils.py` line 11)

In debug mode the constructor of the synthetic sampler fetches a batch of flow fields and checks the arguments of the two
functions it is going to call, and image generation checks its arguments once more. Types are not modelled: only the checks on
shapes and numbers are.
-/

namespace Verif.Checks
open Verif

/-- `input_check_gen_img_from_flow` (`src/synthpix/data_generate.py` lines 343-424): the shape of the array of flow fields, the
parts of the specification that are looked at, the region, the two resolutions, shape of the mask and histogram. -/
def genImg (shape : List Nat) (imageShape : Nat × Nat) (imgOffset bounds : Int × Int) (resX resY : ℚ)
    (mask : Option (Nat × Nat)) (histogram : Option (List ℚ)) : Except Exc Unit :=
  if shape.length ≠ 4 ∨ shape.getD 3 0 ≠ 2 then .error .valueError
  else if ¬ (0 < bounds.1 ∧ 0 < bounds.2) then .error .valueError
  else if ¬ 0 < resX then .error .valueError
  else if ¬ 0 < resY then .error .valueError
  else if bounds.1 < imageShape.1 + imgOffset.1 then .error .valueError
  else if bounds.2 < imageShape.2 + imgOffset.2 then .error .valueError
  else if mask.isSome && decide (mask ≠ some imageShape) then .error .valueError
  else if histogram.any (fun h => decide (h.length ≠ 256)) then .error .valueError
  else if histogram.any (fun h => !Synthetic.isClose h.sum (imageShape.1 * imageShape.2 : Nat)) then .error .valueError
  else .ok ()

/-- `input_check_flow_field_adapter` (`src/synthpix/utils.py` lines 334-448). -/
def adapter (shape : List Nat) (newShape imageShape : Nat × Nat) (imgOffset : Int × Int) (resolution resX resY : ℚ) (bounds : Int × Int)
    (boundsOffset : ℚ × ℚ) (batchSize : Nat) (dt : ℚ) (padding : Int × Int) : Except Exc Unit :=
  if shape.length ≠ 4 then .error .valueError
  else if shape.getLast? ≠ some 2 then .error .valueError
  else if ¬ (0 < newShape.1 ∧ 0 < newShape.2) then .error .valueError
  else if ¬ (0 < imageShape.1 ∧ 0 < imageShape.2) then .error .valueError
  else if ¬ (0 ≤ imgOffset.1 ∧ 0 ≤ imgOffset.2) then .error .valueError
  else if resolution ≤ 0 then .error .valueError
  else if resX ≤ 0 then .error .valueError
  else if resY ≤ 0 then .error .valueError
  else if ¬ (0 < bounds.1 ∧ 0 < bounds.2) then .error .valueError
  else if ¬ (0 ≤ boundsOffset.1 ∧ 0 ≤ boundsOffset.2) then .error .valueError
  else if batchSize = 0 then .error .valueError
  else if dt ≤ 0 then .error .valueError
  else if ¬ (0 ≤ padding.1 ∧ 0 ≤ padding.2) then .error .valueError
  else .ok ()

/-- What the constructor checks in debug mode about a batch of flow fields of the given shape (`src/synthpix/sampler/synthetic.py`
lines 362-390). -/
def atConstruction (a : Synthetic.Args) (m : Synthetic.Made) (shape : List Nat) : Except Exc Unit :=
  match genImg shape a.spec.imageShape m.geo.imgOffset m.geo.bounds m.geo.res.2 m.geo.res.1 (a.mask.map Prod.fst) a.histogram with
  | .error e => .error e
  | .ok _ => adapter shape m.outShape a.spec.imageShape m.geo.imgOffset a.resolution m.geo.res.2 m.geo.res.1 m.geo.bounds m.geo.boundsOffset
      (m.cfg.batchSize / m.cfg.ndevices) a.spec.dt m.geo.padding

/-- What image generation checks in debug mode (`src/synthpix/data_generate.py` lines 60-63): region and resolutions are not
passed on, so their defaults are checked. -/
def atGeneration (a : Synthetic.Args) (m : Synthetic.Made) (shape : List Nat) : Except Exc Unit :=
  genImg shape a.spec.imageShape m.geo.imgOffset (512, 512) 1 1 (a.mask.map Prod.fst) a.histogram

variable {S F O I : Type}

/-- The sampler after its constructor in debug mode (`src/synthpix/sampler/synthetic.py` lines 362-390 and 447), for a scheduler in
state `s`; `shapeOf` gives the shape of the array of flow fields of a batch. `none` if the scheduler never answers. -/
def construct (sch : Sampler.ISched S (Sampler.FlowBatch F)) (shapeOf : Sampler.FlowBatch F → List Nat) (a : Synthetic.Args)
    (m : Synthetic.Made) (s : S) : Option (Except Exc Unit × Sampler.St S F O) :=
  match sch.getBatch m.cfg.ffpb s with
  | none => none
  | some (.error e, sc) => some (.error e, Sampler.init m.cfg sc)
  | some (.ok b, sc) => some (atConstruction a m (shapeOf b), Sampler.init m.cfg sc)

/-! In debug mode the two functions are not sharded (`synthetic.py` line 419). -/

/-- `img_gen_fn_jit` in debug mode: one call for `batch_size // ndevices` images with all flow fields, which takes the first of the
keys (`src/synthpix/sampler/synthetic.py` lines 393-402, 488-491; `src/synthpix/data_generate.py` line 73). -/
def images (g : Sampler.Gen F O I) (cfg : Sampler.Cfg) (k : KeyTerm) (flows : List F) : List I :=
  Sampler.deviceImages g (cfg.batchSize / cfg.ndevices) (.sub k cfg.ndevices 0) flows

/-- `flow_field_adapter_jit` in debug mode (`src/synthpix/sampler/synthetic.py` lines 404-418). -/
def adaptAll (g : Sampler.Gen F O I) (cfg : Sampler.Cfg) (flows : List F) : List O × List F :=
  (Sampler.tiled (cfg.batchSize / cfg.ndevices) (flows.map (fun f => (g.adapt f).1)), flows.map (fun f => (g.adapt f).2))

/-- The second half of `_get_next` (`src/synthpix/sampler/synthetic.py` lines 490-512) in debug mode; `chk` is the outcome of
`atGeneration`. -/
def produce (g : Sampler.Gen F O I) (cfg : Sampler.Cfg) (chk : Except Exc Unit) (flows : List F) (s : Sampler.St S F O) :
    Except Exc (Sampler.OutBatch O I) × Sampler.St S F O :=
  let rng' := s.rng.split2.1
  match chk with
  | .error e => (.error e, { s with rng := rng' })
  | .ok _ =>
    (.ok { images := images g cfg s.rng.split2.2 flows, flows := s.outFlows, mask := s.mask, files := s.files, done := none },
     { s with rng := rng', generated := s.generated + 1 })

/-- Lines 468-484 in debug mode: the flow fields are still laid out over the devices. -/
def fetch (sch : Sampler.ISched S (Sampler.FlowBatch F)) (g : Sampler.Gen F O I) (cfg : Sampler.Cfg) (chk : Except Exc Unit) (s : Sampler.St S F O) :
    Option (Except Exc (Sampler.OutBatch O I) × Sampler.St S F O) :=
  match sch.getBatch cfg.ffpb s.sched with
  | none => none
  | some (.error e, sc) => some (.error e, { s with generated := 0, sched := sc })
  | some (.ok b, sc) =>
    let s1 : Sampler.St S F O := { s with generated := 0, sched := sc, cur := some b.flows, mask := b.mask, files := b.files }
    if b.flows.length % cfg.ndevices ≠ 0 then some (.error .valueError, s1)
    else
      let a := adaptAll g cfg b.flows
      some (produce g cfg chk a.2 { s1 with outFlows := a.1, cur := some a.2 })

/-- `_get_next` in debug mode (`src/synthpix/sampler/synthetic.py` lines 455-512). -/
def getNext (sch : Sampler.ISched S (Sampler.FlowBatch F)) (g : Sampler.Gen F O I) (cfg : Sampler.Cfg) (chk : Except Exc Unit) (s : Sampler.St S F O) :
    Option (Except Exc (Sampler.OutBatch O I) × Sampler.St S F O) :=
  match s.cur with
  | some flows => if s.generated < cfg.bpfb then some (produce g cfg chk flows s) else fetch sch g cfg chk s
  | none => fetch sch g cfg chk s

/-- `__next__` in debug mode (`src/synthpix/sampler/base.py` lines 73-94). -/
def next (sch : Sampler.ISched S (Sampler.FlowBatch F)) (g : Sampler.Gen F O I) (cfg : Sampler.Cfg) (chk : Except Exc Unit) (s : Sampler.St S F O) :
    Option (Except Exc (Sampler.OutBatch O I) × Sampler.St S F O) :=
  if Sampler.episodeOver sch s.sched then some (.error .episodeEnd, s)
  else
    match getNext sch g cfg chk s with
    | none => none
    | some (.error e, s') => some (.error e, s')
    | some (.ok b, s') => some (.ok { b with done := Sampler.makeDone sch cfg.batchSize s'.sched }, s')

/-- Repeated calls of `__next__` in debug mode, up to the first exception. -/
def nexts (sch : Sampler.ISched S (Sampler.FlowBatch F)) (g : Sampler.Gen F O I) (cfg : Sampler.Cfg) (chk : Except Exc Unit) :
    Nat → Sampler.St S F O → Option (List (Sampler.OutBatch O I) × Sampler.St S F O)
  | 0, s => some ([], s)
  | n + 1, s =>
    match next sch g cfg chk s with
    | some (.ok b, s') => (nexts sch g cfg chk n s').map (fun q => (b :: q.1, q.2))
    | _ => none

end Verif.Checks
