import Verif.Model.Sampler
/-!
# Calls of the synthetic sampler that are interrupted (`src/synthpix/sampler/base.py`, `synthetic.py`)

`SyntheticImageSampler.__next__` assignment by assignment, so that `KeyboardInterrupt` can stop it after any of them. It is caught nowhere in the samplers.

Simplified: when the very first call is interrupted before `output_flow_fields` exists, the next call makes its images and then raises `AttributeError`; here it returns
a batch with the empty list as reported flow. The second assignment to `_current_flows` (line 483, the same values laid out over the devices) is part of `adapt`.
-/

namespace Verif.InterruptSampler
open Verif Sampler

variable {S F O I : Type}

/-- The next thing to do. -/
inductive Pc (F O I : Type) where
  /-- the test for the end of the episode (base.py lines 79-86) and the one for a new flow batch (synthetic.py lines 465-468) -/
  | head
  /-- `self._batches_generated = 0` (synthetic.py line 470) -/
  | zero
  /-- `scheduler_batch = self.scheduler.get_batch(...)` (line 472) -/
  | fetch
  /-- `self._current_flows = scheduler_batch.flow_fields` (line 473) -/
  | setFlows (b : FlowBatch F)
  /-- `self._mask_scheduler = scheduler_batch.mask` (lines 474-476) -/
  | setMask (b : FlowBatch F)
  /-- `self._files_scheduler = scheduler_batch.files` (line 480) -/
  | setFiles (b : FlowBatch F)
  /-- the flow fields are laid out over the devices and go through the adapter (lines 483-487) -/
  | adapt
  /-- `self.output_flow_fields, ... = ...` (line 486) -/
  | setOut (a : List O × List F)
  /-- `..., self._current_flows = ...` (line 486) -/
  | setAdapted (flows : List F)
  /-- `self._rng, subkey = jax.random.split(self._rng)` (line 493) -/
  | split
  /-- the images are made and the batch is put together (lines 494-512) -/
  | make (subkey : KeyTerm)
  /-- `self._batches_generated += 1` (line 514) -/
  | bump (b : OutBatch O I)
  /-- the flags of the end of the episode (base.py lines 90-94) -/
  | flags (b : OutBatch O I)
  /-- the call is over -/
  | done (r : Except Exc (OutBatch O I))

/-- One assignment. A leading axis that cannot be laid out over the devices raises `ValueError`. A scheduler whose `get_batch` never returns is waited for
forever. -/
def step (sch : ISched S (FlowBatch F)) (g : Gen F O I) (cfg : Cfg) : Pc F O I × St S F O → Pc F O I × St S F O
  | (.head, s) =>
    if episodeOver sch s.sched then (.done (.error .episodeEnd), s)
    else if s.cur.isNone ∨ cfg.bpfb ≤ s.generated then (.zero, s)
    else (.split, s)
  | (.zero, s) => (.fetch, { s with generated := 0 })
  | (.fetch, s) =>
    match sch.getBatch cfg.ffpb s.sched with
    | none => (.fetch, s)
    | some (.error e, sc) => (.done (.error e), { s with sched := sc })
    | some (.ok b, sc) => (.setFlows b, { s with sched := sc })
  | (.setFlows b, s) => (.setMask b, { s with cur := some b.flows })
  | (.setMask b, s) => (.setFiles b, { s with mask := b.mask })
  | (.setFiles b, s) => (.adapt, { s with files := b.files })
  | (.adapt, s) =>
    if (s.cur.getD []).length % cfg.ndevices ≠ 0 then (.done (.error .valueError), s)
    else (.setOut (adaptAll g cfg (s.cur.getD [])), s)
  | (.setOut a, s) => (.setAdapted a.2, { s with outFlows := a.1 })
  | (.setAdapted flows, s) => (.split, { s with cur := some flows })
  | (.split, s) => (.make s.rng.split2.2, { s with rng := s.rng.split2.1 })
  | (.make k, s) =>
    if (s.cur.getD []).length % cfg.ndevices ≠ 0 then (.done (.error .valueError), s)
    else (.bump { images := images g cfg k (s.cur.getD []), flows := s.outFlows, mask := s.mask, files := s.files, done := none }, s)
  | (.bump b, s) => (.flags b, { s with generated := s.generated + 1 })
  | (.flags b, s) => (.done (.ok { b with done := makeDone sch cfg.batchSize s.sched }), s)
  | (.done r, s) => (.done r, s)

/-- `n` assignments. -/
def steps (sch : ISched S (FlowBatch F)) (g : Gen F O I) (cfg : Cfg) : Nat → Pc F O I × St S F O → Pc F O I × St S F O
  | 0, x => x
  | n + 1, x => steps sch g cfg n (step sch g cfg x)

end Verif.InterruptSampler
