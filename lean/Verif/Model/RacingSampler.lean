import Verif.Model.Sampler
/-!
# Threads that share a synthetic sampler (`src/synthpix/sampler/base.py`, `synthetic.py`)

Any number of threads call `next(sampler)`, which takes no lock. Every read and every write of an attribute is a step of its own; between two of them any other thread may
run. The calls of the scheduler are one step each (as for a scheduler with a lock): what threads do to a scheduler without a lock is in `Model/Racing`.

Simplified: the two reads of `_mask_scheduler` (synthetic.py lines 507-508) are one.
-/

namespace Verif.RacingSampler
open Verif Sampler

variable {S F O I : Type}

/-- The attributes of the sampler. `output_flow_fields` does not exist before it is first stored (synthetic.py line 486). -/
structure Sh (S F O : Type) where
  st : St S F O
  hasOut : Bool

/-- The next thing a thread does. -/
inductive SPc (F O I : Type) where
  /-- no call -/
  | idle
  /-- the test for the end of the episode (base.py lines 79-86) -/
  | head
  /-- `self._current_flows is None` (synthetic.py line 466) -/
  | testNone
  /-- `self._batches_generated >= self.batches_per_flow_batch` (line 467) -/
  | testCount
  /-- `self._batches_generated = 0` (line 470) -/
  | zero
  /-- `scheduler_batch = self.scheduler.get_batch(...)` (line 472) -/
  | fetch
  /-- lines 473-480 -/
  | setFlows (b : FlowBatch F)
  | setMask (b : FlowBatch F)
  | setFiles (b : FlowBatch F)
  /-- `self._current_flows = jnp.array(self._current_flows, device=self.sharding)` (line 483): read, write -/
  | readLaid
  | storeLaid (flows : List F)
  /-- `self.flow_field_adapter_jit(self._current_flows)` (line 486) and the two assignments -/
  | adapt
  | setOut (a : List O × List F)
  | setAdapted (flows : List F)
  /-- `self._rng, subkey = jax.random.split(self._rng)` (line 493): read, write -/
  | readKey
  | storeKey (k : KeyTerm)
  /-- `self.img_gen_fn_jit(keys, self._current_flows)` (line 497) -/
  | make (subkey : KeyTerm)
  /-- the reads for the batch (lines 501-511) -/
  | readOut (images : List I)
  | readMask (images : List I) (flows : List O)
  | readFiles (images : List I) (flows : List O) (mask : Option (List Bool))
  /-- `self._batches_generated += 1` (line 514): read, write -/
  | readCount (b : OutBatch O I)
  | storeCount (b : OutBatch O I) (n : Nat)
  /-- the flags of the end of the episode (base.py lines 90-94) -/
  | flags (b : OutBatch O I)
  /-- the call is over -/
  | done (r : Except Exc (OutBatch O I))

/-- One step of a thread. A leading axis that cannot be laid out over the devices raises `ValueError`. -/
def sstep (sch : ISched S (FlowBatch F)) (g : Gen F O I) (cfg : Cfg) : SPc F O I × Sh S F O → SPc F O I × Sh S F O
  | (.idle, s) => (.idle, s)
  | (.head, s) => (if episodeOver sch s.st.sched then .done (.error .episodeEnd) else .testNone, s)
  | (.testNone, s) => (if s.st.cur.isNone then .zero else .testCount, s)
  | (.testCount, s) => (if cfg.bpfb ≤ s.st.generated then .zero else .readKey, s)
  | (.zero, s) => (.fetch, { s with st := { s.st with generated := 0 } })
  | (.fetch, s) =>
    match sch.getBatch cfg.ffpb s.st.sched with
    | none => (.fetch, s)
    | some (.error e, sc) => (.done (.error e), { s with st := { s.st with sched := sc } })
    | some (.ok b, sc) => (.setFlows b, { s with st := { s.st with sched := sc } })
  | (.setFlows b, s) => (.setMask b, { s with st := { s.st with cur := some b.flows } })
  | (.setMask b, s) => (.setFiles b, { s with st := { s.st with mask := b.mask } })
  | (.setFiles b, s) => (.readLaid, { s with st := { s.st with files := b.files } })
  | (.readLaid, s) =>
    if (s.st.cur.getD []).length % cfg.ndevices ≠ 0 then (.done (.error .valueError), s)
    else (.storeLaid (s.st.cur.getD []), s)
  | (.storeLaid flows, s) => (.adapt, { s with st := { s.st with cur := some flows } })
  | (.adapt, s) =>
    if (s.st.cur.getD []).length % cfg.ndevices ≠ 0 then (.done (.error .valueError), s)
    else (.setOut (adaptAll g cfg (s.st.cur.getD [])), s)
  | (.setOut a, s) => (.setAdapted a.2, { st := { s.st with outFlows := a.1 }, hasOut := true })
  | (.setAdapted flows, s) => (.readKey, { s with st := { s.st with cur := some flows } })
  | (.readKey, s) => (.storeKey s.st.rng, s)
  | (.storeKey k, s) => (.make k.split2.2, { s with st := { s.st with rng := k.split2.1 } })
  | (.make k, s) =>
    if (s.st.cur.getD []).length % cfg.ndevices ≠ 0 then (.done (.error .valueError), s)
    else (.readOut (images g cfg k (s.st.cur.getD [])), s)
  | (.readOut im, s) => (if s.hasOut then .readMask im s.st.outFlows else .done (.error .attributeError), s)
  | (.readMask im fl, s) => (.readFiles im fl s.st.mask, s)
  | (.readFiles im fl m, s) => (.readCount { images := im, flows := fl, mask := m, files := s.st.files, done := none }, s)
  | (.readCount b, s) => (.storeCount b s.st.generated, s)
  | (.storeCount b n, s) => (.flags b, { s with st := { s.st with generated := n + 1 } })
  | (.flags b, s) => (.done (.ok { b with done := makeDone sch cfg.batchSize s.st.sched }), s)
  | (.done r, s) => (.done r, s)

/-- All threads, what they share, and how their calls have ended so far. -/
structure SSt (S F O I : Type) where
  shared : Sh S F O
  pc : Nat → SPc F O I
  out : List (Nat × Except Exc (OutBatch O I))

/-- What the threads can do: begin a call, go on with it, take its result. -/
inductive Act where
  | call (i : Nat)
  | step (i : Nat)
  | take (i : Nat)
  deriving DecidableEq, Repr

/-- The place of one thread is changed. -/
def setPc (pc : Nat → SPc F O I) (i : Nat) (x : SPc F O I) : Nat → SPc F O I := fun j => if j = i then x else pc j

/-- One action; nothing happens if it is not possible. -/
def sact (sch : ISched S (FlowBatch F)) (g : Gen F O I) (cfg : Cfg) (s : SSt S F O I) : Act → SSt S F O I
  | .call i =>
    match s.pc i with
    | .idle => { s with pc := setPc s.pc i .head }
    | _ => s
  | .step i => { s with shared := (sstep sch g cfg (s.pc i, s.shared)).2, pc := setPc s.pc i (sstep sch g cfg (s.pc i, s.shared)).1 }
  | .take i =>
    match s.pc i with
    | .done r => { s with pc := setPc s.pc i .idle, out := s.out ++ [(i, r)] }
    | _ => s

/-- A schedule. -/
def srun (sch : ISched S (FlowBatch F)) (g : Gen F O I) (cfg : Cfg) : List Act → SSt S F O I → SSt S F O I
  | [], s => s
  | a :: as, s => srun sch g cfg as (sact sch g cfg s a)

/-- Before any call, with the attributes `s`. -/
def sinit (s : Sh S F O) : SSt S F O I := { shared := s, pc := fun _ => .idle, out := [] }

end Verif.RacingSampler
