import Verif.Model.Prefetch
/-!
# `shutdown()` through the layers (`src/synthpix/sampler/base.py`, `src/synthpix/scheduler/*.py`)

Which worker threads a call of `Sampler.shutdown()` reaches, for any nesting of schedulers.
-/

namespace Verif.Shutdown
open Verif

/-- A scheduler as a nesting of layers: one that reads files, an `EpisodicFlowFieldScheduler` around a scheduler
(episodic.py lines 68-112), a `PrefetchingFlowFieldScheduler` around a scheduler (prefetch.py lines 28-75). Of the last only
its stop flag is kept, i.e. whether its worker has been told to stop. Both constructors accept any scheduler. -/
inductive Layers where
  | plain
  | episodic (inner : Layers)
  | prefetch (stop : Bool) (inner : Layers)
  deriving DecidableEq, Repr

/-- `scheduler.shutdown()`. A `PrefetchingFlowFieldScheduler` sets its stop flag (prefetch.py line 228) and does not call its
inner scheduler. The other two have no method of their own and inherit `pass` (protocol.py lines 11-13). -/
def Layers.shutdown : Layers → Layers
  | .plain => .plain
  | .episodic l => .episodic l
  | .prefetch _ l => .prefetch true l

/-- A sampler as far as `shutdown` is concerned: its scheduler (sampler/base.py line 46). -/
structure Sampler where
  scheduler : Layers
  deriving DecidableEq, Repr

/-- `Sampler.shutdown` (sampler/base.py lines 62-67): `_shutdown` does nothing (lines 56-57) in every sampler of the package;
logging is left out. -/
def Sampler.shutdown (s : Sampler) : Sampler := { s with scheduler := s.scheduler.shutdown }

/-- The scheduler that `make` puts together (make.py lines 186-205): `episodic` says whether `episode_length > 0`, `buffered`
whether `buffer_size > 0`. -/
def make (episodic buffered : Bool) : Layers :=
  let base := Layers.plain
  let s := if episodic then .episodic base else base
  if buffered then .prefetch false s else s

end Verif.Shutdown
